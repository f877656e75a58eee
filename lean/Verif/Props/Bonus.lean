import Verif.Props.Display

/-!
# The bonus of U rolls (C44)
-/

namespace GoBCDice

/-- The modifier `m` denoted by a sign `c` in front of a value `v`. -/
def SignedBy (c : Char) (v m : Int64) : Prop := (c = '+' ∧ m = v) ∨ (c = '-' ∧ m = -v)

/-- Integer arithmetic has at most one value. -/
theorem Der.det_int {b : Str} {e : Expr} {v : Int64} (hb : Der (.add .int) b e) (hv : Ev e [] v)
    (ds : List Die) (v' : Int64) (h : Ev e ds v') : v' = v := by
  have pure : e.isVariable = false := by
    have := hb.shape
    simp only [NT.ShapeOf] at this
    clear hb hv h
    induction e with
    | int _ => rfl
    | sumRoll _ => rfl
    | neg r ih => exact ih this
    | bin _ l r ih1 ih2 => simp [Expr.isVariable, ih1 this.1, ih2 this.2]
    | div _ l r ih1 ih2 => simp [Expr.isVariable, ih1 this.1, ih2 this.2]
    | var k l r => cases k <;> simp [Expr.Shape] at this
  exact (h.det_pure pure hv).1

theorem bonus_of_text {c : Char} {b : Str} {e : Expr} {v m : Int64} (hb : Der (.add .int) b e)
    (hv : Ev e [] v) (hc : SignedBy c v m) : ∃ s, BonusText ([c] ++ b) (some (s, e)) ∧
      ∀ ms m', Bonus (some (s, e)) ms m' → m' = m := by
  have det := fun ds v' h => hb.det_int hv ds v' h
  rcases hc with ⟨rfl, rfl⟩ | ⟨rfl, rfl⟩
  · exact ⟨.plus, .plus hb, fun _ _ h => by cases h with | plus h => exact det _ _ h⟩
  · exact ⟨.minus, .minus hb, fun _ _ h => by cases h with | minus h => rw [det _ _ h]⟩

/-- **C44.**  In `xUy[t]±e` everything after the sign is one expression: if it is worth `v`, the
modifier is `v`, resp. `-v`; it is added to the largest group sum and to the total, and shown
after the groups. -/
theorem C44_bonus {σ : Type} (F : DieFeeder σ) (g a b : Str) (c : Char) (rl : RRollList) (e : Expr)
    (v m : Int64) (f f' : σ) (r : Result)
    (ha : RRollsText ('U', 'u') a rl) (hb : Der (.add .int) b e) (hv : Ev e [] v)
    (hc : SignedBy c v m) (h : executeBasicCommand F g (a ++ ([c] ++ b)) f = (.ok r, f'))
    (hr : r.rolledDice ≠ []) :
    ∃ (gs : List (List Die)) (mx : Int64), gs.flatten <:+ r.rolledDice ∧ IsMax mx (gs.map (fun grp => (grp.map Die.value).sum)) ∧
      r.parts[1]? = some (groupsText gs m) ∧
      r.parts[2]? = some (intStr (mx + m) ++ chars!"/" ++
        intStr ((gs.flatten.map Die.value).sum + m) ++ chars!" (最大/合計)") := by
  obtain ⟨s, hs, hm⟩ := bonus_of_text hb hv hc
  obtain ⟨node, ds, ht, ho, hd⟩ := executeBasicCommand_ok_text.mp h
  obtain rfl : .uRollExpr ⟨rl, some (s, e)⟩ = node :=
    C27_unambiguous _ _ _ (.uRollExpr ⟨a, _, rfl, ha, hs⟩) ht
  cases ho with
  | uRollRefused => exact absurd rfl hr
  | @uRollExpr _ ts as ms th ps m' mx gs h1 h2 h3 h4 h5 h6 =>
    obtain rfl := hm _ _ h3
    refine ⟨gs, mx, List.suffix_append _ _, ?_, rfl, rfl⟩
    rcases h6 with ⟨rfl, -⟩ | h6
    · exfalso
      obtain ⟨_, _, _, hrl, _⟩ := ha
      have hne := h2.ne_nil hrl.ne_nil
      generalize hnil : ([] : List (List Die)) = gs at h5
      cases h5 with
      | nil => exact hne rfl
      | cons hx _ =>
        have := List.append_eq_nil_iff.mp hnil.symm
        have h7 := hx.2.2.2.1
        have h8 := hx.2.1
        rw [this.1] at h7
        simp only [Int64.le_iff_toInt_le] at h8
        have : (1 : Int64).toInt = 1 := by decide
        simp at h7
        omega
    · exact h6

/-- **C44, comparison.**  The same modifier is added to each group before it is compared. -/
theorem C44_bonus_compare {σ : Type} (F : DieFeeder σ) (g a b d : Str) (c : Char) (rl : RRollList)
    (e t : Expr) (op : CmpOp) (v m target : Int64) (f f' : σ) (r : Result)
    (ha : RRollsText ('U', 'u') a rl) (hb : Der (.add .int) b e) (hv : Ev e [] v)
    (hc : SignedBy c v m) (hd : Der (.add .int) d t) (ht : Ev t [] target)
    (h : executeBasicCommand F g (a ++ ([c] ++ b) ++ (op.str ++ d)) f = (.ok r, f'))
    (hr : r.rolledDice ≠ []) :
    ∃ gs : List (List Die), gs.flatten <:+ r.rolledDice ∧
      r.parts[1]? = some (groupsText gs m) ∧
      r.parts[2]? = some (chars!"成功数" ++ intStr (Int64.ofNat (gs.filter (fun grp =>
        op.Rel ((grp.map Die.value).sum + m).toInt target.toInt)).length)) := by
  obtain ⟨s, hs, hm⟩ := bonus_of_text hb hv hc
  obtain ⟨node, ds, htx, ho, hdr⟩ := executeBasicCommand_ok_text.mp h
  obtain rfl : .uRollComp ⟨rl, some (s, e)⟩ op t = node :=
    C27_unambiguous _ _ _ (.uRollComp ⟨a, _, rfl, ha, hs⟩ (.mk hd)) htx
  cases ho with
  | uRollCompRefused => exact absurd rfl hr
  | @uRollComp _ _ _ ts as ms bs th ps m' tg gs h1 h2 h3 h4 h5 h6 =>
    obtain rfl := hm _ _ h3
    obtain rfl := hd.det_int ht _ _ h4
    refine ⟨gs, List.suffix_append _ _, rfl, ?_⟩
    simp only [successes, groupSums, List.map_map, List.filter_map, List.length_map]
    rfl

/-- **C44, the surprise.**  `3U6[6]-1+2` subtracts 3; read as ordinary arithmetic it would add 1. -/
theorem C44_refuted : ∃ r, executeCommand queueFeeder (basicBot []) chars!"3U6[6]-1+2"
    [⟨1, 6⟩, ⟨2, 6⟩, ⟨3, 6⟩] = (.ok r, []) ∧
    r.parts = [chars!"(3U6[6]-3)", chars!"1,2,3-3", chars!"0/3 (最大/合計)"] := by
  refine ⟨_, rfl, ?_⟩
  decide

-- non-vacuity of the hypotheses: the same command
example : RRollsText ('U', 'u') chars!"3U6[6]" ⟨[⟨.int 3, .int 6⟩], some (.int 6)⟩ ∧
    Der (.add .int) chars!"1+2" (.bin .add (.int 1) (.int 2)) ∧
    Ev (.bin .add (.int 1) (.int 2)) [] 3 ∧ SignedBy '-' 3 (-3) := by
  have num : ∀ c, isDigit c = true → Der .number [c] (.int (atoiSat [c])) := fun c h =>
    .number (by simp) (by simpa using h)
  refine ⟨⟨chars!"3U6", chars!"[6]", rfl, ?_, ?_⟩, ?_, ?_, .inr ⟨rfl, rfl⟩⟩
  · exact .one ⟨chars!"3", chars!"6", 'U', rfl, .inl rfl, .rollOperandNum (num '3' rfl),
      .rollOperandNum (num '6' rfl)⟩
  · exact .given (s := chars!"6") (.addMul (.mulPrim (.primNum (num '6' rfl))))
  · exact .addAdd (s := chars!"1") (t := chars!"2") (.addMul (.mulPrim (.primNum (num '1' rfl))))
      (.mulPrim (.primNum (num '2' rfl)))
  · exact Ev.add (.int 1) (.int 2)

end GoBCDice
