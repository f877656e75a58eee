import Verif.Lemmas.Notation

/-!
# Executing the displayed text again
-/

namespace GoBCDice

open Expr

/-! ## Literal rolls -/

theorem DArgs.literal {e e1 : Expr} {as : List Die} (h : DArgs e as e1) : DArgs e1 [] e1 := by
  induction h with
  | int v => exact .int v
  | sumRoll ds => exact .sumRoll ds
  | neg _ ih => exact .neg ih
  | bin _ _ ih1 ih2 => simpa using DArgs.bin ih1 ih2
  | div _ _ ih1 ih2 => simpa using DArgs.div ih1 ih2
  | roll _ _ => simpa using DArgs.roll (.int _) (.int _)

theorem DArgs.addTo {a a' b b' : Expr} {as bs : List Die} (ha : DArgs a as a') (hb : DArgs b bs b') :
    DArgs (addTo a b) (as ++ bs) (addTo a' b') := by
  induction hb with
  | int v => exact .bin ha (.int v)
  | sumRoll ds => exact .bin ha (.sumRoll ds)
  | neg h _ => exact .bin ha (.neg h)
  | @bin op _ _ _ _ _ _ h1 h2 ih1 _ =>
    cases op with
    | add => simpa [Expr.addTo] using DArgs.bin ih1 h2
    | sub => simpa [Expr.addTo] using DArgs.bin ih1 h2
    | mul => exact .bin ha (.bin h1 h2)
  | div h1 h2 _ _ => exact .bin ha (.div h1 h2)
  | roll h1 h2 => exact .bin ha (.roll h1 h2)

theorem DArgs.mulTo {a a' b b' : Expr} {as bs : List Die} (ha : DArgs a as a') (hb : DArgs b bs b') :
    DArgs (mulTo a b) (as ++ bs) (mulTo a' b') := by
  induction hb with
  | int v => exact .bin ha (.int v)
  | sumRoll ds => exact .bin ha (.sumRoll ds)
  | neg h _ => exact .bin ha (.neg h)
  | @bin op _ _ _ _ _ _ h1 h2 ih1 _ =>
    cases op with
    | add => exact .bin ha (.bin h1 h2)
    | sub => exact .bin ha (.bin h1 h2)
    | mul => simpa [Expr.mulTo] using DArgs.bin ih1 h2
  | div h1 h2 ih1 _ => simpa [Expr.mulTo] using DArgs.div ih1 h2
  | roll h1 h2 => exact .bin ha (.roll h1 h2)

/-- A tree with literal rolls only needs no dice for its operands, and neither does its normal
form. -/
theorem DArgs.norm_literal {e : Expr} (h : DArgs e [] e) : DArgs e.norm [] e.norm := by
  induction e with
  | int v => exact .int v
  | sumRoll ds => exact .sumRoll ds
  | neg r ih => cases h with | neg h => exact .neg (ih h)
  | bin op l r ihl ihr =>
    generalize hds : ([] : List Die) = ds at h
    cases h with
    | bin h1 h2 =>
      rename_i as bs
      obtain ⟨rfl, rfl⟩ : as = [] ∧ bs = [] := by simpa using hds.symm
      cases op with
      | add => simpa [Expr.norm] using (ihl h1).addTo (ihr h2)
      | sub => simpa [Expr.norm] using DArgs.bin (ihl h1) (ihr h2)
      | mul => simpa [Expr.norm] using (ihl h1).mulTo (ihr h2)
  | div m l r ihl ihr =>
    generalize hds : ([] : List Die) = ds at h
    cases h with
    | div h1 h2 =>
      rename_i as bs
      obtain ⟨rfl, rfl⟩ : as = [] ∧ bs = [] := by simpa using hds.symm
      simpa [Expr.norm] using DArgs.div (ihl h1) (ihr h2)
  | var k l r _ _ =>
    generalize hds : ([] : List Die) = ds at h
    generalize hx : Expr.var k l r = x at h
    cases h with
    | roll h1 h2 =>
      cases hx
      rw [← hds]
      exact DArgs.roll (.int _) (.int _)
    | _ => cases hx

theorem DDice.addTo {a a' b b' : Expr} {as bs : List Die} (ha : DDice a as a') (hb : DDice b bs b') :
    DDice (addTo a b) (as ++ bs) (addTo a' b') := by
  induction hb with
  | int v => exact .bin ha (.int v)
  | sumRoll ds => exact .bin ha (.sumRoll ds)
  | neg h _ => exact .bin ha (.neg h)
  | @bin op _ _ _ _ _ _ h1 h2 ih1 _ =>
    cases op with
    | add => simpa [Expr.addTo] using DDice.bin ih1 h2
    | sub => simpa [Expr.addTo] using DDice.bin ih1 h2
    | mul => exact .bin ha (.bin h1 h2)
  | div h1 h2 _ _ => exact .bin ha (.div h1 h2)
  | roll h1 => exact .bin ha (.roll h1)

theorem DDice.mulTo {a a' b b' : Expr} {as bs : List Die} (ha : DDice a as a') (hb : DDice b bs b') :
    DDice (mulTo a b) (as ++ bs) (mulTo a' b') := by
  induction hb with
  | int v => exact .bin ha (.int v)
  | sumRoll ds => exact .bin ha (.sumRoll ds)
  | neg h _ => exact .bin ha (.neg h)
  | @bin op _ _ _ _ _ _ h1 h2 ih1 _ =>
    cases op with
    | add => exact .bin ha (.bin h1 h2)
    | sub => exact .bin ha (.bin h1 h2)
    | mul => simpa [Expr.mulTo] using DDice.bin ih1 h2
  | div h1 h2 ih1 _ => simpa [Expr.mulTo] using DDice.div ih1 h2
  | roll h1 => exact .bin ha (.roll h1)

theorem DDice.norm {e e' : Expr} {rs : List Die} (h : DDice e rs e') : DDice e.norm rs e'.norm := by
  induction h with
  | int v => exact .int v
  | sumRoll ds => exact .sumRoll ds
  | neg _ ih => exact .neg ih
  | @bin op _ _ _ _ _ _ _ _ ih1 ih2 =>
    cases op with
    | add => exact ih1.addTo ih2
    | sub => exact .bin ih1 ih2
    | mul => exact ih1.mulTo ih2
  | div _ _ ih1 ih2 => exact .div ih1 ih2
  | roll h => exact .roll h

/-! ## Shapes and safety are preserved -/

theorem nonneg_of_one_le {x : Int64} (h : 1 ≤ x) : 0 ≤ x := by
  have e0 : (0 : Int64).toInt = 0 := by decide
  have e1 : (1 : Int64).toInt = 1 := by decide
  rw [Int64.le_iff_toInt_le] at h ⊢
  omega

theorem DArgs.shape {e e1 e2 : Expr} {as rs : List Die} (h : DArgs e as e1) (hs : e.Shape .dice)
    (hd : DDice e1 rs e2) : e1.Shape .dice := by
  induction h generalizing rs e2 with
  | int v => exact hs
  | sumRoll ds => exact hs
  | neg _ ih => cases hd with | neg hd => exact ih hs hd
  | bin _ _ ih1 ih2 => cases hd with | bin h1 h2 => exact ⟨ih1 hs.1 h1, ih2 hs.2 h2⟩
  | div _ _ ih1 ih2 => cases hd with | div h1 h2 => exact ⟨ih1 hs.1 h1, ih2 hs.2 h2⟩
  | roll _ _ =>
    cases hd with
    | roll hr => exact ⟨rfl, nonneg_of_one_le hr.2.1, nonneg_of_one_le hr.1⟩

theorem DArgs.noDivSpine {e e1 : Expr} {as : List Die} (h : DArgs e as e1) (hs : e.noDivSpine) :
    e1.noDivSpine := by
  induction h with
  | @bin op _ _ _ _ _ _ _ _ ih1 _ =>
    cases op with
    | mul => exact ih1 hs
    | _ => trivial
  | div => exact hs.elim
  | _ => trivial

theorem DArgs.mulSafe {e e1 : Expr} {as : List Die} (h : DArgs e as e1) (hs : e.mulSafe) :
    e1.mulSafe := by
  induction h with
  | int v => trivial
  | sumRoll ds => trivial
  | neg _ ih => exact ih hs
  | @bin op _ _ _ _ _ _ h1 h2 ih1 ih2 =>
    cases op with
    | mul => exact ⟨ih1 hs.1, ih2 hs.2.1, h2.noDivSpine hs.2.2⟩
    | add => exact ⟨ih1 hs.1, ih2 hs.2⟩
    | sub => exact ⟨ih1 hs.1, ih2 hs.2⟩
  | div _ _ ih1 ih2 => exact ⟨ih1 hs.1, ih2 hs.2⟩
  | roll _ _ => exact ⟨trivial, trivial⟩

theorem DDice.noDivSpine {e e1 : Expr} {as : List Die} (h : DDice e as e1) (hs : e.noDivSpine) :
    e1.noDivSpine := by
  induction h with
  | @bin op _ _ _ _ _ _ _ _ ih1 _ =>
    cases op with
    | mul => exact ih1 hs
    | _ => trivial
  | div => exact hs.elim
  | _ => trivial

theorem DDice.mulSafe {e e1 : Expr} {as : List Die} (h : DDice e as e1) (hs : e.mulSafe) :
    e1.mulSafe := by
  induction h with
  | int v => trivial
  | sumRoll ds => trivial
  | neg _ ih => exact ih hs
  | @bin op _ _ _ _ _ _ h1 h2 ih1 ih2 =>
    cases op with
    | mul => exact ⟨ih1 hs.1, ih2 hs.2.1, h2.noDivSpine hs.2.2⟩
    | add => exact ⟨ih1 hs.1, ih2 hs.2⟩
    | sub => exact ⟨ih1 hs.1, ih2 hs.2⟩
  | div _ _ ih1 ih2 => exact ⟨ih1 hs.1, ih2 hs.2⟩
  | roll _ => trivial

theorem DArgs.rands {e e1 : Expr} {as : List Die} (h : DArgs e as e1) (hr : 1 ≤ e.rands) :
    1 ≤ e1.rands := by
  induction h with
  | int v => exact hr
  | sumRoll ds => exact hr
  | neg _ ih => exact ih hr
  | bin _ _ ih1 ih2 => simp only [Expr.rands] at hr ⊢; omega
  | div _ _ ih1 ih2 => simp only [Expr.rands] at hr ⊢; omega
  | roll _ _ => simp [Expr.rands]

theorem dCompLeft_norm {l l1 : Expr} {as : List Die} (h : DCompLeft l) (ha : DArgs l as l1) :
    DCompLeft l1.norm := by
  cases ha with
  | int v => exact h.elim
  | sumRoll ds => exact h.elim
  | neg _ => trivial
  | @bin op _ _ _ _ _ _ _ _ =>
    cases op with
    | add => show DCompLeft (Expr.addTo _ _); unfold Expr.addTo; split <;> trivial
    | sub => trivial
    | mul => show DCompLeft (Expr.mulTo _ _); unfold Expr.mulTo; split <;> trivial
  | div _ _ => trivial
  | roll _ _ => trivial

/-! ## Numbers -/

/-- A displayed value can be read back unless it is the smallest integer. -/
theorem intStr_reads (v : Int64) (h : v ≠ Int64.minValue) :
    ∃ e, Der (.add .int) (intStr v) e ∧ Ev e [] v := by
  by_cases h0 : 0 ≤ v
  · exact ⟨.int v, .addMul (.mulPrim (.primNum (der_int h0))), .int v⟩
  · have e0 : (0 : Int64).toInt = 0 := by decide
    have em : Int64.minValue.toInt = -2 ^ 63 := by decide
    have hne : v.toInt ≠ -2 ^ 63 := fun hc => h (Int64.toInt_inj.mp (by rw [hc, em]))
    have hlo := Int64.le_toInt v
    rw [Int64.le_iff_toInt_le, e0] at h0
    have hneg : (-v).toInt = -v.toInt := by
      rw [Int64.toInt_neg, Int.bmod_eq_of_le] <;> omega
    have hpos : 0 ≤ -v := by rw [Int64.le_iff_toInt_le, e0, hneg]; omega
    have hs : intStr v = chars!"-" ++ intStr (-v) := by
      have hnn : ¬ -v.toInt < 0 := by omega
      simp only [intStr, hneg, if_neg hnn, if_pos (show v.toInt < 0 by omega), Int.natAbs_neg]
      rfl
    refine ⟨.neg (.int (-v)), ?_, ?_⟩
    · rw [hs]; exact .addMul (.mulPrim (.minus (.primNum (der_int hpos))))
    · have := Ev.neg (Ev.int (-v))
      rwa [Int64.neg_neg] at this

/-! ## Roll lists -/

/-- The rolls `ps` as a roll list. -/
def litRolls (ps : List (Int64 × Int64)) : List Roll :=
  ps.map (fun p => { num := .int p.1, sides := .int p.2 })

theorem args_litRolls (ps : List (Int64 × Int64)) : Args (litRolls ps) [] ps := by
  induction ps with
  | nil => exact .nil
  | cons p ps ih => exact Args.cons (r := { num := .int p.1, sides := .int p.2 }) (.int _) (.int _) ih

theorem rollsText_reads (c c' : Char) (ps : List (Int64 × Int64)) (hne : ps ≠ [])
    (hp : ∀ p ∈ ps, 0 ≤ p.1 ∧ 0 ≤ p.2) : RollsText (c, c') (rollsText [c] ps) (litRolls ps) := by
  have one : ∀ p : Int64 × Int64, 0 ≤ p.1 ∧ 0 ≤ p.2 → RollText (c, c')
      (rollOperandNotation true (.int p.1) ++ [c] ++ rollOperandNotation false (.int p.2))
      { num := .int p.1, sides := .int p.2 } := fun p h =>
    ⟨_, _, _, rfl, .inl rfl, .rollOperandNum (der_int h.1), .rollOperandNum (der_int h.2)⟩
  induction ps with
  | nil => exact absurd rfl hne
  | cons p ps ih =>
    cases ps with
    | nil => exact .one (one p (hp p (by simp)))
    | cons q ps =>
      exact .cons (one p (hp p (by simp))) (ih (by simp) fun x hx => hp x (by simp [hx]))

theorem Args.length {rolls : List Roll} {as : List Die} {ps : List (Int64 × Int64)}
    (h : Args rolls as ps) : ps.length = rolls.length := by
  induction h with
  | nil => rfl
  | cons _ _ _ ih => simp [ih]

theorem RollsText.ne_nil {l : Char × Char} {s : Str} {rs : List Roll} (h : RollsText l s rs) :
    rs ≠ [] := by cases h <;> simp

theorem Args.ne_nil {rolls : List Roll} {as : List Die} {ps : List (Int64 × Int64)}
    (h : Args rolls as ps) (hn : rolls ≠ []) : ps ≠ [] := by
  intro hc; subst hc
  exact hn (List.length_eq_zero_iff.mp (by rw [← h.length]; rfl))

theorem Rolled.nonneg {x y : Int64} {g : List Die} (h : Rolled x y g) : 0 ≤ x ∧ 0 ≤ y :=
  ⟨nonneg_of_one_le h.2.1, nonneg_of_one_le h.1⟩

theorem GroupsFor.nonneg {ps : List (Int64 × Int64)} {gs : List (List Die)} (h : GroupsFor ps gs) :
    ∀ p ∈ ps, 0 ≤ p.1 ∧ 0 ≤ p.2 := by
  induction h with
  | nil => simp
  | cons h _ ih =>
    intro p hp
    rcases List.mem_cons.mp hp with rfl | hp
    · exact h.nonneg
    · exact ih p hp

theorem RGroups.nonneg {th : Int64} {n : Nat} {ps : List (Int64 × Int64)} {gs : List (List Die)}
    (h : RGroups th n ps gs) : ∀ p ∈ ps.take n, 0 ≤ p.1 ∧ 0 ≤ p.2 := by
  induction h with
  | done n => simp
  | limit p => simp
  | @roll n x y pending g gs h _ ih =>
    intro p hp
    rcases List.mem_cons.mp (by simpa using hp) with rfl | hp
    · exact h.nonneg
    · refine ih p ?_
      rw [List.take_append]
      exact List.mem_append_left _ hp

theorem UGroups.nonneg {limit : Nat} {th : Int64} {ps : List (Int64 × Int64)}
    {gs : List (List Die)} (h : UGroups limit th ps gs) : ∀ p ∈ ps, 0 ≤ p.1 ∧ 0 ≤ p.2 := by
  induction h with
  | nil => simp
  | cons h _ ih =>
    intro p hp
    rcases List.mem_cons.mp hp with rfl | hp
    · exact ⟨nonneg_of_one_le h.2.1, nonneg_of_one_le h.1⟩
    · exact ih p hp

theorem thresholdText_reads {th : Int64} (h : 2 ≤ th) :
    ThresholdText (thresholdText (some th)) (some (.int th)) := by
  have h0 : 0 ≤ th := by
    have e0 : (0 : Int64).toInt = 0 := by decide
    have e2 : (2 : Int64).toInt = 2 := by decide
    rw [Int64.le_iff_toInt_le] at h ⊢
    omega
  exact .given (.addMul (.mulPrim (.primNum (der_int h0))))

theorem bonusText_reads {m : Int64} (h : m ≠ Int64.minValue) :
    ∃ b, BonusText (bonusText m) b ∧ Bonus b [] m := by
  unfold bonusText
  by_cases h0 : m = 0
  · subst h0; exact ⟨none, .absent, .absent⟩
  · rw [if_neg h0]
    have e0 : (0 : Int64).toInt = 0 := by decide
    have em : Int64.minValue.toInt = -2 ^ 63 := by decide
    have hne : m.toInt ≠ -2 ^ 63 := fun hc => h (Int64.toInt_inj.mp (by rw [hc, em]))
    have hne0 : m.toInt ≠ 0 := fun hc => h0 (Int64.toInt_inj.mp (by rw [hc, e0]))
    have hlo := Int64.le_toInt m
    by_cases h1 : m > 0
    · rw [if_pos h1]
      have : 0 ≤ m := Int64.le_of_lt h1
      exact ⟨some (.plus, .int m), .plus (.addMul (.mulPrim (.primNum (der_int this)))),
        .plus (.int m)⟩
    · rw [if_neg h1]
      have h1' : ¬ (0 : Int64) < m := h1
      rw [Int64.lt_iff_toInt_lt, e0] at h1'
      have hneg : (-m).toInt = -m.toInt := by
        rw [Int64.toInt_neg, Int.bmod_eq_of_le] <;> omega
      have hpos : 0 ≤ -m := by rw [Int64.le_iff_toInt_le, e0, hneg]; omega
      refine ⟨some (.minus, .int (-m)), .minus (.addMul (.mulPrim (.primNum (der_int hpos)))), ?_⟩
      have := Bonus.minus (Ev.int (-m))
      rwa [Int64.neg_neg] at this

end GoBCDice
