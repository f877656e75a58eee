import Verif.Lemmas.Known

/-!
# Ordinary commands do not fail on their own
-/

namespace GoBCDice

theorem rollStops_ordinary {x y : Int64} {ds : List Die} {c : Cause} (h : RollStops x y ds c)
    (hx : 1 ≤ x) (hx' : x.toInt ≤ 2 ^ 44) (hy : 1 ≤ y) : ¬ c.Own := by
  cases h with
  | sides h => exact absurd h (by grind)
  | num _ h => exact absurd h (by grind)
  | memory _ h => exact absurd h (by omega)
  | noDie => exact id
  | otherDie => exact id

theorem evaluated_int {v x : Int64} {ds : List Die} (h : Ev (.int v) ds x) : ds = [] ∧ x = v := by
  cases h; exact ⟨rfl, rfl⟩

theorem evStops_int {v : Int64} {ds : List Die} {c : Cause} : ¬ EvStops (.int v) ds c := by
  intro h; cases h

theorem evStops_ordinary {e : Expr} (ho : Ordinary e) :
    ∀ {ds : List Die} {c : Cause}, EvStops e ds c → ¬ c.Own := by
  induction ho with
  | int => intro ds c h; exact absurd h evStops_int
  | neg _ ih => intro ds c h; cases h with | neg h => exact ih h
  | bin _ _ ih1 ih2 =>
    intro ds c h
    cases h with
    | binLeft h => exact ih1 h
    | binRight _ h => exact ih2 h
  | div _ hv ih =>
    intro ds c h
    cases h with
    | divLeft h => exact ih h
    | divRight _ h => exact absurd h evStops_int
    | divZero _ h => exact absurd (evaluated_int h).2.symm hv
  | roll hx hx' hy =>
    intro ds c h
    cases h with
    | varLeft h => exact absurd h evStops_int
    | varRight _ h => exact absurd h evStops_int
    | d h1 h2 h =>
      obtain ⟨-, rfl⟩ := evaluated_int h1
      obtain ⟨-, rfl⟩ := evaluated_int h2
      exact rollStops_ordinary h hx hx' hy

theorem dArgsStop_ordinary {e : Expr} (ho : Ordinary e) :
    ∀ {ds : List Die} {c : Cause}, ¬ DArgsStop e ds c := by
  induction ho with
  | int => intro ds c h; cases h
  | neg _ ih => intro ds c h; cases h with | neg h => exact ih h
  | bin _ _ ih1 ih2 =>
    intro ds c h
    cases h with
    | binLeft h => exact ih1 h
    | binRight _ h => exact ih2 h
  | div _ hv ih =>
    intro ds c h
    cases h with
    | divLeft h => exact ih h
    | divRight _ h => cases h
  | roll =>
    intro ds c h
    cases h with
    | num h => exact absurd h evStops_int
    | sides _ h => exact absurd h evStops_int

/-- An ordinary expression is prepared already. -/
theorem dArgs_ordinary {e : Expr} (ho : Ordinary e) :
    ∀ {ds : List Die} {e' : Expr}, DArgs e ds e' → ds = [] ∧ e' = e := by
  induction ho with
  | int => intro ds e' h; cases h; exact ⟨rfl, rfl⟩
  | neg _ ih => intro ds e' h; cases h with | neg h => obtain ⟨rfl, rfl⟩ := ih h; exact ⟨rfl, rfl⟩
  | bin _ _ ih1 ih2 =>
    intro ds e' h
    cases h with
    | bin h1 h2 =>
      obtain ⟨rfl, rfl⟩ := ih1 h1
      obtain ⟨rfl, rfl⟩ := ih2 h2
      exact ⟨rfl, rfl⟩
  | div _ hv ih =>
    intro ds e' h
    cases h with
    | div h1 h2 =>
      obtain ⟨rfl, rfl⟩ := ih h1
      cases h2
      exact ⟨rfl, rfl⟩
  | roll =>
    intro ds e' h
    cases h with
    | roll h1 h2 =>
      obtain ⟨rfl, rfl⟩ := evaluated_int h1
      obtain ⟨rfl, rfl⟩ := evaluated_int h2
      exact ⟨rfl, rfl⟩

theorem dDiceStop_ordinary {e : Expr} (ho : Ordinary e) :
    ∀ {ds : List Die} {c : Cause}, DDiceStop e ds c → ¬ c.Own := by
  induction ho with
  | int => intro ds c h; cases h
  | neg _ ih => intro ds c h; cases h with | neg h => exact ih h
  | bin _ _ ih1 ih2 =>
    intro ds c h
    cases h with
    | binLeft h => exact ih1 h
    | binRight _ h => exact ih2 h
  | div _ hv ih =>
    intro ds c h
    cases h with
    | divLeft h => exact ih h
    | divRight _ h => cases h
  | roll hx hx' hy =>
    intro ds c h
    cases h with
    | roll h => exact rollStops_ordinary h hx hx' hy
    | num h => exact absurd rfl (h _)
    | sides h => exact absurd rfl (h _)

/-- After the dice are rolled only arithmetic is left, which cannot fail. -/
theorem evStops_rolled {e : Expr} (ho : Ordinary e) : ∀ {rs : List Die} {e2 : Expr}, DDice e rs e2 →
    ∀ {ds : List Die} {c : Cause}, ¬ EvStops e2 ds c := by
  induction ho with
  | int => intro rs e2 hd ds c h; cases hd; cases h
  | neg _ ih => intro rs e2 hd ds c h; cases hd with | neg hd => cases h with | neg h => exact ih hd h
  | bin _ _ ih1 ih2 =>
    intro rs e2 hd ds c h
    cases hd with
    | bin h1 h2 =>
      cases h with
      | binLeft h => exact ih1 h1 h
      | binRight _ h => exact ih2 h2 h
  | div _ hv ih =>
    intro rs e2 hd ds c h
    cases hd with
    | div h1 h2 =>
      cases h2
      cases h with
      | divLeft h => exact ih h1 h
      | divRight _ h => exact evStops_int h
      | divZero _ h => exact absurd (evaluated_int h).2.symm hv
  | roll =>
    intro rs e2 hd ds c h
    cases hd
    cases h

theorem dLeftStop_ordinary {e : Expr} (ho : Ordinary e) (hr : 1 ≤ e.rands) {ds : List Die} {c : Cause} :
    ¬ DLeftStop e ds c := by
  intro h
  cases h with
  | int => simp [Expr.rands] at hr
  | sumRoll => cases ho
  | varLeft h => cases ho; cases h
  | varRight _ h => cases ho; cases h
  | neg h => exact dArgsStop_ordinary ho h
  | bin h => exact dArgsStop_ordinary ho h
  | div h => exact dArgsStop_ordinary ho h

theorem dLeftArgs_ordinary {e : Expr} (ho : Ordinary e) {ds : List Die} {e' : Expr}
    (h : DLeftArgs e ds e') : e' = e := by
  cases h with
  | var h1 h2 => cases ho; cases h1; cases h2; rfl
  | neg h => exact (dArgs_ordinary ho h).2
  | bin h => exact (dArgs_ordinary ho h).2
  | div h => exact (dArgs_ordinary ho h).2

/-- Numbers of dice and sides that can be rolled. -/
def GoodPair (p : Int64 × Int64) : Prop := 1 ≤ p.1 ∧ p.1.toInt ≤ 2 ^ 44 ∧ 1 ≤ p.2

theorem argsStop_ordinary {rolls : List Roll} {ds : List Die} {c : Cause} (h : ArgsStop rolls ds c)
    (ho : ∀ r ∈ rolls, OrdinaryRoll r) : False := by
  induction h with
  | @num r rest ds c h => cases ho r (by simp); exact evStops_int h
  | @sides r rest ds es x c _ h => cases ho r (by simp); exact evStops_int h
  | later _ _ _ ih => exact ih (fun r hr => ho r (by simp [hr]))

theorem args_ordinary {rolls : List Roll} {ds : List Die} {ps : List (Int64 × Int64)}
    (h : Args rolls ds ps) (ho : ∀ r ∈ rolls, OrdinaryRoll r) : ∀ p ∈ ps, GoodPair p := by
  induction h with
  | nil => simp
  | @cons r rest ds es as x y ps h1 h2 _ ih =>
    intro p hp
    rcases List.mem_cons.mp hp with rfl | hp
    · cases ho r (by simp) with
      | mk a b d =>
        obtain ⟨-, rfl⟩ := evaluated_int h1
        obtain ⟨-, rfl⟩ := evaluated_int h2
        exact ⟨a, b, d⟩
    · exact ih (fun r hr => ho r (by simp [hr])) p hp

theorem groupsStop_good {ps : List (Int64 × Int64)} {ds : List Die} {c : Cause}
    (h : GroupsStop ps ds c) (hp : ∀ p ∈ ps, GoodPair p) : ¬ c.Own := by
  induction h with
  | @first x y ps ds c h =>
    obtain ⟨a, b, d⟩ := hp (x, y) (by simp)
    exact rollStops_ordinary h a b d
  | later _ _ ih => exact ih (fun p hm => hp p (by simp [hm]))

theorem rGroupsStop_good {th : Int64} {n : Nat} {ps : List (Int64 × Int64)} {ds : List Die} {c : Cause}
    (h : RGroupsStop th n ps ds c) (hp : ∀ p ∈ ps, GoodPair p) : ¬ c.Own := by
  induction h with
  | @first n x y ps ds c h =>
    obtain ⟨a, b, d⟩ := hp (x, y) (by simp)
    exact rollStops_ordinary h a b d
  | @later n x y pending g ds c hr _ ih =>
    obtain ⟨a, b, d⟩ := hp (x, y) (by simp)
    obtain ⟨_, _, _, hlen, _⟩ := hr
    refine ih (fun p hm => ?_)
    rcases List.mem_append.mp hm with hm | hm
    · exact hp p (by simp [hm])
    · by_cases h0 : (g.filter (fun d => th ≤ d.value)).length = 0
      · rw [if_pos h0] at hm; simp at hm
      · rw [if_neg h0] at hm
        simp only [List.mem_singleton] at hm
        subst hm
        have hle : (g.filter (fun d => th ≤ d.value)).length ≤ g.length := List.length_filter_le ..
        have b' : x.toInt ≤ 2 ^ 44 := b
        have e : (Int64.ofNat (g.filter (fun d => th ≤ d.value)).length).toInt =
            ((g.filter (fun d => th ≤ d.value)).length : Int) := Int64.toInt_ofNat_of_lt (by omega)
        refine ⟨?_, ?_, d⟩
        · rw [Int64.le_iff_toInt_le]; simp only [e]; show (1 : Int) ≤ _; omega
        · simp only [e]; omega

theorem uOneStops_good {limit : Nat} {th x y : Int64} {ds : List Die} {c : Cause}
    (h : UOneStops limit th x y ds c) (hp : GoodPair (x, y)) : ¬ c.Own := by
  obtain ⟨a, b, d⟩ := hp
  simp only at a b d
  cases h with
  | sides h => exact absurd h (by grind)
  | num _ h => exact absurd h (by grind)
  | memory _ h => exact absurd h (by omega)
  | chain _ _ _ _ _ _ h => exact rollStops_ordinary h (by decide) (by decide) d

theorem uGroupsStop_good {limit : Nat} {th : Int64} {ps : List (Int64 × Int64)} {ds : List Die}
    {c : Cause} (h : UGroupsStop limit th ps ds c) (hp : ∀ p ∈ ps, GoodPair p) : ¬ c.Own := by
  induction h with
  | @first x y ps ds c h => exact uOneStops_good h (hp (x, y) (by simp))
  | later _ _ ih => exact ih (fun p hm => hp p (by simp [hm]))

theorem listStops_ordinary {rl : RRollList} {ds : List Die} {c : Cause} (h : ListStops rl ds c)
    (ho : ∀ r ∈ rl.rolls, OrdinaryRoll r) (ht : ∀ e ∈ rl.threshold, Ordinary e) : ¬ c.Own := by
  cases h with
  | threshold h =>
    generalize hq : rl.threshold = o at h
    cases h with
    | some h => exact evStops_ordinary (ht _ hq) h
  | args _ h => exact (argsStop_ordinary h ho).elim

theorem uRollStops_ordinary {u : URollExpr} {ds : List Die} {c : Cause} (h : URollStops u ds c)
    (ho : ∀ r ∈ u.list.rolls, OrdinaryRoll r) (ht : ∀ e ∈ u.list.threshold, Ordinary e)
    (hb : ∀ b ∈ u.bonus, Ordinary b.2) : ¬ c.Own := by
  cases h with
  | list h => exact listStops_ordinary h ho ht
  | bonus _ _ h =>
    generalize hq : u.bonus.map Prod.snd = o at h
    cases h with
    | some h =>
      obtain ⟨b, hb', rfl⟩ := Option.map_eq_some_iff.mp hq
      exact evStops_ordinary (hb b hb') h

/-- An ordinary command, with dice that show one of their faces, ends only for want of a die. -/
theorem commandStops_ordinary {limit : Nat} {node : Node} {ds : List Die} {c : Cause}
    (h : CommandStops limit node ds c) (ho : OrdinaryCommand node) (hf : ∀ d ∈ ds, 1 ≤ d.sides → d.Fair) :
    ¬ c.Own := by
  cases ho with
  | @choice items hne hlt =>
    have hpos : 1 ≤ items.length := by
      cases items with
      | nil => exact absurd rfl hne
      | cons a l => simp
    have hn : (Int64.ofNat items.length).toInt = (items.length : Int) := Int64.toInt_ofNat_of_lt hlt
    cases h with
    | choice h =>
      refine rollStops_ordinary h (by decide) (by decide) ?_
      rw [Int64.le_iff_toInt_le, hn]; show (1 : Int) ≤ _; omega
    | @choiceItem _ d hr hbad =>
      exfalso
      obtain ⟨hpos', _, _, _, hs⟩ := hr
      obtain ⟨h1, h2⟩ := hf d (by simp) (by rw [hs d (by simp)]; exact hpos')
      rw [hs d (by simp)] at h2
      rw [Int64.le_iff_toInt_le] at h1 h2
      rw [hn] at h2
      have h1' : (1 : Int) ≤ d.value.toInt := h1
      have hsub : (d.value - 1).toInt = d.value.toInt - 1 := by
        rw [Int64.toInt_sub]
        have h63 : d.value.toInt < 2 ^ 63 := Int64.toInt_lt d.value
        show ((d.value.toInt - 1).bmod (2 ^ 64)) = _
        rw [Int.bmod_eq_of_le (by omega) (by omega)]
      rcases hbad with hbad | hbad
      · rw [Int64.lt_iff_toInt_lt, hsub] at hbad
        have : d.value.toInt - 1 < 0 := hbad
        omega
      · rw [List.getElem?_eq_none_iff, hsub] at hbad
        omega
  | «calc» ho => cases h with | «calc» h => exact evStops_ordinary ho h
  | dRollExpr ho =>
    cases h with
    | dArgs h => exact absurd h (dArgsStop_ordinary ho)
    | dDice h1 h =>
      obtain ⟨-, rfl⟩ := dArgs_ordinary ho h1
      exact dDiceStop_ordinary ho h
    | dValue h1 h2 h =>
      obtain ⟨-, rfl⟩ := dArgs_ordinary ho h1
      exact absurd h (evStops_rolled ho h2)
  | dRollComp ho hr ho' =>
    cases h with
    | dcArgs h => exact absurd h (dLeftStop_ordinary ho hr)
    | dcTarget _ h => exact evStops_ordinary ho' h
    | dcDice h1 _ h => cases dLeftArgs_ordinary ho h1; exact dDiceStop_ordinary ho h
    | dcValue h1 _ h2 h => cases dLeftArgs_ordinary ho h1; exact absurd h (evStops_rolled ho h2)
  | bRollList ho =>
    cases h with
    | bArgs h => exact (argsStop_ordinary h ho).elim
    | bDice h1 h => exact groupsStop_good h (args_ordinary h1 ho)
  | bRollComp ho ho' =>
    cases h with
    | bcArgs h => exact (argsStop_ordinary h ho).elim
    | bcTarget _ h => exact evStops_ordinary ho' h
    | bcDice h1 _ h => exact groupsStop_good h (args_ordinary h1 ho)
  | rRollList ho ht =>
    cases h with
    | rArgs h => exact listStops_ordinary h ho ht
    | rDice _ h1 _ h => exact rGroupsStop_good h (args_ordinary h1 ho)
  | rRollComp ho ht ho' =>
    cases h with
    | rcArgs h => exact listStops_ordinary h ho ht
    | rcTarget _ _ h => exact evStops_ordinary ho' h
    | rcDice _ h1 _ _ _ h => exact rGroupsStop_good h (args_ordinary h1 ho)
  | uRollExpr ho ht hb =>
    cases h with
    | uArgs h => exact uRollStops_ordinary h ho ht hb
    | uDice _ h1 _ _ h => exact uGroupsStop_good h (args_ordinary h1 ho)
  | uRollComp ho ht hb ho' =>
    cases h with
    | ucArgs h => exact uRollStops_ordinary h ho ht hb
    | ucTarget _ _ _ h => exact evStops_ordinary ho' h
    | ucDice _ h1 _ _ _ h => exact uGroupsStop_good h (args_ordinary h1 ho)

end GoBCDice
