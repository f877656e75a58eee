import Verif.Props.Divided

/-!
# C118: a comparison is a roll, a calculation and a comparison
-/

namespace GoBCDice

section
variable {σ : Type} (F : DieFeeder σ) (g : Str)

/-- **C118.** A D comparison is answered exactly if the roll is by itself and the target is a calculation with a value; with the same dice, and
`成功` if the total stands in the relation to the target, `失敗` if not. -/
theorem C118_total {x c : Str} {e : Expr} {op : CmpOp} (hx : CommandText x (.dRollExpr e)) (hs : DCompLeft e) (hc : IsCalculation c)
    (hn : NoRandomNumber x) (f f2 : σ) (ds : List Die) (last : Str) :
    Replies F g (x ++ (op.str ++ c)) f ds last f2 ↔ ∃ v t, Replies F g x f ds (intStr v) f2 ∧ Calculates c t ∧
      last = if op.Rel v.toInt t.toInt then chars!"成功" else chars!"失敗" := by
  obtain ⟨e', he⟩ := hc.der
  have h0 := he.int_rands (by simp)
  have hx' := hx
  cases hx' with | dRollExpr d n =>
  have hp := d.plainRolls_of_noRandom hn
  have ht : CommandText (x ++ (op.str ++ c)) (.dRollComp e op e') := .dRollComp d n (.mk he)
  constructor
  · rintro ⟨r, h, rfl, hl⟩
    obtain ⟨m, ds, h1, h2, h3⟩ := executeBasicCommand_ok_text.mp h
    have := ((parse_iff _ m).mpr h1).symm.trans ((parse_iff _ _).mpr ht)
    simp only [Option.some.injEq] at this
    subst this
    cases h2 with | dRollComp a1 a2 a3 a4 a5 =>
    obtain ⟨rfl, hg⟩ := (ev_gives h0 _ _).mp a3
    refine ⟨_, _, ?_, he.calculates.mpr hg, (Option.some.inj hl).symm⟩
    exact ⟨_, executeBasicCommand_ok_text.mpr ⟨_, _, hx, .dRollExpr a2 a4 a5, by simpa using h3⟩, by simp, rfl⟩
  · rintro ⟨v, t, ⟨r, h, rfl, hl⟩, hg, rfl⟩
    obtain ⟨m, ds, h1, h2, h3⟩ := executeBasicCommand_ok_text.mp h
    have := ((parse_iff _ m).mpr h1).symm.trans ((parse_iff _ _).mpr hx)
    simp only [Option.some.injEq] at this
    subst this
    cases h2 with | dRollExpr a2 a4 a5 =>
    obtain rfl := intStr_inj (Option.some.inj hl)
    have a3 := (ev_gives h0 _ _).mpr ⟨rfl, he.calculates.mp hg⟩
    exact ⟨_, executeBasicCommand_ok_text.mpr ⟨_, _, ht, .dRollComp hs a2 a3 a4 a5, by simpa using h3⟩, by simp, rfl⟩

/-- **C118.** A comparison of B rolls is answered exactly if the rolls are by themselves and the target is a calculation with a value; with the
same dice, and the number of dice whose value stands in the relation to the target. -/
theorem C118_B {s c : Str} {rs : List Roll} {op : CmpOp} (hs : RollsText ('B', 'b') s rs) (hc : IsCalculation c)
    (hn : NoRandomNumber s) (f f2 : σ) (ds : List Die) (last : Str) :
    Replies F g (s ++ (op.str ++ c)) f ds last f2 ↔ ∃ shown t, Replies F g s f ds shown f2 ∧ Calculates c t ∧
      last = successesShown (Int64.ofNat (ds.countP fun d => op.Rel d.value.toInt t.toInt)) := by
  obtain ⟨e', he⟩ := hc.der
  have h0 := he.int_rands (by simp)
  have ht : CommandText (s ++ (op.str ++ c)) (.bRollComp rs op e') := .bRollComp hs (.mk he)
  have hl0 : CommandText s (.bRollList rs) := .bRollList hs
  have cnt : ∀ (t : Int64) (ds : List Die), successes op t (ds.map Die.value) = ds.countP fun d => op.Rel d.value.toInt t.toInt := by
    intro t ds
    unfold successes
    rw [← List.countP_eq_length_filter, List.countP_map]
    rfl
  constructor
  · rintro ⟨r, h, rfl, hl⟩
    obtain ⟨m, ds, h1, h2, h3⟩ := executeBasicCommand_ok_text.mp h
    have := ((parse_iff _ m).mpr h1).symm.trans ((parse_iff _ _).mpr ht)
    simp only [Option.some.injEq] at this
    subst this
    cases h2 with | bRollComp a1 a3 a4 =>
    obtain ⟨rfl, hg⟩ := (ev_gives h0 _ _).mp a3
    obtain rfl := a1.calc (hs.calc hn)
    refine ⟨_, _, ⟨_, executeBasicCommand_ok_text.mpr ⟨_, _, hl0, .bRollList a1 a4, by simpa using h3⟩, by simp, rfl⟩,
      he.calculates.mpr hg, ?_⟩
    rw [← cnt]
    exact (Option.some.inj hl).symm
  · rintro ⟨shown, t, ⟨r, h, rfl, hl⟩, hg, rfl⟩
    obtain ⟨m, ds, h1, h2, h3⟩ := executeBasicCommand_ok_text.mp h
    have := ((parse_iff _ m).mpr h1).symm.trans ((parse_iff _ _).mpr hl0)
    simp only [Option.some.injEq] at this
    subst this
    cases h2 with | bRollList a1 a4 =>
    obtain rfl := a1.calc (hs.calc hn)
    have a3 := (ev_gives h0 _ _).mpr ⟨rfl, he.calculates.mp hg⟩
    refine ⟨_, executeBasicCommand_ok_text.mpr ⟨_, _, ht, .bRollComp a1 a3 a4, by simpa using h3⟩, by simp, ?_⟩
    rw [← cnt]
    rfl

/-- **C118.** So are comparisons of R rolls with a threshold of 2 or more, all dice being counted, also those rolled again. -/
theorem C118_R {s u c : Str} {rs : List Roll} {op : CmpOp} {th : Int64} (hs : RollsText ('R', 'r') s rs) (hu : IsCalculation u)
    (hth : Calculates u th) (h2 : 2 ≤ th) (hc : IsCalculation c) (hn : NoRandomNumber s) (f f2 : σ) (ds : List Die) (last : Str) :
    Replies F g (s ++ (chars!"[" ++ u ++ chars!"]") ++ (op.str ++ c)) f ds last f2 ↔
      ∃ shown t, Replies F g (s ++ (chars!"[" ++ u ++ chars!"]")) f ds shown f2 ∧ Calculates c t ∧
        last = successesShown (Int64.ofNat (ds.countP fun d => op.Rel d.value.toInt t.toInt)) := by
  obtain ⟨e', he⟩ := hc.der
  have h0 := he.int_rands (by simp)
  obtain ⟨te, hte⟩ := hu.der
  have ht0 := hte.int_rands (by simp)
  have hev : Ev te [] th := (ev_gives ht0 _ _).mpr ⟨rfl, hte.calculates.mp hth⟩
  have hrl : RRollsText ('R', 'r') (s ++ (chars!"[" ++ u ++ chars!"]")) ⟨rs, some te⟩ := ⟨_, _, rfl, hs, .given hte⟩
  have ht : CommandText (s ++ (chars!"[" ++ u ++ chars!"]") ++ (op.str ++ c)) (.rRollComp ⟨rs, some te⟩ op e') := .rRollComp hrl (.mk he)
  have hl0 : CommandText (s ++ (chars!"[" ++ u ++ chars!"]")) (.rRollList ⟨rs, some te⟩) := .rRollList hrl
  have thr : ∀ {ts x}, Threshold (some te) ts x → ts = [] ∧ x = some th := by
    intro ts x h
    cases h with | given h =>
    obtain ⟨h1, h2⟩ := hev.const rfl _ _ h
    exact ⟨h1, by rw [h2]⟩
  have notRef : ∀ {msg x}, x = some th → ¬ Refused missingThresholdR x msg := by
    rintro msg x rfl h
    cases h with | small h =>
    rw [Int64.lt_iff_toInt_lt] at h
    rw [Int64.le_iff_toInt_le] at h2
    omega
  have cnt : ∀ (t : Int64) (ds : List Die), successes op t (ds.map Die.value) = ds.countP fun d => op.Rel d.value.toInt t.toInt := by
    intro t ds
    unfold successes
    rw [← List.countP_eq_length_filter, List.countP_map]
    rfl
  constructor
  · rintro ⟨r, h, rfl, hl⟩
    obtain ⟨m, ds, h1, h3, h4⟩ := executeBasicCommand_ok_text.mp h
    have := ((parse_iff _ m).mpr h1).symm.trans ((parse_iff _ _).mpr ht)
    simp only [Option.some.injEq] at this
    subst this
    cases h3 with
    | rRollCompRefused a1 a2 a3 a4 => exact absurd a4 (notRef (by rw [(thr a1).2]; rfl))
    | rRollComp a1 a2 a3 a4 a5 a6 =>
      obtain ⟨rfl, rfl⟩ := thr a1
      obtain rfl : th = _ := Option.some.inj a4
      obtain ⟨rfl, hg⟩ := (ev_gives h0 _ _).mp a3
      obtain rfl := a2.calc (hs.calc hn)
      refine ⟨_, _, ⟨_, executeBasicCommand_ok_text.mpr ⟨_, _, hl0, .rRollList a1 a2 a5 a6, by simpa using h4⟩, by simp, rfl⟩,
        he.calculates.mpr hg, ?_⟩
      rw [← cnt]
      exact (Option.some.inj hl).symm
  · rintro ⟨shown, t, ⟨r, h, rfl, hl⟩, hg, rfl⟩
    obtain ⟨m, ds, h1, h3, h4⟩ := executeBasicCommand_ok_text.mp h
    have := ((parse_iff _ m).mpr h1).symm.trans ((parse_iff _ _).mpr hl0)
    simp only [Option.some.injEq] at this
    subst this
    cases h3 with
    | rRollRefused a1 a2 a4 => exact absurd a4 (notRef (thr a1).2)
    | rRollList a1 a2 a5 a6 =>
      obtain ⟨rfl, hx⟩ := thr a1
      cases hx
      obtain rfl := a2.calc (hs.calc hn)
      have a3 := (ev_gives h0 _ _).mpr ⟨rfl, he.calculates.mp hg⟩
      refine ⟨_, executeBasicCommand_ok_text.mpr ⟨_, _, ht, .rRollComp a1 a2 a3 rfl a5 a6, by simpa using h4⟩, by simp, ?_⟩
      rw [← cnt]
      rfl

end

/-! Cases met. -/

example : Replies queueFeeder chars!"DiceBot" (chars!"1D6+1" ++ (CmpOp.ge.str ++ chars!"2")) [⟨1, 6⟩] [⟨1, 6⟩] chars!"成功" [] :=
  (C118_total queueFeeder chars!"DiceBot" (x := chars!"1D6+1") (op := .ge) ((parse_iff _ _).mp rfl) trivial isCalculation_two
    (by unfold NoRandomNumber; decide) _ _ _ _).mpr ⟨2, 2, ⟨_, rfl, rfl, rfl⟩, calculates_two, by decide⟩

example : Replies queueFeeder chars!"DiceBot" (chars!"2B6+1B4" ++ (CmpOp.lt.str ++ chars!"2")) [⟨1, 6⟩, ⟨2, 6⟩, ⟨1, 4⟩] [⟨1, 6⟩, ⟨2, 6⟩, ⟨1, 4⟩]
    (successesShown 2) [] :=
  (C118_B queueFeeder chars!"DiceBot" (s := chars!"2B6+1B4") (op := .lt) (CommandText.bRolls ((parse_iff _ _).mp rfl)) isCalculation_two
    (by unfold NoRandomNumber; decide) _ _ _ _).mpr ⟨_, 2, ⟨_, rfl, rfl, rfl⟩, calculates_two, by decide⟩

theorem rolls_1R6 : RollsText ('R', 'r') chars!"1R6" [⟨.int 1, .int 6⟩] :=
  .one ⟨chars!"1", chars!"6", 'R', rfl, .inl rfl, .rollOperandNum (.number (ds := chars!"1") (by decide) (by decide)),
    .rollOperandNum (.number (ds := chars!"6") (by decide) (by decide))⟩

example : Replies queueFeeder chars!"DiceBot" (chars!"1R6" ++ (chars!"[" ++ chars!"2" ++ chars!"]") ++ (CmpOp.ge.str ++ chars!"2"))
    [⟨5, 6⟩, ⟨1, 6⟩] [⟨5, 6⟩, ⟨1, 6⟩] (successesShown 1) [] :=
  (C118_R queueFeeder chars!"DiceBot" (op := .ge) rolls_1R6 isCalculation_two calculates_two (by decide) isCalculation_two
    (by unfold NoRandomNumber; decide) _ _ _ _).mpr ⟨_, 2, ⟨_, rfl, rfl, rfl⟩, calculates_two, by decide⟩

end GoBCDice
