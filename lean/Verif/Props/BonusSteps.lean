import Verif.Props.Compared

/-!
# C119: the bonus of U rolls is added in the end
-/

namespace GoBCDice

/-- How many sums reach the target in the given way. -/
theorem successes_shift {op : CmpOp} (ho : op = .eq ∨ op = .ne) (m t : Int64) (vs : List Int64) :
    successes op t (vs.map (fun x => x + m)) = successes op (t - m) vs := by
  have key : ∀ x : Int64, (x + m).toInt = t.toInt ↔ x.toInt = (t - m).toInt := by
    intro x
    rw [Int64.toInt_inj, Int64.toInt_inj]
    constructor
    · rintro rfl; exact (Int64.add_sub_cancel x m).symm
    · rintro rfl; exact Int64.sub_add_cancel t m
  unfold successes
  rw [List.filter_map, List.length_map]
  congr 2
  funext x
  have k := key x
  rcases ho with rfl | rfl
  · exact decide_eq_decide.mpr k
  · exact decide_eq_decide.mpr (not_congr k)

section
variable {σ : Type} (F : DieFeeder σ) (g : Str)

variable {s u : Str} {rs : List Roll} {th : Int64}

/-- U rolls whose bonus is `bo` (worth `v`, or without a value), in terms of their trees. -/
theorem replies_u {te : Expr} (hs : RollsText ('U', 'u') s rs) (hte : Der (.add .int) u te) (hth : Calculates u th) (h2 : 2 ≤ th)
    (hn : NoRandomNumber s) {bt : Str} {bo : Option (Sign × Expr)} (hb : BonusText bt bo) (f f2 : σ) (ds : List Die) (last : Str) :
    Replies F g (s ++ (chars!"[" ++ u ++ chars!"]") ++ bt) f ds last f2 ↔ ∃ ps gs m mx, Args rs [] ps ∧ Bonus bo [] m ∧
      UGroups 10000 th ps gs ∧ IsMax mx (groupSums gs) ∧ Draws F f gs.flatten f2 ∧ ds = gs.flatten ∧
      last = maxAndTotalShown (mx + m) ((gs.flatten.map Die.value).sum + m) := by
  have ht0 := hte.int_rands (by simp)
  have hev : Ev te [] th := (ev_gives ht0 _ _).mpr ⟨rfl, hte.calculates.mp hth⟩
  have txt : CommandText (s ++ (chars!"[" ++ u ++ chars!"]") ++ bt) (.uRollExpr ⟨⟨rs, some te⟩, bo⟩) :=
    .uRollExpr ⟨_, _, rfl, ⟨_, _, rfl, hs, .given hte⟩, hb⟩
  have thr : ∀ {ts x}, Threshold (some te) ts x → ts = [] ∧ x = some th := by
    intro ts x h
    cases h with | given h =>
    obtain ⟨h1, h2⟩ := hev.const rfl _ _ h
    exact ⟨h1, by rw [h2]⟩
  have notRef : ∀ {msg x}, x = some th → ¬ Refused missingThresholdU x msg := by
    rintro msg x rfl h
    cases h with | small h =>
    rw [Int64.lt_iff_toInt_lt] at h
    rw [Int64.le_iff_toInt_le] at h2
    omega
  have cb : ∀ {ms m}, Bonus bo ms m → ms = [] := by
    intro ms m h
    cases hb with
    | absent => cases h; rfl
    | plus hd => cases h with | plus h => exact h.no_dice hd.noVar_int
    | minus hd => cases h with | minus h => exact h.no_dice hd.noVar_int
  constructor
  · rintro ⟨r, h, rfl, hl⟩
    obtain ⟨n, ds, h1, h3, h4⟩ := executeBasicCommand_ok_text.mp h
    have := ((parse_iff _ n).mpr h1).symm.trans ((parse_iff _ _).mpr txt)
    simp only [Option.some.injEq] at this
    subst this
    cases h3 with
    | uRollRefused a1 a2 a3 a4 => exact absurd a4 (notRef (thr a1).2)
    | @uRollExpr _ ts as ms th' ps m mx gs a1 a2 a3 a4 a5 a6 =>
      obtain ⟨rfl, hx⟩ := thr a1
      cases hx
      obtain rfl := a2.calc (hs.calc hn)
      obtain rfl := cb a3
      have hne := a5.ne (a2.ne_nil hs.ne_nil)
      exact ⟨_, _, m, mx, a2, a3, a5, a6.resolve_left (fun h => hne h.1), by simpa using h4, by simp, (Option.some.inj hl).symm⟩
  · rintro ⟨ps, gs, m, mx, a2, a3, a5, a6, a7, rfl, rfl⟩
    exact ⟨_, executeBasicCommand_ok_text.mpr ⟨_, _, txt, .uRollExpr (.given hev) a2 a3 h2 a5 (.inr a6), by simpa using a7⟩,
      by simp, rfl⟩

/-- Comparisons of U rolls, in terms of their trees. -/
theorem replies_u_comp {te : Expr} (hs : RollsText ('U', 'u') s rs) (hte : Der (.add .int) u te) (hth : Calculates u th) (h2 : 2 ≤ th)
    (hn : NoRandomNumber s) {bt : Str} {bo : Option (Sign × Expr)} (hb : BonusText bt bo) {c : Str} {e : Expr} {op : CmpOp}
    (hc : Der (.add .int) c e) (f f2 : σ) (ds : List Die) (last : Str) :
    Replies F g (s ++ (chars!"[" ++ u ++ chars!"]") ++ bt ++ (op.str ++ c)) f ds last f2 ↔ ∃ ps gs m t, Args rs [] ps ∧ Bonus bo [] m ∧
      Calculates c t ∧ UGroups 10000 th ps gs ∧ Draws F f gs.flatten f2 ∧ ds = gs.flatten ∧
      last = successesShown (Int64.ofNat (successes op t ((groupSums gs).map (fun x => x + m)))) := by
  have ht0 := hte.int_rands (by simp)
  have h0 := hc.int_rands (by simp)
  have hev : Ev te [] th := (ev_gives ht0 _ _).mpr ⟨rfl, hte.calculates.mp hth⟩
  have txt : CommandText (s ++ (chars!"[" ++ u ++ chars!"]") ++ bt ++ (op.str ++ c)) (.uRollComp ⟨⟨rs, some te⟩, bo⟩ op e) :=
    .uRollComp ⟨_, _, rfl, ⟨_, _, rfl, hs, .given hte⟩, hb⟩ (.mk hc)
  have thr : ∀ {ts x}, Threshold (some te) ts x → ts = [] ∧ x = some th := by
    intro ts x h
    cases h with | given h =>
    obtain ⟨h1, h2⟩ := hev.const rfl _ _ h
    exact ⟨h1, by rw [h2]⟩
  have notRef : ∀ {msg x}, x = some th → ¬ Refused missingThresholdU x msg := by
    rintro msg x rfl h
    cases h with | small h =>
    rw [Int64.lt_iff_toInt_lt] at h
    rw [Int64.le_iff_toInt_le] at h2
    omega
  have cb : ∀ {ms m}, Bonus bo ms m → ms = [] := by
    intro ms m h
    cases hb with
    | absent => cases h; rfl
    | plus hd => cases h with | plus h => exact h.no_dice hd.noVar_int
    | minus hd => cases h with | minus h => exact h.no_dice hd.noVar_int
  constructor
  · rintro ⟨r, h, rfl, hl⟩
    obtain ⟨n, ds, h1, h3, h4⟩ := executeBasicCommand_ok_text.mp h
    have := ((parse_iff _ n).mpr h1).symm.trans ((parse_iff _ _).mpr txt)
    simp only [Option.some.injEq] at this
    subst this
    cases h3 with
    | uRollCompRefused a1 a2 a3 a4 a5 => exact absurd a5 (notRef (thr a1).2)
    | uRollComp a1 a2 a3 a4 a5 a6 =>
      obtain ⟨rfl, hx⟩ := thr a1
      cases hx
      obtain rfl := a2.calc (hs.calc hn)
      obtain rfl := cb a3
      obtain ⟨rfl, hg⟩ := (ev_gives h0 _ _).mp a4
      exact ⟨_, _, _, _, a2, a3, hc.calculates.mpr hg, a6, by simpa using h4, by simp, (Option.some.inj hl).symm⟩
  · rintro ⟨ps, gs, m, t, a2, a3, a4, a6, a7, rfl, rfl⟩
    exact ⟨_, executeBasicCommand_ok_text.mpr ⟨_, _, txt,
      .uRollComp (.given hev) a2 a3 ((ev_gives h0 _ _).mpr ⟨rfl, hc.calculates.mp a4⟩) h2 a6, by simpa using a7⟩, by simp, rfl⟩

/-- **C119.** A U roll with a bonus is answered exactly if the U roll is without it and the bonus is a calculation with a value; this is then added
to both the maximum and the total. -/
theorem C119_bonus {b : Str} (hs : RollsText ('U', 'u') s rs) (hu : IsCalculation u) (hth : Calculates u th) (h2 : 2 ≤ th)
    (hn : NoRandomNumber s) (hb : IsCalculation b) (f f2 : σ) (ds : List Die) (last : Str) :
    (Replies F g (s ++ (chars!"[" ++ u ++ chars!"]") ++ (chars!"+" ++ b)) f ds last f2 ↔
      ∃ max total v, Replies F g (s ++ (chars!"[" ++ u ++ chars!"]")) f ds (maxAndTotalShown max total) f2 ∧ Calculates b v ∧
        last = maxAndTotalShown (max + v) (total + v)) ∧
    (Replies F g (s ++ (chars!"[" ++ u ++ chars!"]") ++ (chars!"-" ++ b)) f ds last f2 ↔
      ∃ max total v, Replies F g (s ++ (chars!"[" ++ u ++ chars!"]")) f ds (maxAndTotalShown max total) f2 ∧ Calculates b v ∧
        last = maxAndTotalShown (max - v) (total - v)) := by
  obtain ⟨te, hte⟩ := hu.der
  obtain ⟨be, hbe⟩ := hb.der
  have b0 := hbe.int_rands (by simp)
  have plain := fun (last : Str) => replies_u F g hs hte hth h2 hn .absent f f2 ds last
  simp only [List.append_nil] at plain
  rw [replies_u F g hs hte hth h2 hn (.plus hbe), replies_u F g hs hte hth h2 hn (.minus hbe)]
  simp only [plain]
  have sub : ∀ x v : Int64, x + -v = x - v := fun x v => (Int64.sub_eq_add_neg ..).symm
  constructor
  · constructor
    · rintro ⟨ps, gs, m, mx, a1, a2, a3, a4, a5, a6, rfl⟩
      cases a2 with | plus h =>
      exact ⟨mx + 0, (gs.flatten.map Die.value).sum + 0, m, ⟨ps, gs, 0, mx, a1, .absent, a3, a4, a5, a6, rfl⟩,
        hbe.calculates.mpr ((ev_gives b0 _ _).mp h).2, by simp⟩
    · rintro ⟨max, total, v, ⟨ps, gs, m, mx, a1, a2, a3, a4, a5, a6, e⟩, hv, rfl⟩
      cases a2
      obtain ⟨rfl, rfl⟩ := maxAndTotal_inj e
      exact ⟨ps, gs, v, mx, a1, .plus ((ev_gives b0 _ _).mpr ⟨rfl, hbe.calculates.mp hv⟩), a3, a4, a5, a6, by simp⟩
  · constructor
    · rintro ⟨ps, gs, m, mx, a1, a2, a3, a4, a5, a6, rfl⟩
      cases a2 with | @minus _ _ v h =>
      exact ⟨mx + 0, (gs.flatten.map Die.value).sum + 0, v, ⟨ps, gs, 0, mx, a1, .absent, a3, a4, a5, a6, rfl⟩,
        hbe.calculates.mpr ((ev_gives b0 _ _).mp h).2, by simp [sub]⟩
    · rintro ⟨max, total, v, ⟨ps, gs, m, mx, a1, a2, a3, a4, a5, a6, e⟩, hv, rfl⟩
      cases a2
      obtain ⟨rfl, rfl⟩ := maxAndTotal_inj e
      exact ⟨ps, gs, -v, mx, a1, .minus ((ev_gives b0 _ _).mpr ⟨rfl, hbe.calculates.mp hv⟩), a3, a4, a5, a6, by simp [sub]⟩

/-- **C119.** To ask for sums equal to (or different from) a target with a bonus is to ask for the target without the bonus. -/
theorem C119_target {b c : Str} {op : CmpOp} (ho : op = .eq ∨ op = .ne) (hs : RollsText ('U', 'u') s rs) (hu : IsCalculation u)
    (hth : Calculates u th) (h2 : 2 ≤ th) (hn : NoRandomNumber s) (hb : IsCalculation b) (hc : IsCalculation c)
    (f f2 : σ) (ds : List Die) (last : Str) :
    (Replies F g (s ++ (chars!"[" ++ u ++ chars!"]") ++ (chars!"+" ++ b) ++ (op.str ++ c)) f ds last f2 ↔
      Replies F g (s ++ (chars!"[" ++ u ++ chars!"]") ++ (op.str ++ (chars!"(" ++ c ++ chars!")-(" ++ b ++ chars!")"))) f ds last f2) ∧
    (Replies F g (s ++ (chars!"[" ++ u ++ chars!"]") ++ (chars!"-" ++ b) ++ (op.str ++ c)) f ds last f2 ↔
      Replies F g (s ++ (chars!"[" ++ u ++ chars!"]") ++ (op.str ++ (chars!"(" ++ c ++ chars!")+(" ++ b ++ chars!")"))) f ds last f2) := by
  obtain ⟨te, hte⟩ := hu.der
  obtain ⟨be, hbe⟩ := hb.der
  obtain ⟨ce, hce⟩ := hc.der
  have b0 := hbe.int_rands (by simp)
  obtain ⟨p1, p2, -⟩ := hce.op hbe
  have s1 := (C113_steps hc hb)
  have plain1 := replies_u_comp F g hs hte hth h2 hn .absent (op := op) p1 f f2 ds last
  have plain2 := replies_u_comp F g hs hte hth h2 hn .absent (op := op) p2 f f2 ds last
  simp only [List.append_nil] at plain1 plain2
  rw [plain1, plain2, replies_u_comp F g hs hte hth h2 hn (.plus hbe) hce, replies_u_comp F g hs hte hth h2 hn (.minus hbe) hce]
  have z : ∀ l : List Int64, l.map (fun x => x + 0) = l := fun l => by simp
  constructor
  · constructor
    · rintro ⟨ps, gs, m, t, a1, a2, a3, a4, a5, a6, rfl⟩
      cases a2 with | plus h =>
      exact ⟨ps, gs, 0, t - m, a1, .absent, (s1 _).2.1.mpr ⟨_, _, a3, hbe.calculates.mpr ((ev_gives b0 _ _).mp h).2, rfl⟩, a4, a5, a6,
        by rw [z, successes_shift ho]⟩
    · rintro ⟨ps, gs, m, t, a1, a2, a3, a4, a5, a6, rfl⟩
      cases a2
      obtain ⟨t', v, hc, hv, rfl⟩ := (s1 _).2.1.mp a3
      exact ⟨ps, gs, v, t', a1, .plus ((ev_gives b0 _ _).mpr ⟨rfl, hbe.calculates.mp hv⟩), hc, a4, a5, a6,
        by rw [z, successes_shift ho]⟩
  · have neg : ∀ t v : Int64, t - -v = t + v := fun t v => Int64.sub_neg ..
    constructor
    · rintro ⟨ps, gs, m, t, a1, a2, a3, a4, a5, a6, rfl⟩
      cases a2 with | @minus _ _ v h =>
      exact ⟨ps, gs, 0, t + v, a1, .absent, (s1 _).1.mpr ⟨_, _, a3, hbe.calculates.mpr ((ev_gives b0 _ _).mp h).2, rfl⟩, a4, a5, a6,
        by rw [z, successes_shift ho, neg]⟩
    · rintro ⟨ps, gs, m, t, a1, a2, a3, a4, a5, a6, rfl⟩
      cases a2
      obtain ⟨t', v, hc, hv, rfl⟩ := (s1 _).1.mp a3
      exact ⟨ps, gs, -v, t', a1, .minus ((ev_gives b0 _ _).mpr ⟨rfl, hbe.calculates.mp hv⟩), hc, a4, a5, a6,
        by rw [z, successes_shift ho, neg]⟩

end

/-- **C119.** For the other comparisons this is so only as long as nothing overflows. -/
theorem C119_overflow :
    (∃ r, executeBasicCommand queueFeeder chars!"DiceBot" chars!"1U6[6]+9223372036854775807>=0" [⟨1, 6⟩] = (.ok r, []) ∧
      r.parts.getLast? = some (successesShown 0)) ∧
    ∃ r, executeBasicCommand queueFeeder chars!"DiceBot" chars!"1U6[6]>=(0)-(9223372036854775807)" [⟨1, 6⟩] = (.ok r, []) ∧
      r.parts.getLast? = some (successesShown 1) :=
  ⟨⟨_, rfl, rfl⟩, ⟨_, rfl, rfl⟩⟩

/-! Cases met. -/

example : Replies queueFeeder chars!"DiceBot" (chars!"1U6+1U6" ++ (chars!"[" ++ chars!"2" ++ chars!"]") ++ (chars!"-" ++ chars!"2"))
    [⟨5, 6⟩, ⟨1, 6⟩, ⟨1, 6⟩] [⟨5, 6⟩, ⟨1, 6⟩, ⟨1, 6⟩] (maxAndTotalShown 4 5) [] :=
  (C119_bonus queueFeeder chars!"DiceBot" (CommandText.uRolls (s := chars!"1U6+1U6") ((parse_iff _ _).mp rfl)) isCalculation_two
    calculates_two (by decide) (by unfold NoRandomNumber; decide) isCalculation_two _ _ _ _).2.mpr
    ⟨6, 7, 2, ⟨_, rfl, rfl, rfl⟩, calculates_two, rfl⟩

example : Replies queueFeeder chars!"DiceBot" (chars!"1U6+1U6" ++ (chars!"[" ++ chars!"2" ++ chars!"]") ++ (chars!"-" ++ chars!"2") ++
    (CmpOp.eq.str ++ chars!"2")) [⟨3, 6⟩, ⟨1, 6⟩, ⟨1, 6⟩] [⟨3, 6⟩, ⟨1, 6⟩, ⟨1, 6⟩] (successesShown 1) [] :=
  (C119_target queueFeeder chars!"DiceBot" (op := .eq) (.inl rfl) (CommandText.uRolls (s := chars!"1U6+1U6") ((parse_iff _ _).mp rfl))
    isCalculation_two calculates_two (by decide) (by unfold NoRandomNumber; decide) isCalculation_two isCalculation_two _ _ _ _).2.mpr
    ⟨_, rfl, rfl, rfl⟩

end GoBCDice
