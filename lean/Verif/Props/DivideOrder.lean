import Verif.Props.Division

/-!
# Division respects the order of numbers (C110)
-/

namespace GoBCDice

variable {σ τ : Type}

theorem RoundsTo.mono {x x' y y' : Rat} (h : RoundsTo x y) (h' : RoundsTo x' y') (hx : x ≤ x') : y ≤ y' := by
  by_contra hlt
  have hlt : y' < y := not_le.mp hlt
  have a := h.nearest _ h'.double
  have b := h'.nearest _ h.double
  have e : x = x' := by
    apply le_antisymm hx
    rcases abs_cases (x - y) with ⟨h1, _⟩ | ⟨h1, _⟩ <;> rcases abs_cases (x - y') with ⟨h2, _⟩ | ⟨h2, _⟩ <;>
      rcases abs_cases (x' - y) with ⟨h3, _⟩ | ⟨h3, _⟩ <;> rcases abs_cases (x' - y') with ⟨h4, _⟩ | ⟨h4, _⟩ <;>
      rw [h1, h2] at a <;> rw [h3, h4] at b <;> linarith
  subst e
  exact absurd (h.unique h') (by intro e; rw [e] at hlt; exact lt_irrefl _ hlt)

theorem IsNearest.mono {x x' : Rat} {z z' : Int} (h : IsNearest x z) (h' : IsNearest x' z') (hx : x ≤ x') : z ≤ z' := by
  by_contra hlt
  have hlt : z' + 1 ≤ z := by omega
  have hlt' : (z' : Rat) + 1 ≤ z := by exact_mod_cast hlt
  have a := abs_le.mp h.1
  have b := abs_le.mp h'.1
  have e : x = x' := le_antisymm hx (by linarith [a.2, b.1])
  subst e
  have := isNearest_unique h h'
  omega

/-- The quotient is a 64-bit number: it leaves the range only for a dividend at the end of the range and divisor -1 or, with
rounding, also 1 (C17, C83). -/
def DivisionFits (m : Rounding) (a b : Int64) : Prop :=
  match m with
  | .down => ¬ (a = Int64.minValue ∧ b = -1)
  | _ => ¬ QuotientTooLarge a b

/-- The quotient of doubles is rounded and converted. -/
theorem quotient_order {m : Rounding} {a b a' b' : Int64} (hb : b ≠ 0) (hb' : b' ≠ 0) (hm : m ≠ .down)
    (hf : DivisionFits m a b) (hf' : DivisionFits m a' b') {fa fb fq fa' fb' fq' : Rat} {z z' : Int} {q q' : Int64}
    (h1 : RoundsTo a.toInt fa) (h2 : RoundsTo b.toInt fb) (h3 : RoundsTo (fa / fb) fq)
    (h4 : m = .up → z = ⌈fq⌉) (h5 : m = .round → IsNearest fq z) (h6 : Converts z q)
    (k1 : RoundsTo a'.toInt fa') (k2 : RoundsTo b'.toInt fb') (k3 : RoundsTo (fa' / fb') fq')
    (k4 : m = .up → z' = ⌈fq'⌉) (k5 : m = .round → IsNearest fq' z') (k6 : Converts z' q')
    (h : fa / fb ≤ fa' / fb') : q ≤ q' := by
  have hq := h3.mono k3 h
  have hz : z ≤ z' := by
    cases m with
    | down => exact absurd rfl hm
    | up => rw [h4 rfl, k4 rfl]; exact Int.ceil_le_ceil hq
    | round => exact (h5 rfl).mono (k5 rfl) hq
  have hrange : ∀ {a b : Int64} {fa fb fq : Rat} {z : Int} {q : Int64}, b ≠ 0 → DivisionFits m a b →
      RoundsTo a.toInt fa → RoundsTo b.toInt fb → RoundsTo (fa / fb) fq → (m = .up → z = ⌈fq⌉) →
      (m = .round → IsNearest fq z) → Converts z q → q.toInt = z := by
    intro a b fa fb fq z q hb hf h1 h2 h3 h4 h5 h6
    have hn : ¬ QuotientTooLarge a b := by
      cases m with
      | down => exact absurd rfl hm
      | up => exact hf
      | round => exact hf
    obtain ⟨l1, l2⟩ := not_tooLarge_quotient hb hn h1 h2 h3
    rcases h6 with ⟨_, _, e⟩ | ⟨hc, rfl⟩
    · exact e
    · exfalso
      have t : fq - 1 / 2 ≤ z ∧ (z : Rat) < fq + 1 := by
        cases m with
        | down => exact absurd rfl hm
        | up =>
          rw [h4 rfl]
          exact ⟨by linarith [Int.le_ceil fq], Int.ceil_lt_add_one fq⟩
        | round =>
          have := abs_le.mp (h5 rfl).1
          exact ⟨by linarith [this.1], by linarith [this.2]⟩
      have u1 : (-2 ^ 63 - 1 : Rat) < z := by linarith [t.1]
      have u2 : (z : Rat) < 2 ^ 63 := by linarith [t.2]
      have v1 : -2 ^ 63 - 1 < z := by exact_mod_cast u1
      have v2 : z < 2 ^ 63 := by exact_mod_cast u2
      exact hc ⟨by omega, v2⟩
  rw [Int64.le_iff_toInt_le, hrange hb hf h1 h2 h3 h4 h5 h6, hrange hb' hf' k1 k2 k3 k4 k5 k6]
  exact hz

theorem RoundsTo.pos {b : Int64} {fb : Rat} (h : RoundsTo b.toInt fb) (hb : 1 ≤ b.toInt) : 0 < fb := by
  have h1 : RoundsTo 1 1 := by
    have := int64_roundsTo 1
    rw [one_toRat, show f64OfInt 1 = 1 from f64OfInt_exact 1 (by decide)] at this
    exact this
  have := h1.mono h (by exact_mod_cast hb)
  linarith

theorem RoundsTo.nonneg {b : Int64} {fb : Rat} (h : RoundsTo b.toInt fb) (hb : 0 ≤ b.toInt) : 0 ≤ fb := by
  have h1 : RoundsTo 0 0 := by
    have := int64_roundsTo 0
    rw [show f64OfInt 0 = 0 from by simp [f64OfInt_exact 0 (by decide), show (0 : Int64).toInt = 0 from rfl]] at this
    simpa [show (0 : Int64).toInt = 0 from rfl] using this
  exact h1.mono h (by exact_mod_cast hb)

theorem RoundsTo.nonpos {b : Int64} {fb : Rat} (h : RoundsTo b.toInt fb) (hb : b.toInt ≤ 0) : fb ≤ 0 := by
  have h1 : RoundsTo 0 0 := by
    have := int64_roundsTo 0
    rw [show f64OfInt 0 = 0 from by simp [f64OfInt_exact 0 (by decide), show (0 : Int64).toInt = 0 from rfl]] at this
    simpa [show (0 : Int64).toInt = 0 from rfl] using this
  exact h.mono h1 (by exact_mod_cast hb)

theorem toInt_pos_of {b : Int64} (h : 0 < b) : 1 ≤ b.toInt := by
  rw [Int64.lt_iff_toInt_lt] at h
  have : (0 : Int64).toInt = 0 := rfl
  omega

theorem toInt_neg_of {b : Int64} (h : b < 0) : b.toInt ≤ -1 := by
  rw [Int64.lt_iff_toInt_lt] at h
  have : (0 : Int64).toInt = 0 := rfl
  omega

theorem ediv_anti {a b b' : Int} (ha : 0 ≤ a) (hb : 1 ≤ b) (h : b ≤ b') : a / b' ≤ a / b := by
  have h0 : 0 ≤ a / b' := Int.ediv_nonneg ha (by omega)
  apply Int.le_ediv_of_mul_le (by omega)
  have h1 := Int.ediv_mul_le a (b := b') (by omega)
  have h2 := Int.mul_le_mul_of_nonneg_left h h0
  omega

/-- **C110.** A greater dividend gives at least the same quotient if the divisor is positive, at most the same if it is
negative, with every rounding method and for all 64-bit numbers, although rounding up and rounding to nearest are computed
with doubles that cannot hold all of them. -/
theorem C110_dividend (E : Evaluator σ) (E' : Evaluator τ) (m : Rounding) (l r l' r' : Expr) (s s1 s2 : St σ) (t t1 t2 : St τ)
    (a a' b : Int64) (hl : E.eval l s = (.ok a, s1)) (hr : E.eval r s1 = (.ok b, s2))
    (hl' : E'.eval l' t = (.ok a', t1)) (hr' : E'.eval r' t1 = (.ok b, t2)) (hb : b ≠ 0) (ha : a ≤ a')
    (hf : DivisionFits m a b) (hf' : DivisionFits m a' b) :
    ∃ q q', E.eval (.div m l r) s = (.ok q, s2) ∧ E'.eval (.div m l' r') t = (.ok q', t2) ∧
      (0 < b → q ≤ q') ∧ (b < 0 → q' ≤ q) := by
  have ha' : a.toInt ≤ a'.toInt := Int64.le_iff_toInt_le.mp ha
  by_cases hm : m = .down
  · subst hm
    obtain ⟨q, e, h1, -⟩ := (C17_division E .down l r s s1 s2 a b hl hr).2 hb
    obtain ⟨q', e', h1', -⟩ := (C17_division E' .down l' r' t t1 t2 a' b hl' hr').2 hb
    refine ⟨q, q', e, e', fun h => ?_, fun h => ?_⟩
    · rw [Int64.le_iff_toInt_le, h1 rfl hf, h1' rfl hf']
      exact Int.tdiv_le_tdiv (by have := toInt_pos_of h; omega) ha'
    · rw [Int64.le_iff_toInt_le, h1 rfl hf, h1' rfl hf']
      have := toInt_neg_of h
      have e1 : ∀ x : Int, x.tdiv b.toInt = -(x.tdiv (-b.toInt)) := fun x => by rw [Int.tdiv_neg]; omega
      rw [e1, e1]
      have := Int.tdiv_le_tdiv (c := -b.toInt) (by omega) ha'
      omega
  · obtain ⟨fa, fb, fq, z, q, e, h1, h2, h0, h3, h4, h5, h6⟩ := C83_double E m l r s s1 s2 a b hl hr hb hm
    obtain ⟨fa', fb', fq', z', q', e', k1, k2, k0, k3, k4, k5, k6⟩ := C83_double E' m l' r' t t1 t2 a' b hl' hr' hb hm
    obtain rfl := h2.unique k2
    have hfa : fa ≤ fa' := h1.mono k1 (by exact_mod_cast ha')
    refine ⟨q, q', e, e', fun h => ?_, fun h => ?_⟩
    · exact quotient_order hb hb hm hf hf' h1 h2 h3 h4 h5 h6 k1 k2 k3 k4 k5 k6
        (div_le_div_of_nonneg_right hfa (h2.pos (toInt_pos_of h)).le)
    · refine quotient_order hb hb hm hf' hf k1 k2 k3 k4 k5 k6 h1 h2 h3 h4 h5 h6 ?_
      have := toInt_neg_of h
      exact div_le_div_of_nonpos_of_le (h2.nonpos (by omega)) hfa

/-- **C110.** A greater positive divisor brings the quotient closer to zero. -/
theorem C110_divisor (E : Evaluator σ) (E' : Evaluator τ) (m : Rounding) (l r l' r' : Expr) (s s1 s2 : St σ) (t t1 t2 : St τ)
    (a b b' : Int64) (hl : E.eval l s = (.ok a, s1)) (hr : E.eval r s1 = (.ok b, s2))
    (hl' : E'.eval l' t = (.ok a, t1)) (hr' : E'.eval r' t1 = (.ok b', t2)) (hb : 0 < b) (hb' : b ≤ b')
    (hf : DivisionFits m a b) (hf' : DivisionFits m a b') :
    ∃ q q', E.eval (.div m l r) s = (.ok q, s2) ∧ E'.eval (.div m l' r') t = (.ok q', t2) ∧
      (0 ≤ a → q' ≤ q) ∧ (a ≤ 0 → q ≤ q') := by
  have h1b := toInt_pos_of hb
  have hbb : b.toInt ≤ b'.toInt := Int64.le_iff_toInt_le.mp hb'
  have hz : (0 : Int64).toInt = 0 := rfl
  have hb0 : b ≠ 0 := by rintro rfl; omega
  have hb0' : b' ≠ 0 := by rintro rfl; omega
  by_cases hm : m = .down
  · subst hm
    obtain ⟨q, e, h1, -⟩ := (C17_division E .down l r s s1 s2 a b hl hr).2 hb0
    obtain ⟨q', e', h1', -⟩ := (C17_division E' .down l' r' t t1 t2 a b' hl' hr').2 hb0'
    refine ⟨q, q', e, e', fun h => ?_, fun h => ?_⟩
    · rw [Int64.le_iff_toInt_le, h1 rfl hf, h1' rfl hf']
      rw [Int64.le_iff_toInt_le, hz] at h
      rw [Int.tdiv_eq_ediv_of_nonneg h, Int.tdiv_eq_ediv_of_nonneg h]
      exact ediv_anti h h1b hbb
    · rw [Int64.le_iff_toInt_le, h1 rfl hf, h1' rfl hf']
      rw [Int64.le_iff_toInt_le, hz] at h
      have e1 : ∀ x : Int, a.toInt.tdiv x = -((-a.toInt).tdiv x) := fun x => by rw [Int.neg_tdiv]; omega
      rw [e1, e1, Int.tdiv_eq_ediv_of_nonneg (by omega), Int.tdiv_eq_ediv_of_nonneg (by omega)]
      have := ediv_anti (a := -a.toInt) (by omega) h1b hbb
      omega
  · obtain ⟨fa, fb, fq, z, q, e, h1, h2, h0, h3, h4, h5, h6⟩ := C83_double E m l r s s1 s2 a b hl hr hb0 hm
    obtain ⟨fa', fb', fq', z', q', e', k1, k2, k0, k3, k4, k5, k6⟩ := C83_double E' m l' r' t t1 t2 a b' hl' hr' hb0' hm
    obtain rfl := h1.unique k1
    have hfb : fb ≤ fb' := h2.mono k2 (by exact_mod_cast hbb)
    have hpos := h2.pos h1b
    refine ⟨q, q', e, e', fun h => ?_, fun h => ?_⟩
    · rw [Int64.le_iff_toInt_le, hz] at h
      exact quotient_order hb0' hb0 hm hf' hf k1 k2 k3 k4 k5 k6 h1 h2 h3 h4 h5 h6
        (div_le_div_of_nonneg_left (h1.nonneg h) hpos hfb)
    · rw [Int64.le_iff_toInt_le, hz] at h
      refine quotient_order hb0 hb0' hm hf hf' h1 h2 h3 h4 h5 h6 k1 k2 k3 k4 k5 k6 ?_
      have := div_le_div_of_nonneg_left (neg_nonneg.mpr (h1.nonpos h)) hpos hfb
      rw [neg_div, neg_div] at this
      linarith

/-- **C110.** Of a number that is not negative by a positive one (below 2^52), the plain quotient is at most the rounded one,
that is at most the one rounded up, and these are less than 2 apart. -/
theorem C110_methods (E : Evaluator σ) (l r : Expr) (s s1 s2 : St σ) (a b : Int64)
    (hl : E.eval l s = (.ok a, s1)) (hr : E.eval r s1 = (.ok b, s2)) (ha : 0 ≤ a) (hb : 0 < b)
    (ha' : a.toInt < 2 ^ 52) (hb' : b.toInt < 2 ^ 52) :
    ∃ q q' q'', E.eval (.div .down l r) s = (.ok q, s2) ∧ E.eval (.div .round l r) s = (.ok q', s2) ∧
      E.eval (.div .up l r) s = (.ok q'', s2) ∧ 0 ≤ q ∧ q ≤ q' ∧ q' ≤ q'' ∧ q''.toInt ≤ q.toInt + 1 ∧
      (q = q'' ↔ b.toInt ∣ a.toInt) := by
  have h1b := toInt_pos_of hb
  have hz : (0 : Int64).toInt = 0 := rfl
  rw [Int64.le_iff_toInt_le, hz] at ha
  have hb0 : b ≠ 0 := by rintro rfl; omega
  have hA : |a.toInt| < 2 ^ 52 := by rw [abs_of_nonneg ha]; exact ha'
  have hB : |b.toInt| < 2 ^ 53 := by rw [abs_of_nonneg (by omega)]; omega
  obtain ⟨q, e, h1, -⟩ := (C17_division E .down l r s s1 s2 a b hl hr).2 hb0
  have hq : q.toInt = a.toInt / b.toInt := by
    rw [h1 rfl (by rintro ⟨_, rfl⟩; revert h1b; decide), Int.tdiv_eq_ediv_of_nonneg ha]
  have hup := divValue_up a b hb0 (by omega) hB
  have hro := divValue_round a b hb0 hA hB
  have eu : E.eval (.div .up l r) s = (.ok (divValue .up a b), s2) := by
    rw [eval_div_eq E _ l r s s1 s2 a b hl hr, if_neg hb0]
  have er : E.eval (.div .round l r) s = (.ok (divValue .round a b), s2) := by
    rw [eval_div_eq E _ l r s s1 s2 a b hl hr, if_neg hb0]
  have hbq : (0 : Rat) < b.toInt := by exact_mod_cast h1b
  have hfl : a.toInt / b.toInt = ⌊(a.toInt : Rat) / b.toInt⌋ := by
    obtain ⟨k, hk⟩ := Int.eq_ofNat_of_zero_le (show 0 ≤ b.toInt by omega)
    rw [hk]
    have := Rat.floor_intCast_div_natCast a.toInt k
    simpa using this.symm
  have hdv : (a.toInt / b.toInt = ⌈(a.toInt : Rat) / b.toInt⌉) ↔ b.toInt ∣ a.toInt := by
    constructor
    · intro h
      rw [hfl] at h
      have h3 := Int.floor_le ((a.toInt : Rat) / b.toInt)
      have h4 := Int.le_ceil ((a.toInt : Rat) / b.toInt)
      rw [← h] at h4
      have h5 : (a.toInt : Rat) / b.toInt = (⌊(a.toInt : Rat) / b.toInt⌋ : Rat) := le_antisymm h4 h3
      rw [div_eq_iff hbq.ne'] at h5
      exact ⟨⌊(a.toInt : Rat) / b.toInt⌋, by rw [mul_comm]; exact_mod_cast h5⟩
    · rintro ⟨k, hk⟩
      have : (a.toInt : Rat) / b.toInt = (k : Int) := by
        rw [hk]; push_cast; field_simp
      rw [this, Int.ceil_intCast, hk, Int.mul_ediv_cancel_left _ (by omega)]
  refine ⟨q, divValue .round a b, divValue .up a b, e, er, eu, ?_⟩
  simp only [Int64.le_iff_toInt_le, ← Int64.toInt_inj, hz, hq, hup]
  have h3 := Int.floor_le ((a.toInt : Rat) / b.toInt)
  have h3' := Int.lt_floor_add_one ((a.toInt : Rat) / b.toInt)
  have h4 := Int.le_ceil ((a.toInt : Rat) / b.toInt)
  have h4' := Int.ceil_lt_add_one ((a.toInt : Rat) / b.toInt)
  have hn := abs_le.mp hro.1
  have hpos : (0 : Rat) ≤ (a.toInt : Rat) / b.toInt := div_nonneg (by exact_mod_cast ha) hbq.le
  refine ⟨Int.ediv_nonneg ha (by omega), ?_, ?_, ?_, hdv⟩
  · rw [hfl]
    have : ((⌊(a.toInt : Rat) / b.toInt⌋ : Int) : Rat) < (((divValue .round a b).toInt + 1 : Int) : Rat) := by
      push_cast
      linarith [hn.1]
    have : ⌊(a.toInt : Rat) / b.toInt⌋ < (divValue .round a b).toInt + 1 := by exact_mod_cast this
    omega
  · have : (((divValue .round a b).toInt : Int) : Rat) < ((⌈(a.toInt : Rat) / b.toInt⌉ + 1 : Int) : Rat) := by
      push_cast
      linarith [hn.2]
    have : (divValue .round a b).toInt < ⌈(a.toInt : Rat) / b.toInt⌉ + 1 := by exact_mod_cast this
    omega
  · rw [hfl]
    exact Int.ceil_le_floor_add_one _

/-- `7/2`, `7/2R`, `7/2U`. -/
example : ∃ q q' q'' : Int64, 0 ≤ q ∧ q ≤ q' ∧ q' ≤ q'' ∧ q''.toInt ≤ q.toInt + 1 ∧ (q = q'' ↔ (2 : Int) ∣ 7) := by
  obtain ⟨q, q', q'', -, -, -, h⟩ := C110_methods (newEvaluator queueFeeder) (.int 7) (.int 2) ⟨[], []⟩ _ _ 7 2 rfl rfl (by decide)
    (by decide) (by decide) (by decide)
  exact ⟨q, q', q'', h⟩

/-- Where the quotient leaves the range the order is lost: 2^63-1 divided by 1, rounded up, is -2^63. -/
theorem C110_range_needed (E : Evaluator σ) (s : St σ) :
    E.eval (.div .up (.int 9223372036854775295) (.int 1)) s = (.ok 9223372036854774784, s) ∧
    E.eval (.div .up (.int 9223372036854775807) (.int 1)) s = (.ok (-9223372036854775808), s) := by
  constructor
  · rw [eval_div_eq E .up _ _ s s s _ _ rfl rfl, show divValue .up 9223372036854775295 1 = 9223372036854774784 by decide +kernel]; rfl
  · rw [eval_div_eq E .up _ _ s s s _ _ rfl rfl, show divValue .up 9223372036854775807 1 = -9223372036854775808 by decide +kernel]; rfl

/-- 2^53 and 2^53+1 divided by 3, rounded to nearest; and 7 divided by 2 and by 3, rounded up. -/
example : ∃ q q', (newEvaluator queueFeeder).eval (.div .round (.int 9007199254740992) (.int 3)) ⟨[], []⟩ = (.ok q, ⟨[], []⟩) ∧
    (newEvaluator queueFeeder).eval (.div .round (.int 9007199254740993) (.int 3)) ⟨[], []⟩ = (.ok q', ⟨[], []⟩) ∧ q ≤ q' := by
  obtain ⟨q, q', h1, h2, h3, -⟩ := C110_dividend (newEvaluator queueFeeder) (newEvaluator queueFeeder) .round
    (.int 9007199254740992) (.int 3) (.int 9007199254740993) (.int 3) ⟨[], []⟩ _ _ ⟨[], []⟩ _ _ _ _ _ rfl rfl rfl rfl (by decide) (by decide)
    (by rintro (⟨h, _⟩ | ⟨h, _⟩) <;> cases h) (by rintro (⟨h, _⟩ | ⟨h, _⟩) <;> cases h)
  exact ⟨q, q', h1, h2, h3 (by decide)⟩

example : ∃ q q', (newEvaluator queueFeeder).eval (.div .up (.int 7) (.int 2)) ⟨[], []⟩ = (.ok q, ⟨[], []⟩) ∧
    (newEvaluator queueFeeder).eval (.div .up (.int 7) (.int 3)) ⟨[], []⟩ = (.ok q', ⟨[], []⟩) ∧ q' ≤ q := by
  obtain ⟨q, q', h1, h2, h3, -⟩ := C110_divisor (newEvaluator queueFeeder) (newEvaluator queueFeeder) .up
    (.int 7) (.int 2) (.int 7) (.int 3) ⟨[], []⟩ _ _ ⟨[], []⟩ _ _ _ _ _ rfl rfl rfl rfl (by decide) (by decide)
    (by rintro (⟨h, _⟩ | ⟨h, _⟩) <;> cases h) (by rintro (⟨h, _⟩ | ⟨h, _⟩) <;> cases h)
  exact ⟨q, q', h1, h2, h3 (by decide)⟩

end GoBCDice
