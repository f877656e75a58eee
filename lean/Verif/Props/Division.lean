import Verif.Lemmas.IEEE
import Verif.Props.Arith

/-!
# Rounding divisions on all 64-bit operands (C83)
-/

namespace GoBCDice
variable {σ : Type} (E : Evaluator σ)

namespace RoundsTo

theorem le {x y c : Rat} (h : RoundsTo x y) (hc : IsDouble c) (hx : x ≤ c) : y ≤ c := by
  by_contra hn
  have hn := not_le.mp hn
  have := h.nearest c hc
  rw [abs_of_nonpos (by linarith), abs_of_nonpos (by linarith)] at this
  linarith

theorem ge {x y c : Rat} (h : RoundsTo x y) (hc : IsDouble c) (hx : c ≤ x) : c ≤ y := by
  by_contra hn
  have hn := not_le.mp hn
  have := h.nearest c hc
  rw [abs_of_nonneg (by linarith), abs_of_nonneg (by linarith)] at this
  linarith

theorem self {x y : Rat} (h : RoundsTo x y) (hx : IsDouble x) : y = x := le_antisymm (h.le hx le_rfl) (h.ge hx le_rfl)

end RoundsTo

theorem IsDouble.neg {x : Rat} (h : IsDouble x) : IsDouble (-x) := by
  obtain ⟨m, e, hm, h1, h2, rfl⟩ := h
  exact ⟨-m, e, by rwa [abs_neg], h1, h2, by push_cast; ring⟩

theorem RoundsTo.neg {x y : Rat} (h : RoundsTo x y) : RoundsTo (-x) (-y) := by
  refine ⟨h.double.neg, ?_, ?_⟩
  · intro z hz
    have := h.nearest _ hz.neg
    rw [← abs_neg, show -(-x - -y) = x - y by ring, ← abs_neg (-x - z), show -(-x - z) = x - -z by ring]
    exact this
  · intro z hz hne heq
    rw [← abs_neg (-x - z), ← abs_neg (-x - -y), show -(-x - -y) = x - y by ring,
      show -(-x - z) = x - -z by ring] at heq
    obtain ⟨m, e, hm, h1, h2, rfl⟩ := h.even _ hz.neg (fun e => hne (by rw [← e]; ring)) heq
    exact ⟨-m, e, by rw [show 2 * -m = -(2 * m) by ring, abs_neg]; exact hm, h1, h2, by push_cast; ring⟩

theorem isDouble_int (n : Int) (h : |n| < 2 ^ 53) : IsDouble (n : Rat) :=
  ⟨n, 0, h, by norm_num, by norm_num, by simp⟩

theorem isDouble_two63 : IsDouble (2 ^ 63) :=
  ⟨2 ^ 52, 11, by norm_num, by norm_num, by norm_num, by norm_num⟩

theorem isDouble_two62 : IsDouble (2 ^ 62) :=
  ⟨2 ^ 52, 10, by norm_num, by norm_num, by norm_num, by norm_num⟩

theorem isDouble_below63 : IsDouble (2 ^ 63 - 1024) :=
  ⟨2 ^ 53 - 1, 10, by norm_num, by norm_num, by norm_num, by norm_num⟩

theorem isDouble_gap {z : Rat} (hz : IsDouble z) (h : z < 2 ^ 63) : z ≤ 2 ^ 63 - 1024 := by
  obtain ⟨m, e, hm, _, _, rfl⟩ := hz
  by_cases he : 10 ≤ e
  · obtain ⟨k, hk⟩ := zpow_split he
    have h1 : (m : Rat) * 2 ^ e = ((m * 2 ^ k : Int) : Rat) * 1024 := by rw [hk]; push_cast; ring
    rw [h1] at h ⊢
    have h2 : ((m * 2 ^ k : Int) : Rat) < ((2 ^ 53 : Int) : Rat) := by push_cast at h ⊢; linarith
    have h3 : m * 2 ^ k < 2 ^ 53 := by exact_mod_cast h2
    have h4 : ((m * 2 ^ k : Int) : Rat) ≤ ((2 ^ 53 - 1 : Int) : Rat) := by exact_mod_cast Int.le_sub_one_of_lt h3
    push_cast at h4 ⊢
    linarith
  · have h1 : (m : Rat) ≤ 2 ^ 53 := by
      have : m ≤ 2 ^ 53 := (le_abs_self m).trans hm.le
      exact_mod_cast this
    have h2 : (2 : Rat) ^ e ≤ 2 ^ (9 : Int) := two_zpow_le (by omega)
    have h3 : (0 : Rat) < 2 ^ e := by positivity
    have h4 : (m : Rat) * 2 ^ e ≤ 2 ^ 53 * 2 ^ (9 : Int) :=
      (mul_le_mul_of_nonneg_right h1 h3.le).trans (mul_le_mul_of_nonneg_left h2 (by positivity))
    refine h4.trans (by norm_num)

/-- From half a unit below 2^63 on, numbers are rounded to 2^63. -/
theorem roundsTo_two63 {x : Rat} (h1 : 2 ^ 63 - 512 ≤ x) (h2 : x ≤ 2 ^ 63) : RoundsTo x (2 ^ 63) := by
  refine ⟨isDouble_two63, ?_, ?_⟩
  · intro z hz
    rw [abs_of_nonpos (by linarith)]
    rcases lt_or_ge z (2 ^ 63) with h | h
    · have := isDouble_gap hz h
      rw [abs_of_nonneg (by linarith)]
      linarith
    · rw [abs_of_nonpos (by linarith)]
      linarith
  · intro z hz _ _
    exact ⟨2 ^ 51, 11, by norm_num, by norm_num, by norm_num, by norm_num⟩

theorem RoundsTo.lt_two63 {x y : Rat} (h : RoundsTo x y) (hx : x ≤ 2 ^ 63 - 513) : y ≤ 2 ^ 63 - 2 := by
  rcases le_total x (2 ^ 63 - 1024) with h1 | h1
  · exact (h.le isDouble_below63 h1).trans (by norm_num)
  · by_contra hn
    have hn := not_le.mp hn
    have := h.nearest _ isDouble_below63
    rw [abs_of_nonneg (by linarith : (0 : Rat) ≤ x - (2 ^ 63 - 1024)), abs_of_nonpos (by linarith)] at this
    linarith

theorem int64_bounds (a : Int64) : -(2 ^ 63 : Rat) ≤ (a.toInt : Rat) ∧ (a.toInt : Rat) ≤ 2 ^ 63 - 1 := by
  have h1 := a.le_toInt
  have h2 := a.toInt_le
  have h1 : -2 ^ 63 ≤ a.toInt := h1
  have h2 : a.toInt ≤ 2 ^ 63 - 1 := h2
  exact ⟨by exact_mod_cast h1, by exact_mod_cast h2⟩

theorem int64_roundsTo (a : Int64) : RoundsTo (a.toInt : Rat) (f64OfInt a) := by
  refine toF64_roundsTo _ ?_
  by_cases h : a.toInt = 0
  · exact .inl (by rw [h]; rfl)
  · right
    have h1 := int64_bounds a
    have h2 : (1 : Rat) ≤ |(a.toInt : Rat)| := by
      have : 1 ≤ |a.toInt| := Int.one_le_abs h
      exact_mod_cast this
    refine ⟨le_trans ?_ h2, ?_⟩
    · calc (2 : Rat) ^ (-1000 : Int) ≤ 2 ^ (0 : Int) := two_zpow_le (by norm_num)
        _ = 1 := by simp
    · calc |(a.toInt : Rat)| ≤ 2 ^ 63 := by rw [abs_le]; constructor <;> linarith
        _ = 2 ^ (63 : Int) := by norm_num
        _ ≤ 2 ^ (1000 : Int) := two_zpow_le (by norm_num)

theorem toInt_ne_zero {b : Int64} (hb : b ≠ 0) : b.toInt ≠ 0 := by
  intro h
  exact hb (Int64.toInt_inj.mp (by rw [h]; rfl))

theorem RoundsTo.one_le {x y : Rat} (h : RoundsTo x y) {k : Int} (hk : |k| < 2 ^ 53) (h1 : (k : Rat) ≤ |x|) : (k : Rat) ≤ |y| := by
  rcases le_total 0 x with h0 | h0
  · rw [abs_of_nonneg h0] at h1
    exact (h.ge (isDouble_int k hk) h1).trans (le_abs_self y)
  · rw [abs_of_nonpos h0] at h1
    have := h.le (isDouble_int (-k) (by rwa [abs_neg])) (by push_cast; linarith)
    push_cast at this
    exact le_trans (by linarith) (neg_le_abs y)

theorem RoundsTo.abs_le {x y c : Rat} (h : RoundsTo x y) (hc : IsDouble c) (h1 : |x| ≤ c) : |y| ≤ c := by
  rw [_root_.abs_le] at h1 ⊢
  exact ⟨h.ge hc.neg h1.1, h.le hc h1.2⟩

theorem f64OfInt_ne_zero {b : Int64} (hb : b ≠ 0) : 1 ≤ |f64OfInt b| := by
  have h2 : ((1 : Int) : Rat) ≤ |(b.toInt : Rat)| := by
    have : 1 ≤ |b.toInt| := Int.one_le_abs (toInt_ne_zero hb)
    exact_mod_cast this
  have := (int64_roundsTo b).one_le (k := 1) (by norm_num) h2
  exact_mod_cast this

theorem f64OfInt_le (a : Int64) : |f64OfInt a| ≤ 2 ^ 63 := by
  refine (int64_roundsTo a).abs_le isDouble_two63 ?_
  have := int64_bounds a
  rw [abs_le]
  constructor <;> linarith

theorem quotient_roundsTo (a b : Int64) (hb : b ≠ 0) :
    RoundsTo (f64OfInt a / f64OfInt b) (f64Div (f64OfInt a) (f64OfInt b)) := by
  refine toF64_roundsTo _ ?_
  by_cases h : a.toInt = 0
  · left
    have : f64OfInt a = 0 := by unfold f64OfInt; rw [h]; simp [toF64]
    rw [this, zero_div]
  · right
    have h1 := f64OfInt_ne_zero hb
    have h2 := f64OfInt_le b
    have h3 := f64OfInt_le a
    have h4 : 1 ≤ |f64OfInt a| := f64OfInt_ne_zero (fun e => h (by rw [e]; rfl))
    have hpos : 0 < |f64OfInt b| := by linarith
    rw [abs_div]
    constructor
    · calc (2 : Rat) ^ (-1000 : Int) ≤ 2 ^ (-63 : Int) := two_zpow_le (by norm_num)
        _ = 1 / 2 ^ 63 := by norm_num
        _ ≤ |f64OfInt a| / |f64OfInt b| := by
            rw [div_le_div_iff₀ (by positivity) hpos]
            nlinarith
    · calc |f64OfInt a| / |f64OfInt b| ≤ 2 ^ 63 := by
            rw [div_le_iff₀ hpos]
            nlinarith
        _ = 2 ^ (63 : Int) := by norm_num
        _ ≤ 2 ^ (1000 : Int) := two_zpow_le (by norm_num)

theorem mathCeil_eq (x : Rat) : mathCeil x = ⌈x⌉ := by
  unfold mathCeil
  rw [Rat.ceil_eq_neg_floor_neg, Int.ceil]
  rfl

/-- `q` is what converting the whole number `z` to a 64-bit integer gives (on amd64). -/
def Converts (z : Int) (q : Int64) : Prop :=
  -2 ^ 63 ≤ z ∧ z < 2 ^ 63 ∧ q.toInt = z ∨ ¬ (-2 ^ 63 ≤ z ∧ z < 2 ^ 63) ∧ q = Int64.minValue

theorem intOfF64_converts (z : Int) : Converts z (intOfF64 z) := by
  unfold intOfF64
  split
  · rename_i h
    exact .inl ⟨h.1, h.2, Int64.toInt_ofInt_of_le (by omega) (by omega)⟩
  · rename_i h
    exact .inr ⟨h, rfl⟩

/-- **C83.** For all 64-bit operands with a divisor other than zero, `a/bU` and `a/bR` are computed in
double precision: both operands are rounded to doubles, their quotient is rounded to a double, and
the smallest whole number not below that, or the nearest one, is converted to 64 bits. -/
theorem C83_double (m : Rounding) (l r : Expr) (s s1 s2 : St σ) (a b : Int64)
    (hl : E.eval l s = (.ok a, s1)) (hr : E.eval r s1 = (.ok b, s2)) (hb : b ≠ 0) (hm : m ≠ .down) :
    ∃ (fa fb fq : Rat) (z : Int) (q : Int64), E.eval (.div m l r) s = (.ok q, s2) ∧
      RoundsTo a.toInt fa ∧ RoundsTo b.toInt fb ∧ fb ≠ 0 ∧ RoundsTo (fa / fb) fq ∧
      (m = .up → z = ⌈fq⌉) ∧ (m = .round → IsNearest fq z) ∧ Converts z q := by
  have h1 := int64_roundsTo a
  have h2 := int64_roundsTo b
  have h3 := quotient_roundsTo a b hb
  have h4 : f64OfInt b ≠ 0 := by
    intro h
    have := f64OfInt_ne_zero hb
    rw [h, abs_zero] at this
    linarith
  have hev : E.eval (.div m l r) s = (.ok (divValue m a b), s2) := by
    rw [eval_div_eq E _ l r s s1 s2 a b hl hr]
    simp [hb]
  cases m with
  | down => exact absurd rfl hm
  | up =>
    exact ⟨_, _, _, mathCeil (f64Div (f64OfInt a) (f64OfInt b)), _, hev, h1, h2, h4, h3, fun _ => mathCeil_eq _,
      fun h => (by cases h), intOfF64_converts _⟩
  | round =>
    exact ⟨_, _, _, mathRound (f64Div (f64OfInt a) (f64OfInt b)), _, hev, h1, h2, h4, h3, fun h => (by cases h),
      fun _ => mathRound_isNearest _, intOfF64_converts _⟩

/-- **C83.** What `C83_double` says determines the quotient: rounding to a double is a function. -/
theorem C83_determined {x y y' : Rat} (h : RoundsTo x y) (h' : RoundsTo x y') : y = y' := h.unique h'

/-- Operands whose rounded quotient is 2^63 or more. -/
def QuotientTooLarge (a b : Int64) : Prop :=
  b = 1 ∧ 2 ^ 63 - 512 ≤ a.toInt ∨ b = -1 ∧ a.toInt ≤ -(2 ^ 63 - 512)

theorem one_toRat : ((1 : Int64).toInt : Rat) = 1 := by norm_num [show (1 : Int64).toInt = 1 from rfl]
theorem neg_one_toRat : ((-1 : Int64).toInt : Rat) = -1 := by norm_num [show (-1 : Int64).toInt = -1 from rfl]

theorem tooLarge_quotient {a b : Int64} {fa fb fq : Rat} (h : QuotientTooLarge a b) (h1 : RoundsTo a.toInt fa)
    (h2 : RoundsTo b.toInt fb) (h3 : RoundsTo (fa / fb) fq) : fq = 2 ^ 63 := by
  have hab := int64_bounds a
  rcases h with ⟨rfl, ha⟩ | ⟨rfl, ha⟩
  · have ha' : (2 ^ 63 - 512 : Rat) ≤ a.toInt := by exact_mod_cast ha
    have hfa := h1.unique (roundsTo_two63 ha' (by linarith))
    rw [one_toRat] at h2
    have hfb := h2.self (by simpa using isDouble_int 1 (by norm_num))
    rw [hfa, hfb, div_one] at h3
    exact h3.self isDouble_two63
  · have ha' : (a.toInt : Rat) ≤ -(2 ^ 63 - 512) := by exact_mod_cast ha
    have hfa := h1.neg.unique (roundsTo_two63 (by linarith) (by linarith))
    rw [neg_one_toRat] at h2
    have hfb := h2.self (by simpa using isDouble_int (-1) (by norm_num))
    rw [hfb, div_neg, div_one, hfa] at h3
    exact h3.self isDouble_two63

theorem not_tooLarge_quotient {a b : Int64} {fa fb fq : Rat} (hb : b ≠ 0) (h : ¬ QuotientTooLarge a b)
    (h1 : RoundsTo a.toInt fa) (h2 : RoundsTo b.toInt fb) (h3 : RoundsTo (fa / fb) fq) :
    -2 ^ 63 ≤ fq ∧ fq ≤ 2 ^ 63 - 2 := by
  have hab := int64_bounds a
  have hfa : |fa| ≤ 2 ^ 63 := h1.abs_le isDouble_two63 (by rw [abs_le]; constructor <;> linarith)
  by_cases hb1 : b = 1
  · subst hb1
    have ha : a.toInt ≤ 2 ^ 63 - 513 := by
      by_contra hc
      exact h (.inl ⟨rfl, by omega⟩)
    have ha' : (a.toInt : Rat) ≤ 2 ^ 63 - 513 := by exact_mod_cast ha
    rw [one_toRat] at h2
    have hfb := h2.self (by simpa using isDouble_int 1 (by norm_num))
    rw [hfb, div_one] at h3
    rw [h3.self h1.double]
    exact ⟨(abs_le.mp hfa).1, h1.lt_two63 ha'⟩
  · by_cases hb2 : b = -1
    · subst hb2
      have ha : -(2 ^ 63 - 513) ≤ a.toInt := by
        by_contra hc
        exact h (.inr ⟨rfl, by omega⟩)
      have ha' : -(2 ^ 63 - 513 : Rat) ≤ a.toInt := by exact_mod_cast ha
      rw [neg_one_toRat] at h2
      have hfb := h2.self (by simpa using isDouble_int (-1) (by norm_num))
      rw [hfb, div_neg, div_one] at h3
      rw [h3.self h1.double.neg]
      exact ⟨by linarith [(abs_le.mp hfa).2], h1.neg.lt_two63 (by linarith)⟩
    · have hb3 : 2 ≤ |b.toInt| := by
        have h0 := toInt_ne_zero hb
        have h1 : b.toInt ≠ 1 := fun e => hb1 (Int64.toInt_inj.mp (by rw [e]; rfl))
        have h2 : b.toInt ≠ -1 := fun e => hb2 (Int64.toInt_inj.mp (by rw [e]; rfl))
        rcases abs_cases b.toInt with ⟨h, _⟩ | ⟨h, _⟩ <;> omega
      have hfb : (2 : Rat) ≤ |fb| := by
        have := h2.one_le (k := 2) (by norm_num) (by exact_mod_cast hb3)
        exact_mod_cast this
      have hq : |fa / fb| ≤ 2 ^ 62 := by
        rw [abs_div, div_le_iff₀ (by linarith)]
        nlinarith
      have := h3.abs_le isDouble_two62 hq
      rw [abs_le] at this
      constructor <;> linarith [this.1, this.2]

theorem double_err (x : Int64) {y : Rat} (h : RoundsTo x.toInt y) : |y - x.toInt| ≤ |(x.toInt : Rat)| / 2 ^ 53 := by
  rw [h.unique (int64_roundsTo x)]
  exact toF64_err _

/-- **C83.** The one overflow: if the divisor is 1 (or -1) and the dividend is within 512 of the
largest (smallest) number, the result is the smallest 64-bit integer. -/
theorem C83_overflow (m : Rounding) (l r : Expr) (s s1 s2 : St σ) (a b : Int64)
    (hl : E.eval l s = (.ok a, s1)) (hr : E.eval r s1 = (.ok b, s2)) (hm : m ≠ .down)
    (h : QuotientTooLarge a b) : E.eval (.div m l r) s = (.ok Int64.minValue, s2) := by
  have hb : b ≠ 0 := by rcases h with ⟨rfl, _⟩ | ⟨rfl, _⟩ <;> decide
  obtain ⟨fa, fb, fq, z, q, he, h1, h2, _, h3, hu, hrr, hc⟩ := C83_double E m l r s s1 s2 a b hl hr hb hm
  have hq := tooLarge_quotient h h1 h2 h3
  subst hq
  have hz : z = 2 ^ 63 := by
    cases m with
    | down => exact absurd rfl hm
    | up =>
      rw [hu rfl]
      have : ((2 ^ 63 : Rat)) = ((2 ^ 63 : Int) : Rat) := by norm_num
      rw [this, Int.ceil_intCast]
    | round =>
      refine isNearest_unique (hrr rfl) ?_
      unfold IsNearest
      norm_num
  subst hz
  rcases hc with ⟨_, hc, _⟩ | ⟨_, hc⟩
  · exact absurd hc (by norm_num)
  · rw [he, hc]

/-- **C83.** Apart from that overflow the result is correct up to one and a relative error of 2^-51:
rounding up does not go below the quotient by more than the relative error. -/
theorem C83_accurate (m : Rounding) (l r : Expr) (s s1 s2 : St σ) (a b : Int64)
    (hl : E.eval l s = (.ok a, s1)) (hr : E.eval r s1 = (.ok b, s2)) (hb : b ≠ 0) (hm : m ≠ .down)
    (h : ¬ QuotientTooLarge a b) :
    ∃ q, E.eval (.div m l r) s = (.ok q, s2) ∧
      (m = .up → -(|(a.toInt : Rat) / b.toInt| / 2 ^ 51) ≤ q.toInt - (a.toInt : Rat) / b.toInt ∧
        q.toInt - (a.toInt : Rat) / b.toInt < 1 + |(a.toInt : Rat) / b.toInt| / 2 ^ 51) ∧
      (m = .round → |q.toInt - (a.toInt : Rat) / b.toInt| ≤ 1 / 2 + |(a.toInt : Rat) / b.toInt| / 2 ^ 51) := by
  obtain ⟨fa, fb, fq, z, q, he, h1, h2, h0, h3, hu, hrr, hc⟩ := C83_double E m l r s s1 s2 a b hl hr hb hm
  obtain ⟨hq1, hq2⟩ := not_tooLarge_quotient hb h h1 h2 h3
  refine ⟨q, he, ?_⟩
  -- the doubles are close
  have herr : |fq - (a.toInt : Rat) / b.toInt| ≤ |(a.toInt : Rat) / b.toInt| / 2 ^ 51 := by
    have ea := double_err a h1
    have eb := double_err b h2
    have eq : |fq - fa / fb| ≤ |fa / fb| / 2 ^ 53 := by
      have ha := h1.unique (int64_roundsTo a)
      have hb' := h2.unique (int64_roundsTo b)
      rw [ha, hb'] at h3 ⊢
      rw [h3.unique (quotient_roundsTo a b hb)]
      exact toF64_err _
    have hbz : (b.toInt : Rat) ≠ 0 := by exact_mod_cast toInt_ne_zero hb
    generalize (a.toInt : Rat) = A at *
    generalize (b.toInt : Rat) = B at *
    have hBp : 0 < |B| := abs_pos.mpr hbz
    have hfbp : 0 < |fb| := abs_pos.mpr h0
    -- fa / fb - A / B
    have e1 : |fa / fb - A / B| ≤ |A / B| * (2 / (2 ^ 53 - 1)) := by
      have hid : fa / fb - A / B = ((fa - A) * B - A * (fb - B)) / (fb * B) := by
        field_simp; ring
      have hfb : |B| * (1 - 1 / 2 ^ 53) ≤ |fb| := by
        have := abs_sub_abs_le_abs_sub B fb
        rw [abs_sub_comm] at this
        linarith
      rw [hid, abs_div, abs_mul, div_le_iff₀ (mul_pos hfbp hBp), abs_div]
      have hn : |(fa - A) * B - A * (fb - B)| ≤ |A| * |B| * (2 / 2 ^ 53) := by
        have t := abs_sub ((fa - A) * B) (A * (fb - B))
        rw [abs_mul, abs_mul] at t
        have t1 := mul_le_mul_of_nonneg_right ea hBp.le
        have t2 := mul_le_mul_of_nonneg_left eb (abs_nonneg A)
        linarith
      refine hn.trans ?_
      have hA := abs_nonneg A
      have key : |A| * |B| * (2 / 2 ^ 53) = |A| / |B| * (2 / (2 ^ 53 - 1)) * (|B| * (1 - 1 / 2 ^ 53) * |B|) := by
        field_simp
      rw [key]
      refine mul_le_mul_of_nonneg_left ?_ (by positivity)
      exact mul_le_mul_of_nonneg_right hfb hBp.le
    have e2 : |fa / fb| ≤ |A / B| * (1 + 2 / (2 ^ 53 - 1)) := by
      have := abs_sub_abs_le_abs_sub (fa / fb) (A / B)
      linarith
    have e3 : |fq - A / B| ≤ |fq - fa / fb| + |fa / fb - A / B| := by
      have := abs_add_le (fq - fa / fb) (fa / fb - A / B)
      simpa using this
    have hAB := abs_nonneg (A / B)
    generalize |A / B| = Q at *
    have e4 : |fa / fb| / 2 ^ 53 ≤ Q * (1 + 2 / (2 ^ 53 - 1)) / 2 ^ 53 := by
      exact div_le_div_of_nonneg_right e2 (by positivity)
    have e5 : Q * (1 + 2 / (2 ^ 53 - 1)) / 2 ^ 53 + Q * (2 / (2 ^ 53 - 1)) ≤ Q / 2 ^ 51 := by
      have : Q * (1 + 2 / (2 ^ 53 - 1)) / 2 ^ 53 + Q * (2 / (2 ^ 53 - 1)) =
          Q * ((1 + 2 / (2 ^ 53 - 1)) / 2 ^ 53 + 2 / (2 ^ 53 - 1)) := by ring
      rw [this, div_eq_mul_one_div Q]
      refine mul_le_mul_of_nonneg_left ?_ hAB
      norm_num
    linarith
  have hz : (fq - 1 / 2 ≤ z ∨ fq ≤ z) ∧ (z : Rat) < fq + 1 → -2 ^ 63 ≤ z ∧ z < 2 ^ 63 := by
    rintro ⟨t1, t2⟩
    have u1 : (-2 ^ 63 - 1 : Rat) < z := by rcases t1 with t | t <;> linarith
    have u2 : (z : Rat) < 2 ^ 63 := by linarith
    have v1 : -2 ^ 63 - 1 < z := by exact_mod_cast u1
    have v2 : z < 2 ^ 63 := by exact_mod_cast u2
    exact ⟨by omega, v2⟩
  have hin : -2 ^ 63 ≤ z ∧ z < 2 ^ 63 → (q.toInt : Rat) = z := by
    intro hr
    rcases hc with ⟨_, _, hc⟩ | ⟨hc, _⟩
    · rw [hc]
    · exact absurd hr hc
  rw [abs_le] at herr
  constructor
  · intro hup
    have hz' := hu hup
    have c1 : fq ≤ z := by rw [hz']; exact Int.le_ceil _
    have c2 : (z : Rat) < fq + 1 := by rw [hz']; exact Int.ceil_lt_add_one _
    rw [hin (hz ⟨.inr c1, c2⟩)]
    constructor <;> linarith [herr.1, herr.2]
  · intro hro
    have c := (hrr hro).1
    rw [abs_le] at c
    rw [hin (hz ⟨.inl (by linarith [c.1]), by linarith [c.2]⟩), abs_le]
    constructor <;> linarith [herr.1, herr.2, c.1, c.2]

-- non-vacuity: 2^53 + 1 is rounded to 2^53 on the way, and 2^63 - 1 overflows
example : (newEvaluator queueFeeder).eval (.div .up (.int 9007199254740993) (.int 2)) ⟨[], []⟩ =
    (.ok 4503599627370496, ⟨[], []⟩) := by decide +kernel
example : QuotientTooLarge 9223372036854775807 1 := .inl ⟨rfl, by decide⟩
example : QuotientTooLarge (-9223372036854775808) (-1) := .inr ⟨rfl, by decide⟩
example : ¬ QuotientTooLarge 9223372036854775295 1 := by
  rintro (⟨_, h⟩ | ⟨h, _⟩)
  · revert h; decide
  · revert h; decide
example : RoundsTo 9007199254740993 9007199254740992 := by
  have h := int64_roundsTo 9007199254740993
  have e : f64OfInt 9007199254740993 = 9007199254740992 := by decide +kernel
  rw [e] at h
  exact_mod_cast h

end GoBCDice
