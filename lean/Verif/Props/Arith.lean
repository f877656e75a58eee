import Verif.Props.Commands
import Verif.Lemmas.Float
import Mathlib.Data.Rat.Floor

/-!
# Arithmetic (C17-C20)

The mathematical side is stated with integers and rational numbers.
-/

namespace GoBCDice
variable {σ : Type} (E : Evaluator σ)

/-! ### C17 -/

theorem eval_div_eq (m : Rounding) (l r : Expr) (s s1 s2 : St σ) (a b : Int64)
    (hl : E.eval l s = (.ok a, s1)) (hr : E.eval r s1 = (.ok b, s2)) :
    E.eval (.div m l r) s =
      (if b = 0 then .err (intStr a ++ chars!" divided by zero") else .ok (divValue m a b), s2) := by
  simp only [Evaluator.eval, M.bind_eq, hl, hr, Evaluator.evalIntegerDivide]
  split <;> rfl

/-- **C17.** Whatever the operands, a plain division whose operands evaluate to `a` and `b ≠ 0`
yields the quotient truncated toward zero, the one overflowing case `MinInt64 / -1` giving
`MinInt64`; with `b = 0` every kind of division is the error "a divided by zero". -/
theorem C17_division (m : Rounding) (l r : Expr) (s s1 s2 : St σ) (a b : Int64)
    (hl : E.eval l s = (.ok a, s1)) (hr : E.eval r s1 = (.ok b, s2)) :
    (b = 0 → E.eval (.div m l r) s = (.err (intStr a ++ chars!" divided by zero"), s2)) ∧
    (b ≠ 0 → ∃ q, E.eval (.div m l r) s = (.ok q, s2) ∧
      (m = .down → ¬ (a = Int64.minValue ∧ b = -1) → q.toInt = a.toInt.tdiv b.toInt) ∧
      (m = .down → a = Int64.minValue → b = -1 → q = Int64.minValue)) := by
  rw [eval_div_eq E m l r s s1 s2 a b hl hr]
  constructor
  · intro h; simp [h]
  · intro h
    refine ⟨divValue m a b, by simp [h], ?_, ?_⟩
    · rintro rfl hne
      show (a / b).toInt = _
      by_cases ha : a = Int64.minValue
      · exact Int64.toInt_div_of_ne_right _ _ (fun hb => hne ⟨ha, hb⟩)
      · exact Int64.toInt_div_of_ne_left _ _ ha
    · rintro rfl rfl rfl
      decide

-- non-vacuity: -7/2 = -3
example : (newEvaluator queueFeeder).eval (.div .down (.neg (.int 7)) (.int 2)) ⟨[], []⟩ =
    (.ok (-3), ⟨[], []⟩) := by decide

/-! ### C18, C19 -/

theorem f64OfInt_exact (a : Int64) (h : |a.toInt| < 2 ^ 53) : f64OfInt a = (a.toInt : Rat) :=
  toF64_int _ h

theorem intOfF64_toInt {n : Int} (h : |n| < 2 ^ 63) : (intOfF64 n).toInt = n := by
  rw [abs_lt] at h
  unfold intOfF64
  rw [if_pos ⟨by omega, h.2⟩]
  have hs : Int64.size = 2 ^ 64 := rfl
  rw [Int64.toInt_ofInt, hs, Int.bmod_eq_of_le] <;> omega

/-- Distance of a quotient of integers from a multiple of 1/k it differs from. -/
theorem quot_gap {a b n k : Int} (hb : b ≠ 0) (hk : 0 < k) (h : (a : Rat) / b ≠ n / k) :
    1 / (k * |(b : Rat)|) ≤ |(a : Rat) / b - n / k| := by
  have hb' : (b : Rat) ≠ 0 := by exact_mod_cast hb
  have hk' : (0 : Rat) < k := by exact_mod_cast hk
  have h1 : (a : Rat) / b - n / k = ((a * k - n * b : Int) : Rat) / (b * k) := by
    push_cast; field_simp
  have h2 : a * k - n * b ≠ 0 := by
    intro h0
    rw [h0] at h1
    simp only [Int.cast_zero, zero_div] at h1
    exact h (sub_eq_zero.mp h1)
  have h3 : (1 : Rat) ≤ |((a * k - n * b : Int) : Rat)| := by
    rw [← Int.cast_abs]
    exact_mod_cast Int.one_le_abs h2
  rw [h1, abs_div, abs_mul, abs_of_pos hk', mul_comm (k : Rat)]
  exact div_le_div_of_nonneg_right h3 (by positivity)

theorem quot_err {a b : Int} (hb : b ≠ 0) (c : Rat) (ha : |(a : Rat)| < c) :
    |toF64 ((a : Rat) / b) - (a : Rat) / b| < c / 2 ^ 53 / |(b : Rat)| := by
  have hb' : (0 : Rat) < |(b : Rat)| := abs_pos.mpr (by exact_mod_cast hb)
  refine (toF64_err _).trans_lt ?_
  rw [abs_div, div_div, mul_comm |(b : Rat)|, ← div_div]
  gcongr

theorem abs_quot_le {a b : Int} (hb : b ≠ 0) : |(a : Rat) / b| ≤ |(a : Rat)| := by
  rw [abs_div]
  apply div_le_self (abs_nonneg _)
  rw [← Int.cast_abs]
  exact_mod_cast Int.one_le_abs hb

/-- Rounding a quotient to float64 does not change its ceiling. -/
theorem ceil_toF64 {a b : Int} (hb : b ≠ 0) (ha : |a| < 2 ^ 53) :
    ⌈toF64 ((a : Rat) / b)⌉ = ⌈(a : Rat) / b⌉ := by
  have ha' : |(a : Rat)| < 2 ^ 53 := by rw [← Int.cast_abs]; exact_mod_cast ha
  have herr := quot_err hb (2 ^ 53) ha'
  rw [div_self (by positivity)] at herr
  by_cases hint : (a : Rat) / b = ⌈(a : Rat) / b⌉
  · have hq : |(⌈(a : Rat) / b⌉ : Rat)| < 2 ^ 53 := by
      rw [← hint]; exact (abs_quot_le hb).trans_lt ha'
    have : toF64 (⌈(a : Rat) / b⌉ : Rat) = ⌈(a : Rat) / b⌉ := by
      apply toF64_int
      rw [← Int.cast_abs] at hq
      exact_mod_cast hq
    rw [hint, this]
  · have gap : ∀ n : Int, (a : Rat) / b ≠ n → 1 / |(b : Rat)| ≤ |(a : Rat) / b - n| := by
      intro n hn
      have := quot_gap (a := a) (n := n) hb one_pos (by simpa using hn)
      simpa using this
    generalize 1 / |(b : Rat)| = ε at gap herr
    have h1 := gap ⌈(a : Rat) / b⌉ hint
    have h0 := Int.le_ceil ((a : Rat) / b)
    have h2 := Int.ceil_lt_add_one ((a : Rat) / b)
    have h3 := gap (⌈(a : Rat) / b⌉ - 1) (by push_cast; intro h; linarith)
    push_cast at h3
    rw [abs_of_nonpos (by linarith)] at h1
    rw [abs_of_nonneg (by linarith)] at h3
    rw [abs_lt] at herr
    rw [Int.ceil_eq_iff]
    constructor <;> linarith [herr.1, herr.2]

/-- The value reported by a division rounding up. -/
theorem divValue_up (a b : Int64) (hb : b ≠ 0) (ha : |a.toInt| < 2 ^ 53) (hb' : |b.toInt| < 2 ^ 53) :
    (divValue .up a b).toInt = ⌈(a.toInt : Rat) / b.toInt⌉ := by
  have hbz : b.toInt ≠ 0 := fun h => hb (Int64.toInt_inj.mp (by rw [h]; decide))
  have hceil : ∀ x : Rat, x.ceil = ⌈x⌉ := fun x =>
    le_antisymm (Rat.ceil_le_iff.mpr (Int.le_ceil x)) (Int.ceil_le.mpr Rat.le_ceil)
  show (intOfF64 (mathCeil (f64Div (f64OfInt a) (f64OfInt b)))).toInt = _
  rw [f64OfInt_exact a ha, f64OfInt_exact b hb']
  unfold f64Div mathCeil
  rw [hceil, ceil_toF64 hbz ha]
  apply intOfF64_toInt
  have h1 := abs_quot_le (a := a.toInt) hbz
  have h2 : |(a.toInt : Rat)| < 2 ^ 53 := by rw [← Int.cast_abs]; exact_mod_cast ha
  have h0 := Int.le_ceil ((a.toInt : Rat) / b.toInt)
  have h3 := Int.ceil_lt_add_one ((a.toInt : Rat) / b.toInt)
  rw [abs_le] at h1
  have h4 : |(⌈(a.toInt : Rat) / b.toInt⌉ : Rat)| < 2 ^ 63 := by
    rw [abs_lt]
    constructor <;> norm_num at h2 ⊢ <;> linarith [h1.1, h1.2]
  rw [← Int.cast_abs] at h4
  exact_mod_cast h4

/-- **C18.** For operands below 2^53, `a/bU` is the smallest integer not below `a/b`.  (False for
larger operands: `C18_bound_needed`.) -/
theorem C18_div_up (l r : Expr) (s s1 s2 : St σ) (a b : Int64)
    (hl : E.eval l s = (.ok a, s1)) (hr : E.eval r s1 = (.ok b, s2)) (hb : b ≠ 0)
    (ha : |a.toInt| < 2 ^ 53) (hb' : |b.toInt| < 2 ^ 53) :
    ∃ q, E.eval (.div .up l r) s = (.ok q, s2) ∧ q.toInt = ⌈(a.toInt : Rat) / b.toInt⌉ := by
  refine ⟨divValue .up a b, ?_, divValue_up a b hb ha hb'⟩
  rw [eval_div_eq E _ l r s s1 s2 a b hl hr]
  simp [hb]

/-- **C18, the bound is needed**: `9007199254740993/1U` (2^53 + 1) gives 2^53, and
`9223372036854775807/1U` gives -2^63. -/
theorem C18_bound_needed (s : St σ) :
    E.eval (.div .up (.int 9007199254740993) (.int 1)) s = (.ok 9007199254740992, s) ∧
    E.eval (.div .up (.int 9223372036854775807) (.int 1)) s = (.ok (-9223372036854775808), s) := by
  have h1 : divValue .up 9007199254740993 1 = 9007199254740992 := by decide +kernel
  have h2 : divValue .up 9223372036854775807 1 = -9223372036854775808 := by decide +kernel
  constructor
  · rw [eval_div_eq E .up _ _ s s s _ _ rfl rfl, h1]; rfl
  · rw [eval_div_eq E .up _ _ s s s _ _ rfl rfl, h2]; rfl

/-- `q` is the integer nearest to `x`, halves going away from zero. -/
def IsNearest (x : Rat) (q : Int) : Prop :=
  |(q : Rat) - x| ≤ 1 / 2 ∧ (|(q : Rat) - x| = 1 / 2 → |x| < |(q : Rat)|)

theorem isNearest_unique {x : Rat} {p q : Int} (hp : IsNearest x p) (hq : IsNearest x q) : p = q := by
  obtain ⟨hp1, hp2⟩ := hp
  obtain ⟨hq1, hq2⟩ := hq
  by_contra hne
  wlog hlt : p < q generalizing p q
  · exact this hq1 hq2 hp1 hp2 (fun h => hne h.symm) (by omega)
  have h1 : (p : Rat) + 1 ≤ q := by exact_mod_cast hlt
  rw [abs_le] at hp1 hq1
  have e1 : (p : Rat) - x = -(1 / 2) := by linarith [hp1.1, hq1.2]
  have e2 : (q : Rat) - x = 1 / 2 := by linarith [hp1.1, hq1.2]
  have h2 := hp2 (by rw [e1]; norm_num)
  have h3 := hq2 (by rw [e2]; norm_num)
  have hx : x = q - 1 / 2 := by linarith
  have hpq : (p : Rat) = q - 1 := by linarith
  rw [hx, hpq] at h2
  rw [hx] at h3
  rcases le_or_gt (q : Rat) 0 with h | h
  · rw [abs_of_nonpos (by linarith), abs_of_nonpos h] at h3
    linarith
  · have : (1 : Rat) ≤ q := by exact_mod_cast (show (1 : Int) ≤ q by exact_mod_cast h)
    rw [abs_of_nonneg (by linarith), abs_of_nonneg (by linarith)] at h2
    linarith

theorem mathRound_isNearest (x : Rat) : IsNearest x (mathRound x) := by
  unfold mathRound IsNearest
  split
  · rename_i h
    have h1 := Rat.floor_le (x + 1 / 2)
    have h2 := Rat.lt_floor_add_one (x + 1 / 2)
    push_cast at h2
    have h0 : (0 : Rat) ≤ (x + 1 / 2).floor := by
      have : (0 : Int) ≤ (x + 1 / 2).floor := Rat.le_floor_iff.mpr (by push_cast; linarith)
      exact_mod_cast this
    refine ⟨by rw [abs_le]; constructor <;> linarith, ?_⟩
    intro h3
    rw [abs_of_nonneg h, abs_of_nonneg h0]
    rcases abs_choice (((x + 1 / 2).floor : Rat) - x) with h4 | h4 <;> rw [h4] at h3 <;> linarith
  · rename_i h
    have h1 := Rat.floor_le (-x + 1 / 2)
    have h2 := Rat.lt_floor_add_one (-x + 1 / 2)
    push_cast at h2 ⊢
    have h0 : (0 : Rat) ≤ (-x + 1 / 2).floor := by
      have : (0 : Int) ≤ (-x + 1 / 2).floor := Rat.le_floor_iff.mpr (by push_cast; linarith)
      exact_mod_cast this
    refine ⟨by rw [abs_le]; constructor <;> linarith, ?_⟩
    intro h3
    rw [abs_of_nonpos (by linarith : x ≤ 0), abs_neg, abs_of_nonneg h0]
    rcases abs_choice (-((-x + 1 / 2).floor : Rat) - x) with h4 | h4 <;> rw [h4] at h3 <;> linarith

/-- Rounding a quotient to float64 does not change the nearest integer. -/
theorem nearest_toF64 {a b : Int} (hb : b ≠ 0) (ha : |a| < 2 ^ 52) :
    IsNearest ((a : Rat) / b) (mathRound (toF64 ((a : Rat) / b))) := by
  have ha' : |(a : Rat)| < 2 ^ 52 := by rw [← Int.cast_abs]; exact_mod_cast ha
  set x := (a : Rat) / b with hx
  have herr : |toF64 x - x| < 1 / (2 * |(b : Rat)|) := by
    have := quot_err hb (2 ^ 52) ha'
    rw [← hx] at this
    refine this.trans_eq ?_
    have : (2 : Rat) ^ 53 = 2 ^ 52 * 2 := by norm_num
    rw [this]
    field_simp
  set q := mathRound x with hq
  have hqx : IsNearest x q := mathRound_isNearest x
  by_cases hhalf : ∃ n : Int, x = n / 2
  · obtain ⟨n, hn⟩ := hhalf
    have : toF64 x = x := by
      refine toF64_exact x 1 n (by rw [hn]; ring) ?_
      exact (abs_quot_le hb).trans_lt (by norm_num at ha' ⊢; exact ha')
    rw [this]; exact hqx
  · push Not at hhalf
    have gap : ∀ n : Int, 1 / (2 * |(b : Rat)|) ≤ |x - n / 2| := by
      intro n
      have := quot_gap (a := a) (n := n) (k := 2) hb two_pos (by rw [← hx]; exact_mod_cast hhalf n)
      rw [← hx] at this
      exact_mod_cast this
    have hfq : IsNearest (toF64 x) q := by
      generalize 1 / (2 * |(b : Rat)|) = ε at gap herr
      have g1 := gap (2 * q + 1)
      have g2 := gap (2 * q - 1)
      push_cast at g1 g2
      have h1 := hqx.1
      rw [abs_le] at h1
      rw [abs_of_nonpos (by linarith [h1.1])] at g1
      rw [abs_of_nonneg (by linarith [h1.2])] at g2
      rw [abs_lt] at herr
      have hlt : |(q : Rat) - toF64 x| < 1 / 2 := by
        rw [abs_lt]; constructor <;> linarith [herr.1, herr.2]
      exact ⟨hlt.le, fun h => absurd h hlt.ne⟩
    rw [isNearest_unique (mathRound_isNearest (toF64 x)) hfq]
    exact hqx

theorem divValue_round (a b : Int64) (hb : b ≠ 0) (ha : |a.toInt| < 2 ^ 52)
    (hb' : |b.toInt| < 2 ^ 53) :
    IsNearest ((a.toInt : Rat) / b.toInt) (divValue .round a b).toInt := by
  have hbz : b.toInt ≠ 0 := fun h => hb (Int64.toInt_inj.mp (by rw [h]; decide))
  show IsNearest _ (intOfF64 (mathRound (f64Div (f64OfInt a) (f64OfInt b)))).toInt
  rw [f64OfInt_exact a (by omega), f64OfInt_exact b hb']
  unfold f64Div
  have hn := nearest_toF64 hbz ha
  rw [intOfF64_toInt]
  · exact hn
  · have h1 := abs_quot_le (a := a.toInt) hbz
    have h2 : |(a.toInt : Rat)| < 2 ^ 52 := by rw [← Int.cast_abs]; exact_mod_cast ha
    have h3 := hn.1
    rw [abs_le] at h1 h3
    have h4 : |(mathRound (toF64 ((a.toInt : Rat) / b.toInt)) : Rat)| < 2 ^ 63 := by
      rw [abs_lt]
      constructor <;> norm_num at h2 ⊢ <;> linarith [h1.1, h1.2, h3.1, h3.2]
    rw [← Int.cast_abs] at h4
    exact_mod_cast h4

/-- **C19.** For `|a| < 2^52`, `|b| < 2^53`, `a/bR` is the integer nearest to `a/b`, halves away
from zero.  (False for larger operands: `C19_bound_needed`.) -/
theorem C19_div_round (l r : Expr) (s s1 s2 : St σ) (a b : Int64)
    (hl : E.eval l s = (.ok a, s1)) (hr : E.eval r s1 = (.ok b, s2)) (hb : b ≠ 0)
    (ha : |a.toInt| < 2 ^ 52) (hb' : |b.toInt| < 2 ^ 53) :
    ∃ q, E.eval (.div .round l r) s = (.ok q, s2) ∧
      IsNearest ((a.toInt : Rat) / b.toInt) q.toInt := by
  refine ⟨divValue .round a b, ?_, divValue_round a b hb ha hb'⟩
  rw [eval_div_eq E _ l r s s1 s2 a b hl hr]
  simp [hb]

/-- **C19, a bound is needed**: 2^53 + 1 divided by 1, rounded, gives 2^53. -/
theorem C19_bound_needed (s : St σ) :
    E.eval (.div .round (.int 9007199254740993) (.int 1)) s = (.ok 9007199254740992, s) ∧
    ¬ IsNearest ((9007199254740993 : Int) / (1 : Int) : Rat) 9007199254740992 := by
  have h1 : divValue .round 9007199254740993 1 = 9007199254740992 := by decide +kernel
  constructor
  · rw [eval_div_eq E .round _ _ s s s _ _ rfl rfl, h1]; rfl
  · rintro ⟨h, -⟩
    norm_num at h

-- non-vacuity: 7/2U = 4, -7/2U = -3, 7/2R = 4, -7/2R = -4
example : divValue .up 7 2 = 4 ∧ divValue .up (-7) 2 = -3 ∧ divValue .round 7 2 = 4 ∧
    divValue .round (-7) 2 = -4 := by decide +kernel

/-! ### C20 -/

/-- The integer is representable in 64 bits. -/
def Fits (z : Int) : Prop := -(2 ^ 63) ≤ z ∧ z < 2 ^ 63

/-- The mathematical value of an expression on given dice: integers, with every intermediate result
representable.  The dice of each roll are added as integers. -/
inductive MathVal : Expr → List Die → Int → Prop where
  | int (v : Int64) : MathVal (.int v) [] v.toInt
  | sumRoll (ds : List Die) :
      Fits (ds.map (fun d => d.value.toInt)).sum →
      MathVal (.sumRoll ds) [] (ds.map (fun d => d.value.toInt)).sum
  | neg {r : Expr} {ds : List Die} {a : Int} : MathVal r ds a → Fits (-a) → MathVal (.neg r) ds (-a)
  | add {l r : Expr} {ds es : List Die} {a b : Int} :
      MathVal l ds a → MathVal r es b → Fits (a + b) → MathVal (.bin .add l r) (ds ++ es) (a + b)
  | sub {l r : Expr} {ds es : List Die} {a b : Int} :
      MathVal l ds a → MathVal r es b → Fits (a - b) → MathVal (.bin .sub l r) (ds ++ es) (a - b)
  | mul {l r : Expr} {ds es : List Die} {a b : Int} :
      MathVal l ds a → MathVal r es b → Fits (a * b) → MathVal (.bin .mul l r) (ds ++ es) (a * b)
  | div {l r : Expr} {ds es : List Die} {a b : Int} :
      MathVal l ds a → MathVal r es b → b ≠ 0 → Fits (a.tdiv b) →
      MathVal (.div .down l r) (ds ++ es) (a.tdiv b)
  | divUp {l r : Expr} {ds es : List Die} {a b : Int} :
      MathVal l ds a → MathVal r es b → b ≠ 0 → |a| < 2 ^ 53 → |b| < 2 ^ 53 →
      MathVal (.div .up l r) (ds ++ es) ⌈(a : Rat) / b⌉
  | divRound {l r : Expr} {ds es : List Die} {a b q : Int} :
      MathVal l ds a → MathVal r es b → b ≠ 0 → |a| < 2 ^ 52 → |b| < 2 ^ 53 →
      IsNearest ((a : Rat) / b) q → MathVal (.div .round l r) (ds ++ es) q
  | d {l r : Expr} {ds es rs : List Die} {x y : Int} :
      MathVal l ds x → MathVal r es y → 1 ≤ x → x ≤ 2 ^ 44 → 1 ≤ y →
      (rs.length : Int) = x → (∀ d ∈ rs, d.sides.toInt = y) →
      Fits (rs.map (fun d => d.value.toInt)).sum →
      MathVal (.var .d l r) (ds ++ es ++ rs) (rs.map (fun d => d.value.toInt)).sum
  | rand {l r : Expr} {ds es : List Die} {lo hi : Int} {d : Die} :
      MathVal l ds lo → MathVal r es hi → lo < hi → Fits (hi - lo + 1) →
      d.sides.toInt = hi - lo + 1 → Fits (lo - 1 + d.value.toInt) →
      MathVal (.var .rand l r) (ds ++ es ++ [d]) (lo - 1 + d.value.toInt)

theorem bmod_fits {z : Int} (h : Fits z) : z.bmod (2 ^ 64) = z := by
  unfold Fits at h
  rw [Int.bmod_eq_of_le] <;> omega

theorem sum_toInt_bmod (vs : List Int64) :
    vs.sum.toInt = (vs.map Int64.toInt).sum.bmod (2 ^ 64) := by
  induction vs with
  | nil => decide
  | cons v vs ih => simp only [List.sum_cons, List.map_cons, Int64.toInt_add, ih, Int.add_bmod_bmod]

theorem sum_toInt_fits (ds : List Die) (h : Fits (ds.map (fun d => d.value.toInt)).sum) :
    (ds.map Die.value).sum.toInt = (ds.map (fun d => d.value.toInt)).sum := by
  rw [sum_toInt_bmod, List.map_map]
  exact bmod_fits h

theorem MathVal.ev {e : Expr} {ds : List Die} {z : Int} (h : MathVal e ds z) :
    ∃ v : Int64, v.toInt = z ∧ Ev e ds v := by
  induction h with
  | int v => exact ⟨v, rfl, .int v⟩
  | sumRoll ds hf => exact ⟨_, sum_toInt_fits ds hf, .sumRoll ds⟩
  | neg _ hf ih =>
    obtain ⟨v, rfl, h⟩ := ih
    exact ⟨_, by rw [Int64.toInt_neg]; exact bmod_fits hf, .neg h⟩
  | add _ _ hf ih1 ih2 =>
    obtain ⟨v, rfl, h1⟩ := ih1
    obtain ⟨w, rfl, h2⟩ := ih2
    exact ⟨_, by rw [Int64.toInt_add]; exact bmod_fits hf, .add h1 h2⟩
  | sub _ _ hf ih1 ih2 =>
    obtain ⟨v, rfl, h1⟩ := ih1
    obtain ⟨w, rfl, h2⟩ := ih2
    exact ⟨_, by rw [Int64.toInt_sub]; exact bmod_fits hf, .sub h1 h2⟩
  | mul _ _ hf ih1 ih2 =>
    obtain ⟨v, rfl, h1⟩ := ih1
    obtain ⟨w, rfl, h2⟩ := ih2
    exact ⟨_, by rw [Int64.toInt_mul]; exact bmod_fits hf, .mul h1 h2⟩
  | div _ _ hb hf ih1 ih2 =>
    obtain ⟨v, rfl, h1⟩ := ih1
    obtain ⟨w, rfl, h2⟩ := ih2
    refine ⟨divValue .down v w, ?_, .div h1 h2 (by rintro rfl; exact hb (by decide))⟩
    show (v / w).toInt = _
    rw [Int64.toInt_div]; exact bmod_fits hf
  | divUp _ _ hb ha hb' ih1 ih2 =>
    obtain ⟨v, rfl, h1⟩ := ih1
    obtain ⟨w, rfl, h2⟩ := ih2
    have hw : w ≠ 0 := by rintro rfl; exact hb (by decide)
    exact ⟨_, divValue_up v w hw ha hb', .div h1 h2 hw⟩
  | divRound _ _ hb ha hb' hn ih1 ih2 =>
    obtain ⟨v, rfl, h1⟩ := ih1
    obtain ⟨w, rfl, h2⟩ := ih2
    have hw : w ≠ 0 := by rintro rfl; exact hb (by decide)
    exact ⟨_, isNearest_unique (divValue_round v w hw ha hb') hn, .div h1 h2 hw⟩
  | d _ _ hx1 hx2 hy hlen hs hf ih1 ih2 =>
    obtain ⟨v, rfl, h1⟩ := ih1
    obtain ⟨w, rfl, h2⟩ := ih2
    refine ⟨_, sum_toInt_fits _ hf, .d h1 h2 ⟨?_, ?_, ?_, hlen, ?_⟩⟩
    · rw [Int64.le_iff_toInt_le]; exact hy
    · rw [Int64.le_iff_toInt_le]; exact hx1
    · rw [Int64.le_iff_toInt_le]; exact hx2
    · intro d hd; exact Int64.toInt_inj.mp (hs d hd)
  | rand _ _ hlt hf hs hv ih1 ih2 =>
    obtain ⟨v, rfl, h1⟩ := ih1
    obtain ⟨w, rfl, h2⟩ := ih2
    have hone : (1 : Int64).toInt = 1 := by decide
    have e1 : (w - v + 1).toInt = w.toInt - v.toInt + 1 := by
      rw [Int64.toInt_add, Int64.toInt_sub, Int.bmod_add_bmod, hone]
      exact bmod_fits hf
    refine ⟨_, ?_, .rand h1 h2 (by rw [Int64.lt_iff_toInt_lt]; exact hlt) ⟨?_, by decide, by decide,
      by simp [hone], ?_⟩⟩
    · rw [Int64.toInt_add, Int64.toInt_sub, Int.bmod_add_bmod, hone]
      exact bmod_fits hv
    · rw [Int64.le_iff_toInt_le, e1, hone]; omega
    · intro d hd
      rw [List.mem_singleton] at hd
      subst hd
      apply Int64.toInt_inj.mp
      rw [hs, e1]

/-- **C20.** If an expression has a mathematical value on dice the feeder can deliver, with every
intermediate result representable in 64 bits (operands of rounded divisions within the exact range
of C18 and C19), then `Eval` returns exactly that value and uses exactly those dice. -/
theorem C20_exact_arithmetic (e : Expr) (ds : List Die) (z : Int) (h : MathVal e ds z) (s : St σ)
    (f' : σ) (hd : Draws E.F s.feeder ds f') :
    ∃ v : Int64, v.toInt = z ∧ E.eval e s = (.ok v, ⟨f', s.log ++ ds⟩) := by
  obtain ⟨v, hv, hev⟩ := h.ev
  exact ⟨v, hv, (realizes_eval E e s _ v).mpr ⟨ds, hev, hd, rfl⟩⟩

/-- **C20, overflow.** Sums, differences, products and negations are exact modulo 2^64, whatever
the operands. -/
theorem C20_wraps (op : BinOp) (l r : Expr) (s s1 s2 : St σ) (a b : Int64)
    (hl : E.eval l s = (.ok a, s1)) (hr : E.eval r s1 = (.ok b, s2)) :
    (∃ v, E.eval (.bin op l r) s = (.ok v, s2) ∧
      v.toInt = (match op with
        | .add => a.toInt + b.toInt
        | .sub => a.toInt - b.toInt
        | .mul => a.toInt * b.toInt).bmod (2 ^ 64)) ∧
    (∃ v, E.eval (.neg l) s = (.ok v, s1) ∧ v.toInt = (-a.toInt).bmod (2 ^ 64)) := by
  constructor
  · refine ⟨op.apply a b, by simp only [Evaluator.eval, M.bind_eq, hl, hr]; rfl, ?_⟩
    cases op
    · exact Int64.toInt_add a b
    · exact Int64.toInt_sub a b
    · exact Int64.toInt_mul a b
  · exact ⟨-a, by simp only [Evaluator.eval, M.bind_eq, hl]; rfl, Int64.toInt_neg a⟩

-- non-vacuity: (2D6-1)/-2 on 6,4
example : MathVal (.div .down (.bin .sub (.var .d (.int 2) (.int 6)) (.int 1)) (.neg (.int 2)))
    [⟨6, 6⟩, ⟨4, 6⟩] (-4) := by
  have h : MathVal (.bin .sub (.var .d (.int 2) (.int 6)) (.int 1)) [⟨6, 6⟩, ⟨4, 6⟩] 9 :=
    MathVal.sub (ds := [⟨6, 6⟩, ⟨4, 6⟩]) (es := []) (a := 10) (b := 1)
      (MathVal.d (ds := []) (es := []) (x := 2) (y := 6) (rs := [⟨6, 6⟩, ⟨4, 6⟩]) (.int 2) (.int 6)
        (by decide) (by decide) (by decide) rfl (by decide) (by unfold Fits; decide))
      (.int 1) (by unfold Fits; decide)
  exact MathVal.div (ds := [⟨6, 6⟩, ⟨4, 6⟩]) (es := []) (a := 9) (b := -2) h
    (MathVal.neg (a := 2) (.int 2) (by unfold Fits; decide)) (by decide) (by unfold Fits; decide)

end GoBCDice
