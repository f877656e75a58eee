import Verif.Float
import Mathlib.Tactic.Linarith
import Mathlib.Tactic.FieldSimp
import Mathlib.Tactic.Positivity
import Mathlib.Tactic.NormNum
import Mathlib.Tactic.Ring
import Mathlib.Algebra.Order.Field.Rat
import Mathlib.Data.Rat.Cast.Order
import Mathlib.Algebra.Order.Field.Power
import Mathlib.Data.Rat.Lemmas

/-! # Error bounds for the float64 fragment -/

namespace GoBCDice

theorem pow2_eq (e : Int) : pow2 e = (2 : Rat) ^ e := by
  unfold pow2
  split
  · rename_i h
    obtain ⟨n, rfl⟩ := Int.eq_ofNat_of_zero_le h
    simp
  · rename_i h
    obtain ⟨n, hn⟩ := Int.eq_ofNat_of_zero_le (show 0 ≤ -e by omega)
    have : e = -(n : Int) := by omega
    subst this
    simp

theorem pow2_pos (e : Int) : 0 < pow2 e := by rw [pow2_eq]; positivity

theorem rat_abs_eq (x : Rat) : x.abs = |x| := by
  unfold Rat.abs
  split
  · rename_i h; rw [abs_of_nonneg h]
  · rename_i h; rw [abs_of_nonpos (by linarith)]

theorem pow2_ilog2_le {x : Rat} (hx : x ≠ 0) : pow2 (ilog2 x) ≤ |x| := by
  unfold ilog2
  simp only [rat_abs_eq]
  split
  · assumption
  · rw [pow2_eq]
    have hn : x.num.natAbs ≠ 0 := by simpa using hx
    have h1 : (2 : Rat) ^ (Nat.log2 x.num.natAbs) ≤ x.num.natAbs := by
      exact_mod_cast Nat.log2_self_le hn
    have h2 : (x.den : Rat) < 2 ^ (Nat.log2 x.den + 1) := by
      exact_mod_cast Nat.lt_log2_self
    have hd : (0 : Rat) < x.den := by exact_mod_cast x.den_pos
    have h3 : |x| = (x.num.natAbs : Rat) / x.den := by
      conv_lhs => rw [← Rat.num_div_den x]
      rw [abs_div, abs_of_pos hd, Nat.cast_natAbs, Int.cast_abs]
    have h4 : (2 : Rat) ^ ((Nat.log2 x.num.natAbs : Int) - (Nat.log2 x.den : Int) - 1) =
        2 ^ (Nat.log2 x.num.natAbs) / 2 ^ (Nat.log2 x.den + 1) := by
      rw [show (Nat.log2 x.num.natAbs : Int) - (Nat.log2 x.den : Int) - 1 =
        (Nat.log2 x.num.natAbs : Int) - ((Nat.log2 x.den + 1 : Nat) : Int) by push_cast; ring,
        zpow_sub₀ (by norm_num), zpow_natCast, zpow_natCast]
    rw [h3, h4, div_le_div_iff₀ (by positivity) hd]
    exact mul_le_mul h1 h2.le hd.le (by positivity)

theorem roundHalfEven_err (x : Rat) : |(roundHalfEven x : Rat) - x| ≤ 1 / 2 := by
  have h1 := Rat.floor_le x
  have h2 := Rat.lt_floor_add_one x
  push_cast at h2
  unfold roundHalfEven
  simp only
  rw [abs_le]
  split
  · constructor <;> linarith
  · split
    · push_cast; constructor <;> linarith
    · split
      · constructor <;> linarith
      · push_cast; constructor <;> linarith

theorem roundHalfEven_int (n : Int) : roundHalfEven (n : Rat) = n := by
  unfold roundHalfEven
  simp [Rat.floor_intCast]

theorem toF64_err (x : Rat) : |toF64 x - x| ≤ |x| / 2 ^ 53 := by
  unfold toF64
  split
  · rename_i h; simp [h]
  · rename_i h
    simp only
    set u := pow2 (ilog2 x - 52) with hu
    have hup : 0 < u := pow2_pos _
    have h1 := roundHalfEven_err (x / u)
    have h2 : (roundHalfEven (x / u) : Rat) * u - x = ((roundHalfEven (x / u) : Rat) - x / u) * u := by
      field_simp
    rw [h2, abs_mul, abs_of_pos hup]
    have h3 := pow2_ilog2_le h
    have h4 : u = pow2 (ilog2 x) / 2 ^ 52 := by
      rw [hu, pow2_eq, pow2_eq, zpow_sub₀ (by norm_num)]
      norm_num
    have h5 : |(roundHalfEven (x / u) : Rat) - x / u| * u ≤ 1 / 2 * u :=
      mul_le_mul_of_nonneg_right h1 hup.le
    refine h5.trans ?_
    rw [h4]
    have : (2 : Rat) ^ 53 = 2 ^ 52 * 2 := by norm_num
    rw [this]
    have h6 : pow2 (ilog2 x) / 2 ^ 52 ≤ |x| / 2 ^ 52 := div_le_div_of_nonneg_right h3 (by positivity)
    have h7 : |x| / (2 ^ 52 * 2) = 1 / 2 * (|x| / 2 ^ 52) := by ring
    rw [h7]
    linarith

/-- Integer multiples of 2^-k below 2^(53-k) are exact. -/
theorem toF64_exact (x : Rat) (k : Nat) (n : Int) (hx : x * 2 ^ k = n)
    (hb : |x| < 2 ^ (53 - k : Int)) : toF64 x = x := by
  unfold toF64
  split
  · rename_i h; rw [h]
  · rename_i h
    simp only
    have h1 := (pow2_ilog2_le h).trans_lt hb
    rw [pow2_eq, zpow_lt_zpow_iff_right₀ (by norm_num)] at h1
    have hup := pow2_pos (ilog2 x - 52)
    obtain ⟨j, hj⟩ := Int.eq_ofNat_of_zero_le (show 0 ≤ 52 - k - ilog2 x by omega)
    have h2 : x / pow2 (ilog2 x - 52) = ((n * 2 ^ j : Int) : Rat) := by
      push_cast
      rw [← hx, pow2_eq, show ilog2 x - 52 = -((j + k : Nat) : Int) by push_cast; omega, zpow_neg,
        zpow_natCast, pow_add, div_inv_eq_mul]
      ring
    rw [h2, roundHalfEven_int, ← h2]
    field_simp

theorem toF64_int (n : Int) (hb : |n| < 2 ^ 53) : toF64 (n : Rat) = n := by
  refine toF64_exact _ 0 n (by simp) ?_
  rw [← Int.cast_abs]
  have : ((|n| : Int) : Rat) < ((2 ^ 53 : Int) : Rat) := by exact_mod_cast hb
  norm_num at this ⊢
  exact this

end GoBCDice
