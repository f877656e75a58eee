import Verif.Spec.Float
import Verif.Lemmas.Float
import Mathlib.Data.Rat.Floor

/-! # `toF64` is rounding to the nearest double, ties to even -/

namespace GoBCDice

theorem two_zpow_le {a b : Int} (h : a ≤ b) : (2 : Rat) ^ a ≤ 2 ^ b :=
  zpow_le_zpow_right₀ (by norm_num) h

theorem zpow_split {a b : Int} (h : a ≤ b) : ∃ k : Nat, (2 : Rat) ^ b = ((2 ^ k : Int) : Rat) * 2 ^ a := by
  obtain ⟨k, hk⟩ := Int.eq_ofNat_of_zero_le (show 0 ≤ b - a by omega)
  refine ⟨k, ?_⟩
  rw [show b = (k : Int) + a by omega, zpow_add₀ (by norm_num), zpow_natCast]
  push_cast
  ring

/-- Rounding is a function. -/
theorem RoundsTo.unique {x y y' : Rat} (h : RoundsTo x y) (h' : RoundsTo x y') : y = y' := by
  by_contra hne
  wlog hlt : y < y' generalizing y y'
  · exact this h' h (fun e => hne e.symm) (lt_of_le_of_ne (not_lt.mp hlt) (fun e => hne e.symm))
  have heq : |x - y| = |x - y'| := le_antisymm (h.nearest _ h'.double) (h'.nearest _ h.double)
  obtain ⟨m, e, hm, he1, he2, hy⟩ := h.even y' h'.double (fun e => hne e.symm) heq.symm
  obtain ⟨m', e', hm', he1', he2', hy'⟩ := h'.even y h.double hne heq
  have hmid : x - y = y' - x := by
    rcases abs_eq_abs.mp heq with h1 | h1
    · exact absurd (by linarith) hne
    · linarith
  have hpe : (0 : Rat) < 2 ^ e := by positivity
  have hpe' : (0 : Rat) < 2 ^ e' := by positivity
  -- nothing representable lies strictly between
  have hno : ∀ z, IsDouble z → y < z → y' ≤ z := by
    intro z hz h1
    by_contra h2
    have h2 := not_le.mp h2
    have := h.nearest z hz
    rw [abs_of_nonneg (by linarith)] at this
    rcases le_total x z with h3 | h3
    · rw [abs_of_nonpos (by linarith)] at this; linarith
    · rw [abs_of_nonneg (by linarith)] at this; linarith
  have h1 : y' - y ≤ 2 ^ e := by
    have := hno (((2 * m + 1 : Int) : Rat) * 2 ^ e)
      ⟨2 * m + 1, e, by rw [abs_lt] at hm ⊢; omega, he1, he2, rfl⟩
      (by rw [hy]; push_cast; nlinarith)
    rw [hy]
    push_cast at this ⊢
    nlinarith
  have h2 : y' - y ≤ 2 ^ e' := by
    by_contra hc
    have hc := not_le.mp hc
    have := hno (((2 * m' - 1 : Int) : Rat) * 2 ^ e')
      ⟨2 * m' - 1, e', by rw [abs_lt] at hm' ⊢; omega, he1', he2', rfl⟩
      (by rw [hy'] at hc; push_cast at hc ⊢; nlinarith)
    rw [hy'] at this
    push_cast at this
    nlinarith
  rcases le_total e e' with hee | hee
  · obtain ⟨k, hk⟩ := zpow_split hee
    have h3 : y' - y = ((2 * (m' * 2 ^ k - m) : Int) : Rat) * 2 ^ e := by
      rw [hy, hy', hk]; push_cast; ring
    have h4 : (0 : Rat) < ((2 * (m' * 2 ^ k - m) : Int) : Rat) := by
      by_contra hc
      nlinarith [not_lt.mp hc]
    have h5 : (1 : Int) ≤ m' * 2 ^ k - m := by
      have : (0 : Int) < 2 * (m' * 2 ^ k - m) := by exact_mod_cast h4
      omega
    have h6 : (2 : Rat) ≤ ((2 * (m' * 2 ^ k - m) : Int) : Rat) := by
      have h6 : (2 : Int) ≤ 2 * (m' * 2 ^ k - m) := by omega
      exact_mod_cast h6
    nlinarith
  · obtain ⟨k, hk⟩ := zpow_split hee
    have h3 : y' - y = ((2 * (m' - m * 2 ^ k) : Int) : Rat) * 2 ^ e' := by
      rw [hy, hy', hk]; push_cast; ring
    have h4 : (0 : Rat) < ((2 * (m' - m * 2 ^ k) : Int) : Rat) := by
      by_contra hc
      nlinarith [not_lt.mp hc]
    have h5 : (1 : Int) ≤ m' - m * 2 ^ k := by
      have : (0 : Int) < 2 * (m' - m * 2 ^ k) := by exact_mod_cast h4
      omega
    have h6 : (2 : Rat) ≤ ((2 * (m' - m * 2 ^ k) : Int) : Rat) := by
      have h6 : (2 : Int) ≤ 2 * (m' - m * 2 ^ k) := by omega
      exact_mod_cast h6
    nlinarith

theorem ilog2_lt {x : Rat} (hx : x ≠ 0) : |x| < (2 : Rat) ^ (ilog2 x + 1) := by
  unfold ilog2
  simp only [rat_abs_eq]
  have hn : x.num.natAbs ≠ 0 := by simpa using hx
  have h1 : (x.num.natAbs : Rat) < 2 ^ (Nat.log2 x.num.natAbs + 1) := by
    exact_mod_cast Nat.lt_log2_self
  have h2 : (2 : Rat) ^ (Nat.log2 x.den) ≤ x.den := by
    exact_mod_cast Nat.log2_self_le x.den_nz
  have hd : (0 : Rat) < x.den := by exact_mod_cast x.den_pos
  have h3 : |x| = (x.num.natAbs : Rat) / x.den := by
    conv_lhs => rw [← Rat.num_div_den x]
    rw [abs_div, abs_of_pos hd, Nat.cast_natAbs, Int.cast_abs]
  split
  · rename_i h
    rw [h3, show (Nat.log2 x.num.natAbs : Int) - (Nat.log2 x.den : Int) + 1 =
        ((Nat.log2 x.num.natAbs + 1 : Nat) : Int) - (Nat.log2 x.den : Int) by push_cast; ring,
        zpow_sub₀ (by norm_num), zpow_natCast, zpow_natCast, div_lt_div_iff₀ hd (by positivity)]
    calc (x.num.natAbs : Rat) * 2 ^ (Nat.log2 x.den) ≤ x.num.natAbs * x.den :=
          mul_le_mul_of_nonneg_left h2 (by positivity)
      _ < _ := mul_lt_mul_of_pos_right h1 hd
  · rename_i h
    rw [pow2_eq] at h
    rw [sub_add_cancel]
    exact not_le.mp h

theorem roundHalfEven_nearest (x : Rat) (k : Int) : |x - roundHalfEven x| ≤ |x - k| := by
  have h1 := roundHalfEven_err x
  rw [abs_sub_comm] at h1
  by_cases hk : k = roundHalfEven x
  · rw [hk]
  · have h2 : (1 : Rat) ≤ |(k : Rat) - roundHalfEven x| := by
      have : (1 : Int) ≤ |k - roundHalfEven x| := Int.one_le_abs (by omega)
      exact_mod_cast this
    have h3 : |(k : Rat) - roundHalfEven x| ≤ |(k : Rat) - x| + |x - roundHalfEven x| := by
      have := abs_add_le ((k : Rat) - x) (x - roundHalfEven x)
      simpa using this
    rw [abs_sub_comm (k : Rat) x] at h3
    linarith

theorem roundHalfEven_tie (x : Rat) (k : Int) (hk : k ≠ roundHalfEven x)
    (h : |x - k| = |x - roundHalfEven x|) : roundHalfEven x % 2 = 0 := by
  have h0 := roundHalfEven_err x
  rw [abs_sub_comm] at h0
  have h2 : (1 : Rat) ≤ |(k : Rat) - roundHalfEven x| := by
    have : (1 : Int) ≤ |k - roundHalfEven x| := Int.one_le_abs (by omega)
    exact_mod_cast this
  have h3 : |(k : Rat) - roundHalfEven x| ≤ |(k : Rat) - x| + |x - roundHalfEven x| := by
    have := abs_add_le ((k : Rat) - x) (x - roundHalfEven x)
    simpa using this
  rw [abs_sub_comm (k : Rat) x] at h3
  have h4 : |x - roundHalfEven x| = 1 / 2 := by linarith
  clear h h0 h2 h3 hk
  have hf1 := Rat.floor_le x
  have hf2 := Rat.lt_floor_add_one x
  push_cast at hf2
  revert h4
  unfold roundHalfEven
  simp only
  split
  · intro h4; rw [abs_of_nonneg (by linarith)] at h4; linarith
  · split
    · intro h4; push_cast at h4; rw [abs_of_nonpos (by linarith)] at h4; linarith
    · split
      · intro _; assumption
      · intro _; omega

theorem isDouble_zero : IsDouble 0 := ⟨0, 0, by norm_num, by norm_num, by norm_num, by simp⟩

/-- For numbers of ordinary size `toF64` is IEEE rounding. -/
theorem toF64_roundsTo (x : Rat) (hx : x = 0 ∨ (2 : Rat) ^ (-1000 : Int) ≤ |x| ∧ |x| ≤ 2 ^ (1000 : Int)) :
    RoundsTo x (toF64 x) := by
  by_cases h0 : x = 0
  · subst h0
    refine ⟨by simpa [toF64] using isDouble_zero, ?_, ?_⟩
    · intro z _; simp [toF64]
    · intro z _ hz h
      simp [toF64] at h hz
      exact absurd h hz
  · obtain ⟨hlo, hhi⟩ := hx.resolve_left h0
    have hL1 := pow2_ilog2_le h0
    rw [pow2_eq] at hL1
    have hL2 := ilog2_lt h0
    have hLlo : -1000 ≤ ilog2 x := by
      have := hlo.trans_lt hL2
      rw [zpow_lt_zpow_iff_right₀ (by norm_num)] at this
      omega
    have hLhi : ilog2 x ≤ 1000 := by
      have := hL1.trans hhi
      rwa [zpow_le_zpow_iff_right₀ (by norm_num)] at this
    generalize hL : ilog2 x = L at hL1 hL2 hLlo hLhi
    have hu : (0 : Rat) < 2 ^ (L - 52) := by positivity
    have hval : toF64 x = (roundHalfEven (x / 2 ^ (L - 52)) : Rat) * 2 ^ (L - 52) := by
      unfold toF64
      rw [if_neg h0]
      simp only [pow2_eq, hL]
    rw [hval]
    generalize hn : roundHalfEven (x / 2 ^ (L - 52)) = n
    have hxu : x = x / 2 ^ (L - 52) * 2 ^ (L - 52) := by field_simp
    have hdist : ∀ k : Int, |x - k * 2 ^ (L - 52)| = |x / 2 ^ (L - 52) - k| * 2 ^ (L - 52) := by
      intro k
      conv_lhs => rw [hxu, ← sub_mul, abs_mul, abs_of_pos hu]
    have e52 : (2 : Rat) ^ L = 2 ^ 52 * 2 ^ (L - 52) := by
      rw [show L = ((52 : Nat) : Int) + (L - 52) by push_cast; ring, zpow_add₀ (by norm_num), zpow_natCast]
      push_cast
      ring_nf
    have e53 : (2 : Rat) ^ (L + 1) = 2 ^ 53 * 2 ^ (L - 52) := by
      rw [zpow_add₀ (by norm_num), e52]; ring
    -- the integer has at most 53 bits
    have habs : |x| = |x / 2 ^ (L - 52)| * 2 ^ (L - 52) := by
      conv_lhs => rw [hxu, abs_mul, abs_of_pos hu]
    have hq2 : |x / 2 ^ (L - 52)| < 2 ^ 53 := by
      rw [habs, e53] at hL2
      exact lt_of_mul_lt_mul_right hL2 hu.le
    have hnb : |n| ≤ 2 ^ 53 := by
      have h1 := roundHalfEven_err (x / 2 ^ (L - 52))
      rw [hn] at h1
      have h2 := abs_add_le ((n : Rat) - x / 2 ^ (L - 52)) (x / 2 ^ (L - 52))
      rw [sub_add_cancel] at h2
      have h3 : ((|n| : Int) : Rat) < ((2 ^ 53 + 1 : Int) : Rat) := by
        rw [Int.cast_abs]; push_cast; linarith
      have : |n| < 2 ^ 53 + 1 := by exact_mod_cast h3
      omega
    -- a sign with the power of two below x
    obtain ⟨k0, hk0, hk0b⟩ : ∃ k : Int, (k : Rat) * 2 ^ (L - 52) = (if 0 ≤ x then 1 else -1) * 2 ^ L ∧ True := by
      refine ⟨if 0 ≤ x then 2 ^ 52 else -2 ^ 52, ?_, trivial⟩
      rw [e52]
      split <;> push_cast <;> ring
    have hsmall : ∀ z, |z| < (2 : Rat) ^ L → |x - k0 * 2 ^ (L - 52)| < |x - z| := by
      intro z hz
      rw [hk0]
      rw [abs_lt] at hz
      split
      · rename_i hpos
        rw [abs_of_nonneg hpos] at hL1
        rw [abs_of_nonneg (by linarith), abs_of_nonneg (by linarith)]
        linarith
      · rename_i hneg
        rw [abs_of_nonpos (by linarith)] at hL1
        rw [abs_of_nonpos (by linarith), abs_of_nonpos (by linarith)]
        linarith
    have hlat : ∀ k : Int, |x - n * 2 ^ (L - 52)| ≤ |x - k * 2 ^ (L - 52)| := by
      intro k
      rw [hdist, hdist]
      refine mul_le_mul_of_nonneg_right ?_ hu.le
      rw [← hn]
      exact roundHalfEven_nearest _ _
    -- a double is small or a multiple of the unit
    have hcases : ∀ z, IsDouble z → (∃ k : Int, z = k * 2 ^ (L - 52)) ∨ |z| < 2 ^ L := by
      rintro z ⟨m, e, hm, _, _, rfl⟩
      by_cases he : L - 52 ≤ e
      · obtain ⟨j, hj⟩ := zpow_split he
        exact .inl ⟨m * 2 ^ j, by rw [hj]; push_cast; ring⟩
      · right
        have h1 : ((|m| : Int) : Rat) < ((2 ^ 53 : Int) : Rat) := by exact_mod_cast hm
        rw [Int.cast_abs] at h1
        push_cast at h1
        rw [abs_mul, abs_of_pos (by positivity : (0 : Rat) < 2 ^ e)]
        have h2 : (2 : Rat) ^ e ≤ 2 ^ (L - 53) := two_zpow_le (by omega)
        have h3 : (2 : Rat) ^ L = 2 ^ 53 * 2 ^ (L - 53) := by
          rw [show L = ((53 : Nat) : Int) + (L - 53) by push_cast; ring, zpow_add₀ (by norm_num), zpow_natCast]
          push_cast
          ring_nf
        rw [h3]
        calc |(m : Rat)| * 2 ^ e ≤ |(m : Rat)| * 2 ^ (L - 53) := mul_le_mul_of_nonneg_left h2 (abs_nonneg _)
          _ < _ := mul_lt_mul_of_pos_right h1 (by positivity)
    have e51 : (2 : Rat) ^ (L - 51) = 2 * 2 ^ (L - 52) := by
      rw [show L - 51 = 1 + (L - 52) by ring, zpow_add₀ (by norm_num)]; simp
    refine ⟨?_, ?_, ?_⟩
    · by_cases hlt : |n| < 2 ^ 53
      · exact ⟨n, L - 52, hlt, by omega, by omega, rfl⟩
      · have : n = 2 ^ 53 ∨ n = -2 ^ 53 := by
          rcases abs_cases n with ⟨h1, _⟩ | ⟨h1, _⟩ <;> omega
        rcases this with rfl | rfl
        · exact ⟨2 ^ 52, L - 51, by norm_num, by omega, by omega, by rw [e51]; push_cast; ring⟩
        · exact ⟨-2 ^ 52, L - 51, by norm_num, by omega, by omega, by rw [e51]; push_cast; ring⟩
    · intro z hz
      rcases hcases z hz with ⟨k, rfl⟩ | h
      · exact hlat k
      · exact (hlat k0).trans (hsmall z h).le
    · intro z hz hne heq
      rcases hcases z hz with ⟨k, rfl⟩ | h
      · have hkn : k ≠ n := fun e => hne (by rw [e])
        rw [hdist, hdist] at heq
        have heq := mul_right_cancel₀ hu.ne' heq
        rw [← hn] at heq hkn
        have heven := roundHalfEven_tie _ k hkn heq
        rw [hn] at heven
        by_cases hlt : |n| < 2 ^ 53
        · refine ⟨n / 2, L - 52, ?_, by omega, by omega, ?_⟩
          · rw [show 2 * (n / 2) = n by omega]; exact hlt
          · rw [show 2 * (n / 2) = n by omega]
        · have : n = 2 ^ 53 ∨ n = -2 ^ 53 := by
            rcases abs_cases n with ⟨h1, _⟩ | ⟨h1, _⟩ <;> omega
          rcases this with rfl | rfl
          · exact ⟨2 ^ 51, L - 51, by norm_num, by omega, by omega, by rw [e51]; push_cast; ring⟩
          · exact ⟨-2 ^ 51, L - 51, by norm_num, by omega, by omega, by rw [e51]; push_cast; ring⟩
      · have := (hlat k0).trans_lt (hsmall z h)
        rw [heq] at this
        exact absurd this (lt_irrefl _)

end GoBCDice
