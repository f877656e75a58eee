import Verif.Basic

/-! # Decimal numerals -/

namespace GoBCDice

theorem isDigit_eq (c : Char) : isDigit c = c.isDigit := by
  simp [isDigit, Char.isDigit, Char.le_def]

theorem natStr_isDigit (n : Nat) : ∀ c ∈ natStr n, isDigit c = true := by
  intro c hc
  rw [isDigit_eq]
  exact Nat.isDigit_of_mem_toDigits (by decide) (by decide) hc

theorem natStr_ne_nil (n : Nat) : natStr n ≠ [] := Nat.toDigits_ne_nil

theorem digitsVal_natStr (n : Nat) : digitsVal (natStr n) = n := by
  have : digitsVal (natStr n) = Nat.ofDigitChars 10 (Nat.toDigits 10 n) 0 := by
    rw [Nat.ofDigitChars_eq_foldl]; rfl
  rw [this, Nat.ofDigitChars_ten_toDigits]

theorem natStr_inj {m n : Nat} (h : natStr m = natStr n) : m = n := by
  rw [← digitsVal_natStr m, h, digitsVal_natStr]

theorem natStr_head_ne_minus (n : Nat) (s : Str) : natStr n ≠ '-' :: s := by
  intro h
  have := natStr_isDigit n '-' (by rw [h]; simp)
  exact absurd this (by decide)

theorem intStr_inj {a b : Int64} (h : intStr a = intStr b) : a = b := by
  apply Int64.toInt_inj.mp
  unfold intStr at h
  split at h <;> split at h
  · have := natStr_inj (List.cons.inj h).2; omega
  · exact absurd h.symm (natStr_head_ne_minus _ _)
  · exact absurd h (natStr_head_ne_minus _ _)
  · have := natStr_inj h; omega

theorem atoiSat_natStr (n : Nat) (h : n < 2 ^ 63) : (atoiSat (natStr n)).toInt = n := by
  unfold atoiSat
  have hs : Int64.size = 2 ^ 64 := rfl
  rw [digitsVal_natStr, Int64.toInt_ofInt, hs, Int.bmod_eq_of_le] <;> omega

/-- Reading back a non-negative literal. -/
theorem atoiSat_intStr (v : Int64) (h : 0 ≤ v) : atoiSat (intStr v) = v := by
  have h0 : 0 ≤ v.toInt := by
    rw [Int64.le_iff_toInt_le] at h; simpa using h
  have h1 := Int64.toInt_lt v
  apply Int64.toInt_inj.mp
  unfold intStr
  rw [if_neg (by omega), atoiSat_natStr _ (by omega)]
  omega

end GoBCDice
