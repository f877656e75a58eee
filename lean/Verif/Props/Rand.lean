import Verif.Lemmas.RandSession
import Verif.Props.Chance
import Verif.Props.Bytes

/-!
# From numbers of 63 bits to dice (C90)

The Mersenne Twister returns numbers of 63 bits; `Intn` of Go's library makes numbers below `n` of them.
-/

namespace GoBCDice
open MeasureTheory

/-- **C90.** Whatever numbers the source returns: `Intn(n)` is in [0, n). -/
theorem C90_range (w : Words) (n fuel i v j : ℕ) (h1 : 1 ≤ n) (h2 : n < 2 ^ 63)
    (h : goIntn w n fuel i = some (v, j)) : v < n ∧ i < j := by
  obtain ⟨k, hk, rfl⟩ := (goIntn_iff h1 h2 w i v j).1 ⟨fuel, h⟩
  exact ⟨by rw [hk.2.2]; exact Nat.mod_lt _ (by omega), by omega⟩

/-- **C90.** `Intn(n)` draws numbers until one is accepted: it needs more than `k` with probability at most
(1/2)^k, for every `n`. -/
theorem C90_draws (n : ℕ) (h1 : 1 ≤ n) (h2 : n < 2 ^ 63) (k i : ℕ) :
    wordChance {w | goIntn w n k i = none} ≤ 2⁻¹ ^ k :=
  le_trans (measure_mono fun _ h => goIntn_none h1 h2 h) (wordChance_rejected i h1 h2 k)

/-- **C90.** With certainty, no call of `Intn` ever hangs. -/
theorem C90_returns : ∀ᵐ w ∂wordChance, ∀ (i n : ℕ), 1 ≤ n → n < 2 ^ 63 → ∃ fuel v j, goIntn w n fuel i = some (v, j) := by
  filter_upwards [flowing_ae] with w hw i n h1 h2
  have e : (Int64.ofNat n).toInt = n := Int64.toInt_ofNat_of_lt h2
  have h := hw i (Int64.ofNat n) (by rw [Int64.le_iff_toInt_le, e]; simpa using h1)
  rw [e, Int.toNat_natCast] at h
  obtain ⟨k, v, hi⟩ := intn_exists h
  obtain ⟨fuel, hf⟩ := (goIntn_iff h1 h2 w i v (i + k + 1)).2 ⟨k, hi, rfl⟩
  exact ⟨fuel, v, _, hf⟩

/-- **C90.** There is no modulo bias: `Intn(n)` returns each of the numbers 0, …, n-1 with probability
1/n, also if 2^63 is not a multiple of n. -/
theorem C90_uniform (n v : ℕ) (hv : v < n) (h2 : n < 2 ^ 63) (i : ℕ) :
    wordChance {w | ∃ fuel j, goIntn w n fuel i = some (v, j)} = (n : ENNReal)⁻¹ := by
  have hs : (Int64.ofNat n).toInt = n := Int64.toInt_ofNat_of_lt h2
  have hvv : (Int64.ofNat (v + 1)).toInt = (v + 1 : ℕ) := Int64.toInt_ofNat_of_lt (by omega)
  let d : Die := ⟨Int64.ofNat (v + 1), Int64.ofNat n⟩
  have hf : d.Fair := by
    constructor
    · rw [Int64.le_iff_toInt_le, hvv]; simp
    · rw [Int64.le_iff_toInt_le, hvv, hs]; exact_mod_cast hv
  have h := wordChance_dice i [d]
  rw [odds_cons, odds_nil, mul_one, Die.odds, if_pos hf] at h
  have hn : d.sides.toInt.toNat = n := by simp only [d, hs, Int.toNat_natCast]
  have hd : d.value.toInt.toNat - 1 = v := by simp only [d, hvv, Int.toNat_natCast]; omega
  rw [hn] at h
  rw [← h]
  congr 1
  ext w
  simp only [Set.mem_ofPred_eq, Taken, and_true, lie_append, hitSet_fair hf, hn, hd]
  have key := fun j => goIntn_iff (n := n) (by omega) h2 w i v j
  constructor
  · rintro ⟨fuel, j, h⟩
    obtain ⟨k, hk, -⟩ := (key j).1 ⟨fuel, h⟩
    refine ⟨k, ?_, ?_⟩
    · intro m hm
      have hm' : m < k := by simpa using hm
      simpa [rejSet, hn] using hk.1 m hm'
    · intro m hm
      have : m = 0 := by simpa using hm
      subst this
      simpa using ⟨hk.2.1, hk.2.2.symm⟩
  · rintro ⟨k, h1, h2⟩
    have h3 := h2 0 (by simp)
    simp only [Nat.add_zero, List.length_replicate, List.getElem_cons_zero, Set.mem_ofPred_eq] at h3
    have : Intn w i n k v := by
      refine ⟨fun m hm => ?_, h3.1, h3.2.symm⟩
      have := h1 m (by simpa using hm)
      simpa [rejSet, hn] using this
    obtain ⟨fuel, hf⟩ := (key (i + k + 1)).2 ⟨k, this, rfl⟩
    exact ⟨fuel, _, hf⟩

/-- **C90.** A die is one more than what `Intn` returns, and the next die uses the numbers after those drawn
for this one. -/
theorem C90_next (w : Words) (sides : Int64) (h : 1 ≤ sides) (fuel i v j : ℕ)
    (hg : goIntn w sides.toInt.toNat fuel i = some (v, j)) :
    ∃ d, (mtFeeder (goRand w)).next i sides = (.ok d, j) ∧ d.sides = sides ∧ d.value.toInt = v + 1 := by
  have h1 : 1 ≤ sides.toInt := by simpa [Int64.le_iff_toInt_le] using h
  have hlt := sides.toInt_lt
  obtain ⟨k, hk, rfl⟩ := (goIntn_iff (by omega) (by omega) w i v j).1 ⟨fuel, hg⟩
  have hv : v < sides.toInt.toNat := by rw [hk.2.2]; exact Nat.mod_lt _ (by omega)
  have hs : ¬ sides ≤ 0 := by grind
  refine ⟨⟨1 + Int64.ofNat v, sides⟩, ?_, rfl, ?_⟩
  · have e := goRand_of h hk
    simp only [mtFeeder, if_neg hs]
    show (Out.ok (⟨1 + ((goRand w).intn i sides).1, sides⟩ : Die), ((goRand w).intn i sides).2) = _
    rw [e]
  · have hof : (Int64.ofNat v).toInt = v := Int64.toInt_ofNat_of_lt (by omega)
    rw [Int64.toInt_add, hof]
    show (1 + (v : Int)).bmod (2 ^ 64) = v + 1
    rw [Int.bmod_eq_of_le (by omega) (by omega)]
    omega

/-- **C90.** Dice drawn one after the other are independent and fair: a list of dice is drawn with the product
of the probabilities of its dice. -/
theorem C90_dice (i : ℕ) (ds : List Die) :
    wordChance {w | ∃ j, Draws (mtFeeder (goRand w)) i ds j} = odds ds := by
  rw [← wordChance_dice i ds]
  apply measure_congr
  filter_upwards [flowing_ae] with w hw
  exact propext (draws_go hw)

/-- **C90.** Whatever is typed in a session: the answers have the same probabilities as with perfect dice. -/
theorem C90_answers (usage : Str) (inputs : List Bytes) (A : Set (List (Out Result))) (i j : ℕ) :
    wordChance {w | (answersAlone (mtFeeder (goRand w)) (basicByteBot usage) inputs i).1 ∈ A} =
      chance {ω | (answersAlone (mtFeeder (fated ω)) (basicByteBot usage) inputs j).1 ∈ A} := by
  rw [wordChance_answers, chance_answers]

/-- **C90.** In particular for a single text, so that the formulas of C85 hold for it. -/
theorem C90_answer (usage input : Str) (E : Result → Prop) (i j : ℕ) :
    wordChance {w | ∃ r i', executeCommand (mtFeeder (goRand w)) (basicBot usage) input i = (.ok r, i') ∧ E r} =
      chance (Answered usage input j E) := by
  have h := C90_answers usage [encode input] {l | ∃ r, l = [.ok r] ∧ E r} i j
  have e : ∀ {σ : Type} (F : DieFeeder σ) (f : σ),
      (answersAlone F (basicByteBot usage) [encode input] f).1 ∈ ({l | ∃ r, l = [.ok r] ∧ E r} : Set _) ↔
        ∃ r f', executeCommand F (basicBot usage) input f = (.ok r, f') ∧ E r := by
    intro σ F f
    have := C81_text F (basicBot usage) (basicByteBot usage) rfl (fun _ _ => rfl) input f
    simp only [answersAlone, this, Set.mem_ofPred_eq]
    generalize executeCommand F (basicBot usage) input f = x
    obtain ⟨o, f'⟩ := x
    constructor
    · rintro ⟨r, h1, h2⟩
      simp only [List.cons.injEq, and_true] at h1
      exact ⟨r, f', by rw [h1], h2⟩
    · rintro ⟨r, f'', h1, h2⟩
      cases h1
      exact ⟨r, rfl, h2⟩
  simp only [e] at h
  exact h

/-! ## Examples -/

/-- Rejected and accepted numbers: 2^31 = 6 · 357913941 + 2, so the two greatest numbers of 31 bits are
rejected for a die with six sides. -/
example : goIntn (fun k => if k = 0 then ⟨(2 ^ 31 - 2) * 2 ^ 32, by decide⟩ else ⟨(2 ^ 31 - 3) * 2 ^ 32, by decide⟩)
    6 2 0 = some (5, 2) := by decide +kernel

example : goIntn (fun _ => ⟨(2 ^ 31 - 1) * 2 ^ 32 + 5, by decide⟩) 6 10 0 = none := by decide +kernel

/-- For powers of two the number is accepted at once. -/
example : goIntn (fun _ => ⟨(2 ^ 31 - 1) * 2 ^ 32 + 5, by decide⟩) 8 0 0 = some (7, 1) := by decide +kernel

/-- Big numbers use all bits. -/
example : goIntn (fun _ => ⟨2 ^ 63 - 2 ^ 32, by decide⟩) (2 ^ 31 + 1) 5 0 = some ((2 ^ 63 - 2 ^ 32) % (2 ^ 31 + 1), 1) := by
  decide +kernel

/-- A die with six sides. -/
example (i : ℕ) : wordChance {w | ∃ fuel j, goIntn w 6 fuel i = some (3, j)} = 6⁻¹ := by
  exact_mod_cast C90_uniform 6 3 (by decide) (by decide) i

/-- `2D6>=7` succeeds in 21 of 36 cases, starting from the numbers of 63 bits. -/
example (usage : Str) (i : ℕ) :
    wordChance {w | ∃ r i', executeCommand (mtFeeder (goRand w)) (basicBot usage) chars!"2D6>=7" i = (.ok r, i') ∧
      r.success = .success} = 21 / 36 := by
  rw [C90_answer (j := i)]
  have h := C85_success (usage := usage) (x := 2) (y := 6) (op := .ge) (t := 7)
    (Marked.plain (body := chars!"2D6>=7") (by decide))
    ((C27_language _ _).mp (by decide)) (by decide) (by decide) (by decide) i
  have c : (allFaces (List.replicate (2 : Int64).toInt.toNat 6)).countP
      (fun vs => CmpOp.ge.Rel vs.sum.toInt (7 : Int64).toInt) = 21 := by decide
  have d : (6 : Int64).toInt.toNat ^ (2 : Int64).toInt.toNat = 36 := by decide
  rw [c, d] at h
  exact_mod_cast h

end GoBCDice
