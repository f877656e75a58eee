import Verif.Spec.Rand
import Verif.Lemmas.Chance

/-!
# Rejection sampling
-/

namespace GoBCDice
open MeasureTheory

/-! ## What `Intn` takes and returns -/

theorem rejectLoop_iff {draw : Nat → Nat} {max i v j : Nat} :
    (∃ fuel, rejectLoop draw max fuel i = some (v, j)) ↔
      ∃ k, (∀ m < k, max < draw (i + m)) ∧ draw (i + k) ≤ max ∧ v = draw (i + k) ∧ j = i + k + 1 := by
  constructor
  · rintro ⟨fuel, h⟩
    induction fuel generalizing i with
    | zero => cases h
    | succ fuel ih =>
      unfold rejectLoop at h
      split at h
      · rename_i hgt
        obtain ⟨k, h1, h2, h3, h4⟩ := ih h
        refine ⟨k + 1, ?_, ?_, ?_, by omega⟩
        · intro m hm
          cases m with
          | zero => exact hgt
          | succ m =>
            have := h1 m (by omega)
            rwa [show i + 1 + m = i + (m + 1) by omega] at this
        · rwa [show i + 1 + k = i + (k + 1) by omega] at h2
        · rw [h3, show i + 1 + k = i + (k + 1) by omega]
      · rename_i hle
        cases h
        exact ⟨0, by omega, by simpa using hle, rfl, rfl⟩
  · rintro ⟨k, h1, h2, rfl, rfl⟩
    refine ⟨k + 1, ?_⟩
    induction k generalizing i with
    | zero =>
      unfold rejectLoop
      rw [if_neg (by simpa using h2)]
      rfl
    | succ k ih =>
      unfold rejectLoop
      rw [if_pos (show draw i > max from h1 0 (by omega)), ih]
      · rw [show i + 1 + k = i + (k + 1) by omega]
      · intro m hm
        have := h1 (m + 1) (by omega)
        rwa [show i + 1 + m = i + (m + 1) by omega]
      · rwa [show i + 1 + k = i + (k + 1) by omega]

/-- The number of bits `Intn(n)` draws. -/
def bitsFor (n : Nat) : Nat := if n ≤ 2 ^ 31 - 1 then 31 else 63

/-- The number it draws. -/
def drawFor (n : Nat) (w : Fin (2 ^ 63)) : Nat := if n ≤ 2 ^ 31 - 1 then w.val >>> 32 else w.val

/-- It is not rejected. -/
def Acc (n : Nat) (w : Fin (2 ^ 63)) : Prop := drawFor n w < n * (2 ^ bitsFor n / n)

instance (n : Nat) : DecidablePred (Acc n) := fun w => inferInstanceAs (Decidable (_ < _))

theorem drawFor_lt (n : Nat) (w : Fin (2 ^ 63)) : drawFor n w < 2 ^ bitsFor n := by
  unfold drawFor bitsFor
  have := w.isLt
  split
  · rw [Nat.shiftRight_eq_div_pow]
    omega
  · exact this

theorem le_bits {n : Nat} (h : n < 2 ^ 63) : n < 2 ^ bitsFor n := by
  unfold bitsFor
  split <;> omega

theorem mul_div_bits (n : Nat) : n * (2 ^ bitsFor n / n) = 2 ^ bitsFor n - 2 ^ bitsFor n % n := by
  have := Nat.div_add_mod (2 ^ bitsFor n) n
  omega

theorem numberBelow_iff {n : Nat} (h1 : 1 ≤ n) (h2 : n < 2 ^ 63) (w : Words) (i v j : Nat) :
    (∃ fuel, numberBelow (bitsFor n) (fun k => drawFor n (w k)) n fuel i = some (v, j)) ↔
      ∃ k, (∀ m < k, ¬ Acc n (w (i + m))) ∧ Acc n (w (i + k)) ∧ v = drawFor n (w (i + k)) % n ∧ j = i + k + 1 := by
  unfold numberBelow
  by_cases hp : n &&& (n - 1) = 0
  · have hpow := (Nat.and_sub_one_eq_zero_iff_isPowerOfTwo (by omega)).1 hp
    obtain ⟨e, he⟩ := hpow
    have hle : e ≤ bitsFor n := by
      have := le_bits h2
      generalize bitsFor n = b at this ⊢
      rw [he] at this
      exact ((Nat.pow_lt_pow_iff_right (a := 2) (by decide)).1 this).le
    have hdvd : n ∣ 2 ^ bitsFor n := by
      have : (2:ℕ) ^ e ∣ 2 ^ bitsFor n := Nat.pow_dvd_pow 2 hle
      rwa [← he] at this
    have hacc : ∀ x, Acc n x := by
      intro x
      unfold Acc
      rw [mul_div_bits, Nat.mod_eq_zero_of_dvd hdvd, Nat.sub_zero]
      exact drawFor_lt n x
    simp only [if_pos hp]
    have hand : ∀ x : Nat, x &&& (n - 1) = x % n := by
      intro x
      rw [he]
      exact Nat.and_two_pow_sub_one_eq_mod x e
    constructor
    · rintro ⟨-, h⟩
      cases h
      exact ⟨0, by omega, hacc _, hand _, rfl⟩
    · rintro ⟨k, h, -, rfl, rfl⟩
      cases k with
      | zero => exact ⟨0, by rw [hand]; rfl⟩
      | succ k => exact absurd (hacc _) (h 0 (by omega))
  · simp only [if_neg hp]
    have hmax : ∀ x, drawFor n x ≤ 2 ^ bitsFor n - 1 - 2 ^ bitsFor n % n ↔ Acc n x := by
      intro x
      unfold Acc
      rw [mul_div_bits]
      have a : 2 ^ bitsFor n % n < n := Nat.mod_lt _ (by omega)
      have b := le_bits h2
      omega
    have key := @rejectLoop_iff (fun k => drawFor n (w k)) (2 ^ bitsFor n - 1 - 2 ^ bitsFor n % n) i
    constructor
    · rintro ⟨fuel, h⟩
      cases hr : rejectLoop (fun k => drawFor n (w k)) (2 ^ bitsFor n - 1 - 2 ^ bitsFor n % n) fuel i with
      | none => rw [hr] at h; cases h
      | some p =>
        obtain ⟨a, b⟩ := p
        rw [hr] at h
        cases h
        obtain ⟨k, h1, h2, rfl, rfl⟩ := key.1 ⟨fuel, hr⟩
        exact ⟨k, fun m hm => by rw [← hmax]; exact Nat.not_le.2 (h1 m hm), (hmax _).1 h2, rfl, rfl⟩
    · rintro ⟨k, h1, h2, rfl, rfl⟩
      obtain ⟨fuel, hf⟩ := (key (v := drawFor n (w (i + k))) (j := i + k + 1)).2
        ⟨k, fun m hm => Nat.not_le.1 (fun hle => h1 m hm ((hmax _).1 hle)), (hmax _).2 h2, rfl, rfl⟩
      exact ⟨fuel, by rw [hf]; rfl⟩

theorem goIntn_eq (w : Words) (n fuel i : Nat) :
    goIntn w n fuel i = numberBelow (bitsFor n) (fun k => drawFor n (w k)) n fuel i := by
  unfold goIntn bitsFor drawFor
  split <;> rfl

/-- `Intn(n)` returns `v`, having drawn `k + 1` numbers. -/
def Intn (w : Words) (i n k v : Nat) : Prop :=
  (∀ m < k, ¬ Acc n (w (i + m))) ∧ Acc n (w (i + k)) ∧ v = drawFor n (w (i + k)) % n

theorem Intn.unique {w : Words} {i n k v k' v' : Nat} (h : Intn w i n k v) (h' : Intn w i n k' v') :
    k = k' ∧ v = v' := by
  have : k = k' := by
    rcases Nat.lt_trichotomy k k' with hlt | he | hlt
    · exact absurd h.2.1 (h'.1 k hlt)
    · exact he
    · exact absurd h'.2.1 (h.1 k' hlt)
  subst this
  exact ⟨rfl, h.2.2.trans h'.2.2.symm⟩

theorem goIntn_iff {n : Nat} (h1 : 1 ≤ n) (h2 : n < 2 ^ 63) (w : Words) (i v j : Nat) :
    (∃ fuel, goIntn w n fuel i = some (v, j)) ↔ ∃ k, Intn w i n k v ∧ j = i + k + 1 := by
  simp only [goIntn_eq, numberBelow_iff h1 h2, Intn, and_assoc]

theorem goRand_of {w : Words} {i k v : Nat} {n : Int64} (h1 : 1 ≤ n) (h : Intn w i n.toInt.toNat k v) :
    (goRand w).intn i n = (Int64.ofNat v, i + k + 1) := by
  have hn : 1 ≤ n.toInt := by simpa [Int64.le_iff_toInt_le] using h1
  have hlt := n.toInt_lt
  have key := fun v j => goIntn_iff (n := n.toInt.toNat) (by omega) (by omega) w i v j
  have hex : ∃ r : Nat × Nat, ∃ fuel, goIntn w n.toInt.toNat fuel i = some r := ⟨(v, i + k + 1), (key _ _).2 ⟨k, h, rfl⟩⟩
  unfold goRand
  simp only [dif_pos hex]
  have hs := hex.choose_spec
  generalize hex.choose = r at hs
  obtain ⟨a, b⟩ := r
  obtain ⟨k', h', rfl⟩ := (key _ _).1 hs
  obtain ⟨rfl, rfl⟩ := h.unique h'
  rfl

theorem goRand_stuck {w : Words} {i : Nat} {n : Int64} (h1 : 1 ≤ n) (h : ∀ k, ¬ Acc n.toInt.toNat (w (i + k))) :
    (goRand w).intn i n = (0, i) := by
  have hn : 1 ≤ n.toInt := by simpa [Int64.le_iff_toInt_le] using h1
  have hlt := n.toInt_lt
  have hex : ¬ ∃ r : Nat × Nat, ∃ fuel, goIntn w n.toInt.toNat fuel i = some r := by
    rintro ⟨⟨v, j⟩, hf⟩
    obtain ⟨k, hk, -⟩ := (goIntn_iff (by omega) (by omega) w i v j).1 hf
    exact h k hk.2.1
  unfold goRand
  simp only [dif_neg hex]

theorem intn_exists {w : Words} {i n : Nat} (h : ∃ k, Acc n (w (i + k))) : ∃ k v, Intn w i n k v := by
  classical
  refine ⟨Nat.find h, _, fun m hm => Nat.find_min h hm, Nat.find_spec h, rfl⟩

theorem goRand_lawful (w : Words) : (goRand w).Lawful := by
  intro i n hn
  have h1 : 1 ≤ n := by grind
  have hn' : 0 < n.toInt := by simpa [Int64.lt_iff_toInt_lt] using hn
  have hlt := n.toInt_lt
  by_cases h : ∃ k, Acc n.toInt.toNat (w (i + k))
  · obtain ⟨k, v, hi⟩ := intn_exists h
    rw [goRand_of h1 hi]
    have hv : v < n.toInt.toNat := by rw [hi.2.2]; exact Nat.mod_lt _ (by omega)
    have e : (Int64.ofNat v).toInt = v := Int64.toInt_ofNat_of_lt (by omega)
    simp only [Int64.le_iff_toInt_le, Int64.lt_iff_toInt_lt, e]
    refine ⟨by simp, by omega⟩
  · rw [goRand_stuck h1 (by simpa using h)]
    exact ⟨Int64.le_refl _, hn⟩

/-! ## Probabilities -/

/-- All numbers of 63 bits are equally likely. -/
noncomputable def uniformWord : Measure (Fin (2 ^ 63)) := (PMF.uniformOfFintype (Fin (2 ^ 63))).toMeasure

instance : IsProbabilityMeasure uniformWord := by unfold uniformWord; infer_instance

instance : IsProbabilityMeasure wordChance := by unfold wordChance; infer_instance

theorem bits_le (n : Nat) : bitsFor n ≤ 63 := by unfold bitsFor; split <;> omega

theorem drawFor_eq (n : Nat) (w : Fin (2 ^ 63)) : drawFor n w = w.val / 2 ^ (63 - bitsFor n) := by
  unfold drawFor bitsFor
  split
  · rw [Nat.shiftRight_eq_div_pow]
  · simp

theorem card_hit {n v : Nat} (hv : v < n) :
    (Finset.univ.filter fun w : Fin (2 ^ 63) => Acc n w ∧ drawFor n w % n = v).card =
      2 ^ bitsFor n / n * 2 ^ (63 - bitsFor n) := by
  have hS : 0 < 2 ^ (63 - bitsFor n) := Nat.two_pow_pos _
  have hBS : 2 ^ bitsFor n * 2 ^ (63 - bitsFor n) = 2 ^ 63 := by
    rw [← Nat.pow_add]
    congr 1
    have := bits_le n
    omega
  have hq : n * (2 ^ bitsFor n / n) ≤ 2 ^ bitsFor n := Nat.mul_div_le _ _
  unfold Acc
  simp only [drawFor_eq]
  generalize 2 ^ (63 - bitsFor n) = S at *
  generalize 2 ^ bitsFor n = B at *
  generalize B / n = q at *
  have hbound : ∀ a r, a < q → r < S → (a * n + v) * S + r < 2 ^ 63 := by
    intro a r ha hr
    have h1 : a * n + v + 1 ≤ n * q := by
      have : (a + 1) * n ≤ q * n := Nat.mul_le_mul_right n ha
      rw [Nat.add_mul, Nat.one_mul, Nat.mul_comm q n] at this
      omega
    have h2 : (a * n + v + 1) * S ≤ B * S := Nat.mul_le_mul_right S (h1.trans hq)
    rw [Nat.add_mul, Nat.one_mul, hBS] at h2
    omega
  have hc : q * S = (Finset.range q ×ˢ Finset.range S).card := by simp
  rw [hc]
  symm
  refine Finset.card_bij (fun p hp => ⟨(p.1 * n + v) * S + p.2, ?_⟩) ?_ ?_ ?_
  · rw [Finset.mem_product, Finset.mem_range, Finset.mem_range] at hp
    exact hbound _ _ hp.1 hp.2
  · rintro ⟨a, r⟩ hp
    rw [Finset.mem_product, Finset.mem_range, Finset.mem_range] at hp
    simp only [Finset.mem_filter, Finset.mem_univ, true_and]
    have hd : ((a * n + v) * S + r) / S = a * n + v := by
      rw [Nat.mul_comm, Nat.mul_add_div hS, Nat.div_eq_of_lt hp.2, Nat.add_zero]
    rw [hd]
    constructor
    · have : (a + 1) * n ≤ q * n := Nat.mul_le_mul_right n hp.1
      rw [Nat.add_mul, Nat.one_mul, Nat.mul_comm q n] at this
      omega
    · rw [Nat.add_comm, Nat.add_mul_mod_self_right, Nat.mod_eq_of_lt hv]
  · rintro ⟨a, r⟩ hp ⟨b, t⟩ hp' h
    rw [Finset.mem_product, Finset.mem_range, Finset.mem_range] at hp hp'
    simp only [Fin.mk.injEq] at h
    have hd : ∀ a r, r < S → ((a * n + v) * S + r) / S = a * n + v ∧ ((a * n + v) * S + r) % S = r := by
      intro a r hr
      constructor
      · rw [Nat.mul_comm, Nat.mul_add_div hS, Nat.div_eq_of_lt hr, Nat.add_zero]
      · rw [Nat.mul_comm, Nat.mul_add_mod, Nat.mod_eq_of_lt hr]
    have h1 := hd a r hp.2
    have h2 := hd b t hp'.2
    rw [h] at h1
    have e1 := h1.1.symm.trans h2.1
    have e2 := h1.2.symm.trans h2.2
    have e3 : a * n = b * n := by omega
    have := Nat.eq_of_mul_eq_mul_right (by omega) e3
    rw [this, e2]
  · intro w hw
    simp only [Finset.mem_filter, Finset.mem_univ, true_and] at hw
    obtain ⟨h1, h2⟩ := hw
    refine ⟨(w.val / S / n, w.val % S), ?_, ?_⟩
    · rw [Finset.mem_product, Finset.mem_range, Finset.mem_range]
      refine ⟨?_, Nat.mod_lt _ hS⟩
      rw [Nat.div_lt_iff_lt_mul (by omega), Nat.mul_comm]
      exact h1
    · ext
      dsimp only
      rw [← h2, Nat.mul_comm _ n, Nat.div_add_mod, Nat.mul_comm, Nat.div_add_mod]

theorem uniform_card (N : ℕ) [NeZero N] (P : Fin N → Prop) [DecidablePred P] :
    (PMF.uniformOfFintype (Fin N)).toMeasure {w | P w} = ((Finset.univ.filter P).card : ENNReal) / (N : ℕ) := by
  rw [PMF.toMeasure_uniformOfFintype_apply _ (Set.Finite.measurableSet (Set.toFinite _)), Fintype.card_fin]
  congr 2
  rw [← Fintype.card_subtype]
  rfl

theorem uniform_finset (P : Fin (2 ^ 63) → Prop) [DecidablePred P] :
    uniformWord {w | P w} = ((Finset.univ.filter P).card : ENNReal) / (2 ^ 63 : ℕ) :=
  uniform_card (2 ^ 63) P

/-- The probability that a number is taken and gives `v`. -/
noncomputable def hitOdds (n : Nat) : ENNReal := ((2 ^ bitsFor n / n * 2 ^ (63 - bitsFor n) : ℕ) : ENNReal) / (2 ^ 63 : ℕ)

theorem uniform_hit {n v : Nat} (hv : v < n) :
    uniformWord {w | Acc n w ∧ drawFor n w % n = v} = hitOdds n := by
  rw [uniform_finset, card_hit hv]
  rfl

theorem uniform_acc {n : Nat} (hn : 1 ≤ n) : uniformWord {w | Acc n w} = n * hitOdds n := by
  have : {w | Acc n w} = ⋃ v ∈ Finset.range n, {w | Acc n w ∧ drawFor n w % n = v} := by
    ext w
    simp only [Set.mem_ofPred_eq, Set.mem_iUnion, Finset.mem_range, exists_prop]
    constructor
    · intro h; exact ⟨_, Nat.mod_lt _ hn, h, rfl⟩
    · rintro ⟨v, -, h, -⟩; exact h
  rw [this, measure_biUnion_finset]
  · rw [Finset.sum_congr rfl (fun v hv => uniform_hit (Finset.mem_range.1 hv)), Finset.sum_const, Finset.card_range,
      nsmul_eq_mul]
  · intro a _ b _ hab
    rw [Function.onFun, Set.disjoint_left]
    rintro w ⟨-, h1⟩ ⟨-, h2⟩
    exact hab (h1.symm.trans h2)
  · intro v _
    exact Set.Finite.measurableSet (Set.toFinite _)

theorem uniform_rej {n : Nat} (hn : 1 ≤ n) : uniformWord {w | ¬ Acc n w} = 1 - n * hitOdds n := by
  rw [← uniform_acc hn]
  exact prob_compl_eq_one_sub (Set.Finite.measurableSet (Set.toFinite _))

theorem hitOdds_ne_zero {n : Nat} (h1 : 1 ≤ n) (h2 : n < 2 ^ 63) : hitOdds n ≠ 0 := by
  unfold hitOdds
  rw [ENNReal.div_ne_zero]
  refine ⟨?_, ENNReal.natCast_ne_top _⟩
  have : 0 < 2 ^ bitsFor n / n := Nat.div_pos (le_bits h2).le h1
  have h3 : 0 < 2 ^ (63 - bitsFor n) := Nat.two_pow_pos _
  have := Nat.mul_pos this h3
  exact_mod_cast this.ne'

theorem hitOdds_ne_top (n : Nat) : hitOdds n ≠ ⊤ := by
  unfold hitOdds
  exact ENNReal.div_ne_top (ENNReal.natCast_ne_top _) (by norm_num)

theorem acc_le_one {n : Nat} (hn : 1 ≤ n) : (n : ENNReal) * hitOdds n ≤ 1 := by
  rw [← uniform_acc hn]
  exact prob_le_one

/-- Rejections, then a hit: all together one in `n`. -/
theorem tsum_hit {n : Nat} (h1 : 1 ≤ n) (h2 : n < 2 ^ 63) :
    ∑' k : ℕ, (1 - n * hitOdds n) ^ k * hitOdds n = (n : ENNReal)⁻¹ := by
  rw [ENNReal.tsum_mul_right, ENNReal.tsum_geometric, ENNReal.sub_sub_cancel ENNReal.one_ne_top (acc_le_one h1),
    ENNReal.mul_inv (.inl (by exact_mod_cast (by omega : n ≠ 0))) (.inl (ENNReal.natCast_ne_top _)), mul_assoc,
    ENNReal.inv_mul_cancel (hitOdds_ne_zero h1 h2) (hitOdds_ne_top n), mul_one]

/-- At least half of the numbers are taken. -/
theorem acc_half {n : Nat} (h1 : 1 ≤ n) (h2 : n < 2 ^ 63) : 1 - (n : ENNReal) * hitOdds n ≤ 2⁻¹ := by
  have hS : 0 < 2 ^ (63 - bitsFor n) := Nat.two_pow_pos _
  have hBS : 2 ^ bitsFor n * 2 ^ (63 - bitsFor n) = 2 ^ 63 := by
    rw [← Nat.pow_add]
    congr 1
    have := bits_le n
    omega
  have hb := le_bits h2
  have hq : 0 < 2 ^ bitsFor n / n := Nat.div_pos hb.le h1
  have hm := Nat.div_add_mod (2 ^ bitsFor n) n
  have hr : 2 ^ bitsFor n % n < n := Nat.mod_lt _ h1
  have key : 2 ^ 63 ≤ 2 * (n * (2 ^ bitsFor n / n * 2 ^ (63 - bitsFor n))) := by
    rw [← hBS]
    generalize 2 ^ (63 - bitsFor n) = S at *
    generalize 2 ^ bitsFor n = B at *
    generalize B / n = q at *
    have : n ≤ n * q := Nat.le_mul_of_pos_right n hq
    calc B * S ≤ (2 * (n * q)) * S := Nat.mul_le_mul_right S (by omega)
      _ = 2 * (n * (q * S)) := by ring
  have half : (2⁻¹ : ENNReal) ≤ n * hitOdds n := by
    unfold hitOdds
    rw [← mul_div_assoc, ENNReal.le_div_iff_mul_le (.inl (by norm_num)) (.inl (by norm_num)), mul_comm, ← div_eq_mul_inv,
      ENNReal.div_le_iff (by norm_num) (by norm_num)]
    have : ((2 ^ 63 : ℕ) : ENNReal) ≤ ((2 * (n * (2 ^ bitsFor n / n * 2 ^ (63 - bitsFor n))) : ℕ) : ENNReal) := by
      exact_mod_cast key
    refine this.trans (le_of_eq ?_)
    push_cast
    ring
  calc 1 - (n : ENNReal) * hitOdds n ≤ 1 - 2⁻¹ := tsub_le_tsub_left half 1
    _ = 2⁻¹ := ENNReal.one_sub_inv_two

end GoBCDice
