import Verif.Lemmas.Rand

/-!
# Dice from numbers of 63 bits
-/

namespace GoBCDice
open MeasureTheory

/-- The numbers from place `i` on lie in the given sets. -/
def Lie (i : ℕ) (L : List (Set (Fin (2 ^ 63)))) : Set Words :=
  {w | ∀ m, (h : m < L.length) → w (i + m) ∈ L[m]}

theorem lie_pi (i : ℕ) (L : List (Set (Fin (2 ^ 63)))) :
    Lie i L = Set.pi ((Finset.range L.length).image (i + ·) : Finset ℕ) (fun k => L.getD (k - i) Set.univ) := by
  ext w
  simp only [Lie, Set.mem_ofPred_eq, Set.mem_pi, Finset.coe_image, Set.mem_image, Finset.coe_range, Set.mem_Iio]
  constructor
  · rintro h - ⟨m, hm, rfl⟩
    rw [Nat.add_sub_cancel_left, List.getD_eq_getElem?_getD, List.getElem?_eq_getElem hm]
    exact h m hm
  · intro h m hm
    have := h (i + m) ⟨m, hm, rfl⟩
    rwa [Nat.add_sub_cancel_left, List.getD_eq_getElem?_getD, List.getElem?_eq_getElem hm] at this

theorem measurable_words (A : Set (Fin (2 ^ 63))) : MeasurableSet A := Set.Finite.measurableSet (Set.toFinite _)

theorem measurable_lie (i : ℕ) (L : List (Set (Fin (2 ^ 63)))) : MeasurableSet (Lie i L) := by
  rw [lie_pi]
  exact MeasurableSet.pi (Set.to_countable _) fun _ _ => measurable_words _

theorem wordChance_lie (i : ℕ) (L : List (Set (Fin (2 ^ 63)))) : wordChance (Lie i L) = (L.map uniformWord).prod := by
  rw [lie_pi, wordChance, Measure.infinitePi_pi _ (fun _ _ => measurable_words _),
    Finset.prod_image (fun a _ b _ h => Nat.add_left_cancel h)]
  simp only [Nat.add_sub_cancel_left]
  rw [Finset.prod_range, ← List.prod_ofFn]
  congr 1
  apply List.ext_getElem
  · simp
  · intro k h1 h2
    have hk : k < L.length := by simpa using h2
    simp [List.getElem?_eq_getElem hk, uniformWord]

theorem lie_append {i : ℕ} {L M : List (Set (Fin (2 ^ 63)))} {w : Words} :
    w ∈ Lie i (L ++ M) ↔ w ∈ Lie i L ∧ w ∈ Lie (i + L.length) M := by
  simp only [Lie, Set.mem_ofPred_eq]
  constructor
  · intro h
    refine ⟨fun m hm => ?_, fun m hm => ?_⟩
    · have := h m (by simp; omega)
      rwa [List.getElem_append_left hm] at this
    · have := h (L.length + m) (by simp; omega)
      simpa [← Nat.add_assoc] using this
  · rintro ⟨h1, h2⟩ m hm
    by_cases hl : m < L.length
    · rw [List.getElem_append_left hl]; exact h1 m hl
    · rw [List.getElem_append_right (by omega)]
      have := h2 (m - L.length) (by simp at hm; omega)
      rwa [show i + L.length + (m - L.length) = i + m by omega] at this

/-- The numbers that are taken for the die `d`. -/
def hitSet (d : Die) : Set (Fin (2 ^ 63)) :=
  {w | 1 ≤ d.sides ∧ Acc d.sides.toInt.toNat w ∧
    d.value = 1 + Int64.ofNat (drawFor d.sides.toInt.toNat w % d.sides.toInt.toNat)}

/-- The numbers that are rejected for it. -/
def rejSet (d : Die) : Set (Fin (2 ^ 63)) := {w | ¬ Acc d.sides.toInt.toNat w}

/-- The numbers from place `i` on give the dice `ds`. -/
def Taken (w : Words) : ℕ → List Die → Prop
  | _, [] => True
  | i, d :: ds => ∃ k, w ∈ Lie i (List.replicate k (rejSet d) ++ [hitSet d]) ∧ Taken w (i + (k + 1)) ds

theorem hitSet_fair {d : Die} (h : d.Fair) : hitSet d =
    {w | Acc d.sides.toInt.toNat w ∧ drawFor d.sides.toInt.toNat w % d.sides.toInt.toNat = d.value.toInt.toNat - 1} := by
  obtain ⟨v, s⟩ := d
  obtain ⟨h1, h2⟩ := h
  simp only [Int64.le_iff_toInt_le] at h1 h2
  have hv : 1 ≤ v.toInt := by simpa using h1
  have hlt := s.toInt_lt
  ext w
  simp only [hitSet, Set.mem_ofPred_eq]
  have hm : drawFor s.toInt.toNat w % s.toInt.toNat < s.toInt.toNat := Nat.mod_lt _ (by omega)
  generalize drawFor s.toInt.toNat w % s.toInt.toNat = x at *
  have hof : (Int64.ofNat x).toInt = x := Int64.toInt_ofNat_of_lt (by omega)
  have hadd : (1 + Int64.ofNat x).toInt = 1 + (x : Int) := by
    rw [Int64.toInt_add, hof]
    exact Int.bmod_eq_of_le (by simp; omega) (by simp; omega)
  rw [← Int64.toInt_inj, hadd]
  have h1s : 1 ≤ s := by rw [Int64.le_iff_toInt_le]; simp; omega
  constructor
  · rintro ⟨-, a, b⟩; exact ⟨a, by omega⟩
  · rintro ⟨a, b⟩; exact ⟨h1s, a, by omega⟩

theorem hitSet_unfair {d : Die} (h : ¬ d.Fair) : hitSet d = ∅ := by
  obtain ⟨v, s⟩ := d
  ext w
  simp only [hitSet, Set.mem_ofPred_eq, Set.mem_empty_iff_false, iff_false]
  rintro ⟨h1, -, h2⟩
  apply h
  have hs : 1 ≤ s.toInt := by simpa [Int64.le_iff_toInt_le] using h1
  have hlt := s.toInt_lt
  have hm : drawFor s.toInt.toNat w % s.toInt.toNat < s.toInt.toNat := Nat.mod_lt _ (by omega)
  generalize drawFor s.toInt.toNat w % s.toInt.toNat = x at *
  have hof : (Int64.ofNat x).toInt = x := Int64.toInt_ofNat_of_lt (by omega)
  have hadd : (1 + Int64.ofNat x).toInt = 1 + (x : Int) := by
    rw [Int64.toInt_add, hof]
    exact Int.bmod_eq_of_le (by simp; omega) (by simp; omega)
  unfold Die.Fair
  simp only [Int64.le_iff_toInt_le, h2, hadd]
  constructor
  · simp
  · omega

/-- Rejections, then a hit. -/
theorem tsum_die (d : Die) : ∑' k : ℕ, uniformWord (rejSet d) ^ k * uniformWord (hitSet d) = d.odds := by
  by_cases h : d.Fair
  · have hs : 1 ≤ d.sides.toInt ∧ d.value.toInt.toNat - 1 < d.sides.toInt.toNat := by
      obtain ⟨h1, h2⟩ := h
      simp only [Int64.le_iff_toInt_le] at h1 h2
      have hv : 1 ≤ d.value.toInt := by simpa using h1
      omega
    have hlt := d.sides.toInt_lt
    rw [hitSet_fair h, uniform_hit hs.2]
    unfold rejSet
    rw [uniform_rej (by omega), tsum_hit (by omega) (by omega), Die.odds, if_pos h]
  · rw [hitSet_unfair h, measure_empty, Die.odds, if_neg h]
    simp

theorem taken_step (i : ℕ) (P : List (Set (Fin (2 ^ 63)))) (d : Die) (ds : List Die) :
    {w | w ∈ Lie i P ∧ Taken w (i + P.length) (d :: ds)} =
      ⋃ k : ℕ, {w | w ∈ Lie i (P ++ (List.replicate k (rejSet d) ++ [hitSet d])) ∧
        Taken w (i + (P ++ (List.replicate k (rejSet d) ++ [hitSet d])).length) ds} := by
  ext w
  simp only [Set.mem_ofPred_eq, Set.mem_iUnion, Taken, lie_append, List.length_append, List.length_replicate,
    List.length_cons, List.length_nil, Nat.zero_add, ← Nat.add_assoc]
  constructor
  · rintro ⟨h, k, h1, h2⟩; exact ⟨k, ⟨h, h1⟩, h2⟩
  · rintro ⟨k, ⟨h, h1⟩, h2⟩; exact ⟨h, k, h1, h2⟩

theorem measurable_taken (ds : List Die) : ∀ (i : ℕ) (P : List (Set (Fin (2 ^ 63)))),
    MeasurableSet {w | w ∈ Lie i P ∧ Taken w (i + P.length) ds} := by
  induction ds with
  | nil => intro i P; simpa [Taken] using measurable_lie i P
  | cons d ds ih =>
    intro i P
    rw [taken_step]
    exact MeasurableSet.iUnion fun k => ih i _

/-- The probability of a list of dice, after numbers that lie in given sets. -/
theorem wordChance_taken (ds : List Die) : ∀ (i : ℕ) (P : List (Set (Fin (2 ^ 63)))),
    wordChance {w | w ∈ Lie i P ∧ Taken w (i + P.length) ds} = (P.map uniformWord).prod * odds ds := by
  induction ds with
  | nil =>
    intro i P
    have : {w | w ∈ Lie i P ∧ Taken w (i + P.length) []} = Lie i P := by ext w; simp [Taken]
    rw [this, wordChance_lie, odds_nil, mul_one]
  | cons d ds ih =>
    intro i P
    rw [taken_step, measure_iUnion]
    · simp only [ih]
      have : ∀ k : ℕ, ((P ++ (List.replicate k (rejSet d) ++ [hitSet d])).map uniformWord).prod * odds ds =
          (P.map uniformWord).prod * (uniformWord (rejSet d) ^ k * uniformWord (hitSet d)) * odds ds := by
        intro k
        simp [List.map_append, List.prod_append]
      simp only [this]
      rw [ENNReal.tsum_mul_right, ENNReal.tsum_mul_left, tsum_die, odds_cons, mul_assoc]
    · intro a b hab
      rw [Function.onFun, Set.disjoint_left]
      rintro w ⟨h1, -⟩ ⟨h2, -⟩
      rw [lie_append, lie_append] at h1 h2
      have key : ∀ a b : ℕ, a < b → w ∈ Lie (i + P.length + (List.replicate a (rejSet d)).length) [hitSet d] →
          w ∈ Lie (i + P.length) (List.replicate b (rejSet d)) → False := by
        intro a b hab h1 h2
        have r := h2 a (by simpa using hab)
        have s := h1 0 (by simp)
        simp only [List.length_replicate, Nat.add_zero, List.getElem_cons_zero, List.getElem_replicate] at r s
        exact r s.2.1
      rcases Nat.lt_trichotomy a b with h | h | h
      · exact key a b h h1.2.2 h2.2.1
      · exact hab h
      · exact key b a h h2.2.2 h1.2.1
    · intro k
      exact measurable_taken ds i _

theorem wordChance_dice (i : ℕ) (ds : List Die) : wordChance {w | Taken w i ds} = odds ds := by
  have := wordChance_taken ds i []
  simpa [Lie] using this

theorem measurable_dice (i : ℕ) (ds : List Die) : MeasurableSet {w | Taken w i ds} := by
  have := measurable_taken ds i []
  simpa [Lie] using this

/-- `Intn` always returns. -/
def Flowing (w : Words) : Prop := ∀ (i : ℕ) (n : Int64), 1 ≤ n → ∃ k, Acc n.toInt.toNat (w (i + k))

theorem wordChance_rejected (i : ℕ) {n : ℕ} (h1 : 1 ≤ n) (h2 : n < 2 ^ 63) (k : ℕ) :
    wordChance {w | ∀ m < k, ¬ Acc n (w (i + m))} ≤ 2⁻¹ ^ k := by
  have : {w : Words | ∀ m < k, ¬ Acc n (w (i + m))} = Lie i (List.replicate k {w | ¬ Acc n w}) := by
    ext w
    simp [Lie]
  rw [this, wordChance_lie, List.map_replicate, List.prod_replicate]
  gcongr
  rw [uniform_rej h1]
  exact acc_half h1 h2

theorem flowing_ae : ∀ᵐ w ∂wordChance, Flowing w := by
  have hI : Countable Int64 := by
    have : Function.Injective Int64.toInt := fun a b h => Int64.toInt_inj.mp h
    exact this.countable
  unfold Flowing
  rw [ae_all_iff]
  intro i
  rw [ae_all_iff]
  intro n
  rw [ae_iff]
  by_cases hn : 1 ≤ n
  · have h1 : 1 ≤ n.toInt := by simpa [Int64.le_iff_toInt_le] using hn
    have hlt := n.toInt_lt
    have hb : ∀ k : ℕ, wordChance {w | ¬ (1 ≤ n → ∃ k, Acc n.toInt.toNat (w (i + k)))} ≤ (2⁻¹ : ENNReal) ^ k := by
      intro k
      refine le_trans (measure_mono ?_) (wordChance_rejected i (n := n.toInt.toNat) (by omega) (by omega) k)
      intro w hw
      simp only [Set.mem_ofPred_eq, hn, true_implies, not_exists] at hw ⊢
      exact fun m _ => hw m
    have ht := ENNReal.tendsto_pow_atTop_nhds_zero_of_lt_one (r := 2⁻¹) (by norm_num)
    exact le_antisymm (ge_of_tendsto' ht hb) bot_le
  · simp [hn]

theorem next_go {w : Words} (hw : Flowing w) {i j : ℕ} {sides : Int64} {d : Die} :
    (mtFeeder (goRand w)).next i sides = (.ok d, j) ↔
      d.sides = sides ∧ ∃ k, w ∈ Lie i (List.replicate k (rejSet d) ++ [hitSet d]) ∧ j = i + (k + 1) := by
  have hl : ∀ k, w ∈ Lie i (List.replicate k (rejSet d) ++ [hitSet d]) ↔
      (∀ m < k, ¬ Acc d.sides.toInt.toNat (w (i + m))) ∧ w (i + k) ∈ hitSet d := by
    intro k
    rw [lie_append]
    simp [Lie, rejSet]
  simp only [hl]
  unfold mtFeeder
  by_cases hs : sides ≤ 0
  · simp only [if_pos hs]
    constructor
    · intro h; cases h
    · rintro ⟨rfl, k, ⟨-, h⟩, -⟩
      have := h.1
      grind
  · simp only [if_neg hs]
    have h1 : 1 ≤ sides := by grind
    obtain ⟨k, v, hi⟩ := intn_exists (hw i sides h1)
    have e := goRand_of h1 hi
    change (Out.ok (⟨1 + ((goRand w).intn i sides).1, sides⟩ : Die), ((goRand w).intn i sides).2) = (Out.ok d, j) ↔ _
    rw [e]
    constructor
    · intro h
      cases h
      exact ⟨rfl, k, ⟨hi.1, h1, hi.2.1, by rw [← hi.2.2]⟩, rfl⟩
    · rintro ⟨rfl, k', ⟨h2, h3⟩, rfl⟩
      have := hi.unique (k' := k') (v' := _) ⟨h2, h3.2.1, rfl⟩
      obtain ⟨rfl, rfl⟩ := this
      obtain ⟨a, b⟩ := d
      have h4 := h3.2.2
      simp only at h4
      rw [← h4]
      rfl

/-- With such numbers the dice drawn are those that the numbers give. -/
theorem draws_go {w : Words} (hw : Flowing w) {i : ℕ} {ds : List Die} :
    (∃ j, Draws (mtFeeder (goRand w)) i ds j) ↔ Taken w i ds := by
  induction ds generalizing i with
  | nil => exact ⟨fun _ => trivial, fun _ => ⟨i, .nil _⟩⟩
  | cons d ds ih =>
    constructor
    · rintro ⟨j, h⟩
      cases h with
      | cons h1 h2 =>
        obtain ⟨-, k, hk, rfl⟩ := (next_go hw).1 h1
        exact ⟨k, hk, ih.1 ⟨j, h2⟩⟩
    · rintro ⟨k, hk, ht⟩
      obtain ⟨j, hj⟩ := ih.2 ht
      exact ⟨j, .cons ((next_go hw).2 ⟨rfl, k, hk, rfl⟩) hj⟩

end GoBCDice
