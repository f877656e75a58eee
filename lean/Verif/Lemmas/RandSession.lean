import Verif.Lemmas.RandDice
import Verif.Lemmas.ChanceSession

/-!
# Sessions with numbers of 63 bits
-/

namespace GoBCDice
open MeasureTheory Share

theorem deals_go {w : Words} (hw : Flowing w) {i : ℕ} {ds : List Die} (h : Taken w i ds) :
    ∃ j, Deals (mtFeeder (goRand w)) i (asked ds) j := by
  induction ds generalizing i with
  | nil => exact ⟨i, .nil⟩
  | cons d ds ih =>
    obtain ⟨k, hk, ht⟩ := h
    obtain ⟨j, hj⟩ := ih ht
    exact ⟨j, .cons ((next_go hw).2 ⟨rfl, k, hk, rfl⟩) hj⟩

theorem next_go_ok (w : Words) (i : ℕ) {sides : Int64} (h : 1 ≤ sides) :
    ∃ d j, (mtFeeder (goRand w)).next i sides = (.ok d, j) := by
  have : ¬ sides ≤ 0 := by grind
  simp [mtFeeder, this]

theorem taken_of_deals {w : Words} (hw : Flowing w) {i j : ℕ} {l : List (Int64 × Out Die)}
    (h : Deals (mtFeeder (goRand w)) i l j) (hs : ∀ c ∈ l, 1 ≤ c.1) : ∃ ds, l = asked ds ∧ Taken w i ds := by
  induction h with
  | nil => exact ⟨[], rfl, trivial⟩
  | @cons f f1 f2 k a calls h1 _ ih =>
    have hk : 1 ≤ k := hs (k, a) (by simp)
    obtain ⟨d, j, hd⟩ := next_go_ok w f hk
    rw [hd] at h1
    cases h1
    obtain ⟨ds, rfl, h2⟩ := ih (fun c hc => hs c (by simp [hc]))
    obtain ⟨rfl, m, h3, rfl⟩ := (next_go hw).1 hd
    exact ⟨d :: ds, rfl, m, h3, h2⟩

theorem answers_go {w : Words} (hw : Flowing w) (usage : Str) (inputs : List Bytes) (A : Set (List (Out Result)))
    (i : ℕ) : (answersAlone (mtFeeder (goRand w)) (basicByteBot usage) inputs i).1 ∈ A ↔
      ∃ ds ∈ diceFor usage inputs A, Taken w i ds := by
  constructor
  · intro h
    obtain ⟨l, h1, h2, h3, h4⟩ := session_trace (mtFeeder (goRand w)) usage inputs i
    obtain ⟨ds, rfl, h5⟩ := taken_of_deals hw h3 (follows_sides h1)
    exact ⟨ds, ⟨h1, h2, by rw [h4]; exact h⟩, h5⟩
  · rintro ⟨ds, ⟨h1, h2, h3⟩, h4⟩
    obtain ⟨j, hj⟩ := deals_go hw h4
    rw [real_of_expect h1 h2 hj]
    exact h3

theorem wordChance_answers (usage : Str) (inputs : List Bytes) (A : Set (List (Out Result))) (i : ℕ) :
    wordChance {w | (answersAlone (mtFeeder (goRand w)) (basicByteBot usage) inputs i).1 ∈ A} =
      ∑' ds : diceFor usage inputs A, odds ds.1 := by
  have hae : {w | (answersAlone (mtFeeder (goRand w)) (basicByteBot usage) inputs i).1 ∈ A} =ᵐ[wordChance]
      (⋃ ds : diceFor usage inputs A, {w | Taken w i ds.1} : Set Words) := by
    filter_upwards [flowing_ae] with w hw
    apply propext
    refine (answers_go hw usage inputs A i).trans ?_
    show _ ↔ w ∈ ⋃ ds : diceFor usage inputs A, {w | Taken w i ds.1}
    simp
  rw [measure_congr hae, measure_iUnion₀]
  · exact tsum_congr fun ds => wordChance_dice i ds.1
  · intro a b hab
    have hz : wordChance {w | ¬ Flowing w} = 0 := flowing_ae
    refine measure_mono_null ?_ hz
    rintro w ⟨ha, hb⟩ hw
    obtain ⟨j, hj⟩ := deals_go hw ha
    obtain ⟨j', hj'⟩ := deals_go hw hb
    exact hab (Subtype.ext (asked_inj (trace_unique a.2.1 a.2.2.1 hj b.2.1 b.2.2.1 hj')))
  · exact fun ds => (measurable_dice i ds.1).nullMeasurableSet

theorem goIntn_none {w : Words} {n : ℕ} (h1 : 1 ≤ n) (h2 : n < 2 ^ 63) {k i : ℕ} (h : goIntn w n k i = none) :
    ∀ m < k, ¬ Acc n (w (i + m)) := by
  rw [goIntn_eq] at h
  unfold numberBelow at h
  split at h
  · cases h
  · have hmax : ∀ x, drawFor n x ≤ 2 ^ bitsFor n - 1 - 2 ^ bitsFor n % n ↔ Acc n x := by
      intro x
      unfold Acc
      rw [mul_div_bits]
      have a : 2 ^ bitsFor n % n < n := Nat.mod_lt _ (by omega)
      have b := le_bits h2
      omega
    simp only [Option.map_eq_none_iff] at h
    generalize 2 ^ bitsFor n - 1 - 2 ^ bitsFor n % n = max at h hmax
    induction k generalizing i with
    | zero => omega
    | succ k ih =>
      unfold rejectLoop at h
      split at h
      · rename_i hgt
        intro m hm
        cases m with
        | zero => rw [← hmax]; exact Nat.not_le.2 hgt
        | succ m =>
          have := ih h m (by omega)
          rwa [show i + 1 + m = i + (m + 1) by omega] at this
      · cases h

end GoBCDice
