import Verif.Spec.Chance
import Verif.Lemmas.Dice

/-!
# Probabilities of lists of dice
-/

namespace GoBCDice
open MeasureTheory

instance : IsProbabilityMeasure chance := by unfold chance; infer_instance

theorem fated_lawful (ω : Fate) : (fated ω).Lawful := by
  intro i n hn
  have h1 := (ω (i, n)).isLt
  have hn' : 0 < n.toInt := by simpa [Int64.lt_iff_toInt_lt] using hn
  have hlt := n.toInt_lt
  have h2 : (Int64.ofNat (ω (i, n)).val).toInt = (ω (i, n)).val :=
    Int64.toInt_ofNat_of_lt (by simp only at h1; omega)
  simp only [fated, Int64.le_iff_toInt_le, Int64.lt_iff_toInt_lt, h2]
  simp only at h1
  refine ⟨by simp, by omega⟩

/-- The dice a fate deals. -/
def die (ω : Fate) (i : ℕ) (sides : Int64) : Die := ⟨1 + Int64.ofNat (ω (i, sides)).val, sides⟩

theorem next_fated (ω : Fate) (i : ℕ) {sides : Int64} (h : 1 ≤ sides) :
    (mtFeeder (fated ω)).next i sides = (.ok (die ω i sides), i + 1) := by
  have : ¬ sides ≤ 0 := by grind
  simp [mtFeeder, this, fated, die]

theorem next_fated_ok {ω : Fate} {i j : ℕ} {sides : Int64} {d : Die}
    (h : (mtFeeder (fated ω)).next i sides = (.ok d, j)) : 1 ≤ sides ∧ d = die ω i sides ∧ j = i + 1 := by
  by_cases hs : sides ≤ 0
  · simp [mtFeeder, hs] at h
  · have hs' : 1 ≤ sides := by grind
    rw [next_fated ω i hs'] at h
    cases h
    exact ⟨hs', rfl, rfl⟩

/-- The event that the dice from request `i` on are `ds`. -/
def Dealt (ω : Fate) : ℕ → List Die → Prop
  | _, [] => True
  | i, d :: ds => (1 ≤ d.sides ∧ d = die ω i d.sides) ∧ Dealt ω (i + 1) ds

theorem draws_fated {ω : Fate} {i j : ℕ} {ds : List Die} :
    Draws (mtFeeder (fated ω)) i ds j ↔ Dealt ω i ds ∧ j = i + ds.length := by
  induction ds generalizing i with
  | nil =>
    constructor
    · intro h; cases h; simp [Dealt]
    · rintro ⟨-, rfl⟩; exact .nil _
  | cons d ds ih =>
    constructor
    · intro h
      cases h with
      | cons h1 h2 =>
        obtain ⟨a, b, rfl⟩ := next_fated_ok h1
        obtain ⟨c, rfl⟩ := ih.mp h2
        exact ⟨⟨⟨a, b⟩, c⟩, by simp; omega⟩
    · rintro ⟨⟨⟨a, b⟩, c⟩, rfl⟩
      refine .cons (s₁ := i + 1) ?_ (ih.mpr ⟨c, by simp; omega⟩)
      rw [next_fated ω i a, ← b]

theorem Dealt.append {ω : Fate} {ds es : List Die} {i : ℕ} :
    Dealt ω i (ds ++ es) ↔ Dealt ω i ds ∧ Dealt ω (i + ds.length) es := by
  induction ds generalizing i with
  | nil => simp [Dealt]
  | cons d ds ih =>
    simp only [List.cons_append, Dealt, ih, List.length_cons]
    rw [show i + (ds.length + 1) = i + 1 + ds.length by omega]
    exact and_assoc.symm

/-- Of two lists dealt, one begins the other. -/
theorem Dealt.prefix {ω : Fate} {ds es : List Die} {i : ℕ} (h : Dealt ω i ds) (h' : Dealt ω i es)
    (hs : ∀ k, (hk : k < ds.length) → (hk' : k < es.length) → ds.take k = es.take k → ds[k].sides = es[k].sides) :
    ds <+: es ∨ es <+: ds := by
  induction ds generalizing i es with
  | nil => exact .inl (List.nil_prefix)
  | cons d ds ih =>
    cases es with
    | nil => exact .inr (List.nil_prefix)
    | cons e es =>
      have h0 := hs 0 (by simp) (by simp) rfl
      simp only [List.getElem_cons_zero] at h0
      have hde : d = e := by rw [h.1.2, h'.1.2, h0]
      subst hde
      rcases ih h.2 h'.2 (fun k hk hk' ht => by
        have := hs (k + 1) (by simpa using hk) (by simpa using hk') (by simpa using ht)
        simpa using this) with h1 | h1
      · exact .inl (List.prefix_cons_inj d |>.mpr h1)
      · exact .inr (List.prefix_cons_inj d |>.mpr h1)

theorem odds_nil : odds [] = 1 := rfl

theorem odds_cons (d : Die) (ds : List Die) : odds (d :: ds) = d.odds * odds ds := by simp [odds]

theorem odds_append (ds es : List Die) : odds (ds ++ es) = odds ds * odds es := by simp [odds]

/-- What fate has to say for the dice `ds` to be dealt from request `i` on. -/
theorem dealt_iff {ω : Fate} {i : ℕ} {ds : List Die} :
    Dealt ω i ds ↔ ∀ k, (hk : k < ds.length) → 1 ≤ ds[k].sides ∧ ds[k] = die ω (i + k) ds[k].sides := by
  induction ds generalizing i with
  | nil => simp [Dealt]
  | cons d ds ih =>
    simp only [Dealt, ih]
    constructor
    · rintro ⟨h1, h2⟩ k hk
      cases k with
      | zero => exact h1
      | succ k =>
        have := h2 k (by simpa using hk)
        rw [show i + 1 + k = i + (k + 1) by omega] at this
        exact this
    · intro h
      refine ⟨h 0 (by simp), fun k hk => ?_⟩
      have := h (k + 1) (by simpa using hk)
      rw [show i + 1 + k = i + (k + 1) by omega]
      exact this

theorem die_fair (ω : Fate) (i : ℕ) {sides : Int64} (h : 1 ≤ sides) : (die ω i sides).Fair := by
  have := fated_lawful ω i sides (by grind)
  have hb : (Int64.ofNat (ω (i, sides)).val) = ((fated ω).intn i sides).1 := rfl
  unfold Die.Fair die
  simp only [hb]
  generalize ((fated ω).intn i sides).1 = v at *
  obtain ⟨h1, h2⟩ := this
  simp only [Int64.le_iff_toInt_le, Int64.lt_iff_toInt_lt] at *
  have := sides.toInt_lt
  have e : (1 + v).toInt = 1 + v.toInt := by
    rw [Int64.toInt_add]
    simp at h1
    exact Int.bmod_eq_of_le (by simp; omega) (by simp; omega)
  rw [e]
  simp at h1 ⊢
  omega

/-- The number fate has to choose for the die `d`. -/
def Die.face (d : Die) : Below d.sides :=
  ⟨(d.value.toInt.toNat - 1) % (d.sides.toInt.toNat - 1 + 1), Nat.mod_lt _ (by omega)⟩

theorem die_eq_iff {ω : Fate} {i : ℕ} {d : Die} (h : d.Fair) :
    d = die ω i d.sides ↔ ω (i, d.sides) = d.face := by
  obtain ⟨v, s⟩ := d
  obtain ⟨h1, h2⟩ := h
  simp only [Int64.le_iff_toInt_le] at h1 h2
  have hv : 1 ≤ v.toInt := by simpa using h1
  have hlt := s.toInt_lt
  have hω := (ω (i, s)).isLt
  have hof : (Int64.ofNat (ω (i, s)).val).toInt = (ω (i, s)).val := by
    apply Int64.toInt_ofNat_of_lt
    simp only at hω
    omega
  simp only at hω h2
  have hadd : (1 + Int64.ofNat (ω (i, s)).val).toInt = 1 + ((ω (i, s)).val : Int) := by
    rw [Int64.toInt_add, hof]
    exact Int.bmod_eq_of_le (by simp; omega) (by simp; omega)
  have hm : (v.toInt.toNat - 1) % (s.toInt.toNat - 1 + 1) = v.toInt.toNat - 1 := Nat.mod_eq_of_lt (by omega)
  simp only [die, Die.mk.injEq, and_true, Die.face, Fin.ext_iff, hm]
  rw [← Int64.toInt_inj, hadd]
  omega

/-- The probability of a list of dice. -/
theorem chance_dealt (i : ℕ) (ds : List Die) : chance {ω | Dealt ω i ds} = odds ds := by
  by_cases hf : ∀ d ∈ ds, d.Fair
  · classical
    let t : (k : ℕ × Int64) → Set (Below k.2) := fun k =>
      {x | ∀ d, ds[k.1 - i]? = some d → ∀ h : d.sides = k.2, x = h ▸ d.face}
    let I : Finset (ℕ × Int64) := Finset.univ.image fun k : Fin ds.length => (i + k.1, ds[k].sides)
    have hset : {ω | Dealt ω i ds} = Set.pi I t := by
      ext ω
      simp only [Set.mem_ofPred_eq, dealt_iff, Set.mem_pi, I, Finset.coe_image, Set.mem_image, Finset.coe_univ,
        Set.mem_univ, true_and, t]
      constructor
      · rintro h - ⟨⟨k, hk⟩, rfl⟩ d hd hs
        simp only [Nat.add_sub_cancel_left] at hd
        rw [List.getElem?_eq_getElem hk] at hd
        cases hd
        exact (die_eq_iff (hf _ (List.getElem_mem hk))).mp (h k hk).2
      · intro h k hk
        have hfk := hf _ (List.getElem_mem hk)
        refine ⟨by have := hfk.1; have := hfk.2; grind, ?_⟩
        rw [die_eq_iff hfk]
        exact h (i + k, ds[k].sides) ⟨⟨k, hk⟩, rfl⟩ ds[k] (by simp [List.getElem?_eq_getElem hk]) rfl
    rw [hset, chance, Measure.infinitePi_pi]
    · have hinj : Set.InjOn (fun k : Fin ds.length => (i + k.1, ds[k].sides)) (Finset.univ : Finset (Fin ds.length)) := by
        intro a _ b _ h
        simp only [Prod.mk.injEq] at h
        ext
        omega
      rw [Finset.prod_image hinj]
      have : odds ds = ∏ k : Fin ds.length, ds[k].odds := by
        rw [odds, ← List.prod_ofFn]
        congr 1
        apply List.ext_getElem <;> simp
      rw [this]
      apply Finset.prod_congr rfl
      intro k _
      have hfk : ds[k].Fair := hf _ (List.getElem_mem k.2)
      have ht : t (i + k, ds[k].sides) = {ds[k].face} := by
        ext x
        simp only [t, Set.mem_ofPred_eq, Set.mem_singleton_iff, Nat.add_sub_cancel_left, List.getElem?_eq_getElem k.2,
          Option.some.injEq]
        constructor
        · intro h; exact h ds[k] rfl rfl
        · rintro rfl d rfl h; rfl
      rw [ht, PMF.toMeasure_apply_singleton _ _ (measurableSet_singleton _), PMF.uniformOfFintype_apply,
        Fintype.card_fin, Die.odds, if_pos hfk]
      obtain ⟨a, b⟩ := hfk
      simp only [Int64.le_iff_toInt_le] at a b
      have a' : 1 ≤ ds[k].value.toInt := by simpa using a
      have e : ds[k].sides.toInt.toNat - 1 + 1 = ds[k].sides.toInt.toNat := by omega
      exact congrArg (fun n : ℕ => (n : ENNReal)⁻¹) e
    · intro k _
      exact Set.Finite.measurableSet (Set.toFinite _)
  · have hz : {ω | Dealt ω i ds} = ∅ := by
      ext ω
      simp only [Set.mem_ofPred_eq, Set.mem_empty_iff_false, iff_false]
      intro h
      apply hf
      intro d hd
      obtain ⟨k, hk, rfl⟩ := List.mem_iff_getElem.mp hd
      obtain ⟨h1, h2⟩ := dealt_iff.mp h k hk
      rw [h2]
      exact die_fair ω _ h1
    rw [hz, measure_empty]
    push Not at hf
    obtain ⟨d, hd, hn⟩ := hf
    symm
    exact List.prod_eq_zero (List.mem_map.mpr ⟨d, hd, by simp [Die.odds, hn]⟩)

theorem measurable_dealt (i : ℕ) (ds : List Die) : MeasurableSet {ω | Dealt ω i ds} := by
  have : {ω | Dealt ω i ds} = ⋂ k : Fin ds.length, {ω : Fate | 1 ≤ ds[k].sides ∧ ds[k] = die ω (i + k) ds[k].sides} := by
    ext ω
    simp only [Set.mem_ofPred_eq, dealt_iff, Set.mem_iInter]
    exact ⟨fun h k => h k k.2, fun h k hk => h ⟨k, hk⟩⟩
  rw [this]
  refine MeasurableSet.iInter fun k => ?_
  have : {ω : Fate | 1 ≤ ds[k].sides ∧ ds[k] = die ω (i + k) ds[k].sides} =
      (fun ω : Fate => ω (i + k, ds[k].sides)) ⁻¹' {x : Below ds[k].sides | 1 ≤ ds[k].sides ∧ ds[k] = ⟨1 + Int64.ofNat x.val, ds[k].sides⟩} := rfl
  rw [this]
  exact measurable_pi_apply _ (Set.Finite.measurableSet (Set.toFinite _))

instance : Countable Die := by
  have hI : Countable Int64 := by
    have : Function.Injective Int64.toInt := fun a b h => Int64.toInt_inj.mp h
    exact this.countable
  have : Function.Injective (fun d : Die => (d.value, d.sides)) := by
    rintro ⟨a, b⟩ ⟨c, d⟩ h
    simpa using h
  exact this.countable

/-- At most one of the lists is dealt. -/
def Separate (S : Set (List Die)) : Prop :=
  ∀ ω i ds es, ds ∈ S → es ∈ S → Dealt ω i ds → Dealt ω i es → ds = es

theorem measurable_some (S : Set (List Die)) (i : ℕ) : MeasurableSet {ω | ∃ ds ∈ S, Dealt ω i ds} := by
  have : {ω | ∃ ds ∈ S, Dealt ω i ds} = ⋃ ds : S, {ω | Dealt ω i ds.1} := by
    ext ω; simp
  rw [this]
  exact MeasurableSet.iUnion fun ds => measurable_dealt i ds.1

/-- The probability that one of the lists is dealt. -/
theorem chance_some {S : Set (List Die)} (h : Separate S) (i : ℕ) :
    chance {ω | ∃ ds ∈ S, Dealt ω i ds} = ∑' ds : S, odds ds.1 := by
  have : {ω | ∃ ds ∈ S, Dealt ω i ds} = ⋃ ds : S, {ω | Dealt ω i ds.1} := by
    ext ω; simp
  rw [this, measure_iUnion]
  · exact tsum_congr fun ds => chance_dealt i ds.1
  · intro a b hab
    rw [Function.onFun, Set.disjoint_left]
    intro ω ha hb
    exact hab (Subtype.ext (h ω i _ _ a.2 b.2 ha hb))
  · exact fun ds => measurable_dealt i ds.1

/-- Dealing one of some lists and then one of other lists. -/
theorem chance_both {S T : Set (List Die)} (hS : Separate S) (hT : Separate T) (i : ℕ) :
    chance {ω | ∃ ds ∈ S, Dealt ω i ds ∧ ∃ es ∈ T, Dealt ω (i + ds.length) es} =
      (∑' ds : S, odds ds.1) * ∑' es : T, odds es.1 := by
  have : {ω | ∃ ds ∈ S, Dealt ω i ds ∧ ∃ es ∈ T, Dealt ω (i + ds.length) es} =
      ⋃ p : S × T, {ω | Dealt ω i (p.1.1 ++ p.2.1)} := by
    ext ω
    simp only [Set.mem_ofPred_eq, Set.mem_iUnion, Dealt.append, Prod.exists, Subtype.exists]
    constructor
    · rintro ⟨ds, h1, h2, es, h3, h4⟩; exact ⟨ds, h1, es, h3, h2, h4⟩
    · rintro ⟨ds, h1, es, h3, h2, h4⟩; exact ⟨ds, h1, h2, es, h3, h4⟩
  rw [this, measure_iUnion]
  · simp only [chance_dealt, odds_append]
    rw [ENNReal.tsum_prod' (f := fun p : S × T => odds p.1.1 * odds p.2.1), ← ENNReal.tsum_mul_right]
    refine tsum_congr fun ds => ?_
    exact ENNReal.tsum_mul_left (a := odds ds.1) (f := fun es : T => odds es.1)
  · rintro ⟨a, b⟩ ⟨c, d⟩ hab
    rw [Function.onFun, Set.disjoint_left]
    intro ω h1 h2
    simp only [Set.mem_ofPred_eq, Dealt.append] at h1 h2
    have e1 := hS ω i _ _ a.2 c.2 h1.1 h2.1
    rw [e1] at h1
    have e2 := hT ω _ _ _ b.2 d.2 h1.2 h2.2
    exact hab (by rw [Prod.mk.injEq]; exact ⟨Subtype.ext e1, Subtype.ext e2⟩)
  · exact fun p => measurable_dealt i _

end GoBCDice
