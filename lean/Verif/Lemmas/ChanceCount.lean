import Verif.Lemmas.Chance

/-!
# Counting
-/

namespace GoBCDice
open MeasureTheory

theorem ofNat_inj {s : Int64} {a b : ℕ} (ha : a < s.toInt.toNat) (hb : b < s.toInt.toNat)
    (h : Int64.ofNat (a + 1) = Int64.ofNat (b + 1)) : a = b := by
  have := s.toInt_lt
  have e := congrArg Int64.toInt h
  rw [Int64.toInt_ofNat_of_lt (by omega), Int64.toInt_ofNat_of_lt (by omega)] at e
  omega

theorem allFaces_nodup (ss : List Int64) : (allFaces ss).Nodup := by
  induction ss with
  | nil => simp [allFaces]
  | cons s ss ih =>
    rw [allFaces, List.nodup_flatMap]
    constructor
    · intro v _
      exact ih.map (fun a b h => by simpa using h)
    · refine List.Pairwise.imp_of_mem ?_ List.nodup_range
      intro a b ha hb hab
      rw [Function.onFun, List.disjoint_left]
      intro l hl hl'
      obtain ⟨x, -, rfl⟩ := List.mem_map.mp hl
      obtain ⟨y, -, h⟩ := List.mem_map.mp hl'
      simp only [List.cons.injEq] at h
      exact hab (ofNat_inj (List.mem_range.mp hb) (List.mem_range.mp ha) h.1).symm

theorem mem_allFaces {ss vs : List Int64} :
    vs ∈ allFaces ss ↔ vs.length = ss.length ∧ ∀ d ∈ diceShowing ss vs, d.Fair := by
  induction ss generalizing vs with
  | nil => simp [allFaces, diceShowing]
  | cons s ss ih =>
    cases vs with
    | nil => simp [allFaces]
    | cons v vs =>
      have hlt := s.toInt_lt
      simp only [allFaces, List.mem_flatMap, List.mem_range, List.mem_map, List.cons.injEq, diceShowing,
        List.zipWith_cons_cons, List.mem_cons, List.length_cons]
      constructor
      · rintro ⟨a, ha, l, hl, rfl, rfl⟩
        obtain ⟨h1, h2⟩ := ih.mp hl
        refine ⟨by omega, ?_⟩
        rintro d (rfl | hd)
        · have : (Int64.ofNat (a + 1)).toInt = ((a + 1 : ℕ) : Int) := Int64.toInt_ofNat_of_lt (by omega)
          simp only [Die.Fair, Int64.le_iff_toInt_le, this]
          constructor
          · simp
          · omega
        · exact h2 d hd
      · rintro ⟨h1, h2⟩
        have hf := h2 ⟨v, s⟩ (.inl rfl)
        obtain ⟨h3, h4⟩ := hf
        simp only [Int64.le_iff_toInt_le] at h3 h4
        have h3' : 1 ≤ v.toInt := by simpa using h3
        refine ⟨v.toInt.toNat - 1, by omega, vs, ih.mpr ⟨by omega, fun d hd => h2 d (.inr hd)⟩, ?_, rfl⟩
        rw [← Int64.toInt_inj, Int64.toInt_ofNat_of_lt (by omega)]
        omega

theorem allFaces_length (ss : List Int64) : (allFaces ss).length = (ss.map fun s => s.toInt.toNat).prod := by
  induction ss with
  | nil => rfl
  | cons s ss ih => simp [allFaces, List.length_flatMap, ih]

theorem diceShowing_values {ss vs : List Int64} (h : vs.length = ss.length) :
    (diceShowing ss vs).map Die.value = vs ∧ (diceShowing ss vs).map Die.sides = ss := by
  induction ss generalizing vs with
  | nil => simp at h; subst h; simp [diceShowing]
  | cons s ss ih =>
    cases vs with
    | nil => simp at h
    | cons v vs =>
      have := ih (vs := vs) (by simpa using h)
      simp only [diceShowing] at this
      simp [diceShowing, this]

theorem diceShowing_of (ds : List Die) : diceShowing (ds.map Die.sides) (ds.map Die.value) = ds := by
  induction ds with
  | nil => rfl
  | cons d ds ih =>
    simp only [diceShowing] at ih
    simp [diceShowing, ih]

theorem odds_fair {ds : List Die} (h : ∀ d ∈ ds, d.Fair) :
    odds ds = (((ds.map fun d => d.sides.toInt.toNat).prod : ℕ) : ENNReal)⁻¹ := by
  induction ds with
  | nil => simp [odds_nil]
  | cons d ds ih =>
    rw [odds_cons, ih (fun e he => h e (by simp [he])), Die.odds, if_pos (h d (by simp))]
    simp only [List.map_cons, List.prod_cons, Nat.cast_mul]
    rw [ENNReal.mul_inv]
    · right; exact ENNReal.natCast_ne_top _
    · left; exact ENNReal.natCast_ne_top _

theorem Dealt.fair {ω : Fate} {i : ℕ} {ds : List Die} (h : Dealt ω i ds) : ∀ d ∈ ds, d.Fair := by
  intro d hd
  obtain ⟨k, hk, rfl⟩ := List.mem_iff_getElem.mp hd
  obtain ⟨h1, h2⟩ := dealt_iff.mp h k hk
  rw [h2]
  exact die_fair ω _ h1

/-- Of the dice with given sides, each combination of faces is equally likely. -/
theorem chance_count (ss : List Int64) (P : List Die → Prop) [DecidablePred P] (i : ℕ) :
    chance {ω | ∃ ds, ds.map Die.sides = ss ∧ P ds ∧ Dealt ω i ds} =
      ((allFaces ss).countP (fun vs => P (diceShowing ss vs)) : ENNReal) /
        ((ss.map fun s => s.toInt.toNat).prod : ℕ) := by
  classical
  let L : Finset (List Int64) := ((allFaces ss).filter (fun vs => P (diceShowing ss vs))).toFinset
  have hset : {ω | ∃ ds, ds.map Die.sides = ss ∧ P ds ∧ Dealt ω i ds} =
      ⋃ vs ∈ L, {ω | Dealt ω i (diceShowing ss vs)} := by
    ext ω
    simp only [Set.mem_ofPred_eq, Set.mem_iUnion, L, List.mem_toFinset, List.mem_filter, decide_eq_true_eq,
      exists_prop]
    constructor
    · rintro ⟨ds, rfl, h1, h2⟩
      refine ⟨ds.map Die.value, ⟨mem_allFaces.mpr ⟨by simp, ?_⟩, ?_⟩, ?_⟩
      · rw [diceShowing_of]; exact h2.fair
      · rw [diceShowing_of]; exact h1
      · rw [diceShowing_of]; exact h2
    · rintro ⟨vs, ⟨h1, h2⟩, h3⟩
      exact ⟨diceShowing ss vs, (diceShowing_values (mem_allFaces.mp h1).1).2, h2, h3⟩
  rw [hset, measure_biUnion_finset]
  · have hc : ∀ vs ∈ L, chance {ω | Dealt ω i (diceShowing ss vs)} =
        (((ss.map fun s => s.toInt.toNat).prod : ℕ) : ENNReal)⁻¹ := by
      intro vs hvs
      simp only [L, List.mem_toFinset, List.mem_filter] at hvs
      obtain ⟨h1, h2⟩ := mem_allFaces.mp hvs.1
      rw [chance_dealt, odds_fair h2]
      have := (diceShowing_values h1).2
      rw [show (diceShowing ss vs).map (fun d => d.sides.toInt.toNat) = ss.map fun s => s.toInt.toNat by
        conv_rhs => rw [← this]
        rw [List.map_map]; rfl]
    rw [Finset.sum_congr rfl hc, Finset.sum_const, nsmul_eq_mul, ENNReal.div_eq_inv_mul, mul_comm]
    congr 2
    rw [List.toFinset_card_of_nodup ((allFaces_nodup ss).filter _), List.countP_eq_length_filter]
  · intro a ha b hb hab
    rw [Function.onFun, Set.disjoint_left]
    intro ω h1 h2
    simp only [L, List.coe_toFinset, List.mem_filter, Set.mem_ofPred_eq] at ha hb
    have la := (mem_allFaces.mp ha.1).1
    have lb := (mem_allFaces.mp hb.1).1
    apply hab
    rw [← (diceShowing_values la).1, ← (diceShowing_values lb).1]
    congr 1
    simp only [Set.mem_ofPred_eq] at h1 h2
    have sa := (diceShowing_values la).2
    have sb := (diceShowing_values lb).2
    have hlen : (diceShowing ss a).length = (diceShowing ss b).length := by
      have := congrArg List.length (sa.trans sb.symm); simpa using this
    refine List.ext_getElem hlen fun k hk hk' => ?_
    have hside : (diceShowing ss a)[k].sides = (diceShowing ss b)[k].sides := by
      have e : ((diceShowing ss a).map Die.sides)[k]? = ((diceShowing ss b).map Die.sides)[k]? := by rw [sa, sb]
      simpa [hk, hk'] using e
    rw [(dealt_iff.mp h1 k hk).2, (dealt_iff.mp h2 k hk').2, hside]
  · intro vs _
    exact measurable_dealt i _

/-- The faces of one die. -/
theorem allFaces_one (s : Int64) :
    allFaces [s] = (List.range s.toInt.toNat).map fun v => [Int64.ofNat (v + 1)] := by
  simp only [allFaces, List.map_cons, List.map_nil]
  rw [← List.map_eq_flatMap]

/-- How many faces of a die pass the test. -/
def facesPassing (p : Int64 → Bool) (s : Int64) : ℕ :=
  (List.range s.toInt.toNat).countP fun v => p (Int64.ofNat (v + 1))

theorem facesPassing_le (p : Int64 → Bool) (s : Int64) : facesPassing p s ≤ s.toInt.toNat := by
  have := List.countP_le_length (p := fun v => p (Int64.ofNat (v + 1))) (l := List.range s.toInt.toNat)
  simpa [facesPassing] using this

theorem sum_ite_countP {α : Type} (l : List α) (p : α → Bool) (a b : ℕ) :
    (l.map fun x => if p x then a else b).sum = l.countP p * a + (l.length - l.countP p) * b := by
  induction l with
  | nil => simp
  | cons x l ih =>
    have hle : l.countP p ≤ l.length := List.countP_le_length
    simp only [List.map_cons, List.sum_cons, ih, List.countP_cons, List.length_cons]
    by_cases hx : p x = true
    · simp only [hx, if_true]
      rw [show l.length + 1 - (l.countP p + 1) = l.length - l.countP p by omega]
      ring
    · simp only [hx]
      simp only [Bool.false_eq_true, if_false, Nat.add_zero]
      rw [show l.length + 1 - l.countP p = l.length - l.countP p + 1 by omega]
      ring

theorem countP_allFaces_cons (s : Int64) (ss : List Int64) (q : List Int64 → Bool) :
    (allFaces (s :: ss)).countP q =
      ((List.range s.toInt.toNat).map fun v => (allFaces ss).countP fun vs => q (Int64.ofNat (v + 1) :: vs)).sum := by
  rw [allFaces, List.countP_flatMap]
  congr 1
  apply List.map_congr_left
  intro v _
  rw [Function.comp, List.countP_map]
  rfl

/-- The number of ways for `k` of `n` equal dice to pass a test. -/
theorem count_passing (p : Int64 → Bool) (s : Int64) (n k : ℕ) :
    (allFaces (List.replicate n s)).countP (fun vs => decide ((vs.filter p).length = k)) =
      n.choose k * facesPassing p s ^ k * (s.toInt.toNat - facesPassing p s) ^ (n - k) := by
  induction n generalizing k with
  | zero =>
    cases k with
    | zero => simp [allFaces]
    | succ k => simp [allFaces]
  | succ n ih =>
    rw [List.replicate_succ, countP_allFaces_cons]
    have hstep : ∀ v, ((allFaces (List.replicate n s)).countP fun vs =>
        decide (((Int64.ofNat (v + 1) :: vs).filter p).length = k)) =
        if p (Int64.ofNat (v + 1)) then
          (match k with
          | 0 => 0
          | k + 1 => (allFaces (List.replicate n s)).countP (fun vs => decide ((vs.filter p).length = k)))
        else (allFaces (List.replicate n s)).countP (fun vs => decide ((vs.filter p).length = k)) := by
      intro v
      by_cases hp : p (Int64.ofNat (v + 1)) = true
      · simp only [List.filter_cons, hp, if_true, List.length_cons]
        cases k with
        | zero => simp
        | succ k => simp
      · simp only [List.filter_cons, hp]
        simp
    rw [List.map_congr_left (fun v _ => hstep v), sum_ite_countP, List.length_range]
    change facesPassing p s * _ + (s.toInt.toNat - facesPassing p s) * _ = _
    cases k with
    | zero =>
      rw [ih 0]
      simp only [Nat.choose_zero_right, pow_zero, Nat.sub_zero]
      ring
    | succ k =>
      dsimp only
      rw [ih k, ih (k + 1), Nat.choose_succ_succ]
      by_cases hk : k + 1 ≤ n
      · rw [show n + 1 - (k + 1) = n - (k + 1) + 1 by omega, show n - k = n - (k + 1) + 1 by omega]
        ring
      · rw [Nat.choose_eq_zero_of_lt (show n < k + 1 by omega), show n + 1 - (k + 1) = n - k by omega]
        ring

/-- The number of ways for `k` equal dice to pass a test and the next one not to. -/
theorem count_chain (p : Int64 → Bool) (s : Int64) (k : ℕ) :
    (allFaces (List.replicate (k + 1) s)).countP
        (fun vs => vs.dropLast.all p && (vs.getLast?.all fun v => !p v)) =
      facesPassing p s ^ k * (s.toInt.toNat - facesPassing p s) := by
  induction k with
  | zero =>
    rw [List.replicate_succ, List.replicate_zero, allFaces_one, List.countP_map]
    have h := List.length_eq_countP_add_countP (fun v => p (Int64.ofNat (v + 1))) (l := List.range s.toInt.toNat)
    rw [List.length_range] at h
    have e : (List.range s.toInt.toNat).countP ((fun vs : List Int64 => vs.dropLast.all p && (vs.getLast?.all fun v => !p v)) ∘
        fun v => [Int64.ofNat (v + 1)]) = (List.range s.toInt.toNat).countP (fun v => decide ¬ p (Int64.ofNat (v + 1)) = true) := by
      apply List.countP_congr
      intro v _
      simp
    rw [e]
    simp only [facesPassing, pow_zero, one_mul]
    omega
  | succ k ih =>
    rw [List.replicate_succ, countP_allFaces_cons]
    have hstep : ∀ v, ((allFaces (List.replicate (k + 1) s)).countP fun vs =>
        ((Int64.ofNat (v + 1) :: vs).dropLast.all p && ((Int64.ofNat (v + 1) :: vs).getLast?.all fun v => !p v))) =
        if p (Int64.ofNat (v + 1)) then (allFaces (List.replicate (k + 1) s)).countP
          (fun vs => vs.dropLast.all p && (vs.getLast?.all fun v => !p v)) else 0 := by
      intro v
      have hne : ∀ vs ∈ allFaces (List.replicate (k + 1) s), vs ≠ [] := by
        intro vs hvs h
        have := (mem_allFaces.mp hvs).1
        rw [h] at this
        simp at this
      split
      · rename_i hp
        apply List.countP_congr
        intro vs hvs
        obtain ⟨w, ws, rfl⟩ := List.exists_cons_of_ne_nil (hne vs hvs)
        generalize Int64.ofNat (v + 1) = u at hp ⊢
        simp [hp]
      · rename_i hp
        rw [List.countP_eq_zero]
        intro vs hvs
        obtain ⟨w, ws, rfl⟩ := List.exists_cons_of_ne_nil (hne vs hvs)
        generalize Int64.ofNat (v + 1) = u at hp ⊢
        simp [hp]
    rw [List.map_congr_left (fun v _ => hstep v), sum_ite_countP, ih]
    change facesPassing p s * _ + _ = _
    ring

end GoBCDice
