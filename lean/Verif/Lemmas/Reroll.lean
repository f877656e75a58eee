import Verif.Lemmas.Average

/-!
# Rerolls as one stream of dice
-/

namespace GoBCDice
open MeasureTheory

/-- How many dice reach the threshold. -/
abbrev hits (th : Int64) (ds : List Die) : ℕ := (ds.filter fun d => th ≤ d.value).length

/-- The stream ends with its last miss: `k` hits, and the last die is no hit. -/
def Ended (th : Int64) (k : ℕ) (ds : List Die) : Prop :=
  hits th ds = k ∧ ∃ d, ds.getLast? = some d ∧ d.value < th

theorem hits_append (th : Int64) (ds es : List Die) : hits th (ds ++ es) = hits th ds + hits th es := by
  simp [hits]

theorem hits_le (th : Int64) (ds : List Die) : hits th ds ≤ ds.length := List.length_filter_le ..

theorem hits_zero {th : Int64} {ds : List Die} : hits th ds = 0 ↔ ∀ d ∈ ds, d.value < th := by
  simp [hits, List.filter_eq_nil_iff]

theorem hits_lt {th : Int64} {ds : List Die} (h : ∃ d, ds.getLast? = some d ∧ d.value < th) : hits th ds < ds.length := by
  obtain ⟨d, h1, h2⟩ := h
  have hd := List.mem_of_getLast? h1
  apply lt_of_le_of_ne (hits_le th ds)
  intro he
  rw [hits, List.length_filter_eq_length_iff] at he
  have := he d hd
  rw [decide_eq_true_iff, ← Int64.not_lt] at this
  exact this h2

theorem rolled_of' {x : ℕ} {y : Int64} {g : List Die} (hx : 1 ≤ x) (hx' : x ≤ 2 ^ 44) (hy : 1 ≤ y)
    (hl : g.length = x) (hs : ∀ d ∈ g, d.sides = y) : Rolled (Int64.ofNat x) y g := by
  have e : (Int64.ofNat x).toInt = x := Int64.toInt_ofNat_of_lt (by omega)
  refine ⟨hy, ?_, ?_, ?_, hs⟩
  · rw [Int64.le_iff_toInt_le, e]; show (1 : Int) ≤ x; omega
  · rw [Int64.le_iff_toInt_le, maxMakeCap_toInt, cap_eq, e]; omega
  · rw [e, hl]

theorem rgroups_nil {th : Int64} {n : ℕ} {gs : List (List Die)} (h : RGroups th n [] gs) : gs = [] := by
  cases h <;> rfl

theorem rgroups_zero {th : Int64} {ps : List (Int64 × Int64)} {gs : List (List Die)} (h : RGroups th 0 ps gs) : gs = [] := by
  cases h <;> rfl

theorem rgroups_stream {th y : Int64} {n : ℕ} : ∀ {x : Int64} {gs : List (List Die)}, RGroups th (n + 1) [(x, y)] gs →
    (∀ d ∈ gs.flatten, d.sides = y) ∧ x.toInt.toNat ≤ gs.flatten.length ∧
    (Ended th (gs.flatten.length - x.toInt.toNat) gs.flatten ∨
      x.toInt.toNat + n ≤ gs.flatten.length ∧ n < hits th gs.flatten) := by
  induction n with
  | zero =>
    intro x gs h
    cases h with | @roll _ _ _ _ g gs' hr h =>
    obtain ⟨-, hx1, -, hl, hs⟩ := hr
    have : gs' = [] := rgroups_zero h
    subst this
    simp only [List.flatten_cons, List.flatten_nil, List.append_nil]
    refine ⟨hs, by omega, ?_⟩
    by_cases h0 : hits th g = 0
    · have hx1 : (1 : Int) ≤ x.toInt := Int64.le_iff_toInt_le.mp hx1
      have hne : g ≠ [] := by rintro rfl; simp at hl; omega
      exact .inl ⟨by omega, g.getLast hne, List.getLast?_eq_some_getLast hne, hits_zero.mp h0 _ (List.getLast_mem hne)⟩
    · exact .inr ⟨by omega, by omega⟩
  | succ n ih =>
    intro x gs h
    cases h with | @roll _ _ _ _ g gs' hr h =>
    obtain ⟨-, hx1, hcap, hl, hs⟩ := hr
    have hx1 : (1 : Int) ≤ x.toInt := Int64.le_iff_toInt_le.mp hx1
    have hlt := x.toInt_lt
    have hle := hits_le th g
    rw [List.nil_append] at h
    by_cases h0 : hits th g = 0
    · rw [if_pos h0] at h
      have := rgroups_nil h
      subst this
      simp only [List.flatten_cons, List.flatten_nil, List.append_nil]
      refine ⟨hs, by omega, .inl ⟨by omega, ?_⟩⟩
      have hne : g ≠ [] := by rintro rfl; simp at hl; omega
      exact ⟨g.getLast hne, List.getLast?_eq_some_getLast hne, hits_zero.mp h0 _ (List.getLast_mem hne)⟩
    · rw [if_neg h0] at h
      obtain ⟨i1, i2, i3⟩ := ih h
      change (Int64.ofNat (hits th g)).toInt.toNat ≤ _ at i2
      change Ended th (_ - (Int64.ofNat (hits th g)).toInt.toNat) _ ∨ (Int64.ofNat (hits th g)).toInt.toNat + n ≤ _ ∧ _ at i3
      rw [Int64.toInt_ofNat_of_lt (by omega), Int.toNat_natCast] at i2 i3
      simp only [List.flatten_cons, List.length_append]
      refine ⟨?_, by omega, ?_⟩
      · intro d hd
        rcases List.mem_append.mp hd with hd | hd
        · exact hs d hd
        · exact i1 d hd
      · rcases i3 with ⟨j1, d, j2, j3⟩ | i3
        · left
          refine ⟨by rw [hits_append, j1]; omega, d, ?_, j3⟩
          rw [List.getLast?_append, j2]
          rfl
        · right; rw [hits_append]; omega

theorem rgroups_length {th y : Int64} {n : ℕ} : ∀ {x : Int64} {gs : List (List Die)}, RGroups th n [(x, y)] gs →
    gs.flatten.length ≤ n * x.toInt.toNat := by
  induction n with
  | zero => intro x gs h; rw [rgroups_zero h]; simp
  | succ n ih =>
    intro x gs h
    cases h with | @roll _ _ _ _ g gs' hr h =>
    obtain ⟨-, -, -, hl, -⟩ := hr
    have hlt := x.toInt_lt
    have hle := hits_le th g
    rw [List.nil_append] at h
    rw [List.flatten_cons, List.length_append, Nat.add_mul]
    by_cases h0 : hits th g = 0
    · rw [if_pos h0] at h
      rw [rgroups_nil h]
      simp only [List.flatten_nil, List.length_nil]
      omega
    · rw [if_neg h0] at h
      have h := ih h
      change _ ≤ n * (Int64.ofNat (hits th g)).toInt.toNat at h
      rw [Int64.toInt_ofNat_of_lt (by omega), Int.toNat_natCast] at h
      have : n * hits th g ≤ n * x.toInt.toNat := Nat.mul_le_mul_left _ (by omega)
      omega

theorem rgroups_of_stream {th y : Int64} (hy : 1 ≤ y) : ∀ (n x k : ℕ) (ds : List Die), 1 ≤ x → x ≤ 2 ^ 44 →
    ds.length = x + k → (∀ d ∈ ds, d.sides = y) → Ended th k ds → k < n →
    ∃ gs, RGroups th n [(Int64.ofNat x, y)] gs ∧ gs.flatten = ds := by
  intro n
  induction n with
  | zero => intro x k ds _ _ _ _ _ h; omega
  | succ n ih =>
    intro x k ds h1 h2 hl hs he hk
    obtain ⟨e1, d, e2, e3⟩ := he
    have hr : Rolled (Int64.ofNat x) y (ds.take x) :=
      rolled_of' h1 h2 hy (by rw [List.length_take]; omega) (fun d hd => hs d (List.mem_of_mem_take hd))
    have hsplit := hits_append th (ds.take x) (ds.drop x)
    rw [List.take_append_drop, e1] at hsplit
    have hlt : (ds.take x).length = x := by rw [List.length_take]; omega
    have hld : (ds.drop x).length = k := by rw [List.length_drop]; omega
    have hle := hits_le th (ds.take x)
    by_cases h0 : hits th (ds.take x) = 0
    · have hk0 : k = 0 := by
        rcases Nat.eq_zero_or_pos k with h | h
        · exact h
        · have : hits th (ds.drop x) < (ds.drop x).length := by
            refine hits_lt ⟨d, ?_, e3⟩
            rw [List.getLast?_drop, if_neg (by omega)]
            exact e2
          omega
      subst hk0
      have hd : ds.take x = ds := List.take_of_length_le (by omega)
      rw [hd] at hr h0
      refine ⟨[ds], .roll hr ?_, by simp⟩
      rw [List.nil_append, if_pos h0]
      exact .done n
    · have hk1 : 0 < k := by omega
      have hlast : (ds.drop x).getLast? = some d := by
        rw [List.getLast?_drop, if_neg (by omega)]
        exact e2
      have := hits_lt ⟨d, hlast, e3⟩
      obtain ⟨gs, g1, g2⟩ := ih (hits th (ds.take x)) (hits th (ds.drop x)) (ds.drop x) (by omega) (by omega)
        (by omega) (fun d hd => hs d (List.mem_of_mem_drop hd)) ⟨rfl, d, hlast, e3⟩ (by omega)
      refine ⟨ds.take x :: gs, .roll hr ?_, by rw [List.flatten_cons, g2, List.take_append_drop]⟩
      rw [List.nil_append, if_neg h0]
      exact g1

/-! ### U rolls -/

theorem uchain_length {y th : Int64} {limit : ℕ} (hl : 1 ≤ limit) {g : List Die} (h : UChain y th limit g) : 1 ≤ g.length := by
  rcases h.last with h | ⟨d, h, -⟩
  · omega
  · cases g with
    | nil => simp at h
    | cons => simp

theorem uchain_hits {y th : Int64} {limit : ℕ} {g : List Die} (h : UChain y th limit g) {d : Die}
    (hd : g.getLast? = some d) (hv : d.value < th) : hits th g + 1 = g.length := by
  have hne : g ≠ [] := by rintro rfl; simp at hd
  have hg := List.dropLast_append_getLast hne
  have hv' : g.getLast hne = d := by
    rw [List.getLast?_eq_some_getLast hne] at hd
    exact Option.some.inj hd
  have h1 : hits th g.dropLast = g.dropLast.length := by
    rw [hits, List.length_filter_eq_length_iff]
    intro d hd
    exact decide_eq_true (h.init_ge d hd)
  have h2 : hits th [g.getLast hne] = 0 := by
    rw [hits_zero]
    intro e he
    rw [List.mem_singleton.mp he, hv']
    exact hv
  have h3 := hits_append th g.dropLast [g.getLast hne]
  rw [hg, h1, h2] at h3
  have hlen := List.length_pos_iff.mpr hne
  rw [List.length_dropLast] at h3
  omega

theorem ugroups_stream {th y : Int64} {limit : ℕ} (hlim : 1 ≤ limit) : ∀ {gs : List (List Die)},
    (∀ g ∈ gs, UChain y th limit g) → gs ≠ [] →
    (∀ d ∈ gs.flatten, d.sides = y) ∧ gs.length ≤ gs.flatten.length ∧
    (Ended th (gs.flatten.length - gs.length) gs.flatten ∨ gs.length - 1 + limit ≤ gs.flatten.length)
  | [], _, h => absurd rfl h
  | [g], h, _ => by
    have hg := h g (by simp)
    have := uchain_length hlim hg
    simp only [List.flatten_cons, List.flatten_nil, List.append_nil, List.length_cons, List.length_nil]
    refine ⟨hg.sides_eq, by omega, ?_⟩
    rcases hg.last with hl | ⟨d, h1, h2⟩
    · right; omega
    · left
      have := uchain_hits hg h1 h2
      exact ⟨by omega, d, h1, h2⟩
  | g :: g' :: gs, h, _ => by
    have hg := h g (by simp)
    have hlen := uchain_length hlim hg
    obtain ⟨i1, i2, i3⟩ := ugroups_stream hlim (gs := g' :: gs) (fun x hx => h x (by simp [List.mem_cons.mp hx])) (by simp)
    rw [List.flatten_cons]
    generalize g' :: gs = rest at *
    simp only [List.length_append, List.length_cons]
    refine ⟨?_, by omega, ?_⟩
    · intro d hd
      rcases List.mem_append.mp hd with hd | hd
      · exact hg.sides_eq d hd
      · exact i1 d hd
    · rcases hg.last with hl | ⟨d, h1, h2⟩
      · right; omega
      · rcases i3 with ⟨j1, e, j2, j3⟩ | i3
        · left
          have := uchain_hits hg h1 h2
          refine ⟨by rw [hits_append, j1]; omega, e, ?_, j3⟩
          rw [List.getLast?_append, j2]
          rfl
        · right; omega

theorem ugroups_of_stream {th y : Int64} (hy : 1 ≤ y) {limit : ℕ} : ∀ (x k : ℕ) (ds : List Die), 1 ≤ x →
    ds.length = x + k → (∀ d ∈ ds, d.sides = y) → Ended th k ds → k < limit →
    ∃ gs : List (List Die), gs.length = x ∧ (∀ g ∈ gs, UChain y th limit g) ∧ gs.flatten = ds := by
  intro x
  induction x with
  | zero => intro k ds h; omega
  | succ x ih =>
    intro k ds _ hl hs he hk
    obtain ⟨e1, d, e2, e3⟩ := he
    -- the first chain
    have htw := List.takeWhile_append_dropWhile (p := fun d : Die => decide (th ≤ d.value)) (l := ds)
    have hall : ∀ d ∈ ds.takeWhile (fun d : Die => decide (th ≤ d.value)), th ≤ d.value := by
      intro d hd
      exact of_decide_eq_true (List.all_eq_true.mp (List.all_takeWhile (p := fun d : Die => decide (th ≤ d.value)) (l := ds)) d hd)
    cases hdw : ds.dropWhile (fun d : Die => decide (th ≤ d.value)) with
    | nil =>
      rw [hdw, List.append_nil] at htw
      rw [htw] at hall
      have := hall d (List.mem_of_getLast? e2)
      exact absurd e3 (by rw [Int64.not_lt]; exact this)
    | cons m rest =>
      have hm : m.value < th := by
        have := List.head?_dropWhile_not (fun d : Die => decide (th ≤ d.value)) ds
        rw [hdw] at this
        have : ¬ th ≤ m.value := by simpa using this
        rwa [Int64.not_le] at this
      rw [hdw] at htw
      generalize ds.takeWhile (fun d : Die => decide (th ≤ d.value)) = run at htw hall
      subst htw
      have hrun : hits th run = run.length := by
        rw [hits, List.length_filter_eq_length_iff]
        intro d hd
        exact decide_eq_true (hall d hd)
      have hm0 : hits th [m] = 0 := by
        rw [hits_zero]; intro e he; rw [List.mem_singleton.mp he]; exact hm
      have hh : hits th (run ++ m :: rest) = run.length + hits th rest := by
        rw [show run ++ m :: rest = run ++ ([m] ++ rest) by simp, hits_append, hits_append, hrun, hm0]
        omega
      rw [hh] at e1
      simp only [List.length_append, List.length_cons] at hl
      have hch : UChain y th limit (run ++ [m]) := by
        refine ⟨hy, ?_, ?_, ?_, .inr ⟨m, by simp, hm⟩⟩
        · intro d hd
          refine hs d ?_
          rcases List.mem_append.mp hd with hd | hd
          · exact List.mem_append_left _ hd
          · rw [List.mem_singleton.mp hd]; simp
        · simp only [List.length_append, List.length_cons, List.length_nil]
          omega
        · intro d hd
          rw [List.dropLast_concat] at hd
          exact hall d hd
      rcases Nat.eq_zero_or_pos x with hx | hx
      · subst hx
        have hrest : rest = [] := by
          by_contra hne
          have hlast : rest.getLast? = some d := by
            rw [List.getLast?_append, List.getLast?_cons] at e2
            rw [List.getLast?_eq_some_getLast hne] at e2 ⊢
            simpa using e2
          have := hits_lt ⟨d, hlast, e3⟩
          omega
        subst hrest
        exact ⟨[run ++ [m]], rfl, by simpa using hch, by simp⟩
      · have hne : rest ≠ [] := by
          rintro rfl
          simp only [List.length_nil] at hl
          have : hits th ([] : List Die) = 0 := rfl
          omega
        have hlast : rest.getLast? = some d := by
          rw [List.getLast?_append, List.getLast?_cons] at e2
          rw [List.getLast?_eq_some_getLast hne] at e2 ⊢
          simpa using e2
        obtain ⟨gs, g1, g2, g3⟩ := ih (hits th rest) rest (by omega) (by omega)
          (fun d hd => hs d (by simp [hd])) ⟨rfl, d, hlast, e3⟩ (by omega)
        refine ⟨(run ++ [m]) :: gs, by simp [g1], ?_, by simp [g3]⟩
        intro g hg
        rcases List.mem_cons.mp hg with rfl | hg
        · exact hch
        · exact g2 g hg

/-! ### Counting -/

/-- The number of streams of `n + 1` dice with `k` hits and no hit at the end. -/
theorem count_ended (p : Int64 → Bool) (s : Int64) (n k : ℕ) :
    (allFaces (List.replicate (n + 1) s)).countP
        (fun vs => decide ((vs.filter p).length = k) && (vs.getLast?.all fun v => !p v)) =
      n.choose k * facesPassing p s ^ k * (s.toInt.toNat - facesPassing p s) ^ (n - k) *
        (s.toInt.toNat - facesPassing p s) := by
  rw [List.replicate_succ', allFaces_append, List.countP_flatMap, ← count_passing]
  have hinner : ∀ a ∈ allFaces (List.replicate n s),
      (List.countP (fun vs => decide ((vs.filter p).length = k) && (vs.getLast?.all fun v => !p v)) ∘
        fun a => (allFaces [s]).map (a ++ ·)) a =
      if decide ((a.filter p).length = k) then s.toInt.toNat - facesPassing p s else 0 := by
    intro a _
    have h := List.length_eq_countP_add_countP (fun v => p (Int64.ofNat (v + 1))) (l := List.range s.toInt.toNat)
    rw [List.length_range] at h
    simp only [Function.comp]
    rw [allFaces_one, List.map_map, List.countP_map]
    by_cases ha : (a.filter p).length = k
    · rw [if_pos (decide_eq_true ha)]
      have e : (List.range s.toInt.toNat).countP
          ((fun vs => decide ((vs.filter p).length = k) && (vs.getLast?.all fun v => !p v)) ∘
            ((fun x => a ++ x) ∘ fun v => [Int64.ofNat (v + 1)])) =
          (List.range s.toInt.toNat).countP (fun v => decide ¬ p (Int64.ofNat (v + 1)) = true) := by
        apply List.countP_congr
        intro v _
        simp only [Function.comp, List.filter_append, List.length_append, ha]
        generalize Int64.ofNat (v + 1) = u
        by_cases hp : p u = true
        · simp [hp]
        · simp [hp]
      rw [e]
      simp only [facesPassing]
      omega
    · rw [if_neg (by simpa using ha), List.countP_eq_zero]
      intro v _
      simp only [Function.comp, List.filter_append, List.length_append]
      generalize Int64.ofNat (v + 1) = u
      by_cases hp : p u = true
      · simp [hp]
      · simp [hp, ha]
  rw [List.map_congr_left hinner, sum_ite_countP]
  ring

/-- The probability of a stream with `x` misses, the last die among them, and `k` hits. -/
theorem chance_ended (x k : ℕ) (y th : Int64) (hx : 1 ≤ x) (i : ℕ) :
    chance {ω | ∃ ds : List Die, (ds.length = x + k ∧ (∀ d ∈ ds, d.sides = y) ∧ Ended th k ds) ∧ Dealt ω i ds} =
      ((x + k - 1).choose k * winningFaces .ge th.toInt y.toInt.toNat ^ k *
        (y.toInt.toNat - winningFaces .ge th.toInt y.toInt.toNat) ^ x : ℕ) / (y.toInt.toNat ^ (x + k) : ℕ) := by
  obtain ⟨n, hn⟩ : ∃ n, x + k = n + 1 := ⟨x + k - 1, by omega⟩
  have hc := chance_count (List.replicate (n + 1) y) (fun ds =>
    (decide (((ds.map Die.value).filter fun v => decide (CmpOp.ge.Rel v.toInt th.toInt)).length = k) &&
      ((ds.map Die.value).getLast?.all fun v => !decide (CmpOp.ge.Rel v.toInt th.toInt))) = true) i
  rw [List.map_replicate, List.prod_replicate] at hc
  rw [hn, show n + 1 - 1 = n by omega]
  have hpow : (y.toInt.toNat - winningFaces .ge th.toInt y.toInt.toNat) ^ (n - k) *
      (y.toInt.toNat - winningFaces .ge th.toInt y.toInt.toNat) =
      (y.toInt.toNat - winningFaces .ge th.toInt y.toInt.toNat) ^ x := by
    rw [← pow_succ, show n - k + 1 = x by omega]
  rw [← hpow, ← mul_assoc, ← facesPassing_rel, ← count_ended]
  refine Eq.trans ?_ (hc.trans ?_)
  · congr 1
    ext ω
    simp only [Set.mem_ofPred_eq]
    have hhits : ∀ ds : List Die, ((ds.map Die.value).filter fun v => decide (CmpOp.ge.Rel v.toInt th.toInt)).length = hits th ds := by
      intro ds
      rw [List.filter_map, List.length_map, hits]
      congr 2
      funext d
      simp only [Function.comp, CmpOp.Rel, Int64.le_iff_toInt_le]
    have hlast : ∀ ds : List Die, ds ≠ [] → (((ds.map Die.value).getLast?.all fun v => !decide (CmpOp.ge.Rel v.toInt th.toInt)) = true ↔
        ∃ d, ds.getLast? = some d ∧ d.value < th) := by
      intro ds hne
      rw [List.getLast?_map, List.getLast?_eq_some_getLast hne]
      simp [CmpOp.Rel, Int64.lt_iff_toInt_lt]
    constructor
    · rintro ⟨ds, ⟨h1, h2, h3, h4⟩, h5⟩
      have hne : ds ≠ [] := by rintro rfl; simp at h1
      refine ⟨ds, ?_, ?_, h5⟩
      · rw [List.eq_replicate_iff, List.length_map]
        exact ⟨h1, fun b hb => by obtain ⟨d, hd, rfl⟩ := List.mem_map.mp hb; exact h2 d hd⟩
      · rw [Bool.and_eq_true, hlast ds hne, decide_eq_true_iff, hhits]
        exact ⟨h3, h4⟩
    · rintro ⟨ds, h1, h2, h5⟩
      rw [List.eq_replicate_iff, List.length_map] at h1
      have hne : ds ≠ [] := by rintro rfl; simp at h1
      rw [Bool.and_eq_true, hlast ds hne, decide_eq_true_iff, hhits] at h2
      exact ⟨ds, ⟨h1.1, fun d hd => h1.2 _ (List.mem_map.mpr ⟨d, hd, rfl⟩), h2.1, h2.2⟩, h5⟩
  · congr 2
    apply List.countP_congr
    intro vs hvs
    rw [(diceShowing_values (mem_allFaces.mp hvs).1).1, decide_eq_true_iff]

end GoBCDice
