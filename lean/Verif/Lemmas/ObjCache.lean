import Verif.Lemmas.ObjWorld

/-!
# Arrays with elements of their own, and the stored sums of U rolls
-/

namespace GoBCDice.ObjMem

open Raw (Value nilDereference interfaceConversion stackOverflow)

/-! ## Isolation -/

/-- The array at `a` has these elements, and nobody else has access to the memory of its slice. -/
structure Iso (a : Ref) (t : Slice) (xs : List Ptr) (w : World) : Prop where
  inv : WInv w
  cell : w.mem.objs[a]? = some (.array t)
  contents : w.mem.contents t = xs
  clients : ∀ s ∈ w.slices, s.arr ≠ t.arr
  others : ∀ (r : Ref) (s : Slice), r ≠ a → w.mem.objs[r]? = some (.array s) → s.arr ≠ t.arr

theorem Iso.put {a t xs w} (h : Iso a t xs w) {r : Ref} {c' : Cell} (hne : r ≠ a)
    (hi : WInv { w with mem := w.mem.put (some r) c' })
    (hs : ∀ s, c' = .array s → s.arr ≠ t.arr) :
    Iso a t xs { w with mem := w.mem.put (some r) c' } where
  inv := hi
  cell := by
    simp only [Mem.put]
    rw [List.getElem?_set_ne hne]; exact h.cell
  contents := h.contents
  clients := h.clients
  others := by
    intro x s hx he
    simp only [Mem.put] at he
    by_cases hxr : x = r
    · subst hxr
      rw [List.getElem?_set] at he
      split at he
      · split at he
        · simp only [Option.some.injEq] at he; exact hs s he
        · cases he
      · exact h.others x s hx he
    · rw [List.getElem?_set_ne (Ne.symm hxr)] at he
      exact h.others x s hx he

theorem contents_of_back {m m' : Mem} {t : Slice} (h : m'.backs[t.arr]? = m.backs[t.arr]?) :
    m'.contents t = m.contents t := by
  simp only [Mem.contents, List.getD_eq_getElem?_getD, h]

theorem Iso.step (grow : Nat → Nat) {a t xs w} (h : Iso a t xs w) {op : Op}
    (h1 : op ≠ .elements (some a)) (h2 : ∀ s, op ≠ .setElements (some a) s) :
    Iso a t xs (w.step grow op) := by
  have hinv := step_inv grow h.inv op
  have hlt : t.arr < w.mem.backs.length := h.inv.arr a t h.cell
  by_cases hop : op.assigns = false
  · have e := step_ext grow h.inv hop
    refine ⟨hinv, e.array h.cell, by rw [e.contents hlt, h.contents], ?_, ?_⟩
    · intro s hs
      rcases step_slices grow w hop s hs with ⟨u, hu, h3⟩ | h3 | ⟨p, r, h3, h4, h5⟩
      · rw [h3]; exact h.clients u hu
      · omega
      · refine h.others r s ?_ h5
        rintro rfl
        exact h1 (by rw [h3, h4])
    · intro r s hr hs
      rcases e.arrays r s hs with h3 | ⟨-, -, h3 | h3⟩
      · exact h.others r s hr h3
      · omega
      · exact h.clients s h3
  · cases op with
    | write x i p =>
      simp only [World.step] at hinv ⊢
      split
      · next s hs =>
        rw [hs] at hinv
        simp only at hinv
        split
        · next hc =>
          rw [if_pos hc] at hinv
          refine ⟨hinv, h.cell, ?_, h.clients, h.others⟩
          rw [← h.contents]
          refine contents_of_back ?_
          simp only [Mem.writeBack]
          rw [List.getElem?_modify]
          have := h.clients s (List.mem_of_getElem? hs)
          simp [this]
        · exact h
      · exact h
    | extend i p =>
      simp only [World.step] at hinv ⊢
      split
      · next s hs =>
        rw [hs] at hinv
        simp only at hinv
        split
        · next hc =>
          rw [if_pos hc] at hinv
          have hmem := List.mem_of_getElem? hs
          obtain ⟨k1, k2, k3, k4, k5⟩ := append1_props grow w.mem s p (h.inv.slices s hmem)
          have hne := h.clients s hmem
          refine ⟨hinv, ?_, ?_, ?_, ?_⟩
          · simp only; rw [k1]; exact h.cell
          · rw [← h.contents]
            exact contents_of_back (k5 _ hlt (Ne.symm hne))
          · intro u hu
            rcases List.mem_or_eq_of_mem_set hu with h5 | h5
            · exact h.clients u h5
            · subst h5
              rcases k4 with h6 | h6
              · rw [h6]; exact hne
              · omega
          · intro r u hr hu
            simp only at hu
            rw [k1] at hu
            exact h.others r u hr hu
        · exact h
      · exact h
    | setElements p i =>
      simp only [World.step] at hinv ⊢
      split
      · next s u hs hu =>
        rw [hs, hu] at hinv
        cases p with
        | none => cases hs
        | some r =>
          refine h.put ?_ hinv ?_
          · rintro rfl; exact h2 i rfl
          · intro v hv; cases hv; exact h.clients _ (List.mem_of_getElem? hu)
      · exact h
    | setInteger p v =>
      simp only [World.step] at hinv ⊢
      split
      · next x hx =>
        rw [hx] at hinv
        cases p with
        | none => cases hx
        | some r =>
          refine h.put ?_ hinv (by simp)
          rintro rfl; rw [cell_some, h.cell] at hx; cases hx
      · exact h
    | setBoolean p v =>
      simp only [World.step] at hinv ⊢
      split
      · next x hx =>
        rw [hx] at hinv
        cases p with
        | none => cases hx
        | some r =>
          refine h.put ?_ hinv (by simp)
          rintro rfl; rw [cell_some, h.cell] at hx; cases hx
      · exact h
    | setString p v =>
      simp only [World.step] at hinv ⊢
      split
      · next x hx =>
        rw [hx] at hinv
        cases p with
        | none => cases hx
        | some r =>
          refine h.put ?_ hinv (by simp)
          rintro rfl; rw [cell_some, h.cell] at hx; cases hx
      · exact h
    | setBRollComp p y n =>
      simp only [World.step] at hinv ⊢
      split
      · next x z hx =>
        rw [hx] at hinv
        simp only at hinv
        split
        · next hc =>
          rw [if_pos hc] at hinv
          cases p with
          | none => cases hx
          | some r =>
            refine h.put ?_ hinv (by simp)
            rintro rfl; rw [cell_some, h.cell] at hx; cases hx
        · exact h
      · exact h
    | setRRollComp p y n =>
      simp only [World.step] at hinv ⊢
      split
      · next x z hx =>
        rw [hx] at hinv
        simp only at hinv
        split
        · next hc =>
          rw [if_pos hc] at hinv
          cases p with
          | none => cases hx
          | some r =>
            refine h.put ?_ hinv (by simp)
            rintro rfl; rw [cell_some, h.cell] at hx; cases hx
        · exact h
      · exact h
    | setURollComp p y n =>
      simp only [World.step] at hinv ⊢
      split
      · next x z hx =>
        rw [hx] at hinv
        simp only at hinv
        split
        · next hc =>
          rw [if_pos hc] at hinv
          cases p with
          | none => cases hx
          | some r =>
            refine h.put ?_ hinv (by simp)
            rintro rfl; rw [cell_some, h.cell] at hx; cases hx
        · exact h
      · exact h
    | _ => exact absurd rfl hop

theorem Iso.run (grow : Nat → Nat) {a t xs w} (h : Iso a t xs w) (ops : List Op)
    (h1 : .elements (some a) ∉ ops) (h2 : ∀ s, .setElements (some a) s ∉ ops) :
    Iso a t xs (w.run grow ops) := by
  induction ops generalizing w with
  | nil => exact h
  | cons op ops ih =>
    refine ih (h.step grow ?_ ?_) (fun x => h1 (by simp [x])) (fun s x => h2 s (by simp [x]))
    · rintro rfl; exact h1 (by simp)
    · rintro s rfl; exact h2 s (by simp)

/-- A new array made by `NewArray`. -/
theorem newArray_iso (grow : Nat → Nat) {w : World} (hw : WInv w) {i : Nat} {s : Slice}
    (hs : w.slices[i]? = some s) :
    ∃ t, Iso w.mem.objs.length t (w.mem.contents s) (w.step grow (.newArray i)) := by
  have hinv := step_inv grow hw (.newArray i)
  simp only [World.step, hs] at hinv ⊢
  refine ⟨⟨w.mem.backs.length, 0, (w.mem.contents s).length, max s.len (w.mem.contents s).length⟩,
    hinv, ?_, ?_, ?_, ?_⟩
  · rw [newArray_eq]; simp
  · rw [newArray_eq]; simp [Mem.contents]
  · intro u hu
    have := hw.slices u hu
    simp only; omega
  · intro r u hr hu
    rw [newArray_eq] at hu
    simp only at hu
    rcases Nat.lt_or_ge r w.mem.objs.length with hl | hl
    · rw [List.getElem?_append_left hl] at hu
      have := hw.arr r u hu
      simp only; omega
    · exfalso
      have : r ≥ w.mem.objs.length + 1 := Nat.lt_of_le_of_ne hl (Ne.symm hr)
      rw [List.getElem?_eq_none (by simpa using this)] at hu
      cases hu

/-- The slice of an array changes only by an assignment to its field. -/
theorem array_step (grow : Nat → Nat) {w : World} (hw : WInv w) {a : Ref} {t : Slice}
    (h : w.mem.objs[a]? = some (.array t)) {op : Op} (h2 : ∀ s, op ≠ .setElements (some a) s) :
    (w.step grow op).mem.objs[a]? = some (.array t) := by
  by_cases hop : op.assigns = false
  · exact (step_ext grow hw hop).array h
  · have put : ∀ {p : Ptr} {x c' : Cell}, w.mem.cell p = some x → (∀ s, x = .array s → p ≠ some a) →
        (w.mem.put p c').objs[a]? = some (.array t) := by
      intro p x c' hx hs
      cases p with
      | none => exact h
      | some r =>
        simp only [Mem.put]
        by_cases hr : r = a
        · subst hr
          rw [cell_some, h] at hx; cases hx
          exact absurd rfl (hs t rfl)
        · rw [List.getElem?_set_ne hr]; exact h
    cases op with
    | write x i p =>
      simp only [World.step]
      split
      · split <;> exact h
      · exact h
    | extend i p =>
      simp only [World.step]
      split
      · next s hs =>
        split
        · simp only
          rw [(append1_props grow w.mem s p (hw.slices s (List.mem_of_getElem? hs))).1]; exact h
        · exact h
      · exact h
    | setElements p i =>
      simp only [World.step]
      split
      · next s u hs hu =>
        refine put hs ?_
        rintro v - rfl
        exact h2 i rfl
      · exact h
    | setInteger p v =>
      simp only [World.step]; split
      · next hx => exact put hx (by simp)
      · exact h
    | setBoolean p v =>
      simp only [World.step]; split
      · next hx => exact put hx (by simp)
      · exact h
    | setString p v =>
      simp only [World.step]; split
      · next hx => exact put hx (by simp)
      · exact h
    | setBRollComp p y n =>
      simp only [World.step]; split
      · next hx => split
                   · exact put hx (by simp)
                   · exact h
      · exact h
    | setRRollComp p y n =>
      simp only [World.step]; split
      · next hx => split
                   · exact put hx (by simp)
                   · exact h
      · exact h
    | setURollComp p y n =>
      simp only [World.step]; split
      · next hx => split
                   · exact put hx (by simp)
                   · exact h
      · exact h
    | _ => exact absurd rfl hop

theorem array_run (grow : Nat → Nat) {w : World} (hw : WInv w) {a : Ref} {t : Slice}
    (h : w.mem.objs[a]? = some (.array t)) (ops : List Op) (h2 : ∀ s, .setElements (some a) s ∉ ops) :
    (w.run grow ops).mem.objs[a]? = some (.array t) := by
  induction ops generalizing w with
  | nil => exact h
  | cons op ops ih =>
    refine ih (step_inv grow hw op) (array_step grow hw h ?_) (fun s x => h2 s (by simp [x]))
    rintro s rfl; exact h2 s (by simp)

/-! ## Results of U rolls -/

/-- The fields of the result of a U roll never change, except that the sums are stored once. -/
theorem uRoll_step (grow : Nat → Nat) {w : World} (hw : WInv w) {a : Ref} {g md : Ptr} {k : Ptr}
    (h : w.mem.objs[a]? = some (.uRollExpr g md k)) (op : Op) :
    ∃ k', (w.step grow op).mem.objs[a]? = some (.uRollExpr g md k') ∧ (k ≠ none → k' = k) := by
  by_cases hop : op.assigns = false
  · obtain ⟨c', h1, rfl | ⟨g', md', k', h2, h3, -⟩⟩ := (step_ext grow hw hop).objs a _ h
    · exact ⟨k, h1, fun _ => rfl⟩
    · cases h2; subst h3
      exact ⟨_, h1, fun x => absurd rfl x⟩
  · suffices hs : (w.step grow op).mem.objs[a]? = some (.uRollExpr g md k) from ⟨k, hs, fun _ => rfl⟩
    have put : ∀ {p : Ptr} {x c' : Cell}, w.mem.cell p = some x → x.kind ≠ 6 →
        (w.mem.put p c').objs[a]? = some (.uRollExpr g md k) := by
      intro p x c' hx hs
      cases p with
      | none => exact h
      | some r =>
        simp only [Mem.put]
        by_cases hr : r = a
        · subst hr
          rw [cell_some, h] at hx; cases hx
          exact absurd rfl hs
        · rw [List.getElem?_set_ne hr]; exact h
    cases op with
    | write x i p =>
      simp only [World.step]
      split
      · split <;> exact h
      · exact h
    | extend i p =>
      simp only [World.step]
      split
      · next s hs =>
        split
        · simp only
          rw [(append1_props grow w.mem s p (hw.slices s (List.mem_of_getElem? hs))).1]; exact h
        · exact h
      · exact h
    | setElements p i =>
      simp only [World.step]
      split
      · next s u hs hu => exact put hs (by simp [Cell.kind])
      · exact h
    | setInteger p v =>
      simp only [World.step]; split
      · next hx => exact put hx (by simp [Cell.kind])
      · exact h
    | setBoolean p v =>
      simp only [World.step]; split
      · next hx => exact put hx (by simp [Cell.kind])
      · exact h
    | setString p v =>
      simp only [World.step]; split
      · next hx => exact put hx (by simp [Cell.kind])
      · exact h
    | setBRollComp p y n =>
      simp only [World.step]; split
      · next hx => split
                   · exact put hx (by simp [Cell.kind])
                   · exact h
      · exact h
    | setRRollComp p y n =>
      simp only [World.step]; split
      · next hx => split
                   · exact put hx (by simp [Cell.kind])
                   · exact h
      · exact h
    | setURollComp p y n =>
      simp only [World.step]; split
      · next hx => split
                   · exact put hx (by simp [Cell.kind])
                   · exact h
      · exact h
    | _ => exact absurd rfl hop

theorem uRoll_run (grow : Nat → Nat) {w : World} (hw : WInv w) {a : Ref} {g md : Ptr} {k : Ptr}
    (h : w.mem.objs[a]? = some (.uRollExpr g md k)) (ops : List Op) :
    ∃ k', (w.run grow ops).mem.objs[a]? = some (.uRollExpr g md k') ∧ (k ≠ none → k' = k) := by
  induction ops generalizing w k with
  | nil => exact ⟨k, h, fun _ => rfl⟩
  | cons op ops ih =>
    obtain ⟨k1, h1, h2⟩ := uRoll_step grow hw h op
    obtain ⟨k2, h3, h4⟩ := ih (step_inv grow hw op) h1
    exact ⟨k2, h3, fun hk => by rw [h4 (by rw [h2 hk]; exact hk), h2 hk]⟩

theorem ints_of_denoteAll {m : Mem} : ∀ {es : List Ptr} {vs : List Int64},
    DenoteAll m es (vs.map .integer) → es.map m.integerAt = vs.map some := by
  intro es vs
  induction vs generalizing es with
  | nil => intro h; cases h; rfl
  | cons v vs ih =>
    intro h
    cases h with
    | cons h1 h2 =>
      cases h1 with
      | integer h3 =>
        rw [List.map_cons, List.map_cons, ih h2, Mem.integerAt_iff.2 ⟨_, rfl, h3⟩]

theorem ints_of_denotes {m : Mem} {r : Ref} {vs : List Int64} (h : Denotes m r (.array (vs.map .integer))) :
    ∃ es, m.elementsAt (some r) = some es ∧ es.map m.integerAt = vs.map some := by
  cases h with
  | array h1 h2 => exact ⟨_, Mem.elementsAt_iff.2 ⟨_, _, rfl, h1, rfl⟩, ints_of_denoteAll h2⟩

/-- The array of these groups of integers. -/
def groupValues (groups : List (List Int64)) : List Value := groups.map fun g => .array (g.map .integer)

theorem groupSums_total : ∀ (groups : List (List Int64)) (ps : List Ptr) (m : Mem), ArrOk m →
    DenoteAll m ps (groupValues groups) → ∃ sums m1, m.groupSums ps = (.ok sums, m1) := by
  intro groups
  induction groups with
  | nil => intro ps m _ h; cases h; exact ⟨[], m, rfl⟩
  | cons g groups ih =>
    intro ps m ok h
    cases h with
    | cons h1 h2 =>
      rename_i r _
      obtain ⟨es, he, hi⟩ := ints_of_denotes h1
      have hs := sumOfIntegers_some he (Mem.sumLoop_ints m es g 0 hi)
      have e := sumOfIntegers_ext (P := fun _ => True) m (some r)
      unfold Mem.groupSums
      simp only [he]
      rw [hs] at e ⊢
      simp only at e ⊢
      obtain ⟨sums, m2, h3⟩ := ih _ _ (e.arrOk ok) (e.denoteAll ok h2)
      rw [h3]
      exact ⟨_, _, rfl⟩

theorem sums_values {m : Mem} : ∀ (groups : List (List Int64)) (ps qs : List Ptr),
    DenoteAll m ps (groupValues groups) → SumsAre m ps qs →
      qs.map m.integerAt = (groups.map List.sum).map some := by
  intro groups
  induction groups with
  | nil => intro ps qs h hs; cases h; cases hs; rfl
  | cons g groups ih =>
    intro ps qs h hs
    cases h with
    | cons h1 h2 =>
      cases hs with
      | cons a b =>
        obtain ⟨es, he, hi⟩ := ints_of_denotes h1
        obtain ⟨es', v, h3, h4, h5⟩ := a
        rw [he] at h3; cases h3
        rw [Mem.sumLoop_ints m es g 0 hi] at h4
        simp only [Option.some.injEq] at h4
        rw [List.map_cons, List.map_cons, List.map_cons, ih _ _ h2 b, h5, ← h4]
        simp

/-- The result of a U roll in memory, with the sums not yet stored or stored correctly. -/
structure UOk (m : Mem) (r : Ref) (groups : List (List Int64)) (n : Int64) : Prop where
  arr : ArrOk m
  denotes : Denotes m r (.uRollExpr (groupValues groups) n)
  good : ∀ g md k, m.objs[r]? = some (.uRollExpr g md (some k)) → CacheGood m g k

theorem UOk.ext {P : Slice → Prop} {m m' : Mem} {r groups n} (h : UOk m r groups n) (e : Ext P m m') :
    UOk m' r groups n where
  arr := e.arrOk h.arr
  denotes := e.denotes h.arr h.denotes
  good := by
    intro g md k hk
    cases h.denotes with
    | uRollExpr hc _ _ =>
      obtain ⟨c', h1, rfl | ⟨g', md', k', h2, h3, h4⟩⟩ := e.objs r _ hc
      · rw [hk] at h1; cases h1
        exact e.cacheGood h.arr (h.good _ _ _ hc)
      · subst h3; rw [hk] at h1; cases h1
        exact h4

theorem UOk.sumOfGroups {m : Mem} {r groups n} (h : UOk m r groups n) :
    ∃ c m1 qs, m.sumOfGroups (some r) = (.ok (some c), m1) ∧ Ext (fun _ => True) m m1 ∧
      m1.elementsAt (some c) = some qs ∧ qs.map m1.integerAt = (groups.map List.sum).map some := by
  have fin : ∀ (m1 : Mem) g md c, UOk m1 r groups n → m1.objs[r]? = some (.uRollExpr g md (some c)) →
      ∃ qs, m1.elementsAt (some c) = some qs ∧
        qs.map m1.integerAt = (groups.map List.sum).map some := by
    intro m1 g md c h1 hr
    obtain ⟨gs, qs, k1, k2, k3⟩ := h1.good _ _ _ hr
    cases h1.denotes with
    | uRollExpr hc ha hi =>
      rw [hr] at hc; cases hc
      cases ha with
      | array ha1 ha2 =>
        have hx : m1.elementsAt (some _) = some _ := Mem.elementsAt_iff.2 ⟨_, _, rfl, ha1, rfl⟩
        rw [hx] at k1; cases k1
        exact ⟨qs, k2, sums_values groups _ _ ha2 k3⟩
  cases h.denotes with
  | uRollExpr hc ha hi =>
    rename_i a i cache
    cases cache with
    | some c =>
      obtain ⟨qs, h1, h2⟩ := fin m _ _ c h hc
      exact ⟨c, m, qs, by simp only [Mem.sumOfGroups, hc], Ext.refl m, h1, h2⟩
    | none =>
      have e := calculate_ext (P := fun _ => True) h.arr hc
      have hu := h.ext e.1
      cases ha with
      | array ha1 ha2 =>
        have hx : m.elementsAt (some a) = some _ := Mem.elementsAt_iff.2 ⟨_, _, rfl, ha1, rfl⟩
        obtain ⟨sums, m1, h3⟩ := groupSums_total groups _ m h.arr ha2
        have hcalc := calculate_eq m r (some a) (some i) hx
        rw [h3] at hcalc
        simp only at hcalc
        have e2 := e.2 _ _ hcalc
        rw [hcalc] at e hu
        obtain ⟨qs, h4, h5⟩ := fin _ _ _ _ hu e2.2.1
        refine ⟨_, _, qs, ?_, e.1, h4, h5⟩
        simp only [Mem.sumOfGroups, hc, hcalc]

theorem modifier_of_denotes {m : Mem} {r gs n} (h : Denotes m r (.uRollExpr gs n)) :
    m.integerAt (m.modifierOf (some r)) = some n := by
  cases h with
  | uRollExpr hc ha hi =>
    cases hi with
    | integer hi => simp only [Mem.modifierOf, cell_some, hc]; exact Mem.integerAt_iff.2 ⟨_, rfl, hi⟩

theorem add_some {m : Mem} {p q : Ptr} {a b : Int64} (ha : m.integerAt p = some a)
    (hb : m.integerAt q = some b) :
    m.add p q = (.ok m.objs.length, (m.alloc (.integer (a + b))).2) := by
  simp only [Mem.add, ha, hb]; rfl

theorem UOk.sumOfValues {m : Mem} {r groups n} (h : UOk m r groups n) :
    ∃ x m1, m.sumOfValues (some r) = (.ok x, m1) ∧ Ext (fun _ => True) m m1 ∧ m.objs.length ≤ x ∧
      m1.integerAt (some x) = some ((groups.map List.sum).sum + n) := by
  obtain ⟨c, m1, qs, h1, e, h2, h3⟩ := h.sumOfGroups
  have hs := sumOfIntegers_some h2 (Mem.sumLoop_ints m1 qs _ 0 h3)
  have e2 := sumOfIntegers_ext (P := fun _ => True) m1 (some c)
  rw [hs] at e2
  have hd := modifier_of_denotes (e2.denotes (e.arrOk h.arr) (h.ext e).denotes)
  have hv : ((m1.alloc (.integer (0 + (groups.map List.sum).sum))).2).integerAt (some m1.objs.length) =
      some (0 + (groups.map List.sum).sum) := Mem.integerAt_iff.2 ⟨_, rfl, m1.objs_alloc_new _⟩
  have ha := add_some hv hd
  have e3 := add_ext (P := fun _ => True) (m1.alloc (.integer (0 + (groups.map List.sum).sum))).2
    (some m1.objs.length)
    ((m1.alloc (.integer (0 + (groups.map List.sum).sum))).2.modifierOf (some r))
  rw [ha] at e3
  have e12 := e.trans h.arr e2
  refine ⟨_, _, ?_, e12.trans h.arr e3, e12.obj_len, ?_⟩
  · simp only [Mem.sumOfValues, h1, hs]; exact ha
  · rw [Int64.zero_add]
    exact Mem.integerAt_iff.2 ⟨_, rfl, Mem.objs_alloc_new _ _⟩

theorem UOk.maxValue {m : Mem} {r groups n} (h : UOk m r groups n) :
    ∃ x m1 mx, m.maxValue (some r) = (.ok x, m1) ∧ Ext (fun _ => True) m m1 ∧ m.objs.length ≤ x ∧
      m1.integerAt (some x) = some (mx + n) ∧
      (groups = [] ∧ mx = 0 ∨
        mx ∈ groups.map List.sum ∧ ∀ y ∈ groups.map List.sum, y.toInt ≤ mx.toInt) := by
  obtain ⟨c, m1, qs, h1, e, h2, h3⟩ := h.sumOfGroups
  have e2 := maxInteger_ext (P := fun _ => True) m1 (some c)
  -- the maximum
  have hm : ∃ b mx, (m1.maxInteger (some c)).1 = .ok (some b) ∧
      (m1.maxInteger (some c)).2.integerAt (some b) = some mx ∧ (groups = [] ∧ mx = 0 ∨
        mx ∈ groups.map List.sum ∧ ∀ y ∈ groups.map List.sum, y.toInt ≤ mx.toInt) := by
    cases groups with
    | nil =>
      have : qs = [] := by simpa using h3
      subst this
      refine ⟨m1.objs.length, 0, by simp only [Mem.maxInteger, h2]; rfl, ?_, Or.inl ⟨rfl, rfl⟩⟩
      simp only [Mem.maxInteger, h2]
      exact Mem.integerAt_iff.2 ⟨_, rfl, m1.objs_alloc_new _⟩
    | cons g groups =>
      cases qs with
      | nil => simp at h3
      | cons q qs =>
        simp only [List.map_cons, List.cons.injEq] at h3
        cases q with
        | none => cases h3.1
        | some q =>
          obtain ⟨i, b, mx, k1, k2, k3, k4⟩ := Mem.maxLoop_ints m1 qs (groups.map List.sum) q g.sum h3.2
          have hres : m1.maxInteger (some c) = (.ok (some b), m1) := by
            simp only [Mem.maxInteger, h2, h3.1, k3]
          rw [hres]
          refine ⟨b, mx, rfl, ?_, Or.inr ⟨List.mem_of_getElem? k2, fun y hy => ?_⟩⟩
          · have : (some q :: qs).map m1.integerAt = (g.sum :: groups.map List.sum).map some := by
              simp only [List.map_cons, h3.1, h3.2]
            have h5 := congrArg (·[i]?) this
            simp only [List.getElem?_map, k1, k2, Option.map_some, Option.some.injEq] at h5
            exact h5
          · obtain ⟨j, hj⟩ := List.mem_iff_getElem?.1 hy
            exact (k4 j y hj).1
  obtain ⟨b, mx, k1, k2, k3⟩ := hm
  generalize hy : m1.maxInteger (some c) = y at e2 k1 k2
  obtain ⟨o, m2⟩ := y
  simp only at k1 k2 e2
  subst k1
  have hd := modifier_of_denotes (e2.denotes (e.arrOk h.arr) (h.ext e).denotes)
  have ha := add_some k2 hd
  have e3 := add_ext (P := fun _ => True) m2 (some b) (m2.modifierOf (some r))
  rw [ha] at e3
  have e12 := e.trans h.arr e2
  refine ⟨_, _, mx, ?_, e12.trans h.arr e3, e12.obj_len, ?_, k3⟩
  · simp only [Mem.maxValue, h1, hy]; exact ha
  · exact Mem.integerAt_iff.2 ⟨_, rfl, Mem.objs_alloc_new _ _⟩

end GoBCDice.ObjMem
