import Verif.Lemmas.ObjInspect

/-!
# Histories of calls on result objects
-/

namespace GoBCDice.ObjMem

open Raw (Value nilDereference interfaceConversion stackOverflow)

/-- What holds in every reachable world. -/
structure WInv (w : World) : Prop where
  arr : ArrOk w.mem
  slices : ∀ s ∈ w.slices, s.arr < w.mem.backs.length
  typed : Typed w.mem

/-- The slices of the client. -/
def Held (w : World) (s : Slice) : Prop := s ∈ w.slices

theorem ext_allocSlice {P : Slice → Prop} (m : Mem) (xs : List Ptr) (cap : Nat) :
    Ext P m (m.allocSlice xs cap).2 where
  objs := fun r c h => ⟨c, h, Or.inl rfl⟩
  backs := fun a ys h => by
    simp only [Mem.allocSlice]
    rw [List.getElem?_append_left (List.getElem?_eq_some_iff.1 h).1]; exact h
  arrays := fun r s h => Or.inl h
  typed := fun t => typed_backs t rfl

theorem ext_allocArray {P : Slice → Prop} (m : Mem) (t : Slice) (hl : t.arr < m.backs.length)
    (hP : P t) : Ext P m (m.alloc (.array t)).2 where
  objs := fun r x h => ⟨x, m.objs_alloc_old _ h, Or.inl rfl⟩
  backs := fun _ _ h => h
  arrays := by
    intro r s h
    simp only [Mem.alloc] at h
    rcases Nat.lt_or_ge r m.objs.length with hr | hr
    · rw [List.getElem?_append_left hr] at h; exact Or.inl h
    · rw [List.getElem?_append_right hr] at h
      rcases Nat.eq_zero_or_pos (r - m.objs.length) with h0 | h0
      · rw [h0] at h; simp at h; subst h; exact Or.inr ⟨hr, hl, Or.inr hP⟩
      · obtain ⟨n, hn⟩ : ∃ n, r - m.objs.length = n + 1 := ⟨_, (Nat.succ_pred_eq_of_pos h0).symm⟩
        rw [hn] at h; simp at h
  typed := fun t => typed_alloc t trivial

theorem newArray_eq (m : Mem) (s : Slice) :
    m.newArray s = (m.objs.length,
      { objs := m.objs ++ [Cell.array ⟨m.backs.length, 0, (m.contents s).length,
          max s.len (m.contents s).length⟩],
        backs := m.backs ++ [m.contents s ++ List.replicate (s.len - (m.contents s).length) none] }) :=
  rfl

theorem ext_newArray {P : Slice → Prop} (m : Mem) (s : Slice) : Ext P m (m.newArray s).2 where
  objs := fun r x h => by
    refine ⟨x, ?_, Or.inl rfl⟩
    rw [newArray_eq]
    simp only
    rw [List.getElem?_append_left (List.getElem?_eq_some_iff.1 h).1]; exact h
  backs := fun a ys h => by
    rw [newArray_eq]
    simp only
    rw [List.getElem?_append_left (List.getElem?_eq_some_iff.1 h).1]; exact h
  arrays := by
    intro r t h
    rw [newArray_eq] at h ⊢
    simp only at h
    rcases Nat.lt_or_ge r m.objs.length with hr | hr
    · rw [List.getElem?_append_left hr] at h; exact Or.inl h
    · rw [List.getElem?_append_right hr] at h
      rcases Nat.eq_zero_or_pos (r - m.objs.length) with h0 | h0
      · rw [h0] at h; simp at h; subst h
        exact Or.inr ⟨hr, by simp, Or.inl (Nat.le_refl _)⟩
      · obtain ⟨n, hn⟩ : ∃ n, r - m.objs.length = n + 1 := ⟨_, (Nat.succ_pred_eq_of_pos h0).symm⟩
        rw [hn] at h; simp at h
  typed := fun t => by
    have := typed_alloc (c := .array ⟨m.backs.length, 0, (m.contents s).length,
      max s.len (m.contents s).length⟩) t trivial
    exact typed_backs this rfl

/-- A call of the package, or a slice made by the client: the memory is extended. -/
theorem step_ext (grow : Nat → Nat) {w : World} (hw : WInv w) {op : Op} (h : op.assigns = false) :
    Ext (Held w) w.mem (w.step grow op).mem := by
  cases op with
  | newInteger v => exact ext_alloc _ _ (by simp) (fun _ => trivial)
  | newBoolean v => exact ext_alloc _ _ (by simp) (fun _ => trivial)
  | newString v => exact ext_alloc _ _ (by simp) (fun _ => trivial)
  | newArray s =>
    simp only [World.step]
    split
    · exact ext_newArray _ _
    · exact Ext.refl _
  | newArrayByMove s =>
    simp only [World.step]
    split
    · next t ht =>
      exact ext_allocArray _ _ (hw.slices t (List.mem_of_getElem? ht)) (List.mem_of_getElem? ht)
    · exact Ext.refl _
  | newBRollComp p q =>
    simp only [World.step]
    split
    · next hc => exact ext_alloc _ _ (by simp) (fun _ => by simpa [CellTyped] using hc)
    · exact Ext.refl _
  | newRRollComp p q =>
    simp only [World.step]
    split
    · next hc => exact ext_alloc _ _ (by simp) (fun _ => by simpa [CellTyped] using hc)
    · exact Ext.refl _
  | newURollExpr p q =>
    simp only [World.step]
    split
    · next hc => exact ext_alloc _ _ (by simp) (fun _ => by simpa [CellTyped] using hc)
    · exact Ext.refl _
  | newURollComp p q =>
    simp only [World.step]
    split
    · next hc => exact ext_alloc _ _ (by simp) (fun _ => by simpa [CellTyped] using hc)
    · exact Ext.refl _
  | maxInteger p => exact maxInteger_ext _ _
  | sumOfIntegers p => exact sumOfIntegers_ext _ _
  | add p q => exact add_ext _ _ _
  | sumOfGroups p => exact sumOfGroups_ext hw.arr _
  | maxValue p => exact maxValue_ext hw.arr _
  | sumOfValues p => exact sumOfValues_ext hw.arr _
  | make xs cap =>
    simp only [World.step]
    split
    · exact ext_allocSlice _ _ _
    · exact Ext.refl _
  | reslice s i j k =>
    simp only [World.step]
    split
    · split <;> exact Ext.refl _
    · exact Ext.refl _
  | elements p =>
    simp only [World.step]
    split <;> exact Ext.refl _
  | write s i p => cases h
  | extend s p => cases h
  | setElements p s => cases h
  | setInteger p v => cases h
  | setBoolean p v => cases h
  | setString p v => cases h
  | setBRollComp p a b => cases h
  | setRRollComp p a b => cases h
  | setURollComp p a b => cases h

theorem writeBack_length (m : Mem) (a i : Nat) (p : Ptr) :
    (m.writeBack a i p).backs.length = m.backs.length := by simp [Mem.writeBack]

theorem append1_props (grow : Nat → Nat) (m : Mem) (s : Slice) (p : Ptr) (hs : s.arr < m.backs.length) :
    (m.append1 grow s p).2.objs = m.objs ∧
    m.backs.length ≤ (m.append1 grow s p).2.backs.length ∧
    (m.append1 grow s p).1.arr < (m.append1 grow s p).2.backs.length ∧
    ((m.append1 grow s p).1.arr = s.arr ∨ (m.append1 grow s p).1.arr = m.backs.length) ∧
    ∀ a, a < m.backs.length → a ≠ s.arr → (m.append1 grow s p).2.backs[a]? = m.backs[a]? := by
  unfold Mem.append1
  split
  · refine ⟨rfl, by simp [writeBack_length], by simp [writeBack_length, hs], Or.inl rfl, ?_⟩
    intro a _ ha
    simp only [Mem.writeBack]
    rw [List.getElem?_modify]
    simp [Ne.symm ha]
  · refine ⟨rfl, by simp [Mem.allocSlice], by simp [Mem.allocSlice], Or.inr rfl, ?_⟩
    intro a ha _
    simp only [Mem.allocSlice]
    rw [List.getElem?_append_left ha]

/-- Slices of the client after an operation that is no assignment: old ones, parts of old ones,
slices of new memory or the elements of an array. -/
theorem step_slices (grow : Nat → Nat) (w : World) {op : Op} (h : op.assigns = false) :
    ∀ s ∈ (w.step grow op).slices, (∃ t ∈ w.slices, s.arr = t.arr) ∨
      (s.arr = w.mem.backs.length ∧ s.arr < (w.step grow op).mem.backs.length) ∨
      ∃ p r, op = .elements p ∧ p = some r ∧ w.mem.objs[r]? = some (.array s) := by
  intro s hs
  have old : s ∈ w.slices → (∃ t ∈ w.slices, s.arr = t.arr) := fun h => ⟨s, h, rfl⟩
  cases op with
  | newArray x =>
    simp only [World.step] at hs
    split at hs <;> exact Or.inl (old hs)
  | newArrayByMove x =>
    simp only [World.step] at hs
    split at hs <;> exact Or.inl (old hs)
  | newBRollComp p q =>
    simp only [World.step] at hs
    split at hs <;> exact Or.inl (old hs)
  | newRRollComp p q =>
    simp only [World.step] at hs
    split at hs <;> exact Or.inl (old hs)
  | newURollExpr p q =>
    simp only [World.step] at hs
    split at hs <;> exact Or.inl (old hs)
  | newURollComp p q =>
    simp only [World.step] at hs
    split at hs <;> exact Or.inl (old hs)
  | make xs cap =>
    simp only [World.step] at hs ⊢
    split at hs
    · next hc =>
      rw [if_pos hc]
      rcases List.mem_append.1 hs with h1 | h1
      · exact Or.inl (old h1)
      · simp only [List.mem_singleton] at h1
        subst h1
        exact Or.inr (Or.inl ⟨rfl, by simp [Mem.allocSlice]⟩)
    · exact Or.inl (old hs)
  | reslice x i j k =>
    simp only [World.step] at hs
    split at hs
    · next t ht =>
      split at hs
      · rcases List.mem_append.1 hs with h1 | h1
        · exact Or.inl (old h1)
        · simp only [List.mem_singleton] at h1
          subst h1
          exact Or.inl ⟨t, List.mem_of_getElem? ht, rfl⟩
      · exact Or.inl (old hs)
    · exact Or.inl (old hs)
  | elements p =>
    simp only [World.step] at hs
    split at hs
    · next t ht =>
      rcases List.mem_append.1 hs with h1 | h1
      · exact Or.inl (old h1)
      · simp only [List.mem_singleton] at h1
        subst h1
        cases p with
        | none => cases ht
        | some r => exact Or.inr (Or.inr ⟨_, r, rfl, rfl, ht⟩)
    · exact Or.inl (old hs)
  | write s i p => cases h
  | extend s p => cases h
  | setElements p s => cases h
  | setInteger p v => cases h
  | setBoolean p v => cases h
  | setString p v => cases h
  | setBRollComp p a b => cases h
  | setRRollComp p a b => cases h
  | setURollComp p a b => cases h
  | _ => exact Or.inl (old hs)

/-- An object overwritten by one of the same type keeps the invariant. -/
theorem put_inv {w : World} (hw : WInv w) {r : Ref} {c c' : Cell} (hr : w.mem.objs[r]? = some c)
    (hk : c'.kind = c.kind) (hc : CellTyped w.mem c')
    (ha : ∀ s, c' = .array s → s.arr < w.mem.backs.length) :
    WInv { w with mem := w.mem.put (some r) c' } where
  arr := by
    intro x s h
    simp only [Mem.put] at h ⊢
    by_cases hx : x = r
    · subst hx
      rw [List.getElem?_set_self (List.getElem?_eq_some_iff.1 hr).1] at h
      simp only [Option.some.injEq] at h
      exact ha s h
    · rw [List.getElem?_set_ne (Ne.symm hx)] at h
      exact hw.arr x s h
  slices := hw.slices
  typed := typed_set (backs := w.mem.backs) hw.typed hr hk hc

theorem step_inv (grow : Nat → Nat) {w : World} (hw : WInv w) (op : Op) : WInv (w.step grow op) := by
  by_cases h : op.assigns = false
  · have e := step_ext grow hw h
    refine ⟨e.arrOk hw.arr, fun s hs => ?_, e.typed hw.typed⟩
    rcases step_slices grow w h s hs with ⟨t, ht, h1⟩ | h1 | ⟨p, r, -, -, h1⟩
    · rw [h1]; exact Nat.lt_of_lt_of_le (hw.slices t ht) e.back_len
    · exact h1.2
    · exact Nat.lt_of_lt_of_le (hw.arr r s h1) e.back_len
  · cases op with
    | write s i p =>
      simp only [World.step]
      split
      · split
        · refine ⟨?_, ?_, typed_backs hw.typed rfl⟩
          · intro r t ht; rw [writeBack_length]; exact hw.arr r t ht
          · intro t ht; rw [writeBack_length]; exact hw.slices t ht
        · exact hw
      · exact hw
    | extend i p =>
      simp only [World.step]
      split
      · next s hs =>
        split
        · obtain ⟨h1, h2, h3, h4, -⟩ := append1_props grow w.mem s p (hw.slices s (List.mem_of_getElem? hs))
          refine ⟨?_, ?_, typed_backs hw.typed h1⟩
          · intro r t ht
            simp only at ht ⊢
            rw [h1] at ht
            exact Nat.lt_of_lt_of_le (hw.arr r t ht) h2
          · intro t ht
            simp only at ht ⊢
            rcases List.mem_or_eq_of_mem_set ht with h5 | h5
            · exact Nat.lt_of_lt_of_le (hw.slices t h5) h2
            · rw [h5]; exact h3
        · exact hw
      · exact hw
    | setElements p i =>
      simp only [World.step]
      split
      · next s t hs ht =>
        cases p with
        | none => cases hs
        | some r =>
          exact put_inv hw hs rfl trivial
            (fun u hu => by cases hu; exact hw.slices _ (List.mem_of_getElem? ht))
      · exact hw
    | setInteger p v =>
      simp only [World.step]
      split
      · next x hx =>
        cases p with
        | none => cases hx
        | some r => exact put_inv hw hx rfl trivial (by simp)
      · exact hw
    | setBoolean p v =>
      simp only [World.step]
      split
      · next x hx =>
        cases p with
        | none => cases hx
        | some r => exact put_inv hw hx rfl trivial (by simp)
      · exact hw
    | setString p v =>
      simp only [World.step]
      split
      · next x hx =>
        cases p with
        | none => cases hx
        | some r => exact put_inv hw hx rfl trivial (by simp)
      · exact hw
    | setBRollComp p a n =>
      simp only [World.step]
      split
      · next x y hx =>
        split
        · next hc =>
          cases p with
          | none => cases hx
          | some r => exact put_inv hw hx rfl (by simpa [CellTyped] using hc) (by simp)
        · exact hw
      · exact hw
    | setRRollComp p a n =>
      simp only [World.step]
      split
      · next x y hx =>
        split
        · next hc =>
          cases p with
          | none => cases hx
          | some r => exact put_inv hw hx rfl (by simpa [CellTyped] using hc) (by simp)
        · exact hw
      · exact hw
    | setURollComp p a n =>
      simp only [World.step]
      split
      · next x y hx =>
        split
        · next hc =>
          cases p with
          | none => cases hx
          | some r => exact put_inv hw hx rfl (by simpa [CellTyped] using hc) (by simp)
        · exact hw
      · exact hw
    | _ => exact absurd rfl h

theorem empty_inv : WInv World.empty :=
  ⟨fun r s h => by simp [World.empty] at h, fun s h => by simp [World.empty] at h,
    fun r c h => by simp [World.empty] at h⟩

theorem run_inv (grow : Nat → Nat) {w : World} (hw : WInv w) (ops : List Op) :
    WInv (w.run grow ops) := by
  induction ops generalizing w with
  | nil => exact hw
  | cons op ops ih => exact ih (step_inv grow hw op)

theorem Reachable.inv {grow : Nat → Nat} {w : World} (h : Reachable grow w) : WInv w := by
  obtain ⟨ops, rfl⟩ := h
  exact run_inv grow empty_inv ops

theorem Reachable.run {grow : Nat → Nat} {w : World} (h : Reachable grow w) (ops : List Op) :
    Reachable grow (w.run grow ops) := by
  obtain ⟨ops0, rfl⟩ := h
  exact ⟨ops0 ++ ops, by simp [World.run]⟩

/-- Several operations without assignments. -/
theorem run_ext (grow : Nat → Nat) {w : World} (hw : WInv w) (ops : List Op)
    (h : ∀ op ∈ ops, op.assigns = false) :
    Ext (fun _ => True) w.mem (w.run grow ops).mem := by
  induction ops generalizing w with
  | nil => exact Ext.refl _
  | cons op ops ih =>
    have e := step_ext grow hw (h op (by simp))
    have e' : Ext (fun _ => True) w.mem (w.step grow op).mem :=
      ⟨e.objs, e.backs, fun r s h => (e.arrays r s h).imp id fun h => ⟨h.1, h.2.1, Or.inr trivial⟩,
        e.typed⟩
    exact e'.trans hw.arr (ih (step_inv grow hw op) (fun o ho => h o (by simp [ho])))

end GoBCDice.ObjMem
