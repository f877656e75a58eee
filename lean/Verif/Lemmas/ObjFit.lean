import Verif.Lemmas.ObjWorld

/-!
# Slices of the client and of arrays lie within the memory behind them
-/

namespace GoBCDice.ObjMem

/-- The slice lies within its array. -/
def Fit (m : Mem) (s : Slice) : Prop :=
  ∃ xs, m.backs[s.arr]? = some xs ∧ s.off + s.cap ≤ xs.length ∧ s.len ≤ s.cap

/-- So do the slices of all array objects. -/
def FitM (m : Mem) : Prop := ∀ (r : Ref) (s : Slice), m.objs[r]? = some (.array s) → Fit m s

/-- Arrays behind slices keep their length, and slices go on fitting. -/
structure FM (m m' : Mem) : Prop where
  lens : ∀ (a : Nat) (xs : List Ptr), m.backs[a]? = some xs → ∃ xs', m'.backs[a]? = some xs' ∧ xs'.length = xs.length
  fit : FitM m → FitM m'

theorem FM.refl (m : Mem) : FM m m := ⟨fun _ xs h => ⟨xs, h, rfl⟩, id⟩

theorem FM.trans {m m1 m2 : Mem} (h1 : FM m m1) (h2 : FM m1 m2) : FM m m2 where
  lens := fun a xs h => by
    obtain ⟨ys, h3, h4⟩ := h1.lens a xs h
    obtain ⟨zs, h5, h6⟩ := h2.lens a ys h3
    exact ⟨zs, h5, by omega⟩
  fit := fun h => h2.fit (h1.fit h)

theorem FM.fits {m m' : Mem} (h : FM m m') {s : Slice} (hs : Fit m s) : Fit m' s := by
  obtain ⟨xs, h1, h2, h3⟩ := hs
  obtain ⟨ys, h4, h5⟩ := h.lens _ _ h1
  exact ⟨ys, h4, by omega, h3⟩

/-- Same arrays behind slices, and the array objects are old or fit. -/
theorem FM.of {m m' : Mem} (hb : m'.backs = m.backs)
    (ho : ∀ (r : Ref) (s : Slice), m'.objs[r]? = some (.array s) → (∃ r' : Ref, m.objs[r']? = some (.array s)) ∨ Fit m s) :
    FM m m' where
  lens := fun a xs h => ⟨xs, by rw [hb]; exact h, rfl⟩
  fit := fun h r s hr => by
    have : Fit m s := by
      rcases ho r s hr with ⟨r', h1⟩ | h1
      · exact h r' s h1
      · exact h1
    obtain ⟨xs, h1, h2⟩ := this
    exact ⟨xs, by rw [hb]; exact h1, h2⟩

theorem FM.alloc (m : Mem) (c : Cell) (hc : ∀ s, c = .array s → Fit m s) : FM m (m.alloc c).2 := by
  refine .of rfl ?_
  intro r s hr
  simp only [Mem.alloc] at hr
  by_cases h : r < m.objs.length
  · rw [List.getElem?_append_left h] at hr; exact .inl ⟨r, hr⟩
  · rw [List.getElem?_append_right (Nat.le_of_not_lt h)] at hr
    cases h2 : r - m.objs.length with
    | zero => rw [h2] at hr; simp at hr; exact .inr (hc s hr)
    | succ n => rw [h2] at hr; simp at hr

theorem FM.put (m : Mem) (r : Ref) (c : Cell) (hc : ∀ s, c = .array s → Fit m s) :
    FM m { m with objs := m.objs.set r c } := by
  refine .of rfl ?_
  intro x s hx
  simp only [List.getElem?_set] at hx
  split at hx
  · split at hx
    · exact .inr (hc s (by simpa using hx))
    · cases hx
  · exact .inl ⟨x, hx⟩

theorem FM.allocSlice (m : Mem) (xs : List Ptr) (cap : Nat) :
    FM m (m.allocSlice xs cap).2 ∧ Fit (m.allocSlice xs cap).2 (m.allocSlice xs cap).1 := by
  constructor
  · have hl : ∀ (a : Nat) (ys : List Ptr), m.backs[a]? = some ys → (m.allocSlice xs cap).2.backs[a]? = some ys := fun a ys h => by
      simp only [Mem.allocSlice]
      rw [List.getElem?_append_left (List.getElem?_eq_some_iff.1 h).1]; exact h
    refine ⟨fun a ys h => ⟨ys, hl a ys h, rfl⟩, fun h r s hr => ?_⟩
    obtain ⟨ys, h1, h2⟩ := h r s hr
    exact ⟨ys, hl _ _ h1, h2⟩
  · refine ⟨xs ++ List.replicate (cap - xs.length) none, by simp [Mem.allocSlice], ?_, ?_⟩
    · simp [Mem.allocSlice]; omega
    · simp [Mem.allocSlice]; omega

theorem FM.maxInteger (m : Mem) (p : Ptr) : FM m (m.maxInteger p).2 := by
  unfold Mem.maxInteger
  split
  · exact .refl m
  · exact .alloc m _ (by simp)
  · exact .refl m
  · split <;> exact .refl m

theorem FM.sumOfIntegers (m : Mem) (p : Ptr) : FM m (m.sumOfIntegers p).2 := by
  unfold Mem.sumOfIntegers
  split
  · exact .refl m
  · split
    · exact .refl m
    · exact .alloc m _ (by simp)

theorem FM.add (m : Mem) (p q : Ptr) : FM m (m.add p q).2 := by
  unfold Mem.add
  split
  · exact .alloc m _ (by simp)
  · exact .refl m

theorem FM.groupSums (ps : List Ptr) : ∀ m : Mem, FM m (m.groupSums ps).2 := by
  induction ps with
  | nil => intro m; exact .refl m
  | cons p rest ih =>
    intro m
    unfold Mem.groupSums
    split
    · exact .refl m
    · have h1 := FM.sumOfIntegers m p
      split
      · next r m1 h =>
        rw [h] at h1
        have h2 := ih m1
        split <;> (next h3 => rw [h3] at h2; exact h1.trans h2)
      all_goals (next h => rw [h] at h1; exact h1)

theorem FM.calculateSumOfGroups (m : Mem) (r : Ref) (g md : Ptr) : FM m (m.calculateSumOfGroups r g md).2 := by
  unfold Mem.calculateSumOfGroups
  split
  · exact .refl m
  · next gs hgs =>
    have h1 := FM.groupSums gs m
    split
    · next sums m1 h =>
      rw [h] at h1
      obtain ⟨h2, h3⟩ := FM.allocSlice m1 sums gs.length
      have h4 : FM (m1.allocSlice sums gs.length).2
          ((m1.allocSlice sums gs.length).2.newArrayByMove (m1.allocSlice sums gs.length).1).2 :=
        FM.alloc _ _ (fun s hs => by cases hs; exact h3)
      exact h1.trans (h2.trans (h4.trans (FM.put _ _ _ (by simp))))
    all_goals (next h => rw [h] at h1; exact h1)

theorem FM.sumOfGroups (m : Mem) (p : Ptr) : FM m (m.sumOfGroups p).2 := by
  unfold Mem.sumOfGroups
  split
  · exact .refl m
  · split
    · exact .refl m
    · next r _ g md _ =>
      have h1 := FM.calculateSumOfGroups m r g md
      split <;> (next h => rw [h] at h1; exact h1)
    · exact .refl m

theorem FM.maxValue (m : Mem) (p : Ptr) : FM m (m.maxValue p).2 := by
  unfold Mem.maxValue
  have h1 := FM.sumOfGroups m p
  split
  · next sums m1 h =>
    rw [h] at h1
    have h2 := FM.maxInteger m1 sums
    split
    · next h3 => rw [h3] at h2; exact h1.trans (h2.trans (.add _ _ _))
    all_goals (next h3 => rw [h3] at h2; exact h1.trans h2)
  all_goals (next h => rw [h] at h1; exact h1)

theorem FM.sumOfValues (m : Mem) (p : Ptr) : FM m (m.sumOfValues p).2 := by
  unfold Mem.sumOfValues
  have h1 := FM.sumOfGroups m p
  split
  · next sums m1 h =>
    rw [h] at h1
    have h2 := FM.sumOfIntegers m1 sums
    split
    · next h3 => rw [h3] at h2; exact h1.trans (h2.trans (.add _ _ _))
    all_goals (next h3 => rw [h3] at h2; exact h1.trans h2)
  all_goals (next h => rw [h] at h1; exact h1)

theorem FM.writeBack (m : Mem) (a i : Nat) (p : Ptr) : FM m (m.writeBack a i p) := by
  have hl : ∀ (b : Nat) (xs : List Ptr), m.backs[b]? = some xs →
      ∃ xs', (m.writeBack a i p).backs[b]? = some xs' ∧ xs'.length = xs.length := by
    intro b xs h
    simp only [Mem.writeBack, List.getElem?_modify, h]
    split
    · exact ⟨_, rfl, by simp⟩
    · exact ⟨_, rfl, rfl⟩
  refine ⟨hl, fun h r s hr => ?_⟩
  obtain ⟨ys, h1, h2, h3⟩ := h r s hr
  obtain ⟨zs, h4, h5⟩ := hl _ _ h1
  exact ⟨zs, h4, by omega, h3⟩

theorem FM.append1 (grow : Nat → Nat) (m : Mem) (s : Slice) (p : Ptr) (hs : Fit m s) :
    FM m (m.append1 grow s p).2 ∧ Fit (m.append1 grow s p).2 (m.append1 grow s p).1 := by
  unfold Mem.append1
  split
  · next h =>
    have h1 := FM.writeBack m s.arr (s.off + s.len) p
    refine ⟨h1, ?_⟩
    obtain ⟨ys, h2, h3, h4⟩ := h1.fits hs
    exact ⟨ys, h2, h3, h⟩
  · exact FM.allocSlice m _ _

/-- Every slice fits. -/
structure WFit (w : World) : Prop where
  mem : FitM w.mem
  slices : ∀ s ∈ w.slices, Fit w.mem s

theorem WFit.keep {w : World} (h : WFit w) {m : Mem} (hm : FM w.mem m) : WFit { w with mem := m } :=
  ⟨hm.fit h.mem, fun s hs => hm.fits (h.slices s hs)⟩

theorem step_fit (grow : Nat → Nat) {w : World} (h : WFit w) (op : Op) : WFit (w.step grow op) := by
  cases op with
  | newInteger v => exact h.keep (.alloc _ _ (by simp))
  | newBoolean v => exact h.keep (.alloc _ _ (by simp))
  | newString v => exact h.keep (.alloc _ _ (by simp))
  | newArray x =>
    simp only [World.step]
    split
    · next s hs =>
      obtain ⟨h2, h3⟩ := FM.allocSlice w.mem (w.mem.contents s) s.len
      exact h.keep (h2.trans (.alloc _ _ (fun t ht => by cases ht; exact h3)))
    · exact h
  | newArrayByMove x =>
    simp only [World.step]
    split
    · next s hs => exact h.keep (.alloc _ _ (fun t ht => by cases ht; exact h.slices _ (List.mem_of_getElem? hs)))
    · exact h
  | newBRollComp p q => simp only [World.step]; split <;> first | exact h | exact h.keep (.alloc _ _ (by simp))
  | newRRollComp p q => simp only [World.step]; split <;> first | exact h | exact h.keep (.alloc _ _ (by simp))
  | newURollExpr p q => simp only [World.step]; split <;> first | exact h | exact h.keep (.alloc _ _ (by simp))
  | newURollComp p q => simp only [World.step]; split <;> first | exact h | exact h.keep (.alloc _ _ (by simp))
  | maxInteger p => exact h.keep (.maxInteger _ _)
  | sumOfIntegers p => exact h.keep (.sumOfIntegers _ _)
  | add p q => exact h.keep (.add _ _ _)
  | sumOfGroups p => exact h.keep (.sumOfGroups _ _)
  | maxValue p => exact h.keep (.maxValue _ _)
  | sumOfValues p => exact h.keep (.sumOfValues _ _)
  | make xs cap =>
    simp only [World.step]
    split
    · obtain ⟨h2, h3⟩ := FM.allocSlice w.mem xs cap
      refine ⟨h2.fit h.mem, fun s hs => ?_⟩
      rcases List.mem_append.1 hs with h4 | h4
      · exact h2.fits (h.slices s h4)
      · rw [List.mem_singleton.1 h4]; exact h3
    · exact h
  | reslice x i j k =>
    simp only [World.step]
    split
    · next s hs =>
      split
      · next hc =>
        refine ⟨h.mem, fun t ht => ?_⟩
        rcases List.mem_append.1 ht with h4 | h4
        · exact h.slices t h4
        · rw [List.mem_singleton.1 h4]
          obtain ⟨xs, h5, h6, h7⟩ := h.slices s (List.mem_of_getElem? hs)
          exact ⟨xs, h5, by show s.off + i + (k - i) ≤ _; omega, by show j - i ≤ k - i; omega⟩
      · exact h
    · exact h
  | elements p =>
    simp only [World.step]
    split
    · next s hs =>
      refine ⟨h.mem, fun t ht => ?_⟩
      rcases List.mem_append.1 ht with h4 | h4
      · exact h.slices t h4
      · rw [List.mem_singleton.1 h4]
        cases p with
        | none => cases hs
        | some r => exact h.mem r s hs
    · exact h
  | write x i p =>
    simp only [World.step]
    split
    · split
      · exact h.keep (.writeBack _ _ _ _)
      · exact h
    · exact h
  | extend i p =>
    simp only [World.step]
    split
    · next s hs =>
      split
      · obtain ⟨h1, h2⟩ := FM.append1 grow w.mem s p (h.slices s (List.mem_of_getElem? hs))
        refine ⟨h1.fit h.mem, fun t ht => ?_⟩
        rcases List.mem_or_eq_of_mem_set ht with h5 | h5
        · exact h1.fits (h.slices t h5)
        · rw [h5]; exact h2
      · exact h
    · exact h
  | setElements p i =>
    simp only [World.step]
    split
    · next s t hs ht =>
      cases p with
      | none => cases hs
      | some r => exact h.keep (.put _ _ _ (fun u hu => by cases hu; exact h.slices _ (List.mem_of_getElem? ht)))
    · exact h
  | setInteger p v =>
    simp only [World.step]
    split
    · cases p with
      | none => exact h
      | some r => exact h.keep (.put _ _ _ (by simp))
    · exact h
  | setBoolean p v =>
    simp only [World.step]
    split
    · cases p with
      | none => exact h
      | some r => exact h.keep (.put _ _ _ (by simp))
    · exact h
  | setString p v =>
    simp only [World.step]
    split
    · cases p with
      | none => exact h
      | some r => exact h.keep (.put _ _ _ (by simp))
    · exact h
  | setBRollComp p a n =>
    simp only [World.step]
    split
    · split
      · cases p with
        | none => exact h
        | some r => exact h.keep (.put _ _ _ (by simp))
      · exact h
    · exact h
  | setRRollComp p a n =>
    simp only [World.step]
    split
    · split
      · cases p with
        | none => exact h
        | some r => exact h.keep (.put _ _ _ (by simp))
      · exact h
    · exact h
  | setURollComp p a n =>
    simp only [World.step]
    split
    · split
      · cases p with
        | none => exact h
        | some r => exact h.keep (.put _ _ _ (by simp))
      · exact h
    · exact h

theorem Reachable.fit {grow : Nat → Nat} {w : World} (h : Reachable grow w) : WFit w := by
  obtain ⟨ops, rfl⟩ := h
  have : ∀ (ops : List Op) (w : World), WFit w → WFit (w.run grow ops) := by
    intro ops
    induction ops with
    | nil => intro w h; exact h
    | cons op ops ih => intro w h; exact ih _ (step_fit grow h op)
  exact this ops _ ⟨fun r s h => by simp [World.empty] at h, fun s h => by simp [World.empty] at h⟩

theorem contents_of_fit {m : Mem} {s : Slice} {xs : List Ptr} (h : m.backs[s.arr]? = some xs) :
    m.contents s = (xs.drop s.off).take s.len := by
  simp [Mem.contents, List.getD, h]

theorem contents_length {m : Mem} {s : Slice} (h : Fit m s) : (m.contents s).length = s.len := by
  obtain ⟨xs, h1, h2, h3⟩ := h
  rw [contents_of_fit h1]; simp; omega

theorem contents_writeBack {m : Mem} {s : Slice} (h : Fit m s) (i : Nat) (p : Ptr) :
    (m.writeBack s.arr (s.off + i) p).contents s = (m.contents s).set i p := by
  obtain ⟨xs, h1, h2, h3⟩ := h
  have : (m.writeBack s.arr (s.off + i) p).backs[s.arr]? = some (xs.set (s.off + i) p) := by
    simp [Mem.writeBack, h1]
  rw [contents_of_fit h1, contents_of_fit this]
  apply List.ext_getElem?
  intro j
  simp only [List.getElem?_take, List.getElem?_drop, List.getElem?_set, List.length_take, List.length_drop]
  grind

theorem contents_allocSlice (m : Mem) (xs : List Ptr) (cap : Nat) :
    (m.allocSlice xs cap).2.contents (m.allocSlice xs cap).1 = xs := by
  have h : (m.allocSlice xs cap).2.backs[(m.allocSlice xs cap).1.arr]? =
      some (xs ++ List.replicate (cap - xs.length) none) := by simp [Mem.allocSlice]
  rw [contents_of_fit h]
  show List.take xs.length (List.drop 0 _) = xs
  simp

theorem contents_append1 (grow : Nat → Nat) {m : Mem} {s : Slice} (h : Fit m s) (p : Ptr) :
    (m.append1 grow s p).2.contents (m.append1 grow s p).1 = m.contents s ++ [p] := by
  obtain ⟨xs, h1, h2, h3⟩ := id h
  unfold Mem.append1
  split
  · next hc =>
    have : (m.writeBack s.arr (s.off + s.len) p).backs[s.arr]? = some (xs.set (s.off + s.len) p) := by
      simp [Mem.writeBack, h1]
    rw [contents_of_fit (s := { s with len := s.len + 1 }) this, contents_of_fit h1]
    apply List.ext_getElem?
    intro j
    simp only [List.getElem?_take, List.getElem?_drop, List.getElem?_set, List.getElem?_append, List.length_take,
      List.length_drop]
    grind
  · exact contents_allocSlice m _ _

end GoBCDice.ObjMem
