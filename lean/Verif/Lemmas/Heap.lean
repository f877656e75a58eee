import Verif.Heap

/-!
# Separation invariant of the memory model
-/

namespace GoBCDice

/-- The slice lies inside a used array. -/
structure Heap.WF (h : Heap) (s : Slice) : Prop where
  used : s.arr < h.next
  fits : s.off + s.cap ≤ (h.mem s.arr).length
  len_le : s.len ≤ s.cap

theorem Heap.contents_length {h : Heap} {s : Slice} (hw : h.WF s) :
    (h.contents s).length = s.len := by
  have := hw.fits
  have := hw.len_le
  simp [Heap.contents]; omega

/-- `h'`, `q'` come from `h`, `q` by an operation that writes only the array of `q` or new ones. -/
structure Upd (h : Heap) (q : Slice) (h' : Heap) (q' : Slice) : Prop where
  arr : q'.arr = q.arr ∨ h.next ≤ q'.arr
  next : h.next ≤ h'.next
  frame : ∀ a, a < h.next → a ≠ q.arr → h'.mem a = h.mem a
  wf : h'.WF q'

theorem Upd.trans {h q h' q' h'' q''} (a : Upd h q h' q') (b : Upd h' q' h'' q'') :
    Upd h q h'' q'' where
  arr := by
    rcases b.arr with e | e
    · rw [e]; exact a.arr
    · exact .inr (Nat.le_trans a.next e)
  next := Nat.le_trans a.next b.next
  frame := by
    intro x hx hq
    rw [b.frame x (Nat.lt_of_lt_of_le hx a.next), a.frame x hx hq]
    rcases a.arr with e | e
    · rw [e]; exact hq
    · omega
  wf := b.wf

/-- A slice of another used array keeps its place and contents. -/
theorem Upd.other {h q h' q'} (u : Upd h q h' q') {s : Slice} (hs : h.WF s) (hne : s.arr ≠ q.arr) :
    h'.WF s ∧ h'.contents s = h.contents s ∧ s.arr ≠ q'.arr := by
  have hm := u.frame s.arr hs.used hne
  refine ⟨⟨Nat.lt_of_lt_of_le hs.used u.next, by rw [hm]; exact hs.fits, hs.len_le⟩,
    by simp [Heap.contents, hm], ?_⟩
  rcases u.arr with e | e
  · rw [e]; exact hne
  · have := hs.used; omega

theorem alloc_upd (h : Heap) (q : Slice) (xs : List Die) (cap : Nat) :
    Upd h q (h.alloc xs cap).1 (h.alloc xs cap).2 ∧
      (h.alloc xs cap).1.contents (h.alloc xs cap).2 = xs ∧ (h.alloc xs cap).2.arr = h.next ∧
      (∀ a, a < h.next → (h.alloc xs cap).1.mem a = h.mem a) := by
  have fr : ∀ a, a < h.next → (h.alloc xs cap).1.mem a = h.mem a := by
    intro a ha
    simp only [Heap.alloc]
    rw [if_neg (by omega)]
  refine ⟨⟨.inr (by simp [Heap.alloc]), by simp [Heap.alloc], fun a ha _ => fr a ha, ?_⟩, ?_, rfl, fr⟩
  · refine ⟨by simp [Heap.alloc], ?_, ?_⟩
    · simp [Heap.alloc]; omega
    · simp [Heap.alloc]; omega
  · simp [Heap.contents, Heap.alloc]

theorem take_set_append {l : List Die} {off n : Nat} (d : Die) (h : off + n < l.length) :
    ((l.set (off + n) d).drop off).take (n + 1) = (l.drop off).take n ++ [d] := by
  apply List.ext_getElem
  · simp; omega
  · intro i h1 h2
    simp [List.getElem_append, List.getElem_set]
    simp at h1
    split <;> split <;> first | rfl | omega

theorem append1_upd (grow : Nat → Nat) (h : Heap) (q : Slice) (d : Die) (hq : h.WF q) :
    Upd h q (h.append1 grow q d).1 (h.append1 grow q d).2 ∧
      (h.append1 grow q d).1.contents (h.append1 grow q d).2 = h.contents q ++ [d] := by
  unfold Heap.append1
  split
  · rename_i hlt
    have hf := hq.fits
    refine ⟨⟨.inl rfl, Nat.le_refl _, ?_, ⟨hq.used, ?_, ?_⟩⟩, ?_⟩
    · intro a _ hne; simp [Heap.write, hne]
    · simp [Heap.write]; omega
    · simp; omega
    · simp only [Heap.contents, Heap.write, if_true]
      exact take_set_append d (by omega)
  · obtain ⟨h1, h2, -⟩ := alloc_upd h q (h.contents q ++ [d]) (grow q.len)
    exact ⟨h1, h2⟩

theorem appendFrom_upd (grow : Nat → Nat) (s : Slice) (n i : Nat) (h : Heap) (q : Slice)
    (hq : h.WF q) (hs : h.WF s) (hne : s.arr ≠ q.arr) (hn : i + n = s.len) :
    Upd h q (memAppendFrom grow s n i h q).1 (memAppendFrom grow s n i h q).2 ∧
      (memAppendFrom grow s n i h q).1.contents (memAppendFrom grow s n i h q).2 =
        h.contents q ++ (h.contents s).drop i := by
  induction n generalizing i h q with
  | zero =>
    have hl := Heap.contents_length hs
    refine ⟨⟨.inl rfl, Nat.le_refl _, fun _ _ _ => rfl, hq⟩, ?_⟩
    simp only [memAppendFrom]
    rw [List.drop_of_length_le (by omega), List.append_nil]
  | succ n ih =>
    have hl := Heap.contents_length hs
    have hi : i < (h.contents s).length := by omega
    rw [memAppendFrom, List.getElem?_eq_getElem hi]
    obtain ⟨u, hc⟩ := append1_upd grow h q (h.contents s)[i] hq
    obtain ⟨hs', hcs, hne'⟩ := u.other hs hne
    obtain ⟨u2, hc2⟩ := ih (i + 1) _ _ u.wf hs' hne' (by omega)
    refine ⟨u.trans u2, ?_⟩
    refine hc2.trans ?_
    rw [hcs, hc, List.drop_eq_getElem_cons hi]
    simp

theorem next_upd (h : Heap) (q : Slice) (hq : h.WF q) :
    Upd h q h (memNext h q).2 ∧ h.contents (memNext h q).2 = (h.contents q).tail ∧
      (memNext h q).1 = (h.contents q).head? := by
  have hl := Heap.contents_length hq
  have := hq.fits
  have := hq.len_le
  unfold memNext
  split
  · rename_i h0
    have hnil : h.contents q = [] := List.length_eq_zero_iff.1 (by omega)
    exact ⟨⟨.inl rfl, Nat.le_refl _, fun _ _ _ => rfl, hq⟩, by simp [hnil], by simp [hnil]⟩
  · refine ⟨⟨.inl rfl, Nat.le_refl _, fun _ _ _ => rfl, ⟨hq.used, by simp; omega, by simp; omega⟩⟩,
      ?_, rfl⟩
    simp [Heap.contents, ← List.drop_one, List.drop_take, Nat.add_comm]

/-! ## Worlds -/

/-- Every slice lies in a used array, no queue shares its array with a client slice or another
queue. -/
structure World.Inv (w : World) : Prop where
  wfq : ∀ q ∈ w.queues, w.heap.WF q
  wfc : ∀ s ∈ w.clients, w.heap.WF s
  sep : ∀ q ∈ w.queues, ∀ s ∈ w.clients, s.arr ≠ q.arr
  distinct : w.queues.Pairwise (fun q q' => q.arr ≠ q'.arr)

/-- The dice in each queue. -/
def World.queueDice (w : World) : List (List Die) := w.queues.map w.heap.contents

/-- The dice in each client slice. -/
def World.clientDice (w : World) : List (List Die) := w.clients.map w.heap.contents

theorem World.Inv.empty : World.empty.Inv :=
  ⟨by simp [World.empty], by simp [World.empty], by simp [World.empty], by simp [World.empty]⟩

theorem distinct_get {qs : List Slice} (h : qs.Pairwise (fun q q' => q.arr ≠ q'.arr)) {i j : Nat}
    {q q' : Slice} (hi : qs[i]? = some q) (hj : qs[j]? = some q') (hne : i ≠ j) : q.arr ≠ q'.arr := by
  rw [List.pairwise_iff_getElem] at h
  obtain ⟨hi', rfl⟩ := List.getElem?_eq_some_iff.1 hi
  obtain ⟨hj', rfl⟩ := List.getElem?_eq_some_iff.1 hj
  rcases Nat.lt_or_gt_of_ne hne with hlt | hlt
  · exact h i j hi' hj' hlt
  · exact fun e => h j i hj' hi' hlt e.symm

/-- Replacing queue `i` by the outcome of an operation on it. -/
theorem putQueue_inv {w : World} (hw : w.Inv) {i : Nat} {q : Slice} (hi : w.queues[i]? = some q)
    {h' : Heap} {q' : Slice} (u : Upd w.heap q h' q') :
    (w.putQueue i (h', q')).Inv ∧
      (w.putQueue i (h', q')).queueDice = w.queueDice.set i (h'.contents q') ∧
      (w.putQueue i (h', q')).clientDice = w.clientDice := by
  have hmem : q ∈ w.queues := List.mem_of_getElem? hi
  have client : ∀ s ∈ w.clients, h'.WF s ∧ h'.contents s = w.heap.contents s ∧ s.arr ≠ q'.arr :=
    fun s hs => u.other (hw.wfc s hs) (hw.sep q hmem s hs)
  have other : ∀ j p, j ≠ i → w.queues[j]? = some p →
      h'.WF p ∧ h'.contents p = w.heap.contents p ∧ p.arr ≠ q'.arr :=
    fun j p hne hj => u.other (hw.wfq p (List.mem_of_getElem? hj)) (distinct_get hw.distinct hj hi hne)
  have hcases : ∀ j p, (w.queues.set i q')[j]? = some p →
      (j = i ∧ p = q') ∨ (j ≠ i ∧ w.queues[j]? = some p) := by
    intro j p hj
    rw [List.getElem?_set] at hj
    by_cases e : i = j
    · subst e
      rw [if_pos rfl] at hj
      split at hj
      · cases hj; exact .inl ⟨rfl, rfl⟩
      · cases hj
    · rw [if_neg e] at hj; exact .inr ⟨fun h => e h.symm, hj⟩
  refine ⟨⟨?_, fun s hs => (client s hs).1, ?_, ?_⟩, ?_, ?_⟩
  · intro p hp
    obtain ⟨j, hj⟩ := List.mem_iff_getElem?.1 hp
    rcases hcases j p hj with ⟨-, rfl⟩ | ⟨hne, hj⟩
    · exact u.wf
    · exact (other j p hne hj).1
  · intro p hp s hs
    obtain ⟨j, hj⟩ := List.mem_iff_getElem?.1 hp
    rcases hcases j p hj with ⟨-, rfl⟩ | ⟨hne, hj⟩
    · exact (client s hs).2.2
    · exact hw.sep p (List.mem_of_getElem? hj) s hs
  · show (w.queues.set i q').Pairwise _
    rw [List.pairwise_iff_getElem]
    intro j k hj hk hlt
    have ej : (w.queues.set i q')[j]? = some _ := List.getElem?_eq_getElem hj
    have ek : (w.queues.set i q')[k]? = some _ := List.getElem?_eq_getElem hk
    rcases hcases j _ ej with ⟨hj1, hj2⟩ | ⟨hj1, hj2⟩ <;>
      rcases hcases k _ ek with ⟨hk1, hk2⟩ | ⟨hk1, hk2⟩
    · omega
    · rw [hj2]; exact fun e => (other k _ hk1 hk2).2.2 e.symm
    · rw [hk2]; exact (other j _ hj1 hj2).2.2
    · exact distinct_get hw.distinct hj2 hk2 (by omega)
  · apply List.ext_getElem?
    intro j
    simp only [World.queueDice, World.putQueue, List.getElem?_map, List.getElem?_set, List.length_map]
    by_cases e : i = j
    · subst e
      simp only [if_true]
      split <;> simp
    · simp only [if_neg e]
      cases hj : w.queues[j]? with
      | none => rfl
      | some p => simp [(other j p (fun h => e h.symm) hj).2.1]
  · exact List.map_congr_left fun s hs => (client s hs).2.1

/-- Client-side changes of memory that leave the arrays of the queues alone. -/
theorem clients_inv {w : World} (hw : w.Inv) {h' : Heap} {cs : List Slice}
    (hnext : w.heap.next ≤ h'.next) (hmem : ∀ q ∈ w.queues, h'.mem q.arr = w.heap.mem q.arr)
    (hwf : ∀ s ∈ cs, h'.WF s) (hsep : ∀ q ∈ w.queues, ∀ s ∈ cs, s.arr ≠ q.arr) :
    (World.mk h' w.queues cs).Inv ∧ (World.mk h' w.queues cs).queueDice = w.queueDice := by
  refine ⟨⟨?_, hwf, hsep, hw.distinct⟩, ?_⟩
  · intro q hq
    have := hw.wfq q hq
    exact ⟨Nat.lt_of_lt_of_le this.used hnext, by rw [hmem q hq]; exact this.fits, this.len_le⟩
  · refine List.map_congr_left fun q hq => ?_
    simp [Heap.contents, hmem q hq]

end GoBCDice
