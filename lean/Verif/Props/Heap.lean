import Verif.Lemmas.Heap

/-!
# C05: queues never share memory with the slices passed in or handed out

`World.queueDice` and `World.clientDice` are what can be read through the queues and through the
client's slices in memory.
-/

namespace GoBCDice

/-- The operation is performed by the client on its own slices, not by a queue. -/
def WorldOp.isClient : WorldOp → Bool
  | .make _ _ => true
  | .write _ _ _ => true
  | .reslice _ _ _ _ => true
  | .extend _ _ => true
  | _ => false

/-- Specification by values: the queues after an operation, when queues are plain lists and slices
are passed by value.  Operations of the client do not matter. -/
def listQueues (op : WorldOp) (queues clients : List (List Die)) : List (List Die) :=
  match op with
  | .newQueue s =>
    match clients[s]? with
    | some c => queues ++ [c]
    | none => queues
  | .push i d => queues.modify i (· ++ [d])
  | .append i s =>
    match clients[s]? with
    | some c => queues.modify i (· ++ c)
    | none => queues
  | .set i s =>
    match clients[s]? with
    | some c => queues.modify i (fun _ => c)
    | none => queues
  | .clear i => queues.modify i (fun _ => [])
  | .next i => queues.modify i List.tail
  | _ => queues

/-- Specification by values: the client slices after an operation of a queue. -/
def listClients (op : WorldOp) (queues clients : List (List Die)) : List (List Die) :=
  match op with
  | .dice i =>
    match queues[i]? with
    | some q => clients ++ [q]
    | none => clients
  | _ => clients

theorem set_eq_modify {α} {l : List α} {i : Nat} {a : α} (f : α → α) (h : l[i]? = some a) :
    l.set i (f a) = l.modify i f := by
  apply List.ext_getElem?
  intro j
  rw [List.getElem?_set, List.getElem?_modify]
  by_cases e : i = j
  · subst e; rw [h]; obtain ⟨hi, -⟩ := List.getElem?_eq_some_iff.1 h; simp [hi]
  · simp [e]

theorem modify_none {α} {l : List α} {i : Nat} (f : α → α) (h : l[i]? = none) :
    l.modify i f = l := by
  apply List.ext_getElem?
  intro j
  rw [List.getElem?_modify]
  by_cases e : i = j
  · subst e; simp [h]
  · simp [e]

theorem queueDice_get (w : World) (i : Nat) :
    w.queueDice[i]? = (w.queues[i]?).map w.heap.contents := by simp [World.queueDice]

theorem clientDice_get (w : World) (i : Nat) :
    w.clientDice[i]? = (w.clients[i]?).map w.heap.contents := by simp [World.clientDice]

/-- What one step does, from a world satisfying the separation invariant. -/
theorem step_inv (grow : Nat → Nat) (w : World) (hw : w.Inv) (op : WorldOp) :
    (w.step grow op).Inv ∧
      (w.step grow op).queueDice = listQueues op w.queueDice w.clientDice ∧
      (op.isClient = false →
        (w.step grow op).clientDice = listClients op w.queueDice w.clientDice ∧
        ∀ s ∈ w.clients, (w.step grow op).heap.mem s.arr = w.heap.mem s.arr) := by
  -- an operation of queue `i`
  have put : ∀ i q h' q', w.queues[i]? = some q → Upd w.heap q h' q' →
      (w.putQueue i (h', q')).Inv ∧
      (w.putQueue i (h', q')).queueDice = w.queueDice.set i (h'.contents q') ∧
      (w.putQueue i (h', q')).clientDice = w.clientDice ∧
      ∀ s ∈ w.clients, (w.putQueue i (h', q')).heap.mem s.arr = w.heap.mem s.arr := by
    intro i q h' q' hi u
    obtain ⟨h1, h2, h3⟩ := putQueue_inv hw hi u
    exact ⟨h1, h2, h3, fun s hs => u.frame _ (hw.wfc s hs).used
      (hw.sep q (List.mem_of_getElem? hi) s hs)⟩
  cases op with
  | newQueue s =>
    simp only [World.step, listQueues, listClients, clientDice_get]
    cases hs : w.clients[s]? with
    | none => exact ⟨hw, rfl, fun _ => ⟨rfl, fun _ _ => rfl⟩⟩
    | some s =>
      have hmem : s ∈ w.clients := List.mem_of_getElem? hs
      obtain ⟨u1, hc1, ha1, hf1⟩ := alloc_upd w.heap s [] 0
      have hs1 : (w.heap.alloc [] 0).1.WF s := by
        refine ⟨Nat.lt_of_lt_of_le (hw.wfc s hmem).used u1.next, ?_, (hw.wfc s hmem).len_le⟩
        rw [hf1 _ (hw.wfc s hmem).used]; exact (hw.wfc s hmem).fits
      obtain ⟨u2, hc2⟩ := appendFrom_upd grow s s.len 0 _ _ u1.wf hs1
        (by have := (hw.wfc s hmem).used; omega) (by omega)
      have hcs : (w.heap.alloc [] 0).1.contents s = w.heap.contents s := by
        simp [Heap.contents, hf1 _ (hw.wfc s hmem).used]
      rw [hc1, hcs, List.drop_zero, List.nil_append] at hc2
      -- the new queue, its memory and its address
      dsimp only
      generalize hr : memNewQueue grow w.heap s = r
      have er : memAppendFrom grow s s.len 0 (w.heap.alloc [] 0).1 (w.heap.alloc [] 0).2 = r := by
        rw [← hr]; rfl
      rw [er] at u2 hc2
      have frame : ∀ a, a < w.heap.next → r.1.mem a = w.heap.mem a := by
        intro a ha
        rw [u2.frame a (Nat.lt_of_lt_of_le ha u1.next) (by omega), hf1 a ha]
      have arr : w.heap.next ≤ r.2.arr := by
        rcases u2.arr with e | e
        · omega
        · exact Nat.le_trans u1.next e
      have keep : ∀ p, w.heap.WF p → r.1.WF p ∧ r.1.contents p = w.heap.contents p := by
        intro p hp
        refine ⟨⟨Nat.lt_of_lt_of_le hp.used (Nat.le_trans u1.next u2.next), ?_, hp.len_le⟩, ?_⟩
        · rw [frame _ hp.used]; exact hp.fits
        · simp [Heap.contents, frame _ hp.used]
      refine ⟨⟨?_, fun p hp => (keep p (hw.wfc p hp)).1, ?_, ?_⟩, ?_, fun _ => ⟨?_, fun p hp =>
        frame _ (hw.wfc p hp).used⟩⟩
      · intro p hp
        rcases List.mem_append.1 hp with hp | hp
        · exact (keep p (hw.wfq p hp)).1
        · simp only [List.mem_singleton] at hp; rw [hp]; exact u2.wf
      · intro p hp c hc
        rcases List.mem_append.1 hp with hp | hp
        · exact hw.sep p hp c hc
        · simp only [List.mem_singleton] at hp; rw [hp]
          have := (hw.wfc c hc).used
          omega
      · show (w.queues ++ [r.2]).Pairwise _
        rw [List.pairwise_append]
        refine ⟨hw.distinct, List.pairwise_singleton _ _, ?_⟩
        intro p hp p' hp'
        simp only [List.mem_singleton] at hp'
        have := (hw.wfq p hp).used
        rw [hp']; omega
      · simp only [World.queueDice, List.map_append, List.map_cons, List.map_nil, hc2,
          Option.map_some]
        rw [List.map_congr_left fun p hp => (keep p (hw.wfq p hp)).2]
      · exact List.map_congr_left fun p hp => (keep p (hw.wfc p hp)).2
  | push i d =>
    simp only [World.step, listQueues, listClients]
    cases hi : w.queues[i]? with
    | none => exact ⟨hw, (modify_none _ (by rw [queueDice_get, hi]; rfl)).symm,
        fun _ => ⟨rfl, fun _ _ => rfl⟩⟩
    | some q =>
      obtain ⟨u, hc⟩ := append1_upd grow w.heap q d (hw.wfq q (List.mem_of_getElem? hi))
      obtain ⟨h1, h2, h3, h4⟩ := put i q _ _ hi u
      refine ⟨h1, h2.trans ?_, fun _ => ⟨h3, h4⟩⟩
      rw [hc]
      exact set_eq_modify (· ++ [d]) (by rw [queueDice_get, hi]; rfl)
  | append i s =>
    simp only [World.step, listQueues, listClients, clientDice_get]
    cases hi : w.queues[i]? with
    | none =>
      cases w.clients[s]? with
      | none => exact ⟨hw, rfl, fun _ => ⟨rfl, fun _ _ => rfl⟩⟩
      | some s => exact ⟨hw, (modify_none _ (by rw [queueDice_get, hi]; rfl)).symm,
          fun _ => ⟨rfl, fun _ _ => rfl⟩⟩
    | some q =>
      cases hs : w.clients[s]? with
      | none => exact ⟨hw, rfl, fun _ => ⟨rfl, fun _ _ => rfl⟩⟩
      | some s =>
        have hm := List.mem_of_getElem? hs
        have hq := List.mem_of_getElem? hi
        obtain ⟨u, hc⟩ := appendFrom_upd grow s s.len 0 w.heap q (hw.wfq q hq) (hw.wfc s hm)
          (hw.sep q hq s hm) (by omega)
        obtain ⟨h1, h2, h3, h4⟩ := put i q _ _ hi u
        refine ⟨h1, h2.trans ?_, fun _ => ⟨h3, h4⟩⟩
        rw [hc, List.drop_zero]
        exact set_eq_modify (· ++ w.heap.contents s) (by rw [queueDice_get, hi]; rfl)
  | set i s =>
    simp only [World.step, listQueues, listClients, clientDice_get]
    cases hi : w.queues[i]? with
    | none =>
      cases w.clients[s]? with
      | none => exact ⟨hw, rfl, fun _ => ⟨rfl, fun _ _ => rfl⟩⟩
      | some s => exact ⟨hw, (modify_none _ (by rw [queueDice_get, hi]; rfl)).symm,
          fun _ => ⟨rfl, fun _ _ => rfl⟩⟩
    | some q =>
      cases hs : w.clients[s]? with
      | none => exact ⟨hw, rfl, fun _ => ⟨rfl, fun _ _ => rfl⟩⟩
      | some s =>
        obtain ⟨u, hc, -⟩ := alloc_upd w.heap q (w.heap.contents s) s.len
        obtain ⟨h1, h2, h3, h4⟩ := put i q _ _ hi u
        refine ⟨h1, h2.trans ?_, fun _ => ⟨h3, h4⟩⟩
        rw [hc]
        exact set_eq_modify (fun _ => w.heap.contents s) (by rw [queueDice_get, hi]; rfl)
  | clear i =>
    simp only [World.step, listQueues, listClients]
    cases hi : w.queues[i]? with
    | none => exact ⟨hw, (modify_none _ (by rw [queueDice_get, hi]; rfl)).symm,
        fun _ => ⟨rfl, fun _ _ => rfl⟩⟩
    | some q =>
      obtain ⟨u, hc, -⟩ := alloc_upd w.heap q [] 0
      obtain ⟨h1, h2, h3, h4⟩ := put i q _ _ hi u
      refine ⟨h1, h2.trans ?_, fun _ => ⟨h3, h4⟩⟩
      rw [hc]
      exact set_eq_modify (fun _ => []) (by rw [queueDice_get, hi]; rfl)
  | next i =>
    simp only [World.step, listQueues, listClients]
    cases hi : w.queues[i]? with
    | none => exact ⟨hw, (modify_none _ (by rw [queueDice_get, hi]; rfl)).symm,
        fun _ => ⟨rfl, fun _ _ => rfl⟩⟩
    | some q =>
      obtain ⟨u, hc, -⟩ := next_upd w.heap q (hw.wfq q (List.mem_of_getElem? hi))
      obtain ⟨h1, h2, h3, h4⟩ := put i q _ _ hi u
      refine ⟨h1, h2.trans ?_, fun _ => ⟨h3, h4⟩⟩
      rw [hc]
      exact set_eq_modify List.tail (by rw [queueDice_get, hi]; rfl)
  | dice i =>
    simp only [World.step, listQueues, listClients, queueDice_get]
    cases hi : w.queues[i]? with
    | none => exact ⟨hw, rfl, fun _ => ⟨rfl, fun _ _ => rfl⟩⟩
    | some q =>
      obtain ⟨u, hc, ha, hf⟩ := alloc_upd w.heap q (w.heap.contents q) q.len
      have keep : ∀ p, w.heap.WF p → (memDice w.heap q).1.WF p ∧
          (memDice w.heap q).1.contents p = w.heap.contents p := by
        intro p hp
        refine ⟨⟨Nat.lt_of_lt_of_le hp.used u.next, ?_, hp.len_le⟩, ?_⟩
        · rw [show (memDice w.heap q).1.mem p.arr = _ from hf _ hp.used]; exact hp.fits
        · simp [Heap.contents, show (memDice w.heap q).1.mem p.arr = _ from hf _ hp.used]
      obtain ⟨h1, h2⟩ := clients_inv hw (h' := (memDice w.heap q).1)
        (cs := w.clients ++ [(memDice w.heap q).2]) u.next
        (fun p hp => hf _ (hw.wfq p hp).used)
        (by
          intro p hp
          rcases List.mem_append.1 hp with hp | hp
          · exact (keep p (hw.wfc p hp)).1
          · simp only [List.mem_singleton] at hp; rw [hp]; exact u.wf)
        (by
          intro p hp c hc
          rcases List.mem_append.1 hc with hc | hc
          · exact hw.sep p hp c hc
          · simp only [List.mem_singleton] at hc; rw [hc]
            have := (hw.wfq p hp).used
            have ha' : (memDice w.heap q).2.arr = w.heap.next := ha
            omega)
      refine ⟨h1, h2, fun _ => ⟨?_, fun s hs => hf _ (hw.wfc s hs).used⟩⟩
      simp only [World.clientDice, List.map_append, List.map_cons, List.map_nil, Option.map_some]
      rw [List.map_congr_left fun p hp => (keep p (hw.wfc p hp)).2]
      rw [show (memDice w.heap q).1.contents (memDice w.heap q).2 = _ from hc]
  | make xs cap =>
    simp only [World.step, listQueues]
    obtain ⟨u, hc, ha, hf⟩ := alloc_upd w.heap ⟨0, 0, 0, 0⟩ xs cap
    obtain ⟨h1, h2⟩ := clients_inv hw (h' := (w.heap.alloc xs cap).1)
      (cs := w.clients ++ [(w.heap.alloc xs cap).2]) u.next
      (fun p hp => hf _ (hw.wfq p hp).used)
      (by
        intro p hp
        rcases List.mem_append.1 hp with hp | hp
        · have := hw.wfc p hp
          exact ⟨Nat.lt_of_lt_of_le this.used u.next, by rw [hf _ this.used]; exact this.fits,
            this.len_le⟩
        · simp only [List.mem_singleton] at hp; rw [hp]; exact u.wf)
      (by
        intro p hp c hc
        rcases List.mem_append.1 hc with hc | hc
        · exact hw.sep p hp c hc
        · simp only [List.mem_singleton] at hc; rw [hc]
          have := (hw.wfq p hp).used
          omega)
    exact ⟨h1, h2, fun h => by simp [WorldOp.isClient] at h⟩
  | write s i d =>
    simp only [World.step, listQueues]
    refine ⟨?_, ?_, fun h => by simp [WorldOp.isClient] at h⟩ <;>
    · cases hs : w.clients[s]? with
      | none => first | exact hw | rfl
      | some s =>
        dsimp only
        split
        · have hm := List.mem_of_getElem? hs
          have := clients_inv hw (h' := w.heap.write s.arr (s.off + i) d) (cs := w.clients)
            (Nat.le_refl _)
            (fun p hp => by simp [Heap.write, (hw.sep p hp s hm).symm])
            (by
              intro p hp
              have := hw.wfc p hp
              refine ⟨this.used, ?_, this.len_le⟩
              have := this.fits
              simp only [Heap.write]; split <;> simp <;> omega)
            hw.sep
          first | exact this.1 | exact this.2
        · first | exact hw | rfl
  | reslice s i j k =>
    simp only [World.step, listQueues]
    refine ⟨?_, ?_, fun h => by simp [WorldOp.isClient] at h⟩ <;>
    · cases hs : w.clients[s]? with
      | none => first | exact hw | rfl
      | some s =>
        dsimp only
        split
        · rename_i hb
          have hm := List.mem_of_getElem? hs
          have := clients_inv hw (h' := w.heap)
            (cs := w.clients ++ [⟨s.arr, s.off + i, j - i, k - i⟩]) (Nat.le_refl _)
            (fun p hp => rfl)
            (by
              intro p hp
              rcases List.mem_append.1 hp with hp | hp
              · exact hw.wfc p hp
              · simp only [List.mem_singleton] at hp; rw [hp]
                have := hw.wfc s hm
                have := this.fits
                refine ⟨(hw.wfc s hm).used, ?_, ?_⟩ <;> simp <;> omega)
            (by
              intro p hp c hc
              rcases List.mem_append.1 hc with hc | hc
              · exact hw.sep p hp c hc
              · simp only [List.mem_singleton] at hc; rw [hc]; exact hw.sep p hp s hm)
          first | exact this.1 | exact this.2
        · first | exact hw | rfl
  | extend i d =>
    simp only [World.step, listQueues]
    refine ⟨?_, ?_, fun h => by simp [WorldOp.isClient] at h⟩ <;>
    · cases hs : w.clients[i]? with
      | none => first | exact hw | rfl
      | some s =>
        dsimp only
        have hm := List.mem_of_getElem? hs
        obtain ⟨u, -⟩ := append1_upd grow w.heap s d (hw.wfc s hm)
        have := clients_inv hw (h' := (w.heap.append1 grow s d).1)
          (cs := w.clients.set i (w.heap.append1 grow s d).2) u.next
          (fun p hp => u.frame _ (hw.wfq p hp).used (hw.sep p hp s hm).symm)
          (by
            intro p hp
            rcases List.mem_or_eq_of_mem_set hp with hp | rfl
            · have hp' := hw.wfc p hp
              refine ⟨Nat.lt_of_lt_of_le hp'.used u.next, ?_, hp'.len_le⟩
              have := hp'.fits
              by_cases e : p.arr = s.arr
              · refine Nat.le_trans this ?_
                unfold Heap.append1
                split
                · simp only [Heap.write]; split <;> simp
                · rw [(alloc_upd w.heap s _ _).2.2.2 _ hp'.used]; exact Nat.le_refl _
              · rw [u.frame _ hp'.used e]; exact this
            · exact u.wf)
          (by
            intro p hp c hc
            rcases List.mem_or_eq_of_mem_set hc with hc | rfl
            · exact hw.sep p hp c hc
            · have hps := (u.other (hw.wfq p hp) (hw.sep p hp s hm).symm).2.2
              exact hps.symm)
        first | exact this.1 | exact this.2

theorem run_inv (grow : Nat → Nat) (ops : List WorldOp) (w : World) (hw : w.Inv) :
    (w.run grow ops).Inv := by
  induction ops generalizing w with
  | nil => exact hw
  | cons op ops ih => exact ih _ (step_inv grow w hw op).1

/-- C05: after any history of queue calls and client operations, each further operation changes the
contents of the queues exactly as if slices were passed by value; in particular writing to,
appending to or reslicing a client slice changes no queue. -/
theorem C05_queues_by_value (grow : Nat → Nat) (history : List WorldOp) (op : WorldOp) :
    let w := World.empty.run grow history
    (w.step grow op).queueDice = listQueues op w.queueDice w.clientDice :=
  (step_inv grow _ (run_inv grow history _ World.Inv.empty) op).2.1

/-- C05: after any history, a queue operation changes no client slice, nor any element of its
array beyond its length; `Dice` hands out a new slice with the queue's dice. -/
theorem C05_clients_untouched (grow : Nat → Nat) (history : List WorldOp) (op : WorldOp)
    (hop : op.isClient = false) :
    let w := World.empty.run grow history
    (w.step grow op).clientDice = listClients op w.queueDice w.clientDice ∧
      ∀ s ∈ w.clients, (w.step grow op).heap.mem s.arr = w.heap.mem s.arr :=
  (step_inv grow _ (run_inv grow history _ World.Inv.empty) op).2.2 hop

/-- C05: whatever the client does with its slices after any history, no queue changes. -/
theorem C05_client_operations (grow : Nat → Nat) (history after : List WorldOp)
    (hafter : ∀ op ∈ after, op.isClient = true) :
    (World.empty.run grow (history ++ after)).queueDice =
      (World.empty.run grow history).queueDice := by
  have key : ∀ (after : List WorldOp) (w : World), w.Inv → (∀ op ∈ after, op.isClient = true) →
      (w.run grow after).queueDice = w.queueDice := by
    intro after
    induction after with
    | nil => intros; rfl
    | cons op ops ih =>
      intro w hw h
      have hs := step_inv grow w hw op
      refine (ih _ hs.1 (fun o ho => h o (by simp [ho]))).trans (hs.2.1.trans ?_)
      have := h op (by simp)
      cases op <;> first | rfl | simp [WorldOp.isClient] at this
  have e : World.empty.run grow (history ++ after) =
      (World.empty.run grow history).run grow after := by simp [World.run]
  rw [e]
  exact key after _ (run_inv grow history _ World.Inv.empty) hafter

/-- C05: after any history, `Next` on a queue delivers the oldest die read from memory, or nothing
when the queue is empty. -/
theorem C05_next_delivers (grow : Nat → Nat) (history : List WorldOp) (i : Nat) (q : Slice) :
    let w := World.empty.run grow history
    w.queues[i]? = some q →
    (memNext w.heap q).1 = (w.queueDice[i]?).bind List.head? := by
  intro w hi
  rw [queueDice_get, hi]
  exact (next_upd w.heap q ((run_inv grow history _ World.Inv.empty).wfq q
    (List.mem_of_getElem? hi))).2.2

/-- Non-vacuity: a queue made from a slice with spare capacity; the client overwrites the slice,
appends to it, gets the dice back, overwrites them and extends them; the queue goes on as if nothing
had happened, and its own pushes do not reach the client. -/
example : (World.empty.run (fun n => 2 * n)
    [.make [⟨1, 6⟩, ⟨2, 6⟩] 8, .newQueue 0, .write 0 0 ⟨6, 6⟩, .extend 0 ⟨5, 6⟩, .dice 0,
      .write 1 1 ⟨4, 6⟩, .reslice 1 0 1 2, .extend 2 ⟨3, 6⟩, .next 0, .push 0 ⟨1, 10⟩,
      .set 0 0, .push 0 ⟨7, 10⟩, .next 0]).queueDice = [[⟨2, 6⟩, ⟨5, 6⟩, ⟨7, 10⟩]] ∧
    (World.empty.run (fun n => 2 * n)
    [.make [⟨1, 6⟩, ⟨2, 6⟩] 8, .newQueue 0, .write 0 0 ⟨6, 6⟩, .dice 0, .write 1 1 ⟨4, 6⟩,
      .next 0, .push 0 ⟨1, 10⟩]).queueDice = [[⟨2, 6⟩, ⟨1, 10⟩]] := by
  decide

end GoBCDice
