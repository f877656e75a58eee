import Verif.Spec.EnvMem
import Verif.Props.Heap

/-!
# Recorded dice are nobody else's (C103)
-/

namespace GoBCDice

variable {σ : Type}

/-! ## Lemmas -/

/-- The laboratory seen as a world of `Verif.Heap`. -/
def Lab.world (w : Lab σ) : World := ⟨w.heap, w.owners.map Owner.dice, w.clients⟩

theorem Lab.queueDice_world (w : Lab σ) : w.world.queueDice = w.ownerDice.map Owner.dice := by
  simp only [Lab.world, World.queueDice, Lab.ownerDice, List.map_map]
  refine List.map_congr_left fun o _ => ?_
  cases o <;> rfl

theorem Lab.clientDice_world (w : Lab σ) : w.world.clientDice = w.clientDice := rfl

/-- What kind of owner. -/
def Owner.kind {α : Type} : Owner α → Owner Unit := Owner.map fun _ => ()

theorem owners_ext : ∀ {l l' : List (Owner (List Die))}, l.map Owner.dice = l'.map Owner.dice →
    l.map Owner.kind = l'.map Owner.kind → l = l'
  | [], [], _, _ => rfl
  | [], _ :: _, h, _ => by simp at h
  | _ :: _, [], h, _ => by simp at h
  | a :: l, b :: l', h, h' => by
    simp only [List.map_cons, List.cons.injEq] at h h'
    have : a = b := by
      cases a <;> cases b <;> simp_all [Owner.kind, Owner.map, Owner.dice]
    rw [this, owners_ext h.2 h'.2]

theorem Lab.kinds (w : Lab σ) : w.ownerDice.map Owner.kind = w.owners.map Owner.kind := by
  simp only [Lab.ownerDice, List.map_map]
  refine List.map_congr_left fun o _ => ?_
  cases o <;> rfl

theorem ownerDice_get (w : Lab σ) (i : Nat) : w.ownerDice[i]? = (w.owners[i]?).map (Owner.map w.heap.contents) := by
  simp [Lab.ownerDice]

theorem heldDice_get (w : Lab σ) (i : Nat) : w.clientDice[i]? = (w.clients[i]?).map w.heap.contents := by
  simp [Lab.clientDice]

theorem envAppendFrom_eq (grow : Nat → Nat) (s : Slice) (n i : Nat) (h : Heap) (e : Slice) :
    envAppendFrom grow s n i h e = memAppendFrom grow s n i h e := by
  induction n generalizing i h e with
  | zero => rfl
  | succ n ih =>
    simp only [envAppendFrom, memAppendFrom]
    cases (h.contents s)[i]? with
    | none => rfl
    | some d => exact ih _ _ _

/-- Memory that kept all arrays in use. -/
structure Kept (h h' : Heap) : Prop where
  next : h.next ≤ h'.next
  frame : ∀ a, a < h.next → h'.mem a = h.mem a

theorem Kept.wf {h h' : Heap} (k : Kept h h') {s : Slice} (hs : h.WF s) : h'.WF s :=
  ⟨Nat.lt_of_lt_of_le hs.used k.next, by rw [k.frame _ hs.used]; exact hs.fits, hs.len_le⟩

theorem Kept.contents {h h' : Heap} (k : Kept h h') {s : Slice} (hs : h.WF s) : h'.contents s = h.contents s := by
  simp [Heap.contents, k.frame _ hs.used]

theorem alloc_kept (h : Heap) (xs : List Die) (cap : Nat) : Kept h (h.alloc xs cap).1 :=
  ⟨(alloc_upd h ⟨0, 0, 0, 0⟩ xs cap).1.next, (alloc_upd h ⟨0, 0, 0, 0⟩ xs cap).2.2.2⟩

/-- A new protected slice. -/
theorem add_queue {w : World} (hw : w.Inv) {h' : Heap} (k : Kept w.heap h') {q : Slice} (hq : h'.WF q)
    (ha : w.heap.next ≤ q.arr) :
    (World.mk h' (w.queues ++ [q]) w.clients).Inv ∧
      (World.mk h' (w.queues ++ [q]) w.clients).queueDice = w.queueDice ++ [h'.contents q] ∧
      (World.mk h' (w.queues ++ [q]) w.clients).clientDice = w.clientDice := by
  refine ⟨⟨?_, fun s hs => k.wf (hw.wfc s hs), ?_, ?_⟩, ?_, ?_⟩
  · intro p hp
    rcases List.mem_append.1 hp with hp | hp
    · exact k.wf (hw.wfq p hp)
    · simp only [List.mem_singleton] at hp; rw [hp]; exact hq
  · intro p hp c hc
    rcases List.mem_append.1 hp with hp | hp
    · exact hw.sep p hp c hc
    · simp only [List.mem_singleton] at hp; rw [hp]
      have := (hw.wfc c hc).used
      omega
  · show (w.queues ++ [q]).Pairwise _
    rw [List.pairwise_append]
    refine ⟨hw.distinct, List.pairwise_singleton _ _, ?_⟩
    intro p hp p' hp'
    simp only [List.mem_singleton] at hp'
    have := (hw.wfq p hp).used
    rw [hp']; omega
  · simp only [World.queueDice, List.map_append, List.map_cons, List.map_nil]
    rw [List.map_congr_left fun p hp => k.contents (hw.wfq p hp)]
  · exact List.map_congr_left fun p hp => k.contents (hw.wfc p hp)

/-- A new slice for the client. -/
theorem add_client {w : World} (hw : w.Inv) {h' : Heap} (k : Kept w.heap h') {s : Slice} (hs : h'.WF s)
    (ha : w.heap.next ≤ s.arr) :
    (World.mk h' w.queues (w.clients ++ [s])).Inv ∧
      (World.mk h' w.queues (w.clients ++ [s])).queueDice = w.queueDice ∧
      (World.mk h' w.queues (w.clients ++ [s])).clientDice = w.clientDice ++ [h'.contents s] := by
  obtain ⟨h1, h2⟩ := clients_inv hw (h' := h') (cs := w.clients ++ [s]) k.next
    (fun p hp => k.frame _ (hw.wfq p hp).used)
    (by
      intro p hp
      rcases List.mem_append.1 hp with hp | hp
      · exact k.wf (hw.wfc p hp)
      · simp only [List.mem_singleton] at hp; rw [hp]; exact hs)
    (by
      intro p hp c hc
      rcases List.mem_append.1 hc with hc | hc
      · exact hw.sep p hp c hc
      · simp only [List.mem_singleton] at hc; rw [hc]
        have := (hw.wfq p hp).used
        omega)
  refine ⟨h1, h2, ?_⟩
  simp only [World.clientDice, List.map_append, List.map_cons, List.map_nil]
  rw [List.map_congr_left fun p hp => k.contents (hw.wfc p hp)]

/-- Only unused memory changed. -/
theorem add_nothing {w : World} (hw : w.Inv) {h' : Heap} (k : Kept w.heap h') :
    (World.mk h' w.queues w.clients).Inv ∧ (World.mk h' w.queues w.clients).queueDice = w.queueDice ∧
      (World.mk h' w.queues w.clients).clientDice = w.clientDice := by
  obtain ⟨h1, h2⟩ := clients_inv hw (h' := h') (cs := w.clients) k.next
    (fun p hp => k.frame _ (hw.wfq p hp).used) (fun p hp => k.wf (hw.wfc p hp)) hw.sep
  exact ⟨h1, h2, List.map_congr_left fun p hp => k.contents (hw.wfc p hp)⟩

/-- The loop of `RollDice` in memory. -/
theorem memRollLoop_spec (grow : Nat → Nat) (F : DieFeeder σ) (num sides : Int64) (h0 : Heap) :
    ∀ (n : Nat) (h : Heap) (s : Slice) (f : σ), Kept h0 h → h.WF s → h0.next ≤ s.arr →
      Kept h0 (memRollLoop grow F num sides n h s f).2.1 ∧
      (memRollLoop grow F num sides n h s f).2.2 = (rollLoop F num sides n (h.contents s) f).2 ∧
      match (memRollLoop grow F num sides n h s f).1, (rollLoop F num sides n (h.contents s) f).1 with
      | .ok s', .ok ds => (memRollLoop grow F num sides n h s f).2.1.WF s' ∧ h0.next ≤ s'.arr ∧
          (memRollLoop grow F num sides n h s f).2.1.contents s' = ds
      | .err m, .err m' => m = m'
      | .panic m, .panic m' => m = m'
      | _, _ => False := by
  intro n
  induction n with
  | zero => intro h s f k hs ha; exact ⟨k, rfl, hs, ha, rfl⟩
  | succ n ih =>
    intro h s f k hs ha
    simp only [memRollLoop, rollLoop]
    rcases hn : F.next f sides with ⟨o, f'⟩
    cases o with
    | err e => exact ⟨k, rfl, rfl⟩
    | panic m => exact ⟨k, rfl, rfl⟩
    | ok d =>
      dsimp only
      by_cases hd : d.sides ≠ sides
      · rw [if_pos hd, if_pos hd]; exact ⟨k, rfl, rfl⟩
      · rw [if_neg hd, if_neg hd]
        obtain ⟨u, hc⟩ := append1_upd grow h s d hs
        rw [← hc]
        refine ih _ _ _ ⟨Nat.le_trans k.next u.next, fun a h => ?_⟩ u.wf ?_
        · rw [u.frame a (Nat.lt_of_lt_of_le h k.next) (by omega), k.frame a h]
        · rcases u.arr with e | e
          · omega
          · exact Nat.le_trans k.next e

theorem memRollDice_spec (grow : Nat → Nat) (F : DieFeeder σ) (num sides : Int64) (h : Heap) (f : σ) :
    Kept h (memRollDice grow F num sides h f).2.1 ∧
    (memRollDice grow F num sides h f).2.2 = (rollDice F num sides f).2 ∧
    match (memRollDice grow F num sides h f).1, (rollDice F num sides f).1 with
    | .ok s', .ok ds => (memRollDice grow F num sides h f).2.1.WF s' ∧ h.next ≤ s'.arr ∧
        (memRollDice grow F num sides h f).2.1.contents s' = ds
    | .err m, .err m' => m = m'
    | .panic m, .panic m' => m = m'
    | _, _ => False := by
  unfold memRollDice rollDice
  by_cases h1 : sides < 1
  · rw [if_pos h1, if_pos h1]; exact ⟨⟨Nat.le_refl _, fun _ _ => rfl⟩, rfl, rfl⟩
  rw [if_neg h1, if_neg h1]
  by_cases h2 : num < 1
  · rw [if_pos h2, if_pos h2]; exact ⟨⟨Nat.le_refl _, fun _ _ => rfl⟩, rfl, rfl⟩
  rw [if_neg h2, if_neg h2]
  by_cases h3 : maxMakeCap < num
  · rw [if_pos h3, if_pos h3]; exact ⟨⟨Nat.le_refl _, fun _ _ => rfl⟩, rfl, rfl⟩
  rw [if_neg h3, if_neg h3]
  obtain ⟨u, hc, ha, -⟩ := alloc_upd h ⟨0, 0, 0, 0⟩ [] num.toInt.toNat
  have := memRollLoop_spec grow F num sides h num.toInt.toNat _ _ f (alloc_kept h [] num.toInt.toNat) u.wf (by omega)
  rw [hc] at this
  exact this

/-- An operation on the environment `i`. -/
theorem put_env {w : Lab σ} (hw : w.world.Inv) {i : Nat} {e : Slice} (hi : w.owners[i]? = some (.env e)) {h' : Heap}
    {e' : Slice} (u : Upd w.heap e h' e') (g : List Die → List Die) (hg : h'.contents e' = g (w.heap.contents e)) :
    (w.putEnv i (h', e')).world.Inv ∧ (w.putEnv i (h', e')).ownerDice = recordDice i g w.ownerDice ∧
      (w.putEnv i (h', e')).clientDice = w.clientDice ∧
      ∀ s ∈ w.clients, h'.mem s.arr = w.heap.mem s.arr := by
  have hi' : w.world.queues[i]? = some e := by simp [Lab.world, hi, Owner.dice]
  obtain ⟨h1, h2, h3⟩ := putQueue_inv hw hi' u
  have hx : (w.putEnv i (h', e')).world = w.world.putQueue i (h', e') := by
    simp [Lab.world, Lab.putEnv, World.putQueue, List.map_set, Owner.dice]
  refine ⟨hx ▸ h1, ?_, ?_, fun s hs => u.frame _ (hw.wfc s hs).used (hw.sep e (List.mem_of_getElem? hi') s hs)⟩
  · have hget : w.ownerDice[i]? = some (.env (w.heap.contents e)) := by rw [ownerDice_get, hi]; rfl
    have hrec : recordDice i g w.ownerDice = w.ownerDice.set i (.env (h'.contents e')) := by
      rw [hg]
      exact (set_eq_modify (fun | .env ds => .env (g ds) | .sum ds => .sum ds) hget).symm
    rw [hrec]
    refine owners_ext ?_ ?_
    · rw [← Lab.queueDice_world, hx, h2, Lab.queueDice_world, List.map_set]; rfl
    · rw [Lab.kinds]
      show (w.owners.set i (.env e')).map Owner.kind = _
      rw [List.map_set, List.map_set, Lab.kinds]
      rfl
  · rw [← Lab.clientDice_world, hx, h3, Lab.clientDice_world]

/-- The environments and nodes did not change hands. -/
theorem same_owners {w w' : Lab σ} (ho : w'.owners = w.owners) (hq : w'.world.queueDice = w.world.queueDice) :
    w'.ownerDice = w.ownerDice := by
  refine owners_ext ?_ ?_
  · rw [← Lab.queueDice_world, ← Lab.queueDice_world, hq]
  · rw [Lab.kinds, Lab.kinds, ho]

theorem record_none {i : Nat} (g : List Die → List Die) {l : List (Owner (List Die))}
    (h : ∀ ds, l[i]? ≠ some (.env ds)) : recordDice i g l = l := by
  apply List.ext_getElem?
  intro j
  rw [recordDice, List.getElem?_modify]
  by_cases e : i = j
  · subst e
    cases hl : l[i]? with
    | none => rfl
    | some o =>
      cases o with
      | env ds => exact absurd hl (h ds)
      | sum ds => simp
  · simp [e]

theorem not_env {w : Lab σ} {i : Nat} (h : ∀ e, w.owners[i]? ≠ some (.env e)) (ds : List Die) :
    w.ownerDice[i]? ≠ some (.env ds) := by
  rw [ownerDice_get]
  cases hl : w.owners[i]? with
  | none => simp
  | some o =>
    cases o with
    | env e => exact absurd hl (h e)
    | sum e => simp [Owner.map]

/-- What one step does, from a laboratory satisfying the separation invariant. -/
theorem lab_step (grow : Nat → Nat) (F : DieFeeder σ) (w : Lab σ) (hw : w.world.Inv) (op : LabOp) :
    (w.step grow F op).world.Inv ∧
      (w.step grow F op).ownerDice = listOwners F op w.ownerDice w.clientDice w.feeder ∧
      (op.isClient = false →
        (w.step grow F op).clientDice = listHeld F op w.ownerDice w.clientDice w.feeder ∧
        ∀ s ∈ w.clients, (w.step grow F op).heap.mem s.arr = w.heap.mem s.arr) := by
  -- an operation that concerns an environment which does not exist
  have idle : ∀ g : List Die → List Die, ∀ i, (∀ e, w.owners[i]? ≠ some (.env e)) →
      recordDice i g w.ownerDice = w.ownerDice := fun g i h => record_none g (not_env h)
  -- the client's operations, as in the world of queues
  have client : ∀ (op' : WorldOp) (w' : Lab σ), w'.owners = w.owners → w'.world = w.world.step grow op' →
      listQueues op' w.world.queueDice w.world.clientDice = w.world.queueDice →
      w'.world.Inv ∧ w'.ownerDice = w.ownerDice := by
    intro op' w' ho hx hl
    obtain ⟨h1, h2, -⟩ := step_inv grow w.world hw op'
    exact ⟨hx ▸ h1, same_owners ho (by rw [hx, h2, hl])⟩
  cases op with
  | newEnv =>
    obtain ⟨u, hc, ha, -⟩ := alloc_upd w.heap ⟨0, 0, 0, 0⟩ [] 0
    have k := alloc_kept w.heap [] 0
    obtain ⟨h1, h2, h3⟩ := add_queue hw k u.wf (Nat.le_of_eq ha.symm)
    have hx : (w.step grow F .newEnv).world = World.mk (envEmpty w.heap).1 (w.world.queues ++ [(envEmpty w.heap).2]) w.clients := by
      simp [Lab.step, Lab.world, Owner.dice]
    refine ⟨hx ▸ h1, ?_, fun _ => ⟨?_, fun s hs => k.frame _ (hw.wfc s hs).used⟩⟩
    · refine owners_ext ?_ ?_
      · rw [← Lab.queueDice_world, hx]
        refine h2.trans ?_
        rw [hc, Lab.queueDice_world]
        simp [listOwners, Owner.dice]
      · rw [Lab.kinds]
        simp only [Lab.step, listOwners, List.map_append, Lab.kinds]
        rfl
    · rw [← Lab.clientDice_world, hx]; exact h3
  | push i d =>
    simp only [Lab.step, listOwners, listHeld]
    split
    · rename_i e hi
      obtain ⟨u, hc⟩ := append1_upd grow w.heap e d (hw.wfq e (by
        exact List.mem_of_getElem? (i := i) (by simp [Lab.world, hi, Owner.dice])))
      obtain ⟨h1, h2, h3, h4⟩ := put_env hw hi u (· ++ [d]) hc
      exact ⟨h1, h2, fun _ => ⟨h3, h4⟩⟩
    · rename_i hi
      exact ⟨hw, (idle _ i hi).symm, fun _ => ⟨rfl, fun _ _ => rfl⟩⟩
  | append i s =>
    simp only [Lab.step, listOwners, listHeld, heldDice_get]
    split
    · rename_i e s hi hs
      have he : e ∈ w.world.queues := List.mem_of_getElem? (i := i) (by simp [Lab.world, hi, Owner.dice])
      have hm : s ∈ w.world.clients := List.mem_of_getElem? hs
      obtain ⟨u, hc⟩ := appendFrom_upd grow s s.len 0 w.heap e (hw.wfq e he) (hw.wfc s hm) (hw.sep e he s hm) (by omega)
      rw [← envAppendFrom_eq] at u hc
      obtain ⟨h1, h2, h3, h4⟩ := put_env hw hi u (· ++ w.heap.contents s) (by rw [hc, List.drop_zero])
      rw [hs]
      exact ⟨h1, h2, fun _ => ⟨h3, h4⟩⟩
    · rename_i hi
      refine ⟨hw, ?_, fun _ => ⟨rfl, fun _ _ => rfl⟩⟩
      cases hs : w.clients[s]? with
      | none => rfl
      | some c => exact (idle _ i (fun e he => hi e c he hs)).symm
  | clear i =>
    simp only [Lab.step, listOwners, listHeld]
    split
    · rename_i e hi
      obtain ⟨u, hc, -⟩ := alloc_upd w.heap e [] 0
      obtain ⟨h1, h2, h3, h4⟩ := put_env hw hi u (fun _ => []) hc
      exact ⟨h1, h2, fun _ => ⟨h3, h4⟩⟩
    · rename_i hi
      exact ⟨hw, (idle _ i hi).symm, fun _ => ⟨rfl, fun _ _ => rfl⟩⟩
  | rolledDice i =>
    simp only [Lab.step, listOwners, listHeld]
    split
    · rename_i e hi
      obtain ⟨u, hc, ha, -⟩ := alloc_upd w.heap e (w.heap.contents e) e.len
      have k := alloc_kept w.heap (w.heap.contents e) e.len
      obtain ⟨h1, h2, h3⟩ := add_client hw k u.wf (Nat.le_of_eq ha.symm)
      refine ⟨h1, same_owners rfl h2, fun _ => ⟨?_, fun s hs => k.frame _ (hw.wfc s hs).used⟩⟩
      rw [ownerDice_get, hi]
      refine h3.trans ?_
      rw [hc]
      rfl
    · rename_i hi
      refine ⟨hw, rfl, fun _ => ⟨?_, fun _ _ => rfl⟩⟩
      split
      · rename_i ds hd
        exact absurd hd (not_env hi ds)
      · rfl
  | roll i num sides =>
    simp only [Lab.step, listOwners, listHeld]
    split
    · rename_i e hi
      have hgi : w.ownerDice[i]? = some (.env (w.heap.contents e)) := by rw [ownerDice_get, hi]; rfl
      rw [hgi]
      obtain ⟨k, hf, hm⟩ := memRollDice_spec grow F num sides w.heap w.feeder
      unfold memEvalRoll
      rcases hr : memRollDice grow F num sides w.heap w.feeder with ⟨o, h', f'⟩
      rcases hs : rollDice F num sides w.feeder with ⟨o', f''⟩
      rw [hr, hs] at hm
      rw [hr] at k
      cases o with
      | ok s =>
        cases o' with
        | ok ds =>
          obtain ⟨hwf, ha, hc⟩ := hm
          obtain ⟨h1, h2, h3⟩ := add_client hw k hwf ha
          -- the laboratory in which the dice have been rolled but not recorded
          let w1 : Lab σ := ⟨h', w.owners, w.clients ++ [s], f'⟩
          have hw1 : w1.world.Inv := h1
          have he : e ∈ w1.world.queues := List.mem_of_getElem? (i := i) (by simp [Lab.world, w1, hi, Owner.dice])
          have hsm : s ∈ w1.world.clients := by simp [w1, Lab.world]
          obtain ⟨u, hc'⟩ := appendFrom_upd grow s s.len 0 h' e (hw1.wfq e he) (hw1.wfc s hsm) (hw1.sep e he s hsm) (by omega)
          rw [← envAppendFrom_eq] at u hc'
          obtain ⟨g1, g2, g3, g4⟩ := put_env (w := w1) hw1 hi u (· ++ ds) (by rw [hc', List.drop_zero]; rw [hc])
          refine ⟨g1, g2.trans ?_, fun _ => ⟨g3.trans ?_, fun p hp => ?_⟩⟩
          · rw [same_owners (w := w) (w' := w1) rfl h2]
          · exact h3.trans (by rw [hc]; rfl)
          · refine (g4 p (by simp [w1, hp])).trans (k.frame _ (hw.wfc p hp).used)
        | err m => exact hm.elim
        | panic m => exact hm.elim
      | err m =>
        cases o' with
        | ok ds => exact hm.elim
        | err m' =>
          obtain ⟨h1, h2, h3⟩ := add_nothing hw k
          exact ⟨h1, same_owners rfl h2, fun _ => ⟨h3, fun p hp => k.frame _ (hw.wfc p hp).used⟩⟩
        | panic m' => exact hm.elim
      | panic m =>
        cases o' with
        | ok ds => exact hm.elim
        | err m' => exact hm.elim
        | panic m' =>
          obtain ⟨h1, h2, h3⟩ := add_nothing hw k
          exact ⟨h1, same_owners rfl h2, fun _ => ⟨h3, fun p hp => k.frame _ (hw.wfc p hp).used⟩⟩
    · rename_i hi
      refine ⟨hw, ?_, fun _ => ⟨?_, fun _ _ => rfl⟩⟩
      · split
        · exact (idle _ i hi).symm
        · rfl
      · split
        · rename_i hd _
          exact absurd hd (not_env hi _)
        · rfl
  | newSum s =>
    simp only [Lab.step, listOwners, listHeld, heldDice_get]
    cases hs : w.clients[s]? with
    | none => exact ⟨hw, rfl, fun _ => ⟨rfl, fun _ _ => rfl⟩⟩
    | some s =>
      obtain ⟨u, hc, ha, -⟩ := alloc_upd w.heap s (w.heap.contents s) s.len
      have k := alloc_kept w.heap (w.heap.contents s) s.len
      obtain ⟨h1, h2, h3⟩ := add_queue hw k u.wf (Nat.le_of_eq ha.symm)
      dsimp only [Option.map_some]
      have hx : (Lab.mk (memNewSum w.heap s).1 (w.owners ++ [.sum (memNewSum w.heap s).2]) w.clients w.feeder).world =
          World.mk (memNewSum w.heap s).1 (w.world.queues ++ [(memNewSum w.heap s).2]) w.clients := by
        simp [Lab.world, Owner.dice]
      refine ⟨hx ▸ h1, ?_, fun _ => ⟨?_, fun s hs => k.frame _ (hw.wfc s hs).used⟩⟩
      · refine owners_ext ?_ ?_
        · rw [← Lab.queueDice_world, hx]
          refine h2.trans ?_
          rw [hc, Lab.queueDice_world]
          simp [Owner.dice]
        · rw [Lab.kinds]
          simp only [List.map_append, Lab.kinds]
          rfl
      · rw [← Lab.clientDice_world, hx]; exact h3
  | make xs cap =>
    obtain ⟨h1, h2⟩ := client (.make xs cap) (w.step grow F (.make xs cap)) rfl rfl rfl
    exact ⟨h1, h2, fun h => by simp [LabOp.isClient] at h⟩
  | write s i d =>
    have ho : (w.step grow F (.write s i d)).owners = w.owners := by
      simp only [Lab.step]; split
      · split <;> rfl
      · rfl
    obtain ⟨h1, h2⟩ := client (.write s i d) (w.step grow F (.write s i d)) ho (by
      simp only [Lab.step, World.step, Lab.world]
      cases w.clients[s]? with
      | none => rfl
      | some c => dsimp only; split <;> rfl) rfl
    exact ⟨h1, h2, fun h => by simp [LabOp.isClient] at h⟩
  | reslice s i j k =>
    have ho : (w.step grow F (.reslice s i j k)).owners = w.owners := by
      simp only [Lab.step]; split
      · split <;> rfl
      · rfl
    obtain ⟨h1, h2⟩ := client (.reslice s i j k) (w.step grow F (.reslice s i j k)) ho (by
      simp only [Lab.step, World.step, Lab.world]
      cases w.clients[s]? with
      | none => rfl
      | some c => dsimp only; split <;> rfl) rfl
    exact ⟨h1, h2, fun h => by simp [LabOp.isClient] at h⟩
  | extend s d =>
    have ho : (w.step grow F (.extend s d)).owners = w.owners := by
      simp only [Lab.step]; split <;> rfl
    obtain ⟨h1, h2⟩ := client (.extend s d) (w.step grow F (.extend s d)) ho (by
      simp only [Lab.step, World.step, Lab.world]
      cases w.clients[s]? with
      | none => rfl
      | some c => rfl) rfl
    exact ⟨h1, h2, fun h => by simp [LabOp.isClient] at h⟩

theorem lab_empty (f : σ) : (Lab.empty f).world.Inv := World.Inv.empty

theorem lab_run (grow : Nat → Nat) (F : DieFeeder σ) (ops : List LabOp) (w : Lab σ) (hw : w.world.Inv) :
    (w.run grow F ops).world.Inv := by
  induction ops generalizing w with
  | nil => exact hw
  | cons op ops ih => exact ih _ (lab_step grow F w hw op).1

/-! ## C103 -/

/-- **C103.** After any history each operation changes the records of the environments and the dice of the nodes
exactly as if slices were passed by value; the client's own operations change none of them. -/
theorem C103_by_value (grow : Nat → Nat) (F : DieFeeder σ) (f : σ) (history : List LabOp) (op : LabOp) :
    let w := (Lab.empty f).run grow F history
    (w.step grow F op).ownerDice = listOwners F op w.ownerDice w.clientDice w.feeder :=
  (lab_step grow F _ (lab_run grow F history _ (lab_empty f)) op).2.1

/-- **C103.** After any history no call changes a slice the client holds, nor the array behind it; `RolledDice` and
`RollDice` hand out new slices. -/
theorem C103_clients_untouched (grow : Nat → Nat) (F : DieFeeder σ) (f : σ) (history : List LabOp) (op : LabOp)
    (hop : op.isClient = false) :
    let w := (Lab.empty f).run grow F history
    (w.step grow F op).clientDice = listHeld F op w.ownerDice w.clientDice w.feeder ∧
      ∀ s ∈ w.clients, (w.step grow F op).heap.mem s.arr = w.heap.mem s.arr :=
  (lab_step grow F _ (lab_run grow F history _ (lab_empty f)) op).2.2 hop

/-- **C103.** Whatever the client does with its slices after any history, no record and no node changes. -/
theorem C103_client_operations (grow : Nat → Nat) (F : DieFeeder σ) (f : σ) (history after : List LabOp)
    (hafter : ∀ op ∈ after, op.isClient = true) :
    ((Lab.empty f).run grow F (history ++ after)).ownerDice = ((Lab.empty f).run grow F history).ownerDice := by
  have key : ∀ (after : List LabOp) (w : Lab σ), w.world.Inv → (∀ op ∈ after, op.isClient = true) →
      (w.run grow F after).ownerDice = w.ownerDice := by
    intro after
    induction after with
    | nil => intros; rfl
    | cons op ops ih =>
      intro w hw h
      have hs := lab_step grow F w hw op
      refine (ih _ hs.1 (fun o ho => h o (by simp [ho]))).trans (hs.2.1.trans ?_)
      have := h op (by simp)
      cases op <;> first | rfl | simp [LabOp.isClient] at this
  rw [Lab.run, List.foldl_append]
  exact key after _ (lab_run grow F history _ (lab_empty f)) hafter

/-- **C103.** The dice of a result stay what they are: calls, of whatever evaluators and environments, change no slice
handed out before. -/
theorem C103_results_stay (grow : Nat → Nat) (F : DieFeeder σ) (f : σ) (history after : List LabOp)
    (hafter : ∀ op ∈ after, op.isClient = false) (s : Nat) (ds : List Die)
    (h : ((Lab.empty f).run grow F history).clientDice[s]? = some ds) :
    ((Lab.empty f).run grow F (history ++ after)).clientDice[s]? = some ds := by
  have key : ∀ (after : List LabOp) (w : Lab σ), w.world.Inv → (∀ op ∈ after, op.isClient = false) →
      w.clientDice[s]? = some ds → (w.run grow F after).clientDice[s]? = some ds := by
    intro after
    induction after with
    | nil => intro w _ _ h; exact h
    | cons op ops ih =>
      intro w hw hc h
      have hs := lab_step grow F w hw op
      refine ih _ hs.1 (fun o ho => hc o (by simp [ho])) ?_
      rw [(hs.2.2 (hc op (by simp))).1]
      have happ : ∀ x : List Die, (w.clientDice ++ [x])[s]? = some ds := fun x => by
        obtain ⟨hlt, -⟩ := List.getElem?_eq_some_iff.1 h
        rw [List.getElem?_append_left hlt, h]
      unfold listHeld
      split
      · split
        · exact happ _
        · exact h
      · split
        · exact happ _
        · exact h
      · exact h
  rw [Lab.run, List.foldl_append]
  exact key after _ (lab_run grow F history _ (lab_empty f)) hafter h

/-- **C103.** `RollDice` of an evaluator, in memory, is the `RollDice` of the model: same outcome, same record, same
feeder. -/
theorem C103_roll (grow : Nat → Nat) (E : Evaluator σ) (f : σ) (history : List LabOp) (i : Nat) (num sides : Int64)
    (log : List Die) :
    let w := (Lab.empty f).run grow E.F history
    w.ownerDice[i]? = some (.env log) →
    let w' := w.step grow E.F (.roll i num sides)
    let r := E.rollDice num sides ⟨w.feeder, log⟩
    w'.feeder = r.2.feeder ∧ w'.ownerDice[i]? = some (.env r.2.log) ∧
      (∀ ds, r.1 = .ok ds → w'.clientDice = w.clientDice ++ [ds]) ∧
      (r.1.isOk = false → w'.clientDice = w.clientDice) := by
  intro w hi w' r
  have hw : w.world.Inv := lab_run grow E.F history _ (lab_empty f)
  obtain ⟨-, h2, h3⟩ := lab_step grow E.F w hw (.roll i num sides)
  have h3 := (h3 rfl).1
  have hfeed : w'.feeder = (GoBCDice.rollDice E.F num sides w.feeder).2 := by
    obtain ⟨-, hf, -⟩ := memRollDice_spec grow E.F num sides w.heap w.feeder
    obtain ⟨e, he⟩ : ∃ e, w.owners[i]? = some (.env e) := by
      rw [ownerDice_get] at hi
      cases ho : w.owners[i]? with
      | none => simp [ho] at hi
      | some o =>
        cases o with
        | env e => exact ⟨e, rfl⟩
        | sum e => simp [ho, Owner.map] at hi
    rw [← hf]
    simp only [w', Lab.step, he, memEvalRoll]
    rcases memRollDice grow E.F num sides w.heap w.feeder with ⟨o, h', f'⟩
    cases o <;> rfl
  have hrec : ∀ g : List Die → List Die, (recordDice i g w.ownerDice)[i]? = some (.env (g log)) := by
    intro g
    rw [recordDice, List.getElem?_modify, hi]; simp
  simp only [listOwners, listHeld, hi] at h2 h3
  simp only [r, Evaluator.rollDice]
  rw [hfeed]
  rcases hr : GoBCDice.rollDice E.F num sides w.feeder with ⟨o, f'⟩
  rw [hr] at h2 h3
  cases o with
  | ok ds =>
    refine ⟨rfl, by rw [h2]; exact hrec _, fun ds' h => ?_, fun h => by simp [Out.isOk] at h⟩
    injection h with h
    rw [← h]; exact h3
  | err m => exact ⟨rfl, by rw [h2]; exact hi, fun ds' h => (by cases h), fun _ => h3⟩
  | panic m => exact ⟨rfl, by rw [h2]; exact hi, fun ds' h => (by cases h), fun _ => h3⟩

/-- Two evaluators share an environment; the client overwrites and extends what it was given; a failing roll leaves no
trace in the record. -/
example :
    let w := (Lab.empty [⟨3, 6⟩, ⟨5, 6⟩, ⟨2, 8⟩, ⟨1, 6⟩]).run (fun n => 2 * n) queueFeeder
      [.newEnv, .roll 0 2 6, .rolledDice 0, .newSum 0, .write 0 0 ⟨9, 9⟩, .extend 1 ⟨7, 7⟩, .write 1 1 ⟨8, 8⟩, .roll 0 1 6,
        .roll 0 1 6, .rolledDice 0]
    w.ownerDice = [.env [⟨3, 6⟩, ⟨5, 6⟩, ⟨1, 6⟩], .sum [⟨3, 6⟩, ⟨5, 6⟩]] ∧
      w.clientDice = [[⟨9, 9⟩, ⟨5, 6⟩], [⟨3, 6⟩, ⟨8, 8⟩, ⟨7, 7⟩], [⟨1, 6⟩], [⟨3, 6⟩, ⟨5, 6⟩, ⟨1, 6⟩]] ∧ w.feeder = [] := by
  decide

end GoBCDice
