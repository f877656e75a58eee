import Verif.Dice

/-!
# Slices in memory: the queue feeder with aliasing (pkg/core/dice/feeder/queue.go)

The rest of the model represents the contents of a queue by a list.  Here the same code is modelled
with Go's memory: a slice is a window of a backing array, several slices may share one array,
`append` writes in place when there is capacity left.  A *world* has any number of queues and any
number of slices held by the client; `World.step` performs one call of the queue API or one
operation of the client on its own slices.  The capacity chosen by the runtime when `append`
reallocates is the parameter `grow`.
-/

namespace GoBCDice

/-- Memory: the backing arrays by address; addresses from `next` on are unused. -/
structure Heap where
  mem : Nat → List Die
  next : Nat

/-- A Go slice: `len` elements starting at `off` of array `arr`, which may be extended up to
`cap`. -/
structure Slice where
  arr : Nat
  off : Nat
  len : Nat
  cap : Nat
deriving DecidableEq

/-- The elements of a slice. -/
def Heap.contents (h : Heap) (s : Slice) : List Die := ((h.mem s.arr).drop s.off).take s.len

/-- A new array with the given elements, followed by zero dice up to the capacity, and the slice of
those elements: `make` followed by `copy`, or a composite literal. -/
def Heap.alloc (h : Heap) (xs : List Die) (cap : Nat) : Heap × Slice :=
  ({ mem := fun a => if a = h.next then xs ++ List.replicate (cap - xs.length) ⟨0, 0⟩ else h.mem a,
     next := h.next + 1 },
   { arr := h.next, off := 0, len := xs.length, cap := max cap xs.length })

/-- Write element `i` of an array. -/
def Heap.write (h : Heap) (arr i : Nat) (d : Die) : Heap :=
  { h with mem := fun a => if a = arr then (h.mem a).set i d else h.mem a }

/-- Go `append(s, d)`: in place when the capacity allows it, otherwise in a new array. -/
def Heap.append1 (grow : Nat → Nat) (h : Heap) (s : Slice) (d : Die) : Heap × Slice :=
  if s.len < s.cap then (h.write s.arr (s.off + s.len) d, { s with len := s.len + 1 })
  else h.alloc (h.contents s ++ [d]) (grow s.len)

/-! ## The queue (its only field is the slice `queue`) -/

/-- `Queue.Push` (queue.go:60-62). -/
def memPush (grow : Nat → Nat) (h : Heap) (q : Slice) (d : Die) : Heap × Slice :=
  h.append1 grow q d

/-- The loop of `Queue.Append` (queue.go:65-69) from index `i`, `n` elements being left.  Go reads
each element when its turn comes. -/
def memAppendFrom (grow : Nat → Nat) (s : Slice) : (n i : Nat) → Heap → Slice → Heap × Slice
  | 0, _, h, q => (h, q)
  | n + 1, i, h, q =>
    match (h.contents s)[i]? with
    | none => (h, q)
    | some d =>
      let (h', q') := memPush grow h q d
      memAppendFrom grow s n (i + 1) h' q'

/-- `Queue.Append` (queue.go:65-69). -/
def memAppend (grow : Nat → Nat) (h : Heap) (q s : Slice) : Heap × Slice :=
  memAppendFrom grow s s.len 0 h q

/-- `NewQueue` (queue.go:19-24). -/
def memNewQueue (grow : Nat → Nat) (h : Heap) (s : Slice) : Heap × Slice :=
  let (h', q) := h.alloc [] 0
  memAppend grow h' q s

/-- `Queue.Dice` (queue.go:38-43): `make` and `copy`. -/
def memDice (h : Heap) (q : Slice) : Heap × Slice := h.alloc (h.contents q) q.len

/-- `Queue.Next` (queue.go:47-57): the die delivered, if any, and the new slice `queue[1:]`. -/
def memNext (h : Heap) (q : Slice) : Option Die × Slice :=
  if q.len = 0 then (none, q)
  else ((h.contents q).head?, { q with off := q.off + 1, len := q.len - 1, cap := q.cap - 1 })

/-- `Queue.Clear` (queue.go:72-74). -/
def memClear (h : Heap) : Heap × Slice := h.alloc [] 0

/-- `Queue.Set` (queue.go:77-80): `make` and `copy`. -/
def memSet (h : Heap) (s : Slice) : Heap × Slice := h.alloc (h.contents s) s.len

/-! ## Worlds -/

/-- Memory, the `queue` fields of the existing queues, and the slices the client holds. -/
structure World where
  heap : Heap
  queues : List Slice
  clients : List Slice

/-- No queue and no slice yet. -/
def World.empty : World := { heap := { mem := fun _ => [], next := 0 }, queues := [], clients := [] }

/-- Queues and client slices are numbered in order of creation. -/
inductive WorldOp where
  /-- `NewQueue(clients[s])`, a new queue -/
  | newQueue (s : Nat)
  /-- `queues[q].Push(d)` -/
  | push (q : Nat) (d : Die)
  /-- `queues[q].Append(clients[s])` -/
  | append (q s : Nat)
  /-- `queues[q].Set(clients[s])` -/
  | set (q s : Nat)
  /-- `queues[q].Clear()` -/
  | clear (q : Nat)
  /-- `queues[q].Next(_)` -/
  | next (q : Nat)
  /-- `queues[q].Dice()`, a new client slice -/
  | dice (q : Nat)
  /-- the client makes a slice with these elements and this capacity -/
  | make (xs : List Die) (cap : Nat)
  /-- the client writes `clients[s][i] = d` -/
  | write (s i : Nat) (d : Die)
  /-- the client takes `clients[s][i:j:k]`, a new client slice of the same array -/
  | reslice (s i j k : Nat)
  /-- the client appends: `clients[s] = append(clients[s], d)` -/
  | extend (s : Nat) (d : Die)

/-- Store the outcome of an operation of queue `i`. -/
def World.putQueue (w : World) (i : Nat) (r : Heap × Slice) : World :=
  { w with heap := r.1, queues := w.queues.set i r.2 }

/-- One operation; a number that does not exist, or an index out of range, changes nothing (Go
panics before any effect). -/
def World.step (grow : Nat → Nat) (w : World) : WorldOp → World
  | .newQueue s =>
    match w.clients[s]? with
    | some s => let r := memNewQueue grow w.heap s
                { w with heap := r.1, queues := w.queues ++ [r.2] }
    | none => w
  | .push i d =>
    match w.queues[i]? with
    | some q => w.putQueue i (memPush grow w.heap q d)
    | none => w
  | .append i s =>
    match w.queues[i]?, w.clients[s]? with
    | some q, some s => w.putQueue i (memAppend grow w.heap q s)
    | _, _ => w
  | .set i s =>
    match w.queues[i]?, w.clients[s]? with
    | some _, some s => w.putQueue i (memSet w.heap s)
    | _, _ => w
  | .clear i =>
    match w.queues[i]? with
    | some _ => w.putQueue i (memClear w.heap)
    | none => w
  | .next i =>
    match w.queues[i]? with
    | some q => w.putQueue i (w.heap, (memNext w.heap q).2)
    | none => w
  | .dice i =>
    match w.queues[i]? with
    | some q => let r := memDice w.heap q
                { w with heap := r.1, clients := w.clients ++ [r.2] }
    | none => w
  | .make xs cap =>
    let r := w.heap.alloc xs cap
    { w with heap := r.1, clients := w.clients ++ [r.2] }
  | .write s i d =>
    match w.clients[s]? with
    | some s => if i < s.len then { w with heap := w.heap.write s.arr (s.off + i) d } else w
    | none => w
  | .reslice s i j k =>
    match w.clients[s]? with
    | some s =>
      if i ≤ j ∧ j ≤ k ∧ k ≤ s.cap then
        { w with clients := w.clients ++ [{ arr := s.arr, off := s.off + i, len := j - i, cap := k - i }] }
      else w
    | none => w
  | .extend i d =>
    match w.clients[i]? with
    | some s =>
      let r := w.heap.append1 grow s d
      { w with heap := r.1, clients := w.clients.set i r.2 }
    | none => w

/-- A sequence of operations. -/
def World.run (grow : Nat → Nat) (w : World) (ops : List WorldOp) : World :=
  ops.foldl (World.step grow) w

end GoBCDice
