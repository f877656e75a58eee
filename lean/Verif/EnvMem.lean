import Verif.Heap
import Verif.Eval

/-!
# Recorded dice in memory (pkg/core/evaluator/environment.go, pkg/core/dice/roller/roller.go)

The rest of the model keeps the dice recorded by an environment as a list.  Here the same code is modelled with
Go's memory (`Verif.Heap`): the record of an environment, the dice of a `SumRollResult` node, the slice `RollDice`
returns and the slices a client holds are windows of arrays, which might be shared.  A *laboratory* has one die
feeder, any number of environments (with evaluators that use them), any number of `SumRollResult` nodes and any
number of slices held by the client; `Lab.step` performs one call or one operation of the client on its slices.
-/

namespace GoBCDice

/-! ## Environments (the only field is the slice `rolledDice`) -/

/-- `NewEnvironment` (environment.go:13-17) and the assignment of `ClearRolledDice` (41-43): `[]dice.Die{}`. -/
def envEmpty (h : Heap) : Heap × Slice := h.alloc [] 0

/-- `PushRolledDie` (environment.go:29-31). -/
def envPush (grow : Nat → Nat) (h : Heap) (e : Slice) (d : Die) : Heap × Slice := h.append1 grow e d

/-- The loop of `AppendRolledDice` (environment.go:34-38) from index `i`, `n` elements being left; each element is
read when its turn comes. -/
def envAppendFrom (grow : Nat → Nat) (s : Slice) : (n i : Nat) → Heap → Slice → Heap × Slice
  | 0, _, h, e => (h, e)
  | n + 1, i, h, e =>
    match (h.contents s)[i]? with
    | none => (h, e)
    | some d =>
      let (h', e') := envPush grow h e d
      envAppendFrom grow s n (i + 1) h' e'

/-- `AppendRolledDice` (environment.go:34-38). -/
def envAppend (grow : Nat → Nat) (h : Heap) (e s : Slice) : Heap × Slice := envAppendFrom grow s s.len 0 h e

/-- `RolledDice` (environment.go:20-26): `make` and `copy`. -/
def envRolledDice (h : Heap) (e : Slice) : Heap × Slice := h.alloc (h.contents e) e.len

/-! ## Rolling -/

section
variable {σ : Type} (grow : Nat → Nat) (F : DieFeeder σ)

/-- The loop of `RollDice` (roller.go:57-74): `n` iterations remaining, `s` the slice `rolledDice` so far. -/
def memRollLoop (num sides : Int64) : Nat → Heap → Slice → σ → Out Slice × Heap × σ
  | 0, h, s, f => (.ok s, h, f)
  | n + 1, h, s, f =>
    match F.next f sides with
    | (.err e, f') => (.err e, h, f')
    | (.panic m, f') => (.panic m, h, f')
    | (.ok d, f') =>
      if d.sides ≠ sides then (.err (sidesMismatchMsg num sides d), h, f')
      else
        let (h', s') := h.append1 grow s d
        memRollLoop num sides n h' s' f'

/-- `DiceRoller.RollDice` (roller.go:37-77): `make([]dice.Die, 0, num)`, then `append` (54-73). -/
def memRollDice (num sides : Int64) (h : Heap) (f : σ) : Out Slice × Heap × σ :=
  if sides < 1 then (.err (sidesTooSmallMsg num sides), h, f)
  else if num < 1 then (.err (numTooSmallMsg num sides), h, f)
  else if maxMakeCap < num then (.panic makePanicMsg, h, f)
  else
    let (h', s) := h.alloc [] num.toInt.toNat
    memRollLoop grow F num sides num.toInt.toNat h' s f

/-- `Evaluator.RollDice` (evaluator.go:93-102) on an evaluator whose environment has the record `e`: the slice
returned, memory, the record, the feeder. -/
def memEvalRoll (num sides : Int64) (h : Heap) (e : Slice) (f : σ) : Out Slice × Heap × Slice × σ :=
  match memRollDice grow F num sides h f with
  | (.ok s, h', f') =>
    let (h'', e') := envAppend grow h' e s
    (.ok s, h'', e', f')
  | (.err m, h', f') => (.err m, h', e, f')
  | (.panic m, h', f') => (.panic m, h', e, f')

end

/-- `ast.NewSumRollResult` (pkg/core/ast/sum_roll_result.go:24-37): `make` and `copy` into the field `Dice`. -/
def memNewSum (h : Heap) (s : Slice) : Heap × Slice := h.alloc (h.contents s) s.len

/-! ## Laboratories -/

/-- What is not the client's: an environment with its record, or a `SumRollResult` with its dice. -/
inductive Owner (α : Type) where
  | env (record : α)
  | sum (dice : α)
deriving DecidableEq, Repr

/-- The record of an environment, the dice of a node. -/
def Owner.dice {α : Type} : Owner α → α
  | .env x => x
  | .sum x => x

/-- The same owner with something else in it. -/
def Owner.map {α β : Type} (f : α → β) : Owner α → Owner β
  | .env x => .env (f x)
  | .sum x => .sum (f x)

/-- Memory, the environments and nodes (numbered in order of creation), the client's slices, the feeder. -/
structure Lab (σ : Type) where
  heap : Heap
  owners : List (Owner Slice)
  clients : List Slice
  feeder : σ

/-- No environment, node or slice yet. -/
def Lab.empty {σ : Type} (f : σ) : Lab σ :=
  { heap := { mem := fun _ => [], next := 0 }, owners := [], clients := [], feeder := f }

/-- Calls and operations of the client.  The field `Dice` of nodes, which is exported, is not used directly. -/
inductive LabOp where
  /-- `NewEnvironment()` -/
  | newEnv
  /-- `owners[i].PushRolledDie(d)` -/
  | push (i : Nat) (d : Die)
  /-- `owners[i].AppendRolledDice(clients[s])` -/
  | append (i s : Nat)
  /-- `owners[i].ClearRolledDice()` -/
  | clear (i : Nat)
  /-- `owners[i].RolledDice()`, a new client slice; also `RolledDice()` of an evaluator (evaluator.go:46-48) and the
  field `RolledDice` of a result (execute_d_roll_expr.go:37 and the like) -/
  | rolledDice (i : Nat)
  /-- `RollDice(num, sides)` of an evaluator with the environment `owners[i]`, a new client slice -/
  | roll (i : Nat) (num sides : Int64)
  /-- `ast.NewSumRollResult(clients[s])` -/
  | newSum (s : Nat)
  /-- the client makes a slice with these elements and this capacity -/
  | make (xs : List Die) (cap : Nat)
  /-- the client writes `clients[s][i] = d` -/
  | write (s i : Nat) (d : Die)
  /-- the client takes `clients[s][i:j:k]`, a new client slice of the same array -/
  | reslice (s i j k : Nat)
  /-- the client appends: `clients[s] = append(clients[s], d)` -/
  | extend (s : Nat) (d : Die)

section
variable {σ : Type} (grow : Nat → Nat) (F : DieFeeder σ)

/-- Store the outcome of an operation on the environment `i`. -/
def Lab.putEnv (w : Lab σ) (i : Nat) (r : Heap × Slice) : Lab σ :=
  { w with heap := r.1, owners := w.owners.set i (.env r.2) }

/-- One operation; a number that does not exist, or an index out of range, changes nothing (Go panics before any
effect).  A failed roll hands out no slice, but leaves its mark on the feeder. -/
def Lab.step (w : Lab σ) : LabOp → Lab σ
  | .newEnv =>
    let r := envEmpty w.heap
    { w with heap := r.1, owners := w.owners ++ [.env r.2] }
  | .push i d =>
    match w.owners[i]? with
    | some (.env e) => w.putEnv i (envPush grow w.heap e d)
    | _ => w
  | .append i s =>
    match w.owners[i]?, w.clients[s]? with
    | some (.env e), some s => w.putEnv i (envAppend grow w.heap e s)
    | _, _ => w
  | .clear i =>
    match w.owners[i]? with
    | some (.env _) => w.putEnv i (envEmpty w.heap)
    | _ => w
  | .rolledDice i =>
    match w.owners[i]? with
    | some (.env e) =>
      let r := envRolledDice w.heap e
      { w with heap := r.1, clients := w.clients ++ [r.2] }
    | _ => w
  | .roll i num sides =>
    match w.owners[i]? with
    | some (.env e) =>
      match memEvalRoll grow F num sides w.heap e w.feeder with
      | (.ok s, h, e', f) => { heap := h, owners := w.owners.set i (.env e'), clients := w.clients ++ [s], feeder := f }
      | (_, h, _, f) => { w with heap := h, feeder := f }
    | _ => w
  | .newSum s =>
    match w.clients[s]? with
    | some s =>
      let r := memNewSum w.heap s
      { w with heap := r.1, owners := w.owners ++ [.sum r.2] }
    | none => w
  | .make xs cap =>
    let r := w.heap.alloc xs cap
    { w with heap := r.1, clients := w.clients ++ [r.2] }
  | .write s i d =>
    match w.clients[s]? with
    | some s => if i < s.len then { w with heap := w.heap.write s.arr (s.off + i) d } else w
    | none => w
  | .reslice s i j k =>
    match w.clients[s]? with
    | some s =>
      if i ≤ j ∧ j ≤ k ∧ k ≤ s.cap then
        { w with clients := w.clients ++ [{ arr := s.arr, off := s.off + i, len := j - i, cap := k - i }] }
      else w
    | none => w
  | .extend i d =>
    match w.clients[i]? with
    | some s =>
      let r := w.heap.append1 grow s d
      { w with heap := r.1, clients := w.clients.set i r.2 }
    | none => w

/-- A sequence of operations. -/
def Lab.run (w : Lab σ) (ops : List LabOp) : Lab σ := ops.foldl (Lab.step grow F) w

end

end GoBCDice
