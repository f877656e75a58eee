import Verif.Basic

/-!
# Dice, die feeders and the dice roller

`pkg/core/dice/die.go`, `pkg/core/dice/feeder/*.go`, `pkg/core/dice/roller/roller.go`.
-/

namespace GoBCDice

/-- `dice.Die` (pkg/core/dice/die.go:12-17). -/
structure Die where
  value : Int64
  sides : Int64
deriving DecidableEq, Repr, Inhabited

/-- "%d/%d" rendering of one die inside `FormatDice` (pkg/core/dice/die.go:34). -/
def Die.slash (d : Die) : Str := intStr d.value ++ chars!"/" ++ intStr d.sides

/-- `Die.String` (pkg/core/dice/die.go:20-22). -/
def Die.str (d : Die) : Str :=
  chars!"<Die " ++ intStr d.value ++ chars!"/" ++ intStr d.sides ++ chars!">"

/-- `Die.SExp` (pkg/core/dice/die.go:25-27). -/
def Die.sexp (d : Die) : Str :=
  chars!"(Die " ++ intStr d.value ++ chars!" " ++ intStr d.sides ++ chars!")"

/-- `FormatDice` (pkg/core/dice/die.go:31-39). -/
def formatDice (ds : List Die) : Str := join chars!", " (ds.map Die.slash)

/-- `FormatDiceWithoutSpaces` (pkg/core/dice/die.go:44-52). -/
def formatDiceWithoutSpaces (ds : List Die) : Str := join chars!"," (ds.map Die.slash)

/-- The `DieFeeder` interface (pkg/core/dice/feeder/feeder.go:15-23): any deterministic state machine
answering `Next(sides)`.  `CanSpecifyDie` is a constant of the implementation. -/
structure DieFeeder (σ : Type) where
  next : σ → Int64 → Out Die × σ

/-! ## Queue feeder (pkg/core/dice/feeder/queue.go); the state is the list of queued dice -/

/-- Error text of `Queue.Next` (queue.go:49). -/
def queueEmptyMsg : Str := chars!"取り出せるダイスがありません"

/-- `Queue.Next` (queue.go:47-57): oldest die, whatever the requested sides. -/
def queueNext (q : List Die) (_sides : Int64) : Out Die × List Die :=
  match q with
  | [] => (.err queueEmptyMsg, [])
  | d :: q' => (.ok d, q')

/-- `Queue` as a feeder. -/
def queueFeeder : DieFeeder (List Die) where
  next := queueNext

/-- `Queue.Push` (queue.go:60-62). -/
def queuePush (q : List Die) (d : Die) : List Die := q ++ [d]

/-- `Queue.Append` (queue.go:65-69): pushes one by one. -/
def queueAppend (q : List Die) (ds : List Die) : List Die := ds.foldl queuePush q

/-- `NewQueue` (queue.go:19-24). -/
def newQueue (ds : List Die) : List Die := queueAppend [] ds

/-- `Queue.Clear` (queue.go:72-74). -/
def queueClear (_q : List Die) : List Die := []

/-- `Queue.Set` (queue.go:77-80): replaces the contents by a copy. -/
def queueSet (_q : List Die) (ds : List Die) : List Die := ds

/-- `Queue.Dice` (queue.go:38-43): a copy of the contents. -/
def queueDice (q : List Die) : List Die := q

/-- `Queue.Remaining` (queue.go:83-85). -/
def queueRemaining (q : List Die) : Nat := q.length

/-- `Queue.IsEmpty` (queue.go:88-90). -/
def queueIsEmpty (q : List Die) : Bool := queueRemaining q == 0

/-! ## MT19937 feeder (pkg/core/dice/feeder/mt19937.go) -/

/-- The random generator `*rand.Rand` seen through `Intn` (abstract; see `Rng.Lawful`). -/
structure Rng (ρ : Type) where
  intn : ρ → Int64 → Int64 × ρ

/-- Documented contract of `math/rand.(*Rand).Intn`: for n > 0 the result lies in [0, n). -/
def Rng.Lawful {ρ} (r : Rng ρ) : Prop :=
  ∀ s n, 0 < n → 0 ≤ (r.intn s n).1 ∧ (r.intn s n).1 < n

/-- `MT19937.Next` (mt19937.go:51-57): value 1 + Intn(sides).  `Intn` panics for n ≤ 0. -/
def mtFeeder {ρ} (r : Rng ρ) : DieFeeder ρ where
  next s sides :=
    if sides ≤ 0 then (.panic chars!"invalid argument to Intn", s)
    else
      let (v, s') := r.intn s sides
      (.ok { value := 1 + v, sides := sides }, s')

/-! ## Dice roller (pkg/core/dice/roller/roller.go) -/

/-- `RollDice(num: %d, sides: %d)` prefix of the error messages (roller.go:39-51,64-70). -/
def rollDicePrefix (num sides : Int64) : Str :=
  chars!"RollDice(num: " ++ intStr num ++ chars!", sides: " ++ intStr sides ++ chars!")"

/-- roller.go:38-44. -/
def sidesTooSmallMsg (num sides : Int64) : Str :=
  rollDicePrefix num sides ++ chars!": ダイスの面数が少なすぎます"

/-- roller.go:46-52. -/
def numTooSmallMsg (num sides : Int64) : Str :=
  rollDicePrefix num sides ++ chars!": 振るダイス数が少なすぎます"

/-- roller.go:64-70. -/
def sidesMismatchMsg (num sides : Int64) (d : Die) : Str :=
  rollDicePrefix num sides ++ chars!" -> " ++ d.slash ++ chars!": ダイスの面数が指定と一致しません"

/-- Largest capacity `make([]T, 0, n)` accepts for 16-byte elements on linux/amd64 (both
`dice.Die` and interface values are 16 bytes; the runtime panics above 2^48 bytes).  A request
below the limit but above the available memory kills the process; that is not modelled. -/
def maxMakeCap : Int64 := 17592186044416  -- 2^44

/-- Run-time panic text of `make` with a capacity out of range. -/
def makePanicMsg : Str := chars!"runtime error: makeslice: cap out of range"

/-- The loop of `RollDice` (roller.go:57-74): `n` iterations remaining, `acc` the dice so far. -/
def rollLoop {σ} (F : DieFeeder σ) (num sides : Int64) :
    Nat → List Die → σ → Out (List Die) × σ
  | 0, acc, s => (.ok acc, s)
  | n + 1, acc, s =>
    match F.next s sides with
    | (.err e, s') => (.err e, s')
    | (.panic m, s') => (.panic m, s')
    | (.ok d, s') =>
      if d.sides ≠ sides then (.err (sidesMismatchMsg num sides d), s')
      else rollLoop F num sides n (acc ++ [d]) s'

/-- `DiceRoller.RollDice` (roller.go:37-77).  The feeder state is returned in every case:
dice taken before an error stay taken. -/
def rollDice {σ} (F : DieFeeder σ) (num sides : Int64) (s : σ) : Out (List Die) × σ :=
  if sides < 1 then (.err (sidesTooSmallMsg num sides), s)
  else if num < 1 then (.err (numTooSmallMsg num sides), s)
  else if maxMakeCap < num then (.panic makePanicMsg, s)
  else rollLoop F num sides num.toInt.toNat [] s

end GoBCDice
