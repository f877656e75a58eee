import Verif.Bytes

/-!
# One bot shared by goroutines

`BCDice.ExecuteCommand` (bcdice.go:63-93) only reads the fields of the `BCDice` value, so goroutines that
execute commands on the same bot meet in two places: the parser's pool of dictionaries (`Verif.Conc`,
C82) and the bot's die feeder.  Here is the feeder.  A goroutine is deterministic, so where it stands is
determined by the answers `Next` has given it so far.
-/

namespace GoBCDice.Share

/-! ## Goroutines between two calls of `Next` -/

/-- The answers a goroutine has been given and not yet used, and the number of sides it is asking for
beyond them. -/
structure Script where
  left : List (Out Die)
  waits : Option Int64
deriving DecidableEq, Repr

/-- A feeder that gives the answers given so far; asked for more, the goroutine stands still. -/
def scriptFeeder : DieFeeder Script where
  next s sides :=
    match s.left with
    | a :: left => (a, { s with left := left })
    | [] => (.panic chars!"waiting", ⟨[], some sides⟩)

/-- A goroutine executes its inputs one after the other on a bot of the basic game system (the only one
there is, pkg/dicebot/list/list.go), whatever the answers are; up to where it waits for a die. -/
def session (usage : Str) : List Bytes → Script → List (Out Result) × Script
  | [], s => ([], s)
  | input :: inputs, s =>
    match executeBytes scriptFeeder (basicByteBot usage) input s with
    | (r, s1) =>
      if s1.waits.isSome then ([], s1)
      else
        let (rs, s2) := session usage inputs s1
        (r :: rs, s2)

/-- Where a goroutine stands. -/
inductive Stand where
  /-- it is about to call `Next(sides)` -/
  | asks (sides : Int64)
  /-- it has finished, with these results -/
  | done (results : List (Out Result))

/-- Where a goroutine stands after it has been given some answers. -/
def stand (usage : Str) (inputs : List Bytes) (given : List (Out Die)) : Stand :=
  match session usage inputs ⟨given, none⟩ with
  | (rs, s) =>
    match s.waits with
    | some k => .asks k
    | none => .done rs

/-! ## `Next` as one indivisible step -/

/-- The feeder, and the answers it has given to each goroutine. -/
structure Config (ι σ : Type) where
  feeder : σ
  given : ι → List (Out Die)

/-- The goroutine `i` calls `Next`. -/
inductive Step {ι σ : Type} (F : DieFeeder σ) (usage : Str) (inputs : ι → List Bytes) (i : ι) :
    Config ι σ → Config ι σ → Prop where
  | next {c c' : Config ι σ} {k : Int64} : stand usage (inputs i) (c.given i) = .asks k →
      c'.feeder = (F.next c.feeder k).2 → c'.given i = c.given i ++ [(F.next c.feeder k).1] →
      (∀ j, j ≠ i → c'.given j = c.given j) → Step F usage inputs i c c'

/-- Any number of calls, in any order. -/
inductive Reaches {ι σ : Type} (F : DieFeeder σ) (usage : Str) (inputs : ι → List Bytes) :
    Config ι σ → Config ι σ → Prop where
  | refl {c : Config ι σ} : Reaches F usage inputs c c
  | step {c c' c'' : Config ι σ} {i : ι} : Reaches F usage inputs c c' → Step F usage inputs i c' c'' →
      Reaches F usage inputs c c''

/-- Before the first call. -/
def start {ι σ : Type} (f : σ) : Config ι σ := ⟨f, fun _ => []⟩

/-! ## `Queue.Next` in single steps -/

/-- Where a call of `Queue.Next` (queue.go:47-57) stands. -/
inductive NextAt where
  /-- before `f.IsEmpty()` (48) -/
  | begin
  /-- before `d := f.queue[0]` (53) -/
  | checked
  /-- before `f.queue[1:]` is computed (54) -/
  | took (d : Die)
  /-- before the rest is assigned to `f.queue` (54) -/
  | cut (d : Die) (rest : List Die)
  /-- it has returned, or panicked -/
  | returned (o : Out Die)
deriving DecidableEq, Repr

/-- One step of `Queue.Next`, with the contents of the queue: every reading and every writing of `f.queue`
is a step of its own.  (The three words of a slice are read and written at once here; Go does not promise
even that.) -/
def nextStep : NextAt → List Die → NextAt × List Die
  | .begin, [] => (.returned (.err queueEmptyMsg), [])
  | .begin, q => (.checked, q)
  | .checked, [] => (.returned (.panic chars!"runtime error: index out of range [0] with length 0"), [])
  | .checked, d :: q => (.took d, d :: q)
  | .took _, [] => (.returned (.panic chars!"runtime error: slice bounds out of range [1:0]"), [])
  | .took d, e :: q => (.cut d q, e :: q)
  | .cut d rest, _ => (.returned (.ok d), rest)
  | .returned o, q => (.returned o, q)

/-- Two goroutines call `Next` of one queue: the steps in the order of the schedule (`true`: the first
one's turn). -/
def twoCalls : List Bool → NextAt → NextAt → List Die → NextAt × NextAt × List Die
  | [], a, b, q => (a, b, q)
  | true :: turns, a, b, q => twoCalls turns (nextStep a q).1 b (nextStep a q).2
  | false :: turns, a, b, q => twoCalls turns a (nextStep b q).1 (nextStep b q).2

end GoBCDice.Share
