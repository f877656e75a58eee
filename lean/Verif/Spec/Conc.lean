import Verif.Conc

/-!
# Specification: goroutines with bots of their own
-/

namespace GoBCDice

open Conc

/-- The answers a bot gives to its inputs one after the other when nothing else runs, and its feeder
afterwards. -/
def answersAlone {σ : Type} (F : DieFeeder σ) (bot : ByteBot σ) : List Bytes → σ → List (Out Result) × σ
  | [], f => ([], f)
  | input :: inputs, f =>
    let one := executeBytes F bot input f
    let more := answersAlone F bot inputs one.2
    (one.1 :: more.1, more.2)

/-- A goroutine: a bot with its feeder, and the inputs it gets. -/
structure Worker where
  {σ : Type}
  F : DieFeeder σ
  bot : ByteBot σ
  feeder : σ
  inputs : List Bytes

/-- What a worker has when it is finished. -/
abbrev Worker.Answer (w : Worker) : Type := List (Out Result) × w.σ

/-- The start of a program: all workers are ready, no dictionary has been made. -/
def startAll {ι : Type} (w : ι → Worker) : Config (fun i => (w i).Answer) :=
  ⟨fun i => session (w i).F (w i).bot (w i).inputs (w i).feeder, Shared.empty⟩

/-- An endless execution with its schedule: who makes the step at each time (`none`: the garbage
collector). -/
structure Execution {ι : Type} [DecidableEq ι] {α : ι → Type} (start : Config α) where
  at' : Nat → Config α
  who : Nat → Option ι
  begins : at' 0 = start
  steps : ∀ n, CStep (who n) (at' n) (at' (n + 1))

/-- The schedule does not forget the goroutine `i`: if from some time on it could always make a step, it
does make one at or after that time. -/
def Execution.Fair {ι : Type} [DecidableEq ι] {α : ι → Type} {start : Config α} (e : Execution start) (i : ι) : Prop :=
  ∀ n, (∀ m, n ≤ m → ∃ c', CStep (some i) (e.at' m) c') → ∃ m, n ≤ m ∧ e.who m = some i

end GoBCDice
