import Verif.Share
import Verif.Spec.Conc

/-!
# Specification: dealing dice to goroutines
-/

namespace GoBCDice

/-- What a feeder was asked and what it answered, call by call: `Deals F f calls f'` says that `F` gives
these answers to these requests from `f` on, and is in `f'` afterwards. -/
inductive Deals {σ : Type} (F : DieFeeder σ) : σ → List (Int64 × Out Die) → σ → Prop where
  | nil {f : σ} : Deals F f [] f
  | cons {f f' f'' : σ} {k : Int64} {a : Out Die} {calls : List (Int64 × Out Die)} :
      F.next f k = (a, f') → Deals F f' calls f'' → Deals F f ((k, a) :: calls) f''

/-- The calls of one goroutine among the calls of all. -/
def callsOf {ι : Type} [DecidableEq ι] (i : ι) (history : List (ι × Int64 × Out Die)) : List (Int64 × Out Die) :=
  (history.filter (·.1 = i)).map (·.2)

/-- A feeder that expects certain requests and gives certain answers; it is in `none` for ever when it has
been asked anything else or too often. -/
def expecting : DieFeeder (Option (List (Int64 × Out Die))) where
  next s k :=
    match s with
    | some ((k', a) :: calls) => if k = k' then (a, some calls) else (.panic [], none)
    | _ => (.panic [], none)

/-- The dice among answers. -/
def diceOf (answers : List (Out Die)) : List Die :=
  answers.filterMap fun a => match a with | .ok d => some d | _ => none

/-- An endless execution of goroutines that share a feeder, with its schedule: who calls `Next` at each
time (`none`: nobody). -/
structure SharedExecution {ι σ : Type} (F : DieFeeder σ) (usage : Str) (inputs : ι → List Bytes)
    (c0 : Share.Config ι σ) where
  at' : Nat → Share.Config ι σ
  who : Nat → Option ι
  begins : at' 0 = c0
  steps : ∀ n i, who n = some i → Share.Step F usage inputs i (at' n) (at' (n + 1))
  idles : ∀ n, who n = none → at' (n + 1) = at' n

/-- The schedule does not forget the goroutine `i`: if from some time on it could always call `Next`, it
does so at or after that time. -/
def SharedExecution.Fair {ι σ : Type} {F : DieFeeder σ} {usage : Str} {inputs : ι → List Bytes}
    {c0 : Share.Config ι σ} (e : SharedExecution F usage inputs c0) (i : ι) : Prop :=
  ∀ n, (∀ m, n ≤ m → ∃ c', Share.Step F usage inputs i (e.at' m) c') → ∃ m, n ≤ m ∧ e.who m = some i

end GoBCDice
