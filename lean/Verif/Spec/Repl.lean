import Verif.Repl
import Verif.Spec.Calls

/-!
# Specification vocabulary for the interactive tool
-/

namespace GoBCDice

variable {ρ : Type}

/-- What one read asks of the interactive tool. -/
inductive ReplRequest where
  /-- nothing (^C) -/
  | nothing
  /-- leave at once (`.q`) -/
  | leave
  /-- run one of the nine commands with the given argument text -/
  | command (h : Handler) (args : Str)
  /-- evaluate the text as a BCDice command -/
  | evaluate (text : Str)
deriving DecidableEq, Repr

/-- The names users know the commands by. -/
def Handler.commandName : Handler → Str
  | .ast => chars!"ast"
  | .eval => chars!"eval"
  | .roll => chars!"roll"
  | .setGame => chars!"set-game"
  | .listGames => chars!"list-games"
  | .setDieFeeder => chars!"set-die-feeder"
  | .setDiceQueue => chars!"set-dice-queue"
  | .help => chars!"help"
  | .quit => chars!"quit"

/-- A character of a command name. -/
def NameChar (c : Char) : Prop := c = '-' ∨ ('a' ≤ c ∧ c ≤ 'z')

/-- A blank between a command name and its arguments. -/
def Blank (c : Char) : Prop := c = '\t' ∨ c = '\n' ∨ c = '\x0c' ∨ c = '\r' ∨ c = ' '

/-- `text` is `.name`, followed by blanks and the arguments, or by something that is neither a blank
nor part of a name (which is ignored, the arguments being empty), or by nothing. -/
inductive CommandLine (text name args : Str) : Prop where
  | bare (rest : Str) (ht : text = '.' :: (name ++ rest)) (ha : args = [])
      (hr : ∀ c ∈ rest.head?, ¬ NameChar c ∧ ¬ Blank c)
  | blanks (sp : Str) (ht : text = '.' :: (name ++ sp ++ args)) (hs : sp ≠ [])
      (hb : ∀ c ∈ sp, Blank c) (ha : ∀ c ∈ args.head?, ¬ Blank c)

/-- What a read asks for. -/
inductive Asks (ev : ReadEvent ρ) : ReplRequest → Prop where
  | nothing : ev.err = some .interrupt → Asks ev .nothing
  | leave : ev.err ≠ some .interrupt → trimSpace ev.line = chars!".q" → Asks ev .leave
  | command (h : Handler) (args : Str) : ev.err ≠ some .interrupt →
      CommandLine (trimSpace ev.line) h.commandName args → Asks ev (.command h args)
  | evaluate : ev.err ≠ some .interrupt → trimSpace ev.line ≠ chars!".q" →
      (∀ (h : Handler) (args : Str), ¬ CommandLine (trimSpace ev.line) h.commandName args) →
      Asks ev (.evaluate (trimSpace ev.line))

/-- The whole tool rolls from one feeder: the one it shows, that of `.roll`, and both of the
evaluator are the same object. -/
def ReplState.OneFeeder (r : ReplState ρ) : Prop :=
  r.dieFeeder < r.heap.length ∧ r.diceRoller = r.dieFeeder ∧
    r.bcDice.dieFeeder = r.dieFeeder ∧ r.bcDice.diceRoller = r.dieFeeder

/-- The feeder object in use. -/
def ReplState.feeder (r : ReplState ρ) : Option (FeederObj ρ) := r.heap[r.dieFeeder]?

/-- A bot that rolls only through the evaluator it is given. -/
def DiceBot.RollsOnly {σ : Type} (b : DiceBot σ) : Prop :=
  ∀ c (E : Evaluator σ) s, ∃ cs, Calls E.F s.feeder cs (b.executeCommand c E s).2.feeder

/-- All registered bots roll only through the evaluator. -/
def ReplEnv.RollsOnly (env : ReplEnv ρ) : Prop := ∀ k b, env.reg.get? k = some b → b.RollsOnly

/-- Lines as readline returns them: without newline, and shorter than 2^63 characters. -/
def ReadEvent.Ok (ev : ReadEvent ρ) : Prop := '\n' ∉ ev.line ∧ ev.line.length < 2 ^ 63

/-- The manual queue (`none`: random dice) after a request: `.set-die-feeder` starts an empty queue
or random dice, `.set-dice-queue` with well-formed dice replaces an existing queue, nothing else has
an effect. -/
inductive QueueStep (isPrint : Char → Bool) :
    Option (List Die) → ReplRequest → Option (List Die) → Prop where
  | startQueue (q args) : asciiLower args = chars!"queue" →
      QueueStep isPrint q (.command .setDieFeeder args) (some [])
  | startRandom (q args) : asciiLower args = chars!"mt" →
      QueueStep isPrint q (.command .setDieFeeder args) none
  | badFeeder (q args) : asciiLower args ≠ chars!"queue" → asciiLower args ≠ chars!"mt" →
      QueueStep isPrint q (.command .setDieFeeder args) q
  | setQueue (old args ds) : parseDice isPrint args = .ok ds →
      QueueStep isPrint (some old) (.command .setDiceQueue args) (some ds)
  | badQueue (old args) : (∀ ds, parseDice isPrint args ≠ .ok ds) →
      QueueStep isPrint (some old) (.command .setDiceQueue args) (some old)
  | noQueue (args) : QueueStep isPrint none (.command .setDiceQueue args) none
  | other (q req) : (∀ args, req ≠ .command .setDieFeeder args) →
      (∀ args, req ≠ .command .setDiceQueue args) → QueueStep isPrint q req q

/-- The manual queue after a history of reads. -/
inductive QueueAfter (isPrint : Char → Bool) :
    Option (List Die) → List (ReadEvent ρ) → Option (List Die) → Prop where
  | nil (q) : QueueAfter isPrint q [] q
  | cons {q q' q'' ev evs req} : Asks ev req → QueueStep isPrint q req q' →
      QueueAfter isPrint q' evs q'' → QueueAfter isPrint q (ev :: evs) q''

end GoBCDice
