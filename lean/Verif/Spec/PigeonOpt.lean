import Verif.PigeonOpt
import Verif.Spec.Pigeon

/-!
# What a user sees of `parser.Parse` with options
-/

namespace GoBCDice

open Pigeon (Sym ParseOption Called)

/-- `parser.Parse(filename, data, opts...)` ends like that: with a value, an error, or a panic. -/
def CallsWith (filename : Str) (data : List Sym) (opts : List ParseOption) (c : Called) : Prop :=
  ∃ fuel, parseWithFuel fuel filename data opts = some c

/-- The last of the settings made, or the default. -/
def lastSet {α : Type} (default : α) (set : ParseOption → Option α) (opts : List ParseOption) : α :=
  ((opts.filterMap set).getLast?).getD default

/-- The limit on the number of expressions; 0: none. -/
def limitOf : List ParseOption → Nat := lastSet 0 fun | .maxExpressions n => some n | _ => none

/-- The rule to start with: `Command` unless another name is given. -/
def entryOf : List ParseOption → Str :=
  lastSet chars!"Command" fun
    | .entrypoint name => some (if name = [] then chars!"Command" else name)
    | _ => none

/-- Are results remembered? -/
def memoOf : List ParseOption → Bool := lastSet false fun | .memoize b => some b | _ => none

/-- Are invalid bytes accepted? -/
def allowOf : List ParseOption → Bool := lastSet false fun | .allowInvalidUTF8 b => some b | _ => none

/-- Are panics turned into errors? -/
def recoverOf : List ParseOption → Bool := lastSet true fun | .recover b => some b | _ => none

/-- A result of `Parse` without options as the end of a call. -/
def returned : Except Str Pigeon.Val → Called
  | .ok v => .value v
  | .error m => .error m

end GoBCDice
