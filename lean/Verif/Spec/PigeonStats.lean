import Verif.PigeonStats
import Verif.Spec.PigeonOpt

/-!
# What a user sees of calls of `parser.Parse` that share a `Stats`
-/

namespace GoBCDice

open Pigeon (Sym ParseOption Called)

/-- With a `Stats` that has counted `count` expressions, `Parse` ends like that and leaves it at `count'`. -/
def CountedCall (filename : Str) (data : List Sym) (opts : List ParseOption) (count : Nat) (c : Called) (count' : Nat) : Prop :=
  ∃ fuel, parseCountedFuel fuel filename data opts count = some (c, count')

/-- Calls one after the other with the same options and the same `Stats`. -/
inductive CountedCalls (filename : Str) (opts : List ParseOption) : Nat → List (List Sym) → List Called → Nat → Prop
  | none {n : Nat} : CountedCalls filename opts n [] [] n
  | more {n n' n'' : Nat} {data : List Sym} {rest : List (List Sym)} {c : Called} {cs : List Called} :
      CountedCall filename data opts n c n' → CountedCalls filename opts n' rest cs n'' →
      CountedCalls filename opts n (data :: rest) (c :: cs) n''

/-- The work of calls without limit. -/
def workOf (allowInvalid : Bool) (filename : Str) (datas : List (List Sym)) : Nat :=
  (datas.map (exprCalls allowInvalid filename)).sum

end GoBCDice
