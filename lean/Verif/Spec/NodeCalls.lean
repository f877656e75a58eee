import Verif.RawCommand

/-!
# Specification: what a program may do with nodes, one call after another
-/

namespace GoBCDice

open Raw

variable {σ : Type}

/-- What a program may do with the nodes it has. -/
inductive NodeCall where
  | eval (p : Ptr)
  | evalVarArgs (p : Ptr)
  | determineValues (p : Ptr)
  | execute (gameID : Str) (p : Ptr)
  | infixNotation (wl : Bool) (p : Ptr)
  | sexp (p : Ptr)
deriving DecidableEq

/-- The node of the call. -/
def NodeCall.node : NodeCall → Ptr
  | .eval p => p
  | .evalVarArgs p => p
  | .determineValues p => p
  | .execute _ p => p
  | .infixNotation _ p => p
  | .sexp p => p

/-- Makes the call. -/
def NodeCall.run (isPrint : Char → Bool) (E : Evaluator σ) (d : Nat) : NodeCall → H σ Unit
  | .eval p => do let _ ← Raw.eval E d p
  | .evalVarArgs p => Raw.evalVarArgs E d p
  | .determineValues p => Raw.determineValues E d p
  | .execute gameID p => do let _ ← Raw.execute isPrint E d gameID p
  | .infixNotation wl p => do let _ ← Raw.infixNotation d wl p
  | .sexp p => do let _ ← Raw.sexp isPrint d p

/-- Makes the calls one after another, going on after errors (and after panics, should the caller
recover from them); the outcomes and the final state. -/
def runCalls (isPrint : Char → Bool) (E : Evaluator σ) (d : Nat) : List NodeCall → HSt σ → List (Out Unit) × HSt σ
  | [], S => ([], S)
  | c :: cs, S =>
    let (o, S') := c.run isPrint E d S
    let (os, S'') := runCalls isPrint E d cs S'
    (o :: os, S'')

end GoBCDice
