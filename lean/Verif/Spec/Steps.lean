import Verif.Spec.ByHand
import Verif.Spec.Writing
import Verif.BCDice

/-!
# What calculations answer
-/

namespace GoBCDice

/-- The ways of typing the calculation `a`: `C(a)`, with or without the mark of secret rolls, followed by anything. -/
def CalcTyped (a input : Str) : Prop :=
  ∃ mark c rest, IsMark mark ∧ (c = 'C' ∨ c = 'c') ∧ input = mark ++ [c] ++ chars!"(" ++ a ++ chars!")" ++ rest

/-- The text `a` is a calculation: `C(a)` is a command, the last parenthesis being the one that closes the first. -/
def IsCalculation (a : Str) : Prop := Balanced a ∧ ∃ node, CommandText (chars!"C(" ++ a ++ chars!")") node

/-- `C(a)` is always answered with the value `v`, and the dice are left alone. -/
def Calculates (a : Str) (v : Int64) : Prop :=
  ∀ {σ : Type} (F : DieFeeder σ) (usage input : Str) (f : σ), CalcTyped a input →
    ∃ r, executeCommand F (basicBot usage) input f = (.ok r, f) ∧ r.parts.getLast? = some (intStr v)

/-- `C(a)` is always answered with the error `msg`, and the dice are left alone. -/
def CalcFails (a msg : Str) : Prop :=
  ∀ {σ : Type} (F : DieFeeder σ) (usage input : Str) (f : σ), CalcTyped a input →
    executeCommand F (basicBot usage) input f = (.err msg, f)

/-- What may be written behind a division: nothing, `U` or `R`. -/
inductive RoundingText : Rounding → Str → Prop where
  | down : RoundingText .down []
  | up {c : Char} : c = 'U' ∨ c = 'u' → RoundingText .up [c]
  | round {c : Char} : c = 'R' ∨ c = 'r' → RoundingText .round [c]

end GoBCDice
