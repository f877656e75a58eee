import Verif.Spec.InTurn
import Verif.Spec.Steps

/-!
# Totals and calculations
-/

namespace GoBCDice

/-- The text is a D roll expression: a command that answers a total. -/
def IsTotal (s : Str) : Prop := ∃ e, CommandText s (.dRollExpr e)

/-- The text is a D roll expression, or a calculation (a text `a` with `C(a)` a command). -/
def IsAmount (s : Str) : Prop := IsTotal s ∨ IsCalculation s

/-- The amount is `v`: the total the text is answered with when executed as a command, with the dice `ds`, the feeder going from state `f`
to `f'`; or what `C(text)` answers, without dice. -/
def Amount {σ : Type} (F : DieFeeder σ) (gameID text : Str) (f : σ) (ds : List Die) (v : Int64) (f' : σ) : Prop :=
  IsTotal text ∧ Replies F gameID text f ds (intStr v) f' ∨ IsCalculation text ∧ Calculates text v ∧ ds = [] ∧ f' = f

end GoBCDice
