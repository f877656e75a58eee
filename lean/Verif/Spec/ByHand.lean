import Verif.Command
import Verif.Spec.Answer

/-!
# Answers that differ in the calculations shown only
-/

namespace GoBCDice

/-- Results that differ in the calculations shown only. -/
structure AlikeResults (r r' : Result) : Prop where
  game : r.gameID = r'.gameID
  length : r.parts.length = r'.parts.length
  outcome : r.parts.drop 2 = r'.parts.drop 2
  dice : r.rolledDice = r'.rolledDice
  success : r.success = r'.success
  secret : r.isSecret = r'.isSecret

/-- Two answers that differ in the calculations shown only: the same error or panic, or results with the same dice, success
and secrecy and as many message parts, those from the third on (values, success, number of successes) being the same. -/
inductive AlikeAnswers : Out Result → Out Result → Prop where
  | ok {r r' : Result} : AlikeResults r r' → AlikeAnswers (.ok r) (.ok r')
  | err (m : Str) : AlikeAnswers (.err m) (.err m)
  | panic (m : Str) : AlikeAnswers (.panic m) (.panic m)

/-- Which commands show no calculations. -/
def Node.showsValues : Node → Bool
  | .bRollList _ | .bRollComp _ _ _ | .rRollList _ | .rRollComp _ _ _ | .uRollExpr _ | .uRollComp _ _ _ => true
  | _ => false

/-- A D comparison of a single roll. -/
def Node.isSingleRollComp : Node → Bool
  | .dRollComp (.var _ _ _) _ _ => true
  | _ => false

/-- What may be typed in front of a command: nothing, or the mark of secret rolls. -/
def IsMark (mark : Str) : Prop := mark = [] ∨ mark = chars!"S" ∨ mark = chars!"s"

/-- What may be typed behind a command: nothing, or a blank and any comment. -/
def IsComment (rest : Str) : Prop := rest = [] ∨ ∃ x t, rest = x :: t ∧ EndsWord x

end GoBCDice
