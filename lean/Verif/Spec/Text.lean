import Verif.Command
import Verif.Testcase

/-!
# Specification: the text of an answer

Which characters the text of an answer is made of, and how a program that only sees the text can
take it apart again.  Nothing here mentions commands or how they are executed.
-/

namespace GoBCDice

/-- The characters of answers: digits, signs, brackets and punctuation, the letters of the rolls, a
space, and the characters of the Japanese words. -/
def answerLetters : Str :=
  chars!"0123456789+-*/()[],.<>= BCDRU" ++
  chars!"計算結果成功失敗数最大合" ++
  chars!"あるいはのように振り足し目標値を指定してくださいと以上整"

/-- Every character of the text is one of these. -/
def Plain (s : Str) : Prop := ∀ c ∈ s, c ∈ answerLetters

instance (s : Str) : Decidable (Plain s) := inferInstanceAs (Decidable (∀ c ∈ s, c ∈ answerLetters))

/-- The mark between the parts of a message: FULLWIDTH GREATER-THAN SIGN. -/
def partMark : Char := '＞'

/-- The result is the answer to a choice among `items`: they are repeated, and one of them
follows. -/
def Result.Chosen (r : Result) (items : List Str) : Prop :=
  ∃ item ∈ items, r.parts = [chars!"(CHOICE[" ++ join chars!"," items ++ chars!"])", item]

/-- What the last part of a message says about success. -/
def verdictOf (parts : List Str) : SuccessCheck :=
  if parts.getLast? = some chars!"成功" then .success
  else if parts.getLast? = some chars!"失敗" then .failure
  else .unspecified

end GoBCDice
