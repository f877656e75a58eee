import Verif.BCDice

/-!
# Specification: sessions and their logs
-/

namespace GoBCDice

/-- The answers of one bot to texts typed one after the other, and the state in which they leave its feeder. -/
def session {σ : Type} (F : DieFeeder σ) (usage : Str) : List Str → σ → List (Out Result) × σ
  | [], f => ([], f)
  | t :: ts, f =>
    let first := executeCommand F (basicBot usage) t f
    let others := session F usage ts first.2
    (first.1 :: others.1, others.2)

/-- The dice shown with an answer. -/
def shownDice : Out Result → List Die
  | .ok r => r.rolledDice
  | _ => []

/-- The dice shown in a session. -/
def sessionLog (answers : List (Out Result)) : List Die := (answers.map shownDice).flatten

/-- The text contains the dots of a random number. -/
def HasDots (s : Str) : Prop := ∃ a b, s = a ++ chars!"..." ++ b

/-- The answer says that a reroll threshold is missing or too small. -/
def RefusesThreshold (r : Result) : Prop :=
  ∃ p, r.parts = [p, chars!"2R6>=5 あるいは 2R6[5] のように振り足し目標値を指定してください"] ∨
    r.parts = [p, chars!"2U6[5] のように振り足し目標値を指定してください"] ∨
    r.parts = [p, chars!"振り足し目標値として2以上の整数を指定してください"]

end GoBCDice
