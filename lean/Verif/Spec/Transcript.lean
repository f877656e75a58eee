import Verif.Spec.Session
import Verif.Spec.Testcase

/-!
# Specification: the transcript of a session as a file of test cases
-/

namespace GoBCDice

/-- What a chat shows of an answer, the mark of a secret roll behind it; nothing if the command failed. -/
def answerLine : Out Result → Str
  | .ok r => r.message ++ (if r.isSecret then chars!"###secret dice###" else [])
  | _ => []

/-- The dice of an answer, as `value/sides` with commas in between. -/
def diceLine (a : Out Result) : Str :=
  join chars!"," ((shownDice a).map fun d => intStr d.value ++ chars!"/" ++ intStr d.sides)

/-- A text and its answer, written down as a test case. -/
def transcriptCase (input : Str) (a : Out Result) : Str :=
  chars!"input:\n" ++ input ++ chars!"\noutput:\n" ++ answerLine a ++ chars!"\nrand:" ++ diceLine a

/-- A session, written down as a file of test cases with bars in between. -/
def transcript (inputs : List Str) (answers : List (Out Result)) : Str :=
  join (chars!"\n" ++ caseBar ++ chars!"\n") (List.zipWith transcriptCase inputs answers)

end GoBCDice
