import Verif.Spec.Grammar

/-!
# Specification: what commands look like
-/

namespace GoBCDice

/-- The characters of integer arithmetic (`U`, `R`: rounding). -/
def arithmeticChars : Str := chars!"0123456789+-*/()UuRr"

/-- The characters of commands that roll dice. -/
def commandChars : Str := arithmeticChars ++ chars!"[].DdBb<>="

/-- A roll starts with one of these. -/
def rollStarts : Str := chars!"0123456789+-(["

/-- The text begins with the word `choice`, in any case, and a bracket. -/
def LooksLikeChoice (s : Str) : Prop := ∃ kw rest, SameWord chars!"choice" kw ∧ s = kw ++ chars!"[" ++ rest

/-- The text begins with `C(`, arithmetic and `)`. -/
def LooksLikeCalc (s : Str) : Prop :=
  ∃ c body rest, (c = 'C' ∨ c = 'c') ∧ (∀ x ∈ body, x ∈ arithmeticChars) ∧ (∃ x ∈ body, isDigit x = true) ∧
    s = [c] ++ chars!"(" ++ body ++ chars!")" ++ rest

/-- Reading a text with a stack of the closing brackets that are due: the stack at the end, or nothing if a bracket does
not match. -/
def nest : Str → Str → Option Str
  | [], due => some due
  | c :: cs, due =>
    if c = '(' then nest cs (')' :: due)
    else if c = '[' then nest cs (']' :: due)
    else if c = ')' ∨ c = ']' then
      match due with
      | [] => none
      | d :: rest => if d = c then nest cs rest else none
    else nest cs due

/-- All brackets match. -/
def Nested (s : Str) : Prop := nest s [] = some []

/-- The text has a letter of a roll, or the dots of a random number. -/
def Rolls (s : Str) : Prop := (∃ c ∈ s, c ∈ chars!"DdBbRrUu") ∨ ∃ a b, s = a ++ chars!"..." ++ b

/-- The text can be a roll: it starts as one, consists of these characters, has a digit and something to roll, and its
brackets match. -/def LooksLikeRoll (s : Str) : Prop :=
  (∃ c ∈ s.head?, c ∈ rollStarts) ∧ (∀ c ∈ s, c ∈ commandChars) ∧ (∃ c ∈ s, isDigit c = true) ∧ Rolls s ∧ Nested s

end GoBCDice
