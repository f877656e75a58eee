import Verif.Testcase

/-!
# Specification of the dice notation of test cases and of the REPL
-/

namespace GoBCDice

/-- White space in the sense of Go regular expressions. -/
def reSpaces : List Char := ['\t', '\n', '\x0c', '\r', ' ']

/-- A number of 1 or more digits, capped at the largest 64-bit integer, denotes `v`. -/
def NumeralOf (s : Str) (v : Int64) : Prop :=
  s ≠ [] ∧ (∀ c ∈ s, '0' ≤ c ∧ c ≤ '9') ∧
    v.toInt = min (s.foldl (fun n c => 10 * n + (c.toNat - 48)) 0 : Nat) (2 ^ 63 - 1 : Nat)

/-- `value/sides` with optional white space around. -/
inductive DieText : Str → Die → Prop where
  | mk {a v w b : Str} {x y : Int64} : (∀ c ∈ a, c ∈ reSpaces) → (∀ c ∈ b, c ∈ reSpaces) →
      NumeralOf v x → NumeralOf w y → DieText (a ++ v ++ chars!"/" ++ w ++ b) ⟨x, y⟩

/-- A comma-separated list of dice; the empty text is the empty list. -/
inductive DiceText : Str → List Die → Prop where
  | empty : DiceText [] []
  | one {s : Str} {d : Die} : DieText s d → DiceText s [d]
  | more {s t : Str} {d : Die} {ds : List Die} : DieText s d → ds ≠ [] → DiceText t ds →
      DiceText (s ++ chars!"," ++ t) (d :: ds)

/-- Source text of a test case: the input lines, then the output preceded by any number of
newlines, then the dice. -/
def caseText (input : List Str) (newlines : Nat) (output dice : Str) : Str :=
  chars!"input:\n" ++ join chars!"\n" input ++ chars!"\noutput:" ++ List.replicate newlines '\n' ++
    output ++ chars!"\nrand:" ++ dice

/-- The lines of a text. -/
def LinesOf (s : Str) (ls : List Str) : Prop :=
  ls ≠ [] ∧ (∀ l ∈ ls, '\n' ∉ l) ∧ s = join chars!"\n" ls

/-- The line that separates test cases: 28 equals signs. -/
def caseBar : Str := List.replicate 28 '='

/-- A test case as someone would write it down. -/
structure CaseSpec where
  input : List Str
  newlines : Nat
  output : Str
  diceText : Str
  dice : List Die

/-- The text of a test case. -/
def CaseSpec.text (c : CaseSpec) : Str := caseText c.input c.newlines c.output c.diceText

/-- A test case that can be written down unambiguously: at least one input line and not just an
empty one; the output does not start with a newline and has no line starting with `output:`; the
dice are written on one line; no line of input or output is the separator. -/
structure CaseSpec.Ok (c : CaseSpec) : Prop where
  input_ne : c.input ≠ [] ∧ c.input ≠ [[]]
  input_lines : ∀ l ∈ c.input, '\n' ∉ l ∧ l ≠ caseBar
  output_head : c.output.head? ≠ some '\n'
  output_lines : ∃ ls, LinesOf c.output ls ∧ ∀ l ∈ ls, ¬ chars!"output:" <+: l ∧ l ≠ caseBar
  dice : DiceText c.diceText c.dice
  dice_line : '\n' ∉ c.diceText

/-- What reading the test case must give. -/
def CaseSpec.result (c : CaseSpec) (gameID : Str) (index : Int64) : TestCase :=
  { gameID := gameID, index := index, input := c.input, output := c.output, dice := c.dice }

/-- The text can be divided into the three sections of a test case in this way, the first of which
is not empty. -/
def CaseSections (source input output dice : Str) : Prop :=
  source = chars!"input:\n" ++ input ++ chars!"\noutput:" ++ output ++ chars!"\nrand:" ++ dice ∧
    input ≠ []

/-- Of all divisions the one with the longest input, and among those the one with the longest
output. -/
def CaseDivision (source input output dice : Str) : Prop :=
  CaseSections source input output dice ∧
    ∀ i o d, CaseSections source i o d → i.length < input.length ∨
      i = input ∧ o.length ≤ output.length

/-- The text divided at the separator, from the left: each part ends where the separator occurs
first. -/
inductive Divided (sep : Str) : Str → List Str → Prop where
  | last {s : Str} : ¬ sep <:+: s → Divided sep s [s]
  | cut {a b : Str} {parts : List Str} : (∀ p r, a ++ sep ++ b = p ++ sep ++ r → a.length ≤ p.length) →
      Divided sep b parts → Divided sep (a ++ sep ++ b) (a :: parts)

/-- The text without the newlines it starts with. -/
def WithoutLeadingNewlines (s t : Str) : Prop :=
  ∃ n, s = List.replicate n '\n' ++ t ∧ t.head? ≠ some '\n'

end GoBCDice
