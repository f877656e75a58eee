import Verif.Props.Parser

/-!
# Ways of writing the same command

Texts only: where the whole numbers of a text are, and other spellings of a number.
-/

namespace GoBCDice

/-- In the text `a ++ ds ++ b`, `ds` is a whole number: one or more digits, with no digit before or
after. -/
structure WholeNumber (a ds b : Str) : Prop where
  some : ds ≠ []
  digits : ∀ c ∈ ds, '0' ≤ c ∧ c ≤ '9'
  before : ∀ c ∈ a.getLast?, ¬ ('0' ≤ c ∧ c ≤ '9')
  after : ∀ c ∈ b.head?, ¬ ('0' ≤ c ∧ c ≤ '9')

/-- `w` is a number of value `v`, in any number of parentheses, with any number of leading zeros. -/
def Spelling (w : Str) (v : Nat) : Prop :=
  ∃ k ds, w = List.replicate k '(' ++ ds ++ List.replicate k ')' ∧ ds ≠ [] ∧
    (∀ c ∈ ds, '0' ≤ c ∧ c ≤ '9') ∧ decimal ds = v

/-- As many parentheses are closed in `s` as are opened, and nowhere have more been closed than opened. -/
def Balanced (s : Str) : Prop :=
  s.count '(' = s.count ')' ∧ ∀ p, p <+: s → p.count ')' ≤ p.count '('

end GoBCDice
