import Verif.Spec.Command

/-!
# Specification: the message of a D roll

The second part of the message of a D command is the first part with every roll replaced by its
result.  `RollsShown` says so on plain text: it knows nothing of syntax trees.
-/

namespace GoBCDice

/-- The text does not begin with a digit. -/
def NoDigitFirst (s : Str) : Prop := ∀ c, s.head? = some c → isDigit c = false

/-- The text does not end with a digit. -/
def NoDigitLast (s : Str) : Prop := ∀ c, s.getLast? = some c → isDigit c = false

/-- What a roll that gave the dice `g` is shown as: `sum[v1,v2,...]`. -/
def rollResultText (g : List Die) : Str :=
  intStr (g.map Die.value).sum ++ chars!"[" ++ valuesText (g.map Die.value) ++ chars!"]"

/-- `RollsShown a ds b`: reading the text `a` from left to right, every `xDy` in it (a number, the
letter D, a number) is replaced in `b` by the sum and the values of the next `x` dice of `ds`, all
of which have `y` sides; everything else is copied; and `ds` is used up. -/
inductive RollsShown : Str → List Die → Str → Prop where
  | text {t : Str} : 'D' ∉ t → RollsShown t [] t
  | roll {t a b : Str} {x y : Int64} {g rs : List Die} :
      'D' ∉ t → NoDigitLast t → Rolled x y g → NoDigitFirst a → RollsShown a rs b →
      RollsShown (t ++ intStr x ++ chars!"D" ++ intStr y ++ a) (g ++ rs)
        (t ++ rollResultText g ++ b)

end GoBCDice
