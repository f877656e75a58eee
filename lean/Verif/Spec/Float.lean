import Verif.Basic
import Mathlib.Algebra.Order.Field.Rat
import Mathlib.Algebra.Order.Group.Abs

/-!
# Specification: IEEE-754 double precision

The finite numbers of the format binary64 and rounding to nearest, ties to even, stated by what they
are and not by how they are computed.
-/

namespace GoBCDice

/-- The finite numbers of binary64, subnormal ones included: an integer of at most 53 bits times a
power of two with exponent between -1074 and 971. -/
def IsDouble (y : Rat) : Prop :=
  ∃ m e : Int, |m| < 2 ^ 53 ∧ -1074 ≤ e ∧ e ≤ 971 ∧ y = m * (2 : Rat) ^ e

/-- The last bit of the significand is zero. -/
def IsEvenDouble (y : Rat) : Prop :=
  ∃ m e : Int, |2 * m| < 2 ^ 53 ∧ -1074 ≤ e ∧ e ≤ 971 ∧ y = (2 * m : Int) * (2 : Rat) ^ e

/-- `y` is the double nearest to `x`; of two equally near ones, the even one. -/
structure RoundsTo (x y : Rat) : Prop where
  double : IsDouble y
  nearest : ∀ z, IsDouble z → |x - y| ≤ |x - z|
  even : ∀ z, IsDouble z → z ≠ y → |x - z| = |x - y| → IsEvenDouble y

end GoBCDice
