import Verif.Spec.Chance
import Verif.Rand

/-!
# A perfect source of numbers of 63 bits
-/

namespace GoBCDice
open MeasureTheory

/-- The probability measure on sequences of numbers of 63 bits under which all numbers are equally
likely at each place, independently of each other. -/
noncomputable def wordChance : Measure Words :=
  Measure.infinitePi fun _ => (PMF.uniformOfFintype (Fin (2 ^ 63))).toMeasure

end GoBCDice
