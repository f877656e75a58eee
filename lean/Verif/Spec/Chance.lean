import Mathlib.Probability.ProductMeasure
import Mathlib.Probability.Distributions.Uniform
import Verif.Spec.Answer
import Verif.BCDice

/-!
# Perfect random numbers

The program takes its random numbers from a generator through `Intn(n)`, "a number in [0, n)".  Here
is the generator one would wish for, on a probability space: whenever it is asked for a number below
`n`, each of the numbers 0, …, n-1 is equally likely, independently of everything else.
-/

namespace GoBCDice
open MeasureTheory

/-- The numbers below `n`: 0, …, n-1 (only 0 if `n` is not positive). -/
abbrev Below (n : Int64) : Type := Fin (n.toInt.toNat - 1 + 1)

/-- All that chance decides: for every time `i` and every `n` the number below `n` that is returned
if the request number `i` asks for a number below `n`. -/
abbrev Fate : Type := (k : ℕ × Int64) → Below k.2

/-- The probability measure on fates under which all these numbers are uniform and independent. -/
noncomputable def chance : Measure Fate :=
  Measure.infinitePi fun k => (PMF.uniformOfFintype (Below k.2)).toMeasure

/-- The generator that returns what fate says; its state is the number of requests so far. -/
def fated (ω : Fate) : Rng ℕ where
  intn i n := (Int64.ofNat (ω (i, n)).val, i + 1)

/-- The probability that a die with the sides of `d` shows what `d` shows. -/
noncomputable def Die.odds (d : Die) : ENNReal :=
  if d.Fair then (d.sides.toInt.toNat : ENNReal)⁻¹ else 0

/-- The product of these: independent dice. -/
noncomputable def odds (ds : List Die) : ENNReal := (ds.map Die.odds).prod

/-- All that dice with the given numbers of sides can show: every list whose k-th element is one of
1, …, (number of sides of the k-th die), each list once. -/
def allFaces : List Int64 → List (List Int64)
  | [] => [[]]
  | s :: ss => (List.range s.toInt.toNat).flatMap fun v =>
      (allFaces ss).map (Int64.ofNat (v + 1) :: ·)

/-- The dice with the given numbers of sides that show the given values. -/
def diceShowing (sides values : List Int64) : List Die := List.zipWith Die.mk values sides

/-- The numbers of sides of the dice that an expression with literal operands rolls, in this order. -/
def Expr.dice : Expr → List Int64
  | .neg r => r.dice
  | .bin _ l r => l.dice ++ r.dice
  | .div _ l r => l.dice ++ r.dice
  | .var .d (.int x) (.int y) => List.replicate x.toInt.toNat y
  | _ => []

/-- The same for a roll. -/
def Roll.dice : Roll → List Int64
  | ⟨.int x, .int y⟩ => List.replicate x.toInt.toNat y
  | _ => []

/-- The same for a command, if the dice are known in advance, that is, without rerolls: a target is
computed before the rolls are made. -/
def Node.dice : Node → Option (List Int64)
  | .choice items => some [Int64.ofNat items.length]
  | .calc e => some e.dice
  | .dRollExpr e => some e.dice
  | .dRollComp l _ r => some (r.dice ++ l.dice)
  | .bRollList rolls => some (rolls.flatMap Roll.dice)
  | .bRollComp rolls _ r => some (r.dice ++ rolls.flatMap Roll.dice)
  | _ => none

/-- How many of the faces 1, …, `sides` stand in the given relation to the target. -/
def winningFaces (op : CmpOp) (target : Int) (sides : ℕ) : ℕ :=
  (List.range sides).countP fun v : ℕ => op.Rel ((v : Int) + 1) target

/-- The event that the program, with perfect random dice and after `i` numbers have been drawn, answers
`input` with a result for which `E` holds. -/
def Answered (usage input : Str) (i : ℕ) (E : Result → Prop) : Set Fate :=
  {ω | ∃ r i', executeCommand (mtFeeder (fated ω)) (basicBot usage) input i = (.ok r, i') ∧ E r}

end GoBCDice
