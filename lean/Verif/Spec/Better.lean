import Mathlib.Data.List.Forall2
import Verif.Spec.Average
import Verif.Spec.Easier

/-!
# Better dice
-/

namespace GoBCDice

/-- The same kinds of dice in the same order, every one of the second list showing at least as much. -/
def Better (ds ds' : List Die) : Prop :=
  List.Forall₂ (fun d d' => d.sides = d'.sides ∧ d.value ≤ d'.value) ds ds'

/-- `Tends true e`: the rolls of `e` are counted positively: added, subtracted from something an even number of
times, multiplied by numbers that are not negative, divided by positive numbers (with any rounding).  `Tends false e`: all are
counted negatively. -/
inductive Tends : Bool → Expr → Prop where
  | int {s : Bool} {v : Int64} : Tends s (.int v)
  | roll {x y : Int64} : Tends true (.var .d (.int x) (.int y))
  | neg {s : Bool} {r : Expr} : Tends (!s) r → Tends s (.neg r)
  | add {s : Bool} {l r : Expr} : Tends s l → Tends s r → Tends s (.bin .add l r)
  | sub {s : Bool} {l r : Expr} : Tends s l → Tends (!s) r → Tends s (.bin .sub l r)
  | times {s : Bool} {l : Expr} {n : Int64} : 0 ≤ n → Tends s l → Tends s (.bin .mul l (.int n))
  | ntimes {s : Bool} {l : Expr} {n : Int64} : n ≤ 0 → Tends (!s) l → Tends s (.bin .mul l (.int n))
  | timesL {s : Bool} {r : Expr} {n : Int64} : 0 ≤ n → Tends s r → Tends s (.bin .mul (.int n) r)
  | ntimesL {s : Bool} {r : Expr} {n : Int64} : n ≤ 0 → Tends (!s) r → Tends s (.bin .mul (.int n) r)
  | div {s : Bool} {m : Rounding} {l : Expr} {n : Int64} : 0 < n → Tends s l → Tends s (.div m l (.int n))
  | ndiv {s : Bool} {m : Rounding} {l : Expr} {n : Int64} : n < 0 → Tends (!s) l → Tends s (.div m l (.int n))

/-- No number that occurs while the expression is computed is greater than this, nor less than its negative. -/
def Expr.reach : Expr → Nat
  | .int v => v.toInt.natAbs
  | .neg r => r.reach
  | .bin .mul l r => max l.reach 1 * max r.reach 1
  | .bin _ l r => l.reach + r.reach
  | .div _ l r => max l.reach r.reach
  | .var _ l r => l.reach * r.reach
  | .sumRoll _ => 0

/-- The comparisons that ask for high values. -/
def CmpOp.AsksHigh (op : CmpOp) : Prop := op = .ge ∨ op = .gt

/-- The comparisons that ask for low values. -/
def CmpOp.AsksLow (op : CmpOp) : Prop := op = .le ∨ op = .lt

end GoBCDice
