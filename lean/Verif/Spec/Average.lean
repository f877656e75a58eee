import Verif.Spec.Chance

/-!
# Averages

What the textbook says about the totals of dice: limits, mean and variance of an expression of rolls
`xDy` and numbers with `+`, `-` and `*`.
-/

namespace GoBCDice

/-- Expressions of literal rolls `xDy` (`1 ≤ x ≤ 2^44`, `1 ≤ y`) and numbers with `+`, `-`, `*` and the sign. -/
inductive Whole : Expr → Prop where
  | int {v : Int64} : Whole (.int v)
  | neg {r : Expr} : Whole r → Whole (.neg r)
  | bin {op : BinOp} {l r : Expr} : Whole l → Whole r → Whole (.bin op l r)
  | roll {x y : Int64} : 1 ≤ x → x.toInt ≤ 2 ^ 44 → 1 ≤ y → Whole (.var .d (.int x) (.int y))

/-- The least and the greatest total, as integers. -/
def Expr.limits : Expr → Int × Int
  | .int v => (v.toInt, v.toInt)
  | .neg r => (-r.limits.2, -r.limits.1)
  | .bin .add l r => (l.limits.1 + r.limits.1, l.limits.2 + r.limits.2)
  | .bin .sub l r => (l.limits.1 - r.limits.2, l.limits.2 - r.limits.1)
  | .bin .mul l r =>
    (min (min (l.limits.1 * r.limits.1) (l.limits.1 * r.limits.2)) (min (l.limits.2 * r.limits.1) (l.limits.2 * r.limits.2)),
     max (max (l.limits.1 * r.limits.1) (l.limits.1 * r.limits.2)) (max (l.limits.2 * r.limits.1) (l.limits.2 * r.limits.2)))
  | .var .d (.int x) (.int y) => (x.toInt, x.toInt * y.toInt)
  | _ => (0, 0)

/-- The total is a 64-bit number whatever the dice show. -/
def Expr.Fits (e : Expr) : Prop := -2 ^ 63 ≤ e.limits.1 ∧ e.limits.2 < 2 ^ 63

/-- The mean of the total: `x(y+1)/2` for `xDy`; the rest by arithmetic, different rolls being independent. -/
def Expr.mean : Expr → Rat
  | .int v => v.toInt
  | .neg r => -r.mean
  | .bin .add l r => l.mean + r.mean
  | .bin .sub l r => l.mean - r.mean
  | .bin .mul l r => l.mean * r.mean
  | .var .d (.int x) (.int y) => x.toInt * (y.toInt + 1) / 2
  | _ => 0

/-- The variance of the total: `x(y²-1)/12` for `xDy`. -/
def Expr.variance : Expr → Rat
  | .neg r => r.variance
  | .bin .add l r => l.variance + r.variance
  | .bin .sub l r => l.variance + r.variance
  | .bin .mul l r => l.variance * r.variance + l.variance * r.mean ^ 2 + l.mean ^ 2 * r.variance
  | .var .d (.int x) (.int y) => x.toInt * (y.toInt ^ 2 - 1) / 12
  | _ => 0

/-- In every product at least one factor contains no roll. -/
def Expr.Linear : Expr → Prop
  | .neg r => r.Linear
  | .bin .mul l r => l.Linear ∧ r.Linear ∧ (l.dice = [] ∨ r.dice = [])
  | .bin _ l r => l.Linear ∧ r.Linear
  | _ => True

/-- The event that the answer to `input` shows the total `t`. -/
def Shows (usage input : Str) (i : ℕ) (t : Int) : Set Fate :=
  Answered usage input i fun r => r.parts[2]? = some (intStr (Int64.ofInt t))

/-- The event that the answer to `input` shows `k` successes. -/
def ShowsSuccesses (usage input : Str) (i k : ℕ) : Set Fate :=
  Answered usage input i fun r => r.parts[2]? = some (chars!"成功数" ++ intStr (Int64.ofNat k))

/-- The comparison that is true exactly if the given one is not. -/
def CmpOp.opposite : CmpOp → CmpOp
  | .eq => .ne
  | .ne => .eq
  | .le => .gt
  | .gt => .le
  | .lt => .ge
  | .ge => .lt

end GoBCDice
