import Verif.Basic

/-!
# The fragment of float64 arithmetic used by `evalIntegerDivide`

`pkg/core/evaluator/eval_infix_expression.go:128-139` computes
`int(math.Round(float64(l) / float64(r)))` and `int(math.Ceil(float64(l) / float64(r)))`.

A finite float64 is represented by the rational number it denotes.  For 64-bit integer operands
every value that occurs is zero or has magnitude in [2^-64, 2^64], so neither overflow nor
subnormal numbers can occur and rounding to 53 significant bits, ties to even, is the whole of
IEEE-754 binary64 here.  The sign of a zero result is irrelevant after conversion to `int`.
-/

namespace GoBCDice

/-- 2^e for an integer exponent. -/
def pow2 (e : Int) : Rat := if 0 ≤ e then (2 : Rat) ^ e.toNat else 1 / (2 : Rat) ^ (-e).toNat

/-- ⌊log₂ |x|⌋ for x ≠ 0. -/
def ilog2 (x : Rat) : Int :=
  let d : Int := (Nat.log2 x.num.natAbs : Int) - (Nat.log2 x.den : Int)
  if pow2 d ≤ x.abs then d else d - 1

/-- Nearest integer, ties to the even one. -/
def roundHalfEven (x : Rat) : Int :=
  let f := x.floor
  let r := x - f
  if r < 1 / 2 then f
  else if 1 / 2 < r then f + 1
  else if f % 2 = 0 then f else f + 1

/-- The float64 nearest to a rational (53 significant bits, ties to even). -/
def toF64 (x : Rat) : Rat :=
  if x = 0 then 0
  else
    let ulp := pow2 (ilog2 x - 52)
    (roundHalfEven (x / ulp) : Rat) * ulp

/-- Go `float64(n)`. -/
def f64OfInt (n : Int64) : Rat := toF64 (n.toInt : Rat)

/-- Go float64 division of finite numbers with non-zero divisor. -/
def f64Div (x y : Rat) : Rat := toF64 (x / y)

/-- Go `math.Round`: nearest integer, halves away from zero (exact on float64). -/
def mathRound (x : Rat) : Int :=
  if 0 ≤ x then (x + 1 / 2).floor else -((-x + 1 / 2).floor)

/-- Go `math.Ceil` (exact on float64). -/
def mathCeil (x : Rat) : Int := x.ceil

/-- Go `int(f)` for an integral float64 `f`: the value if representable; the result of an
out-of-range conversion is implementation-specific in Go, on amd64 it is MinInt64. -/
def intOfF64 (n : Int) : Int64 :=
  if -(2 ^ 63) ≤ n ∧ n < 2 ^ 63 then Int64.ofInt n else Int64.minValue

/-- Rounding method of a division (`ast.RoundingMethodType`, pkg/core/ast/divide.go:4-13). -/
inductive Rounding where
  | down
  | round
  | up
deriving DecidableEq, Repr

/-- `RoundingMethodType.String` (pkg/core/ast/divide.go:16-29). -/
def Rounding.str : Rounding → Str
  | .up => chars!"U"
  | .round => chars!"R"
  | .down => []

/-- The arithmetic of `evalIntegerDivide` for a non-zero divisor
(pkg/core/evaluator/eval_infix_expression.go:124-139). -/
def divValue (m : Rounding) (l r : Int64) : Int64 :=
  match m with
  | .down => l / r
  | .round => intOfF64 (mathRound (f64Div (f64OfInt l) (f64OfInt r)))
  | .up => intOfF64 (mathCeil (f64Div (f64OfInt l) (f64OfInt r)))

end GoBCDice
