import Verif.Dice
import Verif.Float

/-!
# Abstract syntax trees (pkg/core/ast)

The Go trees are pointers to structs behind the interface `ast.Node`; the evaluator mutates them
in place (`SetLeft`, `SetRight`, ...).  Here trees are immutable and each mutating function
returns the new tree; `Verif.RawAst` and its companions model the nodes in memory, and C68 proves
that execution in memory computes what execution on immutable trees does, for unshared trees.

The model is *typed*: it contains exactly the shapes the parser builds and the ones the
evaluator turns them into.  `B`, `R` and `U` rolls occur only inside roll lists, so they are
represented by `Roll` rather than by an expression; comparisons occur only at the root of a
command.  Hand-built trees of other shapes (possible through the Go API, never produced by the
parser) are in the model of memory only.
-/

namespace GoBCDice

/-- Operators of `NewAdd`, `NewSubtract`, `NewMultiply`
(pkg/core/ast/basic_infix_expression.go:23-86). -/
inductive BinOp where
  | add
  | sub
  | mul
deriving DecidableEq, Repr

/-- Variable infix expressions that can occur inside an arithmetic expression: `D` rolls and
random numbers (pkg/core/ast/variable_infix_expression.go:54-56, 89-91). -/
inductive VarKind where
  | d
  | rand
deriving DecidableEq, Repr

/-- Arithmetic expressions. -/
inductive Expr where
  /-- `ast.Int` (pkg/core/ast/int.go) -/
  | int (v : Int64)
  /-- `ast.SumRollResult` (pkg/core/ast/sum_roll_result.go): a D roll whose dice are known -/
  | sumRoll (dice : List Die)
  /-- `ast.NewUnaryMinus` (pkg/core/ast/prefix_expression.go:92-103) -/
  | neg (r : Expr)
  /-- `ast.BasicInfixExpression` with operator + - * -/
  | bin (op : BinOp) (l r : Expr)
  /-- `ast.Divide` (pkg/core/ast/divide.go:32-37) -/
  | div (m : Rounding) (l r : Expr)
  /-- `ast.VariableInfixExpression` of kind D or RandomNumber -/
  | var (k : VarKind) (l r : Expr)
deriving DecidableEq, Repr

/-- A `B`, `R` or `U` roll inside a roll list (pkg/core/ast/variable_infix_expression.go:62-83). -/
structure Roll where
  num : Expr
  sides : Expr
deriving DecidableEq, Repr

/-- Comparison operators accepted by the grammar (pkg/core/parser/parser.pigeon:365). -/
inductive CmpOp where
  | eq
  | ne
  | le
  | lt
  | ge
  | gt
deriving DecidableEq, Repr

/-- Operator text (pkg/core/ast/basic_infix_expression.go:93-110 stores the parsed text). -/
def CmpOp.str : CmpOp → Str
  | .eq => chars!"="
  | .ne => chars!"<>"
  | .le => chars!"<="
  | .lt => chars!"<"
  | .ge => chars!">="
  | .gt => chars!">"

/-- `ast.RRollList` (pkg/core/ast/r_roll_list.go:9-18); also used for U rolls.
`threshold = none` is the `ast.Nil` node. -/
structure RRollList where
  rolls : List Roll
  threshold : Option Expr
deriving DecidableEq, Repr

/-- Sign of a U-roll bonus: `Bonus` is `NewAdd(Int 0, e)` or `NewSubtract(Int 0, e)`
(pkg/core/parser/parser.pigeon:190-203). -/
inductive Sign where
  | plus
  | minus
deriving DecidableEq, Repr

/-- `ast.URollExpr` (pkg/core/ast/u_roll_expr.go:9-18); `bonus = none` is the nil interface. -/
structure URollExpr where
  list : RRollList
  bonus : Option (Sign × Expr)
deriving DecidableEq, Repr

/-- The node returned by the parser: `ast.Choice`, `ast.Command` of the various types,
`ast.BRollList`, `ast.RRollList`, `ast.URollExpr` (pkg/core/ast/command.go:58-95, choice.go). -/
inductive Node where
  | choice (items : List Str)
  | calc (e : Expr)
  | dRollExpr (e : Expr)
  | dRollComp (l : Expr) (op : CmpOp) (r : Expr)
  | bRollList (rolls : List Roll)
  | bRollComp (rolls : List Roll) (op : CmpOp) (r : Expr)
  | rRollList (rl : RRollList)
  | rRollComp (rl : RRollList) (op : CmpOp) (r : Expr)
  | uRollExpr (u : URollExpr)
  | uRollComp (u : URollExpr) (op : CmpOp) (r : Expr)
deriving DecidableEq, Repr

namespace Expr

/-- `Node.IsPrimaryExpression` (`isPrimaryExpression` fields in int.go:27, sum_roll_result.go:29,
prefix_expression.go:96, basic_infix_expression.go:28,51,74, divide.go:66,
variable_infix_expression.go:36). -/
def isPrimary : Expr → Bool
  | .int _ => true
  | .sumRoll _ => true
  | .neg _ => false
  | .bin _ _ _ => false
  | .div _ _ _ => false
  | .var _ _ _ => true

/-- `Node.IsVariable` (variable_node.go:8-19, prefix_expression.go:85-87,
basic_infix_expression.go:15-17). -/
def isVariable : Expr → Bool
  | .int _ => false
  | .sumRoll _ => false
  | .neg r => r.isVariable
  | .bin _ l r => l.isVariable || r.isVariable
  | .div _ l r => l.isVariable || r.isVariable
  | .var _ _ _ => true

/-- `Node.Type().String()` (pkg/core/ast/node.go:53-88). -/
def typeName : Expr → Str
  | .int _ => chars!"Int"
  | .sumRoll _ => chars!"SumRollResult"
  | .neg _ => chars!"UnaryMinus"
  | .bin .add _ _ => chars!"Add"
  | .bin .sub _ _ => chars!"Subtract"
  | .bin .mul _ _ => chars!"Multiply"
  | .div .up _ _ => chars!"DivideWithRoundingUp"
  | .div .round _ _ => chars!"DivideWithRounding"
  | .div .down _ _ => chars!"DivideWithRoundingDown"
  | .var .d _ _ => chars!"DRoll"
  | .var .rand _ _ => chars!"RandomNumber"

end Expr

/-- `SumRollResult.Value` (pkg/core/ast/sum_roll_result.go:41-49). -/
def sumDice (ds : List Die) : Int64 := sumInts (ds.map Die.value)

/-- The bonus of a U roll as the expression tree built by the parser
(pkg/core/parser/parser.pigeon:195-202). -/
def bonusExpr : Sign × Expr → Expr
  | (.plus, e) => .bin .add (.int 0) e
  | (.minus, e) => .bin .sub (.int 0) e

end GoBCDice
