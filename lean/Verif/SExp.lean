import Verif.Ast
import Verif.Quote

/-!
# S-expressions of syntax trees (`SExp` methods of pkg/core/ast)

`isPrint` is Go's table of printable characters, used by `%q`.
-/

namespace GoBCDice

/-- `InfixExpressionImpl.SExp` (pkg/core/ast/infix_expression.go:106-124) once its operands are
rendered. -/
def infixSExp (op l r : Str) : Str := chars!"(" ++ op ++ chars!" " ++ l ++ chars!" " ++ r ++ chars!")"

/-- `SumRollResult.SExp` (pkg/core/ast/sum_roll_result.go:51-60). -/
def sumRollSExp (ds : List Die) : Str :=
  chars!"(SumRollResult " ++ join chars!" " (ds.map Die.sexp) ++ chars!")"

/-- `OperatorForSExp` of + - * (pkg/core/ast/basic_infix_expression.go:33,56,79). -/
def BinOp.sexpOp : BinOp → Str
  | .add => chars!"+"
  | .sub => chars!"-"
  | .mul => chars!"*"

/-- `SExp` of arithmetic expressions: int.go:36-38, prefix_expression.go:78-82 and 98,
infix_expression.go:106-124, divide.go:59,71 (operator `/` followed by the rounding method),
variable_infix_expression.go:42 (the type name of the node). -/
def Expr.sexp : Expr → Str
  | .int v => intStr v
  | .sumRoll ds => sumRollSExp ds
  | .neg r => chars!"(- " ++ r.sexp ++ chars!")"
  | .bin op l r => infixSExp op.sexpOp l.sexp r.sexp
  | .div m l r => infixSExp (chars!"/" ++ m.str) l.sexp r.sexp
  | .var .d l r => infixSExp chars!"DRoll" l.sexp r.sexp
  | .var .rand l r => infixSExp chars!"RandomNumber" l.sexp r.sexp

/-- `SExp` of a B, R or U roll, given its type name. -/
def Roll.sexp (name : Str) (r : Roll) : Str := infixSExp name r.num.sexp r.sides.sexp

/-- `SExp` of a comparison (basic_infix_expression.go:103): the operator text. -/
def compareSExp (l : Str) (op : CmpOp) (r : Expr) : Str := infixSExp op.str l r.sexp

/-- `BRollList.SExp` (pkg/core/ast/b_roll_list.go:37-50). -/
def bRollListSExp (rolls : List Roll) : Str :=
  chars!"(BRollList " ++ join chars!" " (rolls.map (Roll.sexp chars!"BRoll")) ++ chars!")"

/-- `SExp` of a threshold; `Nil` is written `nil` (pkg/core/ast/nil.go:40-42). -/
def thresholdSExp : Option Expr → Str
  | none => chars!"nil"
  | some e => e.sexp

/-- `RRollList.SExp` (pkg/core/ast/r_roll_list.go:39-55); U rolls use the same type of list, with
other rolls in it. -/
def rRollListSExp (name : Str) (rl : RRollList) : Str :=
  chars!"(RRollList " ++ thresholdSExp rl.threshold ++ chars!" " ++
    join chars!" " (rl.rolls.map (Roll.sexp name)) ++ chars!")"

/-- `URollExpr.SExp` (pkg/core/ast/u_roll_expr.go:36-55): the bonus node with its left operand
replaced by the roll list. -/
def uRollExprSExp (u : URollExpr) : Str :=
  chars!"(URollExpr " ++
    (match u.bonus with
     | none => rRollListSExp chars!"URoll" u.list
     | some (.plus, e) => infixSExp chars!"+" (rRollListSExp chars!"URoll" u.list) e.sexp
     | some (.minus, e) => infixSExp chars!"-" (rRollListSExp chars!"URoll" u.list) e.sexp) ++
    chars!")"

/-- `Choice.SExp` (pkg/core/ast/choice.go:35-48). -/
def choiceSExp (isPrint : Char → Bool) (items : List Str) : Str :=
  chars!"(Choice" ++ items.flatMap (fun i => chars!" " ++ quote isPrint i) ++ chars!")"

/-- `Command.SExp` (pkg/core/ast/command.go:28-38). -/
def commandSExp (name e : Str) : Str := chars!"(" ++ name ++ chars!" " ++ e ++ chars!")"

/-- `SExp` of the nodes returned by the parser. -/
def Node.sexp (isPrint : Char → Bool) : Node → Str
  | .choice items => choiceSExp isPrint items
  | .calc e => commandSExp chars!"Calc" e.sexp
  | .dRollExpr e => commandSExp chars!"DRollExpr" e.sexp
  | .dRollComp l op r => commandSExp chars!"DRollComp" (compareSExp l.sexp op r)
  | .bRollList rolls => bRollListSExp rolls
  | .bRollComp rolls op r => commandSExp chars!"BRollComp" (compareSExp (bRollListSExp rolls) op r)
  | .rRollList rl => rRollListSExp chars!"RRoll" rl
  | .rRollComp rl op r =>
    commandSExp chars!"RRollComp" (compareSExp (rRollListSExp chars!"RRoll" rl) op r)
  | .uRollExpr u => uRollExprSExp u
  | .uRollComp u op r => commandSExp chars!"URollComp" (compareSExp (uRollExprSExp u) op r)

end GoBCDice
