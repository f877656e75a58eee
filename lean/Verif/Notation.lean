import Verif.Ast

/-!
# Infix notation (pkg/core/notation/notation.go)

`InfixNotation` never fails on the modelled trees (the error branches of notation.go:62 and the
propagation of errors concern node kinds that cannot occur here), so the model returns a string.
-/

namespace GoBCDice

/-- `Parenthesize` (notation.go:278-280). -/
def parenthesize (s : Str) : Str := chars!"(" ++ s ++ chars!")"

/-- Operator precedences (pkg/core/ast/operator_precedence.go:6-21). -/
inductive Prec where
  | compare | additive | multitive | roll | dots
deriving DecidableEq, Repr

/-- Numeric order of the precedence constants. -/
def Prec.rank : Prec → Nat
  | .compare => 1
  | .additive => 2
  | .multitive => 3
  | .roll => 4
  | .dots => 5

/-- `Operator()` of + - * (basic_infix_expression.go:32,55,78). -/
def BinOp.str : BinOp → Str
  | .add => chars!"+"
  | .sub => chars!"-"
  | .mul => chars!"*"

/-- `Precedence()` of + - * (basic_infix_expression.go:35,58,81). -/
def BinOp.prec : BinOp → Prec
  | .add => .additive
  | .sub => .additive
  | .mul => .multitive

/-- `IsRightAssociative()` of + - * (basic_infix_expression.go:37,60,83); all three are
left-associative (36,59,82). -/
def BinOp.rightAssoc : BinOp → Bool
  | .add => true
  | .sub => false
  | .mul => true

/-- `Operator()` of variable infix expressions (variable_infix_expression.go:10-16). -/
def VarKind.str : VarKind → Str
  | .d => chars!"D"
  | .rand => chars!"..."

/-- `Precedence()` of variable infix expressions (variable_infix_expression.go:19-25). -/
def VarKind.prec : VarKind → Prec
  | .d => .roll
  | .rand => .dots

namespace Expr

/-- `Precedence()` when the node is an infix expression (`ast.InfixExpression`), `none` for
prefix expressions and literals. -/
def prec? : Expr → Option Prec
  | .bin op _ _ => some op.prec
  | .div _ _ _ => some .multitive          -- divide.go:73
  | .var k _ _ => some k.prec
  | _ => none

/-- Is the node a prefix expression (unary minus)? -/
def isPrefix : Expr → Bool
  | .neg _ => true
  | _ => false

/-- Decision of `parenthesizeChildOfInfixExpression` for an infix child (notation.go:245-250):
lower precedence, or same precedence on a side on which the parent is not associative. -/
def needsParen (parent : Prec) (assoc : Bool) (child : Expr) : Bool :=
  match child.prec? with
  | none => false
  | some p => decide (p.rank < parent.rank) || (decide (p.rank = parent.rank) && !assoc)

end Expr

/-- `infixNotationOfSumRollResult` (notation.go:364-372). -/
def sumRollNotation (ds : List Die) : Str :=
  intStr (sumDice ds) ++ chars!"[" ++ join chars!"," (ds.map (fun d => intStr d.value)) ++ chars!"]"

/-- `InfixNotation` on an arithmetic expression (notation.go:31-63), with
`infixNotationOfPrefixExpression` (201-221), `parenthesizeChildOfInfixExpression` (229-275),
`infixNotationOfDivide` (294-308), `infixNotationsOfInfixExpressionChildren` (311-345) and
`infixNotationOfRandomNumber` (348-361) inlined so that the recursion is structural.
`wl` is the parameter `walkingToLeft`.

For an infix node the left operand is rendered by
* the prefix notation when it is a unary minus, `wl` holds and the node is left-associative
  (notation.go:319-321; + - * / are left-associative, rolls and random numbers are not);
* otherwise `parenthesizeChildOfInfixExpression` with the node's left associativity and `wl`;
the right operand by `parenthesizeChildOfInfixExpression` with the right associativity and
`false`. -/
def infixNotation : Bool → Expr → Str
  | _, .int v => intStr v
  | _, .sumRoll ds => sumRollNotation ds
  | wl, .neg r =>
    if r.isPrimary then chars!"-" ++ infixNotation wl r
    else chars!"-" ++ parenthesize (infixNotation true r)
  | wl, .bin op l r =>
    (if l.isPrefix && wl then infixNotation wl l
     else if l.isPrefix then parenthesize (infixNotation wl l)
     else if l.needsParen op.prec true then parenthesize (infixNotation true l)
     else infixNotation wl l)
    ++ op.str ++
    (if r.isPrefix then parenthesize (infixNotation false r)
     else if r.needsParen op.prec op.rightAssoc then parenthesize (infixNotation true r)
     else infixNotation false r)
  | wl, .div m l r =>
    (if l.isPrefix && wl then infixNotation wl l
     else if l.isPrefix then parenthesize (infixNotation wl l)
     else if l.needsParen .multitive true then parenthesize (infixNotation true l)
     else infixNotation wl l)
    ++ chars!"/" ++
    (if r.isPrefix then parenthesize (infixNotation false r)
     else if r.needsParen .multitive false then parenthesize (infixNotation true r)
     else infixNotation false r)
    ++ m.str
  | wl, .var .d l r =>
    (if l.isPrefix then parenthesize (infixNotation wl l)
     else if l.needsParen .roll false then parenthesize (infixNotation true l)
     else infixNotation wl l)
    ++ chars!"D" ++
    (if r.isPrefix then parenthesize (infixNotation false r)
     else if r.needsParen .roll false then parenthesize (infixNotation true r)
     else infixNotation false r)
  | _, .var .rand l r =>
    chars!"[" ++
    (if l.isPrefix then parenthesize (infixNotation true l)
     else if l.needsParen .dots false then parenthesize (infixNotation true l)
     else infixNotation true l)
    ++ chars!"..." ++
    (if r.isPrefix then parenthesize (infixNotation false r)
     else if r.needsParen .dots false then parenthesize (infixNotation true r)
     else infixNotation false r)
    ++ chars!"]"

/-- Notation of the left operand of a roll (parent precedence ROLL, not associative,
`walkingToLeft` as given): `parenthesizeChildOfInfixExpression` (notation.go:229-275). -/
def rollOperandNotation (wl : Bool) (e : Expr) : Str :=
  if e.isPrefix then parenthesize (infixNotation wl e)
  else if e.needsParen .roll false then parenthesize (infixNotation true e)
  else infixNotation wl e

/-- `InfixNotation(b, true)` for a B/R/U roll with operator letter `op`
(notation.go:47-55, 283-290, 311-345). -/
def rollNotation (op : Str) (r : Roll) : Str :=
  rollOperandNotation true r.num ++ op ++ rollOperandNotation false r.sides

/-- `infixNotationOfBRollList` (notation.go:96-108) and the same join in
`infixNotationOfRRollList` (114-124). -/
def rollsNotation (op : Str) (rolls : List Roll) : Str :=
  join chars!"+" (rolls.map (rollNotation op))

/-- `infixNotationOfRRollList` (notation.go:111-138). -/
def rRollListNotation (op : Str) (rl : RRollList) : Str :=
  rollsNotation op rl.rolls ++
    (match rl.threshold with
     | none => []
     | some t => chars!"[" ++ infixNotation true t ++ chars!"]")

/-- Right operand of an additive node (`parenthesizeChildOfInfixExpression` with the
associativity of + or -). -/
def bonusOperandNotation (s : Sign) (e : Expr) : Str :=
  if e.isPrefix then parenthesize (infixNotation false e)
  else if e.needsParen .additive (match s with | .plus => true | .minus => false)
    then parenthesize (infixNotation true e)
  else infixNotation false e

/-- Operator text of a bonus. -/
def Sign.str : Sign → Str
  | .plus => chars!"+"
  | .minus => chars!"-"

/-- `infixNotationOfURollExpr` (notation.go:141-167): the bonus node with its left operand
replaced by the roll list. -/
def uRollExprNotation (u : URollExpr) : Str :=
  match u.bonus with
  | none => rRollListNotation chars!"U" u.list
  | some (s, e) => rRollListNotation chars!"U" u.list ++ s.str ++ bonusOperandNotation s e

/-- `infixNotationOfChoice` (notation.go:169-183). -/
def choiceNotation (items : List Str) : Str := chars!"CHOICE[" ++ join chars!"," items ++ chars!"]"

/-- `infixNotationOfCalc` (notation.go:86-93). -/
def calcNotation (e : Expr) : Str := chars!"C(" ++ infixNotation true e ++ chars!")"

/-- `FormatModifier` (notation.go:375-385). -/
def formatModifier (m : Int64) : Str :=
  if m = 0 then []
  else if m > 0 then chars!"+" ++ intStr m
  else intStr m

/-- `InfixNotation(node, true)` for the nodes returned by the parser (notation.go:31-63, 66-83,
186-198). -/
def nodeNotation : Node → Str
  | .choice items => choiceNotation items
  | .calc e => calcNotation e
  | .dRollExpr e => infixNotation true e
  | .dRollComp l op r => infixNotation true l ++ op.str ++ infixNotation true r
  | .bRollList rolls => rollsNotation chars!"B" rolls
  | .bRollComp rolls op r => rollsNotation chars!"B" rolls ++ op.str ++ infixNotation true r
  | .rRollList rl => rRollListNotation chars!"R" rl
  | .rRollComp rl op r => rRollListNotation chars!"R" rl ++ op.str ++ infixNotation true r
  | .uRollExpr u => uRollExprNotation u
  | .uRollComp u op r => uRollExprNotation u ++ op.str ++ infixNotation true r

end GoBCDice
