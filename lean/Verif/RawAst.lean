import Verif.Eval
import Verif.Notation
import Verif.Quote

/-!
# Syntax trees in memory (pkg/core/ast)

The rest of the model uses immutable, typed trees.  In Go a node is an object behind the interface
`ast.Node`; its children are references, the evaluator overwrites them in place (`SetLeft`,
`SetRight`, `Threshold = ...`), and nothing in the types prevents a comparison below an addition, a
missing operand, or two parents sharing a child.  Here the nodes are objects of a heap, and the
code that works on them (`Verif.RawEval`, `Verif.RawNotation`, `Verif.RawCommand`) is modelled with
its type switches, type assertions and assignments.  `Verif.Props.Raw` relates the two.

Objects are those made by the constructors `ast.New...` (and `ast.NilInstance`), with their
children possibly replaced later; zero values such as `&ast.Divide{}` are not modelled.
-/

namespace GoBCDice.Raw

/-- The address of a node. -/
abbrev Ref := Nat

/-- A variable of type `ast.Node` (or of a pointer type): nil or the address of a node. -/
abbrev Ptr := Option Ref

/-- What distinguishes the infix expressions: the node type with, for comparisons, the operator
given to `NewCompare` and, for divisions, the rounding method
(basic_infix_expression.go:23-110, divide.go:57-105, variable_infix_expression.go:27-91). -/
inductive InfixKind where
  | add
  | sub
  | mul
  | compare (op : Str)
  | div (m : Rounding)
  | dRoll
  | bRoll
  | rRoll
  | uRoll
  | random
deriving DecidableEq, Repr

/-- Node types of `ast.Command` (command.go:40-95). -/
inductive CommandType where
  | calc
  | dRollExpr
  | dRollComp
  | bRollComp
  | rRollComp
  | uRollComp
deriving DecidableEq, Repr

/-- A node object, with the addresses of its children. -/
inductive Obj where
  /-- `ast.Int` (int.go:10-17) -/
  | int (v : Int64)
  /-- `ast.String` (string.go:8-15) -/
  | string (s : Str)
  /-- `ast.Nil` (nil.go:13-27); the code has a single instance of it, which has no fields to write -/
  | nilNode
  /-- `ast.SumRollResult` (sum_roll_result.go:10-17); the dice are a private copy (34-36) -/
  | sumRoll (ds : List Die)
  /-- `ast.PrefixExpressionImpl` as made by `NewUnaryMinus` (prefix_expression.go:25-35, 92-103) -/
  | unary (right : Ptr)
  /-- `ast.BasicInfixExpression`, `ast.Divide`, `ast.VariableInfixExpression`
  (infix_expression.go:33-52) -/
  | binary (k : InfixKind) (left right : Ptr)
  /-- `ast.Command` (command.go:8-14) -/
  | command (ty : CommandType) (expr : Ptr)
  /-- `ast.BRollList` (b_roll_list.go:9-17) -/
  | bRollList (rolls : List Ptr)
  /-- `ast.RRollList` (r_roll_list.go:9-18) -/
  | rRollList (rolls : List Ptr) (threshold : Ptr)
  /-- `ast.URollExpr` (u_roll_expr.go:9-18) -/
  | uRollExpr (list bonus : Ptr)
  /-- `ast.Choice` (choice.go:8-15) -/
  | choice (items : List Ptr)
deriving DecidableEq, Repr

/-- All nodes ever made, in order of creation. -/
abbrev Heap := List Obj

namespace InfixKind

/-- `Operator()` (basic_infix_expression.go:32,55,78,102, divide.go:59,70,
variable_infix_expression.go:10-16). -/
def operator : InfixKind → Str
  | .add => chars!"+"
  | .sub => chars!"-"
  | .mul => chars!"*"
  | .compare op => op
  | .div m => chars!"/" ++ m.str
  | .dRoll => chars!"D"
  | .bRoll => chars!"B"
  | .rRoll => chars!"R"
  | .uRoll => chars!"U"
  | .random => chars!"..."

/-- `Type().String()` (node.go:70-82). -/
def typeName : InfixKind → Str
  | .add => chars!"Add"
  | .sub => chars!"Subtract"
  | .mul => chars!"Multiply"
  | .compare _ => chars!"Compare"
  | .div .up => chars!"DivideWithRoundingUp"
  | .div .round => chars!"DivideWithRounding"
  | .div .down => chars!"DivideWithRoundingDown"
  | .dRoll => chars!"DRoll"
  | .bRoll => chars!"BRoll"
  | .rRoll => chars!"RRoll"
  | .uRoll => chars!"URoll"
  | .random => chars!"RandomNumber"

/-- Is the object a `*ast.VariableInfixExpression`? (variable_infix_expression.go:27-47) -/
def isVariableInfix : InfixKind → Bool
  | .dRoll | .bRoll | .rRoll | .uRoll | .random => true
  | _ => false

/-- Is the object a `*ast.BasicInfixExpression`?  `*ast.Divide` embeds one but is another type
(divide.go:32-37). -/
def isBasicInfix : InfixKind → Bool
  | .add | .sub | .mul | .compare _ => true
  | _ => false

/-- `OperatorForSExp()`: as `operator`, but the type name for variable infix expressions
(variable_infix_expression.go:42). -/
def sexpOp (k : InfixKind) : Str := if k.isVariableInfix then k.typeName else k.operator

/-- `Precedence()` (operator_precedence.go:6-21, basic_infix_expression.go:35,58,81,104,
divide.go:73, variable_infix_expression.go:19-25), as a number. -/
def precedence : InfixKind → Nat
  | .compare _ => 1
  | .add | .sub => 2
  | .mul | .div _ => 3
  | .dRoll | .bRoll | .rRoll | .uRoll => 4
  | .random => 5

/-- `IsLeftAssociative()` (basic_infix_expression.go:36,59,82,105, divide.go:74,
variable_infix_expression.go:45). -/
def leftAssoc : InfixKind → Bool
  | .add | .sub | .mul | .div _ => true
  | _ => false

/-- `IsRightAssociative()` (basic_infix_expression.go:37,60,83,106, divide.go:75,
variable_infix_expression.go:46). -/
def rightAssoc : InfixKind → Bool
  | .add | .mul => true
  | _ => false

end InfixKind

/-- `Type().String()` of commands (node.go:53-63). -/
def CommandType.name : CommandType → Str
  | .calc => chars!"Calc"
  | .dRollExpr => chars!"DRollExpr"
  | .dRollComp => chars!"DRollComp"
  | .bRollComp => chars!"BRollComp"
  | .rRollComp => chars!"RRollComp"
  | .uRollComp => chars!"URollComp"

namespace Obj

/-- `Type().String()` (node.go:50-88). -/
def typeName : Obj → Str
  | .int _ => chars!"Int"
  | .string _ => chars!"String"
  | .nilNode => chars!"Nil"
  | .sumRoll _ => chars!"SumRollResult"
  | .unary _ => chars!"UnaryMinus"
  | .binary k _ _ => k.typeName
  | .command ty _ => ty.name
  | .bRollList _ => chars!"BRollList"
  | .rRollList _ _ => chars!"RRollList"
  | .uRollExpr _ _ => chars!"URollExpr"
  | .choice _ => chars!"Choice"

/-- `IsPrimaryExpression()` (int.go:27, string.go:26, nil.go:26, sum_roll_result.go:29,
prefix_expression.go:96, basic_infix_expression.go:28,51,74,97, divide.go:66,
variable_infix_expression.go:36, command.go:48, choice.go:26, b_roll_list.go:29,
r_roll_list.go:30, u_roll_expr.go:28). -/
def isPrimary : Obj → Bool
  | .int _ | .string _ | .nilNode | .sumRoll _ => true
  | .binary k _ _ => k.isVariableInfix
  | _ => false

/-- `IsNil()` (nil.go:7-9, 35-37). -/
def isNil : Obj → Bool
  | .nilNode => true
  | _ => false

end Obj

/-! ## Computations on the heap -/

variable {σ α β : Type}

/-- The state: what the evaluator had (feeder and log) and the nodes. -/
structure HSt (σ : Type) where
  st : St σ
  heap : Heap

/-- A Go function working on nodes. -/
def H (σ α : Type) : Type := HSt σ → Out α × HSt σ

namespace H

/-- normal return -/
def ret (a : α) : H σ α := fun s => (.ok a, s)

/-- sequencing with `if err != nil { return err }` -/
def bnd (x : H σ α) (f : α → H σ β) : H σ β := fun s =>
  match x s with
  | (.ok a, s') => f a s'
  | (.err e, s') => (.err e, s')
  | (.panic m, s') => (.panic m, s')

instance : Monad (H σ) where
  pure := ret
  bind := bnd

/-- return an error -/
def fail (e : Str) : H σ α := fun s => (.err e, s)

/-- run-time panic -/
def crash (m : Str) : H σ α := fun s => (.panic m, s)

/-- a computation that does not touch the nodes -/
def lift (x : M σ α) : H σ α := fun s =>
  match x s.st with
  | (o, st') => (o, { s with st := st' })

end H

/-- Method call on or field access through nil. -/
def nilDereference : Str :=
  chars!"runtime error: invalid memory address or nil pointer dereference"

/-- Failed type assertion `x.(T)` (the full text of the panic names the types; it is not
modelled). -/
def interfaceConversion : Str := chars!"interface conversion"

/-- Go kills the process when the recursion is too deep for the stack. -/
def stackOverflow : Str := chars!"stack overflow"

/-- Following a reference: nil panics.  (A reference to no object cannot occur in Go; the model
panics.) -/
def deref (p : Ptr) : H σ Obj := fun s =>
  match p with
  | none => (.panic nilDereference, s)
  | some r =>
    match s.heap[r]? with
    | some o => (.ok o, s)
    | none => (.panic nilDereference, s)

/-- `&T{...}`: a new object. -/
def alloc (o : Obj) : H σ Ptr := fun s =>
  (.ok (some s.heap.length), { s with heap := s.heap ++ [o] })

/-- Overwriting the object at an address. -/
def write (p : Ptr) (o : Obj) : H σ Unit := fun s =>
  match p with
  | none => (.panic nilDereference, s)
  | some r => (.ok (), { s with heap := s.heap.set r o })

/-- `SetLeft` (infix_expression.go:66-68). -/
def setLeft (p : Ptr) (new : Ptr) : H σ Unit := do
  match ← deref p with
  | .binary k _ r => write p (.binary k new r)
  | _ => H.crash interfaceConversion

/-- `SetRight` (infix_expression.go:86-88, prefix_expression.go:65-67). -/
def setRight (p : Ptr) (new : Ptr) : H σ Unit := do
  match ← deref p with
  | .binary k l _ => write p (.binary k l new)
  | .unary _ => write p (.unary new)
  | _ => H.crash interfaceConversion

/-- `IsVariable()` (variable_node.go:8-19, prefix_expression.go:85-87,
basic_infix_expression.go:15-17, command.go:23-25).  `d` bounds the depth of the recursion. -/
def isVariable : Nat → Ptr → H σ Bool
  | 0, _ => H.crash stackOverflow
  | d + 1, p => do
    match ← deref p with
    | .int _ | .string _ | .nilNode | .sumRoll _ => pure false
    | .unary r => isVariable d r
    | .binary k l r =>
      if k.isVariableInfix then pure true
      else do
        let b ← isVariable d l
        if b then pure true else isVariable d r
    | .command _ e => isVariable d e
    | .bRollList _ | .rRollList _ _ | .uRollExpr _ _ | .choice _ => pure true

end GoBCDice.Raw
