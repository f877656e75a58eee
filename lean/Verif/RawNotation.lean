import Verif.RawAst
import Verif.SExp

/-!
# Infix notation and S-expressions of nodes in memory (pkg/core/notation, `SExp` of pkg/core/ast)

`util.Clone` makes a shallow copy of the bonus of a U roll, whose left operand is then replaced: the
copy is a new object of the heap.
-/

namespace GoBCDice.Raw

variable {σ : Type}

/-- Notations of a list of nodes (notation.go:97-106, 115-124). -/
def notations (go : Bool → Ptr → H σ Str) : List Ptr → H σ (List Str)
  | [] => pure []
  | p :: rest => do
    let s ← go true p
    let ss ← notations go rest
    pure (s :: ss)

/-- `infixNotationOfRRollList` (notation.go:111-138). -/
def rRollListNotation (go : Bool → Ptr → H σ Str) (rolls : List Ptr) (threshold : Ptr) :
    H σ Str := do
  let ss ← notations go rolls
  let t ← deref threshold
  if t.isNil then pure (join chars!"+" ss)
  else do
    let s ← go true threshold
    pure (join chars!"+" ss ++ chars!"[" ++ s ++ chars!"]")

/-- `infixNotationOfPrefixExpression` (notation.go:201-221). -/
def prefixNotation (go : Bool → Ptr → H σ Str) (wl : Bool) (right : Ptr) : H σ Str := do
  let o ← deref right
  if o.isPrimary then do
    let s ← go wl right
    pure (chars!"-" ++ s)
  else do
    let s ← go true right
    pure (chars!"-" ++ parenthesize s)

/-- `parenthesizeChildOfInfixExpression` (notation.go:229-275); a nil child falls through the type
switch and fails in `InfixNotation`. -/
def childNotation (go : Bool → Ptr → H σ Str) (parent : InfixKind) (child : Ptr) (assoc wl : Bool) :
    H σ Str := do
  match ← deref child with
  | .unary _ => do
    let s ← go wl child
    pure (parenthesize s)
  | .binary c _ _ =>
    if c.precedence < parent.precedence ∨ (c.precedence = parent.precedence ∧ assoc = false) then do
      let s ← go true child
      pure (parenthesize s)
    else go wl child
  | _ => go wl child

/-- `infixNotationsOfInfixExpressionChildren` (notation.go:311-345). -/
def childrenNotations (go : Bool → Ptr → H σ Str) (k : InfixKind) (l r : Ptr) (wl : Bool) :
    H σ (Str × Str) := do
  let lo ← deref l
  let ls ← match lo with
    | .unary right =>
      if wl && k.leftAssoc then prefixNotation go wl right
      else childNotation go k l k.leftAssoc wl
    | _ => childNotation go k l k.leftAssoc wl
  let rs ← childNotation go k r k.rightAssoc false
  pure (ls, rs)

/-- `infixNotationOfURollExpr` (notation.go:141-167). -/
def uRollExprNotation (go : Bool → Ptr → H σ Str) (list bonus : Ptr) : H σ Str :=
  if bonus = none then go true list
  else do
    match ← deref bonus with
    | .binary k l r =>
      if k.isBasicInfix then do
        let copy ← alloc (.binary k l r)
        setLeft copy list
        go true copy
      else H.crash interfaceConversion
    | _ => H.crash interfaceConversion

/-- Values of the items of a choice (notation.go:170-174). -/
def itemValues : List Ptr → H σ (List Str)
  | [] => pure []
  | p :: rest => do
    match ← deref p with
    | .string s => do
      let ss ← itemValues rest
      pure (s :: ss)
    | _ => H.crash interfaceConversion

/-- `InfixNotation` (notation.go:31-63, 66-93, 186-198, 283-308, 348-372), with the recursive calls
given. -/
def notationStep (go : Bool → Ptr → H σ Str) (wl : Bool) (p : Ptr) : H σ Str := do
  match ← deref p with
  | .bRollList rolls => do
    let ss ← notations go rolls
    pure (join chars!"+" ss)
  | .rRollList rolls threshold => rRollListNotation go rolls threshold
  | .uRollExpr list bonus => uRollExprNotation go list bonus
  | .choice items => do
    let ss ← itemValues items
    pure (chars!"CHOICE[" ++ join chars!"," ss ++ chars!"]")
  | .command .calc e => do
    let s ← go true e
    pure (chars!"C(" ++ s ++ chars!")")
  | .command _ e => go wl e
  | .unary r => prefixNotation go wl r
  | .binary (.div m) l r => do
    let (ls, rs) ← childrenNotations go (.div m) l r wl
    pure (ls ++ chars!"/" ++ rs ++ m.str)
  | .binary (.compare op) l r => do
    let ls ← go true l
    let rs ← go true r
    pure (ls ++ op ++ rs)
  | .binary .random l r => do
    let (ls, rs) ← childrenNotations go .random l r true
    pure (chars!"[" ++ (ls ++ chars!"..." ++ rs) ++ chars!"]")
  | .binary k l r => do
    let (ls, rs) ← childrenNotations go k l r wl
    pure (ls ++ k.operator ++ rs)
  | .int v => pure (intStr v)
  | .sumRoll ds => pure (sumRollNotation ds)
  | .string s => H.fail (chars!"infix notation not implemented: " ++ (Obj.string s).typeName)
  | .nilNode => H.fail (chars!"infix notation not implemented: " ++ Obj.nilNode.typeName)

/-- `InfixNotation` with recursion at most `d` deep. -/
def infixNotation : Nat → Bool → Ptr → H σ Str
  | 0, _, _ => H.crash stackOverflow
  | d + 1, wl, p => notationStep (infixNotation d) wl p

/-! ## S-expressions -/

section
variable (isPrint : Char → Bool)

/-- S-expressions of a list of nodes (b_roll_list.go:40-43, r_roll_list.go:42-45,
choice.go:40-43). -/
def sexps (go : Ptr → H σ Str) : List Ptr → H σ (List Str)
  | [] => pure []
  | p :: rest => do
    let s ← go p
    let ss ← sexps go rest
    pure (s :: ss)

/-- An operand, `nil` when missing (infix_expression.go:109-120, prefix_expression.go:73-77). -/
def operandSExp (go : Ptr → H σ Str) (p : Ptr) : H σ Str :=
  if p = none then pure chars!"nil" else go p

/-- `SExp` of the cloned bonus (u_roll_expr.go:43-50). -/
def uRollExprSExp (go : Ptr → H σ Str) (list bonus : Ptr) : H σ Str :=
  if bonus = none then do
    let s ← go list
    pure (chars!"(URollExpr " ++ s ++ chars!")")
  else do
    match ← deref bonus with
    | .binary k l r =>
      if k.isBasicInfix then do
        let copy ← alloc (.binary k l r)
        setLeft copy list
        let s ← go copy
        pure (chars!"(URollExpr " ++ s ++ chars!")")
      else H.crash interfaceConversion
    | _ => H.crash interfaceConversion

/-- `SExp` of all kinds of nodes (int.go:36-38, string.go:34-36, nil.go:40-42,
sum_roll_result.go:51-60, prefix_expression.go:70-82, infix_expression.go:106-124,
command.go:28-38, b_roll_list.go:37-50, r_roll_list.go:39-55, u_roll_expr.go:36-55,
choice.go:35-48), with the recursive calls given. -/
def sexpStep (go : Ptr → H σ Str) (p : Ptr) : H σ Str := do
  match ← deref p with
  | .int v => pure (intStr v)
  | .string s => pure (quote isPrint s)
  | .nilNode => pure chars!"nil"
  | .sumRoll ds => pure (sumRollSExp ds)
  | .unary r => do
    let s ← operandSExp go r
    pure (chars!"(- " ++ s ++ chars!")")
  | .binary k l r => do
    let ls ← operandSExp go l
    let rs ← operandSExp go r
    pure (infixSExp k.sexpOp ls rs)
  | .command ty e => do
    let s ← go e
    pure (commandSExp ty.name s)
  | .bRollList rolls => do
    let ss ← sexps go rolls
    pure (chars!"(BRollList " ++ join chars!" " ss ++ chars!")")
  | .rRollList rolls threshold => do
    let ss ← sexps go rolls
    let t ← go threshold
    pure (chars!"(RRollList " ++ t ++ chars!" " ++ join chars!" " ss ++ chars!")")
  | .uRollExpr list bonus => uRollExprSExp go list bonus
  | .choice items => do
    let ss ← sexps go items
    pure (chars!"(Choice" ++ ss.flatMap (fun s => chars!" " ++ s) ++ chars!")")

/-- `SExp` with recursion at most `d` deep. -/
def sexp : Nat → Ptr → H σ Str
  | 0, _ => H.crash stackOverflow
  | d + 1, p => sexpStep isPrint (sexp d) p

end
end GoBCDice.Raw
