import Verif.RawAst

/-!
# The evaluator on nodes in memory (pkg/core/evaluator, pkg/core/object)

Written after the Go code with its type switches: nothing is assumed about the shape of the tree.
Recursive calls of `Eval` go through a depth argument: deeper recursion overflows the stack.
-/

namespace GoBCDice.Raw

/-- Objects of package `object` (object.go:20-31).  They are not modified after construction,
apart from the cache of group sums of `URollExprResult` (see `Verif.Eval`), which is not modelled
here: the sums are computed at each use. -/
inductive Value where
  | integer (v : Int64)
  | boolean (b : Bool)
  | string (s : Str)
  | array (els : List Value)
  | bRollComp (values : List Value) (n : Int64)
  | rRollComp (groups : List Value) (n : Int64)
  | uRollExpr (groups : List Value) (modifier : Int64)
  | uRollComp (groups : List Value) (modifier : Int64) (n : Int64)

namespace Value

/-- `Type().String()` (object.go:34-45). -/
def typeName : Value → Str
  | .integer _ => chars!"INTEGER"
  | .boolean _ => chars!"BOOLEAN"
  | .string _ => chars!"STRING"
  | .array _ => chars!"ARRAY"
  | .bRollComp _ _ => chars!"B_ROLL_COMP_RESULT"
  | .rRollComp _ _ => chars!"R_ROLL_COMP_RESULT"
  | .uRollExpr _ _ => chars!"U_ROLL_EXPR_RESULT"
  | .uRollComp _ _ _ => chars!"U_ROLL_COMP_RESULT"

mutual

/-- `Inspect()` (integer.go:24-26, boolean.go:24-26, string.go:24-26, array.go:41-49,
b_roll_comp_result.go:29-39, r_roll_comp_result.go:29-39, u_roll_expr_result.go:37-47,
u_roll_comp_result.go:29-39). -/
def inspect (isPrint : Char → Bool) : Value → Str
  | .integer v => intStr v
  | .boolean b => if b then chars!"true" else chars!"false"
  | .string s => quote isPrint s
  | .array els => chars!"[" ++ joined isPrint chars!", " els ++ chars!"]"
  | .bRollComp values n =>
    chars!"<BRollCompResult Values=[" ++ joined isPrint chars!", " values ++
      chars!"], NumOfSuccesses=" ++ intStr n ++ chars!">"
  | .rRollComp groups n =>
    chars!"<RRollCompResult ValueGroups=[" ++ joined isPrint chars!", " groups ++
      chars!"], NumOfSuccesses=" ++ intStr n ++ chars!">"
  | .uRollExpr groups m =>
    chars!"<URollExprResult ValueGroups=[" ++ joined isPrint chars!", " groups ++
      chars!"], Modifier=" ++ intStr m ++ chars!">"
  | .uRollComp groups m n =>
    chars!"<URollCompResult RollResult=<URollExprResult ValueGroups=[" ++
      joined isPrint chars!", " groups ++ chars!"], Modifier=" ++ intStr m ++
      chars!">, NumOfSuccesses=" ++ intStr n ++ chars!">"

/-- `Array.JoinedElements` (array.go:73-80): `strings.Join` of the `Inspect`s. -/
def joined (isPrint : Char → Bool) (sep : Str) : List Value → Str
  | [] => []
  | [v] => inspect isPrint v
  | v :: w :: rest => inspect isPrint v ++ sep ++ joined isPrint sep (w :: rest)

end

mutual

/-- `Array.InspectWithoutSpaces` (array.go:52-60) on an array, `Inspect` on anything else
(array.go:87-92). -/
def inspectTight (isPrint : Char → Bool) : Value → Str
  | .array els => chars!"[" ++ joinedTight isPrint chars!"," els ++ chars!"]"
  | v => v.inspect isPrint

/-- `Array.JoinedElementsWithoutSpaces` (array.go:84-96). -/
def joinedTight (isPrint : Char → Bool) (sep : Str) : List Value → Str
  | [] => []
  | [v] => inspectTight isPrint v
  | v :: w :: rest => inspectTight isPrint v ++ sep ++ joinedTight isPrint sep (w :: rest)

end

/-- The loop of `Array.SumOfIntegers` (array.go:138-146): `none` when an element is no integer. -/
def sumLoop (acc : Int64) : List Value → Option Int64
  | [] => some acc
  | .integer v :: rest => sumLoop (acc + v) rest
  | _ :: _ => none

/-- `Array.SumOfIntegers` (array.go:133-149). -/
def sumOfIntegers (els : List Value) : Option Int64 := sumLoop 0 els

/-- The loop of `Array.MaxInteger` (array.go:115-124). -/
def maxLoop (max : Int64) : List Value → Option Int64
  | [] => some max
  | .integer v :: rest => maxLoop (if v > max then v else max) rest
  | _ :: _ => none

/-- `Array.MaxInteger` (array.go:103-127). -/
def maxInteger : List Value → Option Int64
  | [] => some 0
  | .integer v :: rest => maxLoop v rest
  | _ :: _ => none

end Value

variable {σ : Type}

/-- `x.(*object.Integer).Value` -/
def asInteger (v : Value) : H σ Int64 :=
  match v with
  | .integer n => pure n
  | _ => H.crash interfaceConversion

/-- `x.(*object.Array).Elements` -/
def asArray (v : Value) : H σ (List Value) :=
  match v with
  | .array els => pure els
  | _ => H.crash interfaceConversion

/-- `calculateSumOfGroups` (u_roll_expr_result.go:84-99). -/
def sumOfGroups : List Value → H σ (List Value)
  | [] => pure []
  | g :: rest => do
    let els ← asArray g
    match Value.sumOfIntegers els with
    | none => H.crash chars!"valueGroups contain non-Integer elements"
    | some s => do
      let sums ← sumOfGroups rest
      pure (.integer s :: sums)

/-- `objectToIntNode` (evaluator.go:104-109). -/
def objectToIntNode (v : Value) : H σ Ptr := do
  let n ← asInteger v
  alloc (.int n)

section
variable (E : Evaluator σ)

/-- `evalIntegerInfixExpression` (eval_infix_expression.go:70-109): a switch on the operator text. -/
def evalIntegerInfix (op : Str) (a b : Int64) : H σ Value :=
  if op = chars!"+" then pure (.integer (a + b))
  else if op = chars!"-" then pure (.integer (a - b))
  else if op = chars!"*" then pure (.integer (a * b))
  else if op = chars!"D" then do
    let ds ← H.lift (E.rollDice a b)
    pure (.integer (sumDice ds))
  else if op = chars!"B" ∨ op = chars!"R" then do
    let ds ← H.lift (E.rollDice a b)
    pure (.array (ds.map (fun d => .integer d.value)))
  else if op = chars!"..." then
    (if a ≥ b then H.fail (Evaluator.randomNumberMsg a b)
     else do
      let ds ← H.lift (E.rollDice 1 (b - a + 1))
      let d ← H.lift (Evaluator.firstDie ds)
      pure (.integer ((a - 1) + d.value)))
  else if op = chars!"=" then pure (.boolean (decide (a = b)))
  else if op = chars!"<>" then pure (.boolean (decide (a ≠ b)))
  else if op = chars!"<" then pure (.boolean (decide (a < b)))
  else if op = chars!">" then pure (.boolean (decide (a > b)))
  else if op = chars!"<=" then pure (.boolean (decide (a ≤ b)))
  else if op = chars!">=" then pure (.boolean (decide (a ≥ b)))
  else H.fail (chars!"operator not implemented: INTEGER " ++ op ++ chars!" INTEGER")

/-- `evalIntegerDivide` (eval_infix_expression.go:112-143). -/
def evalIntegerDivide (m : Rounding) (a b : Int64) : H σ Value :=
  if b = 0 then H.fail (intStr a ++ chars!" divided by zero")
  else pure (.integer (divValue m a b))

/-- `evalInfixExpressionOperands` (eval_infix_expression.go:39-67).  `Eval` never returns a nil
object without an error, so the checks for evaluated operands being nil (54-56, 63-65) are left
out.  `ev` is `Eval`. -/
def evalOperands (ev : Ptr → H σ Value) (op : Str) (l r : Ptr) : H σ (Value × Value) :=
  if l = none then H.fail (chars!"operator " ++ op ++ chars!": left is nil")
  else if r = none then H.fail (chars!"operator " ++ op ++ chars!": right is nil")
  else do
    let a ← ev l
    let b ← ev r
    pure (a, b)

/-- `evalInfixExpression` (eval_infix_expression.go:12-34). -/
def evalInfix (ev : Ptr → H σ Value) (k : InfixKind) (l r : Ptr) : H σ Value := do
  let (a, b) ← evalOperands ev k.operator l r
  match a, b with
  | .integer x, .integer y =>
    match k with
    | .div m => evalIntegerDivide m x y
    | k => evalIntegerInfix E k.operator x y
  | a, b => H.fail (chars!"operator not implemented: " ++ a.typeName ++ chars!" " ++ k.operator ++
      chars!" " ++ b.typeName)

/-- `evalPrefixExpression` (eval_prefix_expression.go:11-50); the only prefix operator is `-`. -/
def evalPrefix (ev : Ptr → H σ Value) (r : Ptr) : H σ Value :=
  if r = none then H.fail chars!"operator -: right is nil"
  else do
    let v ← ev r
    match v with
    | .integer x => pure (.integer (-x))
    | v => H.fail (chars!"operator not implemented: -" ++ v.typeName)

/-- `countNumOfSuccesses` (eval_infix_expression.go:217-242): a comparison node is made and
evaluated for every value. -/
def countSuccesses (ev : Ptr → H σ Value) (op : Str) (target : Int64) :
    List Value → Int64 → H σ Int64
  | [], n => pure n
  | v :: rest, n => do
    let l ← objectToIntNode v
    let r ← objectToIntNode (.integer target)
    let c ← alloc (.binary (.compare op) l r)
    let b ← ev c
    match b with
    | .boolean true => countSuccesses ev op target rest (n + 1)
    | .boolean false => countSuccesses ev op target rest n
    | _ => H.crash interfaceConversion

/-- `evalBRollList` (eval_b_roll_list.go:9-23). -/
def evalBRollList (ev : Ptr → H σ Value) : List Ptr → H σ (List Value)
  | [] => pure []
  | b :: rest => do
    let o ← ev b
    let vs ← asArray o
    let ws ← evalBRollList ev rest
    pure (vs ++ ws)

/-- `node.Expression.(*ast.BasicInfixExpression)` with its fields. -/
def asBasicInfix (p : Ptr) : H σ (InfixKind × Ptr × Ptr) :=
  match p with
  | none => H.crash interfaceConversion
  | p => do
    match ← deref p with
    | .binary k l r => if k.isBasicInfix then pure (k, l, r) else H.crash interfaceConversion
    | _ => H.crash interfaceConversion

/-- `evalBRollComp` (eval_b_roll_comp.go:9-32). -/
def evalBRollComp (ev : Ptr → H σ Value) (e : Ptr) : H σ Value := do
  let (k, l, r) ← asBasicInfix e
  let (a, b) ← evalOperands ev k.operator l r
  let values ← asArray a
  let target ← asInteger b
  let n ← countSuccesses ev k.operator target values 0
  pure (.bRollComp values n)

/-- Values at or above the threshold (eval_r_roll_list.go:52-58). -/
def countReaching (threshold : Int64) : List Value → Nat → H σ Nat
  | [], n => pure n
  | v :: rest, n => do
    let x ← asInteger v
    countReaching threshold rest (if x ≥ threshold then n + 1 else n)

/-- `rRoll.Right()` of a `*ast.VariableInfixExpression`. -/
def rightOf (p : Ptr) : H σ Ptr := do
  match ← deref p with
  | .binary _ _ r => pure r
  | _ => H.crash interfaceConversion

/-- The loop of `evalRRollList` (eval_r_roll_list.go:34-70): a new roll node shares the node of the
sides with the roll it comes from. -/
def rRollLoop (ev : Ptr → H σ Value) (threshold : Int64) :
    Nat → List Ptr → List Value → H σ (List Value)
  | 0, _, acc => pure acc
  | _ + 1, [], acc => pure acc
  | n + 1, p :: queue, acc => do
    let o ← ev p
    let vs ← asArray o
    let k ← countReaching threshold vs 0
    if k > 0 then do
      let num ← alloc (.int (Int64.ofNat k))
      let sides ← rightOf p
      let new ← alloc (.binary .rRoll num sides)
      rRollLoop ev threshold n (queue ++ [new]) (acc ++ [.array vs])
    else rRollLoop ev threshold n queue (acc ++ [.array vs])

/-- `evalRRollList` (eval_r_roll_list.go:13-73). -/
def evalRRollList (ev : Ptr → H σ Value) (rolls : List Ptr) (threshold : Ptr) :
    H σ (List Value) := do
  let t ← deref threshold
  if t.isNil then H.fail chars!"evalRRollList: threshold is nil"
  else do
    let v ← ev threshold
    let n ← asInteger v
    rRollLoop ev n (loopCount E.maxRerolls) rolls []

/-- Sum of the successes over the groups (eval_r_roll_comp.go:24-36). -/
def countInGroups (ev : Ptr → H σ Value) (op : Str) (target : Int64) :
    List Value → Int64 → H σ Int64
  | [], n => pure n
  | g :: rest, n => do
    let vs ← asArray g
    let k ← countSuccesses ev op target vs 0
    countInGroups ev op target rest (n + k)

/-- `evalRRollComp` (eval_r_roll_comp.go:9-41). -/
def evalRRollComp (ev : Ptr → H σ Value) (e : Ptr) : H σ Value := do
  let (k, l, r) ← asBasicInfix e
  let (a, b) ← evalOperands ev k.operator l r
  let groups ← asArray a
  let target ← asInteger b
  let n ← countInGroups ev k.operator target groups 0
  pure (.rRollComp groups n)

/-- Inner loop of `evalCompoundingRoll` (eval_u_roll_expr.go:107-119). -/
def uGroup (sides threshold : Int64) : Nat → List Value → H σ (List Value)
  | 0, acc => pure acc
  | n + 1, acc => do
    let ds ← H.lift (E.rollDice 1 sides)
    let d ← H.lift (Evaluator.firstDie ds)
    if d.value < threshold then pure (acc ++ [.integer d.value])
    else uGroup sides threshold n (acc ++ [.integer d.value])

/-- Outer loop of `evalCompoundingRoll` (eval_u_roll_expr.go:104-123). -/
def uGroups (sides threshold : Int64) : Nat → List Value → H σ (List Value)
  | 0, acc => pure acc
  | n + 1, acc => do
    let g ← uGroup E sides threshold (loopCount E.maxRerolls) []
    uGroups sides threshold n (acc ++ [.array g])

/-- `evalCompoundingRoll` (eval_u_roll_expr.go:63-126). -/
def evalCompoundingRoll (ev : Ptr → H σ Value) (p : Ptr) (threshold : Int64) :
    H σ (List Value) := do
  match ← deref p with
  | .binary k l r => do
    let (a, b) ← evalOperands ev k.operator l r
    match a with
    | .integer num =>
      match b with
      | .integer sides =>
        if sides < 1 then
          H.fail (Evaluator.compoundingMsg num sides chars!"ダイスの面数が少なすぎます")
        else if num < 1 then
          H.fail (Evaluator.compoundingMsg num sides chars!"振るダイス数が少なすぎます")
        else if maxMakeCap < num then H.crash makePanicMsg
        else uGroups E sides threshold (loopCount num) []
      | _ => H.fail chars!"evalCompoundingRoll: evaluated sides is not an Integer"
    | _ => H.fail chars!"evalCompoundingRoll: evaluated num is not an Integer"
  | _ => H.crash interfaceConversion

/-- The loop of `evalURollList` (eval_u_roll_expr.go:24-32). -/
def evalCompoundingRolls (ev : Ptr → H σ Value) (threshold : Int64) :
    List Ptr → H σ (List Value)
  | [] => pure []
  | p :: rest => do
    let gs ← evalCompoundingRoll E ev p threshold
    let hs ← evalCompoundingRolls ev threshold rest
    pure (gs ++ hs)

/-- `evalURollList` (eval_u_roll_expr.go:11-35). -/
def evalURollList (ev : Ptr → H σ Value) (list : Ptr) : H σ (List Value) := do
  match ← deref list with
  | .rRollList rolls threshold => do
    let t ← deref threshold
    if t.isNil then H.fail chars!"evalURollList: threshold is nil"
    else do
      let v ← ev threshold
      let n ← asInteger v
      evalCompoundingRolls E ev n rolls
  | _ => H.crash interfaceConversion

/-- The modifier of `evalURollExpr` (eval_u_roll_expr.go:39-51). -/
def evalModifier (ev : Ptr → H σ Value) (bonus : Ptr) : H σ Int64 :=
  if bonus = none then pure 0
  else do
    let b ← ev bonus
    asInteger b

/-- `evalURollExpr` (eval_u_roll_expr.go:38-59). -/
def evalURollExpr (ev : Ptr → H σ Value) (list bonus : Ptr) : H σ Value := do
  let m ← evalModifier ev bonus
  let groups ← evalURollList E ev list
  pure (.uRollExpr groups m)

/-- Adding the modifier to every group sum (eval_u_roll_comp.go:23-29). -/
def addModifier (m : Int64) : List Value → H σ (List Value)
  | [] => pure []
  | s :: rest => do
    let x ← asInteger s
    let ys ← addModifier m rest
    pure (.integer (x + m) :: ys)

/-- `evalURollComp` (eval_u_roll_comp.go:9-42). -/
def evalURollComp (ev : Ptr → H σ Value) (e : Ptr) : H σ Value := do
  let (k, l, r) ← asBasicInfix e
  let (a, b) ← evalOperands ev k.operator l r
  match a with
  | .uRollExpr groups m => do
    let sums ← sumOfGroups groups
    let modified ← addModifier m sums
    let target ← asInteger b
    let n ← countSuccesses ev k.operator target modified 0
    pure (.uRollComp groups m n)
  | _ => H.crash interfaceConversion

/-- `evalChoice` (eval_choice.go:9-19). -/
def evalChoice (items : List Ptr) : H σ Value := do
  let ds ← H.lift (E.rollDice 1 (Int64.ofNat items.length))
  let d ← H.lift (Evaluator.firstDie ds)
  let index := d.value - 1
  if index < 0 then H.crash chars!"runtime error: index out of range"
  else
    match items[index.toInt.toNat]? with
    | some p => do
      match ← deref p with
      | .string s => pure (.string s)
      | _ => H.crash interfaceConversion
    | none => H.crash chars!"runtime error: index out of range"

/-- `Eval` (evaluator.go:51-75) and `evalCommand` (78-89), with the recursive calls given. -/
def evalStep (ev : Ptr → H σ Value) (p : Ptr) : H σ Value := do
  match ← deref p with
  | .bRollList rolls => do
    let els ← evalBRollList ev rolls
    pure (.array els)
  | .rRollList rolls threshold => do
    let els ← evalRRollList E ev rolls threshold
    pure (.array els)
  | .uRollExpr list bonus => evalURollExpr E ev list bonus
  | .choice items => evalChoice E items
  | .command ty e =>
    match ty with
    | .bRollComp => evalBRollComp ev e
    | .rRollComp => evalRRollComp ev e
    | .uRollComp => evalURollComp ev e
    | _ => ev e
  | .unary r => evalPrefix ev r
  | .binary k l r => evalInfix E ev k l r
  | .int v => pure (.integer v)
  | .sumRoll ds => pure (.integer (sumDice ds))
  | .string s => H.fail (chars!"unknown type: " ++ (Obj.string s).typeName)
  | .nilNode => H.fail (chars!"unknown type: " ++ Obj.nilNode.typeName)

/-- `Eval` with recursion at most `d` deep. -/
def eval : Nat → Ptr → H σ Value
  | 0, _ => H.crash stackOverflow
  | d + 1, p => evalStep E (eval d) p

/-! ## Stage 1 (eval_var_args.go) -/

/-- `evalVarArgsOfRoll` (eval_var_args.go:47-62). -/
def evalVarArgsOfRoll (d : Nat) (p l r : Ptr) : H σ Unit := do
  let a ← eval E d l
  let b ← eval E d r
  let l' ← objectToIntNode a
  setLeft p l'
  let r' ← objectToIntNode b
  setRight p r'

/-- `evalVarArgsOfVariableExpr` (eval_var_args.go:37-44). -/
def evalVarArgsOfVariableExpr (d : Nat) (p : Ptr) : H σ Unit := do
  let o ← deref p
  match o with
  | .binary .dRoll l r => evalVarArgsOfRoll E d p l r
  | .binary .bRoll l r => evalVarArgsOfRoll E d p l r
  | .binary .rRoll l r => evalVarArgsOfRoll E d p l r
  | .binary .uRoll l r => evalVarArgsOfRoll E d p l r
  | o => H.fail (chars!"evalVarArgsOfVariableExpr not implemented: " ++ o.typeName)

/-- The loop of `evalVarArgsInBRollList` (eval_var_args.go:65-74, 88-94, 113-119). -/
def evalVarArgsInRolls (d : Nat) : List Ptr → H σ Unit
  | [] => pure ()
  | p :: rest => do
    evalVarArgsOfVariableExpr E d p
    evalVarArgsInRolls d rest

/-- `evalVarArgsInRRollList` (eval_var_args.go:77-97) and the same part of
`evalVarArgsInURollExpr` (101-119). -/
def evalVarArgsInRRollList (d : Nat) (p : Ptr) : H σ Unit := do
  match ← deref p with
  | .rRollList rolls threshold => do
    let t ← deref threshold
    if t.isNil then evalVarArgsInRolls E d rolls
    else do
      let v ← eval E d threshold
      let t' ← objectToIntNode v
      write p (.rRollList rolls t')
      evalVarArgsInRolls E d rolls
  | _ => H.crash interfaceConversion

/-- The new bonus (eval_var_args.go:128-138). -/
def newBonus (v : Int64) : H σ Ptr :=
  if v = 0 then pure none
  else if v > 0 then do
    let z ← alloc (.int 0)
    let n ← alloc (.int v)
    alloc (.binary .add z n)
  else do
    let z ← alloc (.int 0)
    let n ← alloc (.int (-v))
    alloc (.binary .sub z n)

/-- `evalVarArgsInURollExpr` (eval_var_args.go:100-142). -/
def evalVarArgsInURollExpr (d : Nat) (p list bonus : Ptr) : H σ Unit := do
  evalVarArgsInRRollList E d list
  if bonus = none then pure ()
  else do
    match ← deref bonus with
    | .binary k l r => do
      let v ← evalInfix E (eval E d) k l r
      let n ← asInteger v
      let b ← newBonus n
      write p (.uRollExpr list b)
    | _ => H.crash interfaceConversion

/-- A primary or compound operand (eval_var_args.go:146-155, 179-188, 195-203, 209-217); `go` is
`EvalVarArgs`. -/
def evalVarArgsOperand (d : Nat) (go : Ptr → H σ Unit) (p : Ptr) : H σ Unit := do
  let o ← deref p
  if o.isPrimary then do
    let v ← isVariable d p
    if v then evalVarArgsOfVariableExpr E d p else pure ()
  else go p

/-- `evalVarArgsInCompare` (eval_var_args.go:159-175). -/
def evalVarArgsInCompare (d : Nat) (go : Ptr → H σ Unit) (p l r : Ptr) : H σ Unit := do
  go l
  let b ← eval E d r
  let r' ← objectToIntNode b
  setRight p r'

/-- `EvalVarArgs` (eval_var_args.go:10-31, 145-156, 178-218), with the recursive calls given. -/
def evalVarArgsStep (d : Nat) (go : Ptr → H σ Unit) (p : Ptr) : H σ Unit := do
  let o ← deref p
  match o with
  | .bRollList rolls => evalVarArgsInRolls E d rolls
  | .rRollList _ _ => evalVarArgsInRRollList E d p
  | .uRollExpr list bonus => evalVarArgsInURollExpr E d p list bonus
  | .command _ e => evalVarArgsOperand E d go e
  | .unary r => evalVarArgsOperand E d go r
  | .binary (.compare _) l r => evalVarArgsInCompare E d go p l r
  | .binary _ l r => do
    evalVarArgsOperand E d go l
    evalVarArgsOperand E d go r
  | o => H.fail (chars!"EvalVarArgs not implemented: " ++ o.typeName)

/-- `EvalVarArgs` with recursion at most `d` deep. -/
def evalVarArgs : Nat → Ptr → H σ Unit
  | 0, _ => H.crash stackOverflow
  | d + 1, p => evalVarArgsStep E d (evalVarArgs d) p

/-! ## Stage 2 (determine_values.go) -/

/-- `determineValueOfVariableExpr` and `determineValueOfDRoll` (determine_values.go:22-52). -/
def determineValueOfVariableExpr (p : Ptr) : H σ Ptr := do
  let o ← deref p
  match o with
  | .binary .dRoll l r => do
    match ← deref l with
    | .int num => do
      match ← deref r with
      | .int sides => do
        let ds ← H.lift (E.rollDice num sides)
        alloc (.sumRoll ds)
      | o => H.fail (chars!"sides is not Int: " ++ o.typeName)
    | o => H.fail (chars!"num is not Int: " ++ o.typeName)
  | o => H.fail (chars!"determineValueOfVariableExpr not implemented: " ++ o.typeName)

/-- `replaceVariablePrimaryExpr` (determine_values.go:56-67). -/
def replaceVariablePrimaryExpr (d : Nat) (p : Ptr) (setter : Ptr → H σ Unit) : H σ Unit := do
  let v ← isVariable d p
  if v then do
    let new ← determineValueOfVariableExpr E p
    setter new
  else pure ()

/-- An operand with its setter (determine_values.go:69-115); `go` is `DetermineValues`. -/
def determineValuesOperand (d : Nat) (go : Ptr → H σ Unit) (p : Ptr) (setter : Ptr → H σ Unit) :
    H σ Unit := do
  let o ← deref p
  if o.isPrimary then replaceVariablePrimaryExpr E d p setter
  else go p

/-- `node.Expression = newNode` (determine_values.go:72-74). -/
def setExpression (p : Ptr) (new : Ptr) : H σ Unit := do
  match ← deref p with
  | .command ty _ => write p (.command ty new)
  | _ => H.crash interfaceConversion

/-- `node.Right()` read after the left operand has been replaced (determine_values.go:106). -/
def infixRight (p : Ptr) : H σ Ptr := do
  match ← deref p with
  | .binary _ _ r => pure r
  | _ => H.crash interfaceConversion

/-- `DetermineValues` (determine_values.go:9-20, 69-115), with the recursive calls given. -/
def determineValuesStep (d : Nat) (go : Ptr → H σ Unit) (p : Ptr) : H σ Unit := do
  let o ← deref p
  match o with
  | .command _ e => determineValuesOperand E d go e (setExpression p)
  | .unary r => determineValuesOperand E d go r (setRight p)
  | .binary _ l _ => do
    determineValuesOperand E d go l (setLeft p)
    let r ← infixRight p
    determineValuesOperand E d go r (setRight p)
  | o => H.fail (chars!"DetermineValues not implemented: " ++ o.typeName)

/-- `DetermineValues` with recursion at most `d` deep. -/
def determineValues : Nat → Ptr → H σ Unit
  | 0, _ => H.crash stackOverflow
  | d + 1, p => determineValuesStep E d (determineValues d) p

/-- `EvalCompareLeft` (partial_eval_of_compare.go:9-18). -/
def evalCompareLeft (d : Nat) (p : Ptr) : H σ Value := do
  match ← deref p with
  | .binary _ l _ => do
    let v ← eval E d l
    let l' ← objectToIntNode v
    setLeft p l'
    pure v
  | _ => H.crash interfaceConversion

/-! ## Reroll thresholds (reroll_threshold.go) -/

/-- `x.(*ast.RRollList)` with its fields. -/
def asRRollList (p : Ptr) : H σ (List Ptr × Ptr) :=
  match p with
  | none => H.crash interfaceConversion
  | p => do
    match ← deref p with
    | .rRollList rolls threshold => pure (rolls, threshold)
    | _ => H.crash interfaceConversion

/-- `SetRerollThreshold` (reroll_threshold.go:10-27) on the expression of the command. -/
def setRerollThreshold (d : Nat) (e : Ptr) : H σ Unit := do
  let (_, l, r) ← asBasicInfix e
  let (rolls, threshold) ← asRRollList l
  let t ← deref threshold
  if !t.isNil then pure ()
  else do
    let v ← eval E d r
    let t' ← objectToIntNode v
    write l (.rRollList rolls t')

/-- `CheckRRollThreshold`, `CheckURollThreshold`, `checkRollThreshold` (reroll_threshold.go:30-62):
`some msg` is the returned error. -/
def checkThreshold (d : Nat) (nilMsg : Str) (list : Ptr) : H σ (Option Str) := do
  let (_, threshold) ← asRRollList list
  let t ← deref threshold
  if t.isNil then pure (some nilMsg)
  else fun s =>
    match eval E d threshold s with
    | (.ok v, s') =>
      (do
        let n ← asInteger v
        pure (if n < 2 then some Evaluator.thresholdTooSmallMsg else none)) s'
    | (.err m, s') => (.ok (some (chars!"閾値評価エラー: " ++ m)), s')
    | (.panic m, s') => (.panic m, s')

end
end GoBCDice.Raw
