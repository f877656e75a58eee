import Verif.RawEval
import Verif.RawNotation
import Verif.Command

/-!
# Command execution on nodes in memory (pkg/core/command)

`d` bounds the depth of every recursion.
-/

namespace GoBCDice.Raw

variable {σ : Type} (isPrint : Char → Bool) (E : Evaluator σ) (d : Nat)

/-- `evaluator.RolledDice()` (evaluator.go:46-48). -/
def rolledDice : H σ (List Die) := H.lift Evaluator.rolledDice

/-- `evalVarArgs` (command.go:68-81). -/
def evalVarArgsAndShow (p : Ptr) : H σ Str := do
  evalVarArgs E d p
  infixNotation d true p

/-- `determineValues` (execute_d_roll_expr.go:46-61). -/
def determineValuesAndShow (p : Ptr) : H σ Str := do
  determineValues E d p
  infixNotation d true p

/-- `executeDRollExpr` (execute_d_roll_expr.go:10-43). -/
def executeDRollExpr (gameID : Str) (p : Ptr) : H σ Result := do
  let notation1 ← evalVarArgsAndShow E d p
  let notation2 ← determineValuesAndShow E d p
  let v ← eval E d p
  let dice ← rolledDice
  pure (mkResult gameID [parenthesize notation1, notation2, v.inspect isPrint] dice)

/-- The test `node.Expression.Type() != ast.COMPARE_NODE` (execute_d_roll_comp.go:22-24). -/
def isCompare (o : Obj) : Bool :=
  match o with
  | .binary (.compare _) _ _ => true
  | _ => false

/-- `node.Left()` (execute_d_roll_comp.go:88, execute_r_roll_comp.go:43,
execute_u_roll_comp.go:40). -/
def infixLeft (p : Ptr) : H σ Ptr := do
  match ← deref p with
  | .binary _ l _ => pure l
  | _ => H.crash interfaceConversion

/-- `executeDRollComp` (execute_d_roll_comp.go:13-94). -/
def executeDRollComp (gameID : Str) (ty : CommandType) (e : Ptr) : H σ Result := do
  let o ← deref e
  if isCompare o then do
    let notation1 ← evalVarArgsAndShow E d e
    determineValues E d e
    let l ← infixLeft e
    let notation2 ← infixNotation d true l
    let left ← evalCompareLeft E d e
    let v ← eval E d e
    let dice ← rolledDice
    match v with
    | .boolean b =>
      pure (mkResult gameID
        [parenthesize notation1, notation2, left.inspect isPrint,
          if b then chars!"成功" else chars!"失敗"]
        dice (if b then .success else .failure))
    | v => H.fail (chars!"DRollComp: result is not a Boolean: " ++ v.typeName)
  else H.fail (chars!"DRollComp: expression is not a Compare node: " ++ ty.name)

/-- `executeBRollList` (execute_b_roll_list.go:11-41). -/
def executeBRollList (gameID : Str) (p : Ptr) : H σ Result := do
  let notation1 ← evalVarArgsAndShow E d p
  let v ← eval E d p
  let vs ← asArray v
  let dice ← rolledDice
  pure (mkResult gameID [parenthesize notation1, Value.joined isPrint chars!"," vs] dice)

/-- `executeBRollComp` (execute_b_roll_comp.go:11-44). -/
def executeBRollComp (gameID : Str) (p e : Ptr) : H σ Result := do
  let _ ← asBasicInfix e
  let notation1 ← evalVarArgsAndShow E d e
  let v ← eval E d p
  match v with
  | .bRollComp vs n => do
    let dice ← rolledDice
    pure (mkResult gameID
      [parenthesize notation1, Value.joined isPrint chars!"," vs, successCountPart n] dice)
  | _ => H.crash interfaceConversion

/-- `formatRRollValues` (execute_r_roll_list.go:53-61). -/
def formatRRollValues : List Value → H σ (List Str)
  | [] => pure []
  | g :: rest => do
    let vs ← asArray g
    let ss ← formatRRollValues rest
    pure (Value.joined isPrint chars!"," vs :: ss)

/-- `executeRRollList` (execute_r_roll_list.go:13-50). -/
def executeRRollList (gameID : Str) (p : Ptr) : H σ Result := do
  let notation1 ← evalVarArgsAndShow E d p
  let check ← checkThreshold E d Evaluator.rThresholdNilMsg p
  match check with
  | some msg => pure (mkResult gameID [parenthesize notation1, msg] [])
  | none => do
    let v ← eval E d p
    let groups ← asArray v
    let dice ← rolledDice
    let ss ← formatRRollValues isPrint groups
    pure (mkResult gameID [parenthesize notation1, join chars!" + " ss] dice)

/-- `executeRRollComp` (execute_r_roll_comp.go:11-64). -/
def executeRRollComp (gameID : Str) (p e : Ptr) : H σ Result := do
  let _ ← asBasicInfix e
  evalVarArgs E d e
  setRerollThreshold E d e
  let notation1 ← infixNotation d true p
  let l ← infixLeft e
  let check ← checkThreshold E d Evaluator.rThresholdNilMsg l
  match check with
  | some msg => pure (mkResult gameID [parenthesize notation1, msg] [])
  | none => do
    let v ← eval E d p
    match v with
    | .rRollComp groups n => do
      let dice ← rolledDice
      let ss ← formatRRollValues isPrint groups
      pure (mkResult gameID [parenthesize notation1, join chars!" + " ss, successCountPart n] dice)
    | _ => H.crash interfaceConversion

/-- The loop of `formatURollExprValueGroupsAndModifier` (execute_u_roll_expr.go:65-75). -/
def formatUGroups : List Value → List Value → H σ (List Str)
  | [], _ => pure []
  | g :: rest, sums => do
    let vs ← asArray g
    match sums with
    | [] => H.crash chars!"runtime error: index out of range"
    | s :: sums' => do
      let ss ← formatUGroups rest sums'
      pure ((s.inspect isPrint ++
        (if vs.length > 1 then Value.inspectTight isPrint (.array vs) else [])) :: ss)

/-- `formatURollExprValueGroupsAndModifier` (execute_u_roll_expr.go:59-83). -/
def formatURollExpr (groups : List Value) (modifier : Int64) : H σ Str := do
  let sums ← sumOfGroups groups
  let ss ← formatUGroups isPrint groups sums
  pure (join chars!"," ss ++ formatModifier modifier)

/-- `MaxValue`, `SumOfValues` (u_roll_expr_result.go:70-81) in "%d/%d (最大/合計)"
(execute_u_roll_expr.go:49-53); `Add` on a nil result panics. -/
def formatMaxAndSum (groups : List Value) (modifier : Int64) : H σ Str := do
  let sums ← sumOfGroups groups
  match Value.maxInteger sums, Value.sumOfIntegers sums with
  | some max, some sum =>
    pure (intStr (max + modifier) ++ chars!"/" ++ intStr (sum + modifier) ++ chars!" (最大/合計)")
  | _, _ => H.crash nilDereference

/-- `executeURollExpr` (execute_u_roll_expr.go:15-56). -/
def executeURollExpr (gameID : Str) (p list : Ptr) : H σ Result := do
  let notation1 ← evalVarArgsAndShow E d p
  let check ← checkThreshold E d Evaluator.uThresholdNilMsg list
  match check with
  | some msg => pure (mkResult gameID [parenthesize notation1, msg] [])
  | none => do
    let v ← eval E d p
    match v with
    | .uRollExpr groups m => do
      let dice ← rolledDice
      let s1 ← formatURollExpr isPrint groups m
      let s2 ← formatMaxAndSum groups m
      pure (mkResult gameID [parenthesize notation1, s1, s2] dice)
    | _ => H.crash interfaceConversion

/-- `x.(*ast.URollExpr).URollList` (execute_u_roll_comp.go:40). -/
def uRollListOf (p : Ptr) : H σ Ptr :=
  match p with
  | none => H.crash interfaceConversion
  | p => do
    match ← deref p with
    | .uRollExpr list _ => pure list
    | _ => H.crash interfaceConversion

/-- `executeURollComp` (execute_u_roll_comp.go:11-61). -/
def executeURollComp (gameID : Str) (p e : Ptr) : H σ Result := do
  let _ ← asBasicInfix e
  evalVarArgs E d e
  let notation1 ← infixNotation d true p
  let l ← infixLeft e
  let list ← uRollListOf l
  let check ← checkThreshold E d Evaluator.uThresholdNilMsg list
  match check with
  | some msg => pure (mkResult gameID [parenthesize notation1, msg] [])
  | none => do
    let v ← eval E d p
    match v with
    | .uRollComp groups m n => do
      let dice ← rolledDice
      let s1 ← formatURollExpr isPrint groups m
      pure (mkResult gameID [parenthesize notation1, s1, successCountPart n] dice)
    | _ => H.crash interfaceConversion

/-- `executeCalc` (execute_calc.go:10-37). -/
def executeCalc (gameID : Str) (p : Ptr) : H σ Result := do
  let notation1 ← infixNotation d true p
  let v ← eval E d p
  pure (mkResult gameID [notation1, chars!"計算結果", v.inspect isPrint] [])

/-- `executeChoice` (execute_choice.go:11-40). -/
def executeChoice (gameID : Str) (p : Ptr) : H σ Result := do
  let notation1 ← infixNotation d true p
  let v ← eval E d p
  match v with
  | .string s => do
    let dice ← rolledDice
    pure (mkResult gameID [parenthesize notation1, s] dice)
  | _ => H.crash interfaceConversion

/-- `Execute` and `executeCommand` (command.go:22-65). -/
def execute (gameID : Str) (p : Ptr) : H σ Result := do
  let o ← deref p
  match o with
  | .command .dRollExpr _ => executeDRollExpr isPrint E d gameID p
  | .command .dRollComp e => executeDRollComp isPrint E d gameID .dRollComp e
  | .command .bRollComp e => executeBRollComp isPrint E d gameID p e
  | .command .rRollComp e => executeRRollComp isPrint E d gameID p e
  | .command .uRollComp e => executeURollComp isPrint E d gameID p e
  | .command .calc _ => executeCalc isPrint E d gameID p
  | .bRollList _ => executeBRollList isPrint E d gameID p
  | .rRollList _ _ => executeRRollList isPrint E d gameID p
  | .uRollExpr list _ => executeURollExpr isPrint E d gameID p list
  | .choice _ => executeChoice E d gameID p
  | o => H.fail (chars!"command execution not implemented: " ++ o.typeName)

end GoBCDice.Raw
