import Verif.Eval
import Verif.Notation

/-!
# Command execution (pkg/core/command)
-/

namespace GoBCDice

/-- `SuccessCheckResultType` (pkg/core/command/result.go:9-18). -/
inductive SuccessCheck where
  | unspecified
  | success
  | failure
deriving DecidableEq, Repr

/-- `command.Result` (result.go:37-48).  A nil `RolledDice` slice is the empty list. -/
structure Result where
  gameID : Str
  parts : List Str
  rolledDice : List Die
  success : SuccessCheck
  isSecret : Bool
deriving DecidableEq, Repr

/-- `JoinedMessageParts` (result.go:51-53). -/
def Result.joinedParts (r : Result) : Str := join chars!" ＞ " r.parts

/-- `Message` (result.go:56-58). -/
def Result.message (r : Result) : Str := r.gameID ++ chars!" : " ++ r.joinedParts

/-- A result with the fields set by all executors; the others have Go zero values. -/
def mkResult (gameID : Str) (parts : List Str) (dice : List Die)
    (check : SuccessCheck := .unspecified) : Result :=
  { gameID := gameID, parts := parts, rolledDice := dice, success := check, isSecret := false }

/-- `Array.JoinedElements(",")` on integers (pkg/core/object/array.go:73-80, integer.go:24-26). -/
def joinedElements (vs : List Int64) : Str := join chars!"," (vs.map intStr)

/-- `Array.InspectWithoutSpaces` on integers (array.go:52-60, 84-96). -/
def inspectWithoutSpaces (vs : List Int64) : Str := chars!"[" ++ joinedElements vs ++ chars!"]"

/-- `formatRRollValues` (execute_r_roll_list.go:53-61). -/
def formatRRollValues (groups : List (List Int64)) : Str :=
  join chars!" + " (groups.map joinedElements)

/-- One group in `formatURollExprValueGroupsAndModifier` (execute_u_roll_expr.go:65-75). -/
def formatUGroup (sum : Int64) (vs : List Int64) : Str :=
  intStr sum ++ (if vs.length > 1 then inspectWithoutSpaces vs else [])

/-- `formatURollExprValueGroupsAndModifier` (execute_u_roll_expr.go:59-83). -/
def formatURollExprValueGroupsAndModifier (r : URollExprResult) : Str :=
  let (sums, r') := r.sumOfGroups
  join chars!"," (List.zipWith formatUGroup sums r'.valueGroups) ++ formatModifier r'.modifier

/-- "%d/%d (最大/合計)" (execute_u_roll_expr.go:49-53). -/
def formatMaxAndSum (r : URollExprResult) : Str :=
  let (max, r') := r.maxValue
  let (sum, _) := r'.sumOfValues
  intStr max ++ chars!"/" ++ intStr sum ++ chars!" (最大/合計)"

/-- `"成功数" + n` -/
def successCountPart (n : Int64) : Str := chars!"成功数" ++ intStr n

namespace Evaluator
variable {σ : Type} (E : Evaluator σ)

/-- `evaluator.RolledDice()` (evaluator.go:46-48, environment.go:20-26): a copy of the log. -/
def rolledDice : M σ (List Die) := fun s => (.ok s.log, s)

/-- `executeCalc` (execute_calc.go:10-37); `RolledDice` is left nil. -/
def executeCalc (gameID : Str) (e : Expr) : M σ Result := do
  let v ← E.eval e
  pure (mkResult gameID [calcNotation e, chars!"計算結果", intStr v] [])

/-- `executeChoice` (execute_choice.go:11-40). -/
def executeChoice (gameID : Str) (items : List Str) : M σ Result := do
  let v ← E.evalChoice items
  let dice ← rolledDice
  pure (mkResult gameID [parenthesize (choiceNotation items), v] dice)

/-- `executeDRollExpr` (execute_d_roll_expr.go:10-61). -/
def executeDRollExpr (gameID : Str) (e : Expr) : M σ Result := do
  let e1 ← E.evalVarArgsInCommand e
  let e2 ← E.determineValuesOperand e1
  let v ← E.eval e2
  let dice ← rolledDice
  pure (mkResult gameID [parenthesize (infixNotation true e1), infixNotation true e2, intStr v] dice)

/-- `executeDRollComp` (execute_d_roll_comp.go:13-94); `EvalCompareLeft`
(pkg/core/evaluator/partial_eval_of_compare.go:9-18) replaces the left side by its value before
the comparison is evaluated. -/
def executeDRollComp (gameID : Str) (l : Expr) (op : CmpOp) (r : Expr) : M σ Result := do
  let (l1, r1) ← E.evalVarArgsInDCompare l r
  let notation1 := infixNotation true l1 ++ op.str ++ infixNotation true r1
  let (l2, r2) ← E.determineValuesInCompare l1 r1
  let notation2 := infixNotation true l2
  let leftValue ← E.eval l2
  let a ← E.eval (.int leftValue)
  let b ← E.eval r2
  let holds := op.holds a b
  let dice ← rolledDice
  pure (mkResult gameID
    [parenthesize notation1, notation2, intStr leftValue,
      if holds then chars!"成功" else chars!"失敗"]
    dice (if holds then .success else .failure))

/-- `executeBRollList` (execute_b_roll_list.go:11-41). -/
def executeBRollList (gameID : Str) (rolls : List Roll) : M σ Result := do
  let rolls1 ← E.evalVarArgsInRolls rolls
  let vs ← E.evalBRollList rolls1
  let dice ← rolledDice
  pure (mkResult gameID [parenthesize (rollsNotation chars!"B" rolls1), joinedElements vs] dice)

/-- `executeBRollComp` (execute_b_roll_comp.go:11-44). -/
def executeBRollComp (gameID : Str) (rolls : List Roll) (op : CmpOp) (r : Expr) : M σ Result := do
  let rolls1 ← E.evalVarArgsInRolls rolls
  let b ← E.eval r
  let r1 := Expr.int b
  let notation1 := rollsNotation chars!"B" rolls1 ++ op.str ++ infixNotation true r1
  let (vs, n) ← E.evalBRollComp rolls1 op r1
  let dice ← rolledDice
  pure (mkResult gameID [parenthesize notation1, joinedElements vs, successCountPart n] dice)

/-- `executeRRollList` (execute_r_roll_list.go:13-50). -/
def executeRRollList (gameID : Str) (rl : RRollList) : M σ Result := do
  let rl1 ← E.evalVarArgsInRRollList rl
  let notation1 := parenthesize (rRollListNotation chars!"R" rl1)
  let check ← E.checkThreshold rThresholdNilMsg rl1.threshold
  match check with
  | some msg => pure (mkResult gameID [notation1, msg] [])
  | none => do
    let groups ← E.evalRRollList rl1
    let dice ← rolledDice
    pure (mkResult gameID [notation1, formatRRollValues groups] dice)

/-- `executeRRollComp` (execute_r_roll_comp.go:11-64). -/
def executeRRollComp (gameID : Str) (rl : RRollList) (op : CmpOp) (r : Expr) : M σ Result := do
  let rl1 ← E.evalVarArgsInRRollList rl
  let b ← E.eval r
  let r1 := Expr.int b
  let rl2 ← E.setRerollThreshold rl1 r1
  let notation1 := parenthesize (rRollListNotation chars!"R" rl2 ++ op.str ++ infixNotation true r1)
  let check ← E.checkThreshold rThresholdNilMsg rl2.threshold
  match check with
  | some msg => pure (mkResult gameID [notation1, msg] [])
  | none => do
    let (groups, n) ← E.evalRRollComp rl2 op r1
    let dice ← rolledDice
    pure (mkResult gameID [notation1, formatRRollValues groups, successCountPart n] dice)

/-- `executeURollExpr` (execute_u_roll_expr.go:15-56). -/
def executeURollExpr (gameID : Str) (u : URollExpr) : M σ Result := do
  let u1 ← E.evalVarArgsInURollExpr u
  let notation1 := parenthesize (uRollExprNotation u1)
  let check ← E.checkThreshold uThresholdNilMsg u1.list.threshold
  match check with
  | some msg => pure (mkResult gameID [notation1, msg] [])
  | none => do
    let res ← E.evalURollExpr u1
    let dice ← rolledDice
    pure (mkResult gameID
      [notation1, formatURollExprValueGroupsAndModifier res, formatMaxAndSum res] dice)

/-- `executeURollComp` (execute_u_roll_comp.go:11-61). -/
def executeURollComp (gameID : Str) (u : URollExpr) (op : CmpOp) (r : Expr) : M σ Result := do
  let u1 ← E.evalVarArgsInURollExpr u
  let b ← E.eval r
  let r1 := Expr.int b
  let notation1 := parenthesize (uRollExprNotation u1 ++ op.str ++ infixNotation true r1)
  let check ← E.checkThreshold uThresholdNilMsg u1.list.threshold
  match check with
  | some msg => pure (mkResult gameID [notation1, msg] [])
  | none => do
    let (res, n) ← E.evalURollComp u1 op r1
    let dice ← rolledDice
    pure (mkResult gameID
      [notation1, formatURollExprValueGroupsAndModifier res, successCountPart n] dice)

/-- `Execute` (command.go:22-65). -/
def execute (gameID : Str) : Node → M σ Result
  | .choice items => E.executeChoice gameID items
  | .calc e => E.executeCalc gameID e
  | .dRollExpr e => E.executeDRollExpr gameID e
  | .dRollComp l op r => E.executeDRollComp gameID l op r
  | .bRollList rolls => E.executeBRollList gameID rolls
  | .bRollComp rolls op r => E.executeBRollComp gameID rolls op r
  | .rRollList rl => E.executeRRollList gameID rl
  | .rRollComp rl op r => E.executeRRollComp gameID rl op r
  | .uRollExpr u => E.executeURollExpr gameID u
  | .uRollComp u op r => E.executeURollComp gameID u op r

end Evaluator
end GoBCDice
