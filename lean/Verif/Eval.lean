import Verif.Ast

/-!
# The evaluator (pkg/core/evaluator) and its result objects (pkg/core/object)

State: the feeder and the environment's list of rolled dice.  Errors keep the state reached.
-/

namespace GoBCDice

/-- Mutable state during evaluation: the feeder behind the dice roller and
`Environment.rolledDice` (pkg/core/evaluator/environment.go:8-10). -/
structure St (σ : Type) where
  feeder : σ
  log : List Die
deriving DecidableEq, Repr

/-- A Go function of the evaluator: reads and writes the state, returns a value, an error or
panics; the state is kept in all three cases. -/
def M (σ α : Type) : Type := St σ → Out α × St σ

namespace M
variable {σ α β : Type}

/-- normal return -/
def ret (a : α) : M σ α := fun s => (.ok a, s)

/-- sequencing with `if err != nil { return err }` -/
def bnd (x : M σ α) (f : α → M σ β) : M σ β := fun s =>
  match x s with
  | (.ok a, s') => f a s'
  | (.err e, s') => (.err e, s')
  | (.panic m, s') => (.panic m, s')

instance : Monad (M σ) where
  pure := ret
  bind := bnd

/-- return an error -/
def fail (e : Str) : M σ α := fun s => (.err e, s)

/-- run-time panic -/
def crash (m : Str) : M σ α := fun s => (.panic m, s)

end M

/-- `evaluator.Evaluator` (pkg/core/evaluator/evaluator.go:25-31): the feeder implementation
behind the dice roller and the public field `MaxRerolls`. -/
structure Evaluator (σ : Type) where
  F : DieFeeder σ
  maxRerolls : Int64

/-- `NewEvaluator` (evaluator.go:37-43): `MaxRerolls` is 10000. -/
def newEvaluator {σ} (F : DieFeeder σ) : Evaluator σ := { F := F, maxRerolls := 10000 }

/-- Number of iterations of a loop `for i := 0; i < n; i++` without early exit. -/
def loopCount (n : Int64) : Nat := n.toInt.toNat

/-- Comparison of two integers (pkg/core/evaluator/eval_infix_expression.go:93-104). -/
def CmpOp.holds : CmpOp → Int64 → Int64 → Bool
  | .eq, a, b => decide (a = b)
  | .ne, a, b => decide (a ≠ b)
  | .lt, a, b => decide (a < b)
  | .gt, a, b => decide (a > b)
  | .le, a, b => decide (a ≤ b)
  | .ge, a, b => decide (a ≥ b)

/-- + - * on Go ints (eval_infix_expression.go:81-86). -/
def BinOp.apply : BinOp → Int64 → Int64 → Int64
  | .add, a, b => a + b
  | .sub, a, b => a - b
  | .mul, a, b => a * b

namespace Evaluator
variable {σ : Type} (E : Evaluator σ)

/-- `Evaluator.RollDice` (evaluator.go:93-102): dice are appended to the log on success only. -/
def rollDice (num sides : Int64) : M σ (List Die) := fun s =>
  match GoBCDice.rollDice E.F num sides s.feeder with
  | (.ok ds, f') => (.ok ds, { feeder := f', log := s.log ++ ds })
  | (.err e, f') => (.err e, { s with feeder := f' })
  | (.panic m, f') => (.panic m, { s with feeder := f' })

/-- Index expression `rolledDice[0]`. -/
def firstDie (ds : List Die) : M σ Die :=
  match ds with
  | d :: _ => pure d
  | [] => M.crash chars!"runtime error: index out of range"

/-- `evalIntegerDivide` (eval_infix_expression.go:112-143). -/
def evalIntegerDivide (m : Rounding) (l r : Int64) : M σ Int64 :=
  if r = 0 then M.fail (intStr l ++ chars!" divided by zero")
  else pure (divValue m l r)

/-- `evalSumRoll` (eval_infix_expression.go:146-164). -/
def evalSumRoll (num sides : Int64) : M σ Int64 := do
  let ds ← E.rollDice num sides
  pure (sumDice ds)

/-- Error of `evalRandomNumber` (eval_infix_expression.go:196-203). -/
def randomNumberMsg (min max : Int64) : Str :=
  chars!"evalRandomNumber: min (" ++ intStr min ++ chars!") must be less than max (" ++
    intStr max ++ chars!")"

/-- `evalRandomNumber` (eval_infix_expression.go:189-214). -/
def evalRandomNumber (min max : Int64) : M σ Int64 :=
  if max ≤ min then M.fail (randomNumberMsg min max)
  else do
    let ds ← E.rollDice 1 (max - min + 1)
    let d ← firstDie ds
    pure ((min - 1) + d.value)

/-- `Evaluator.Eval` on arithmetic expressions: evaluator.go:51-75,
`evalPrefixExpression` (eval_prefix_expression.go:11-50), `evalInfixExpression` with its operand
order left, right (eval_infix_expression.go:12-109). -/
def eval : Expr → M σ Int64
  | .int v => pure v
  | .sumRoll ds => pure (sumDice ds)
  | .neg r => do
    let v ← eval r
    pure (-v)
  | .bin op l r => do
    let a ← eval l
    let b ← eval r
    pure (op.apply a b)
  | .div m l r => do
    let a ← eval l
    let b ← eval r
    evalIntegerDivide m a b
  | .var .d l r => do
    let a ← eval l
    let b ← eval r
    evalSumRoll E a b
  | .var .rand l r => do
    let a ← eval l
    let b ← eval r
    evalRandomNumber E a b

/-- `Eval` of a B or R roll: operands, then `evalBasicRoll`
(eval_infix_expression.go:12-34, 89-90, 168-186). -/
def evalBasicRoll (r : Roll) : M σ (List Int64) := do
  let a ← E.eval r.num
  let b ← E.eval r.sides
  let ds ← E.rollDice a b
  pure (ds.map Die.value)

/-- `countNumOfSuccesses` (eval_infix_expression.go:217-242): builds a comparison of two
literals per value, whose evaluation draws nothing. -/
def countNumOfSuccesses (vs : List Int64) (op : CmpOp) (target : Int64) : Int64 :=
  vs.foldl (fun n v => if op.holds v target then n + 1 else n) 0

/-- `evalBRollList` (eval_b_roll_list.go:9-23). -/
def evalBRollList : List Roll → M σ (List Int64)
  | [] => pure []
  | b :: rest => do
    let vs ← E.evalBasicRoll b
    let ws ← evalBRollList rest
    pure (vs ++ ws)

/-- `evalBRollComp` (eval_b_roll_comp.go:9-32): values and number of successes. -/
def evalBRollComp (rolls : List Roll) (op : CmpOp) (r : Expr) : M σ (List Int64 × Int64) := do
  let vs ← E.evalBRollList rolls
  let target ← E.eval r
  pure (vs, countNumOfSuccesses vs op target)

/-- The loop of `evalRRollList` (eval_r_roll_list.go:34-70): `n` iterations left, the queue of
pending rolls, and the groups so far. -/
def rRollLoop (threshold : Int64) : Nat → List Roll → List (List Int64) → M σ (List (List Int64))
  | 0, _, acc => pure acc
  | _ + 1, [], acc => pure acc
  | n + 1, r :: queue, acc => do
    let vs ← E.evalBasicRoll r
    let k := (vs.filter (fun v => decide (v ≥ threshold))).length
    let queue' := if k > 0 then queue ++ [{ num := .int (Int64.ofNat k), sides := r.sides }]
      else queue
    rRollLoop threshold n queue' (acc ++ [vs])

/-- `evalRRollList` (eval_r_roll_list.go:13-73). -/
def evalRRollList (rl : RRollList) : M σ (List (List Int64)) :=
  match rl.threshold with
  | none => M.fail chars!"evalRRollList: threshold is nil"
  | some t => do
    let threshold ← E.eval t
    E.rRollLoop threshold (loopCount E.maxRerolls) rl.rolls []

/-- `evalRRollComp` (eval_r_roll_comp.go:9-41): groups and number of successes. -/
def evalRRollComp (rl : RRollList) (op : CmpOp) (r : Expr) :
    M σ (List (List Int64) × Int64) := do
  let groups ← E.evalRRollList rl
  let target ← E.eval r
  pure (groups, groups.foldl (fun n vs => n + countNumOfSuccesses vs op target) 0)

/-- Inner loop of `evalCompoundingRoll` (eval_u_roll_expr.go:107-119). -/
def uGroup (sides threshold : Int64) : Nat → List Int64 → M σ (List Int64)
  | 0, acc => pure acc
  | n + 1, acc => do
    let ds ← E.rollDice 1 sides
    let d ← firstDie ds
    if d.value < threshold then pure (acc ++ [d.value])
    else uGroup sides threshold n (acc ++ [d.value])

/-- Outer loop of `evalCompoundingRoll` (eval_u_roll_expr.go:104-123). -/
def uGroups (sides threshold : Int64) : Nat → List (List Int64) → M σ (List (List Int64))
  | 0, acc => pure acc
  | n + 1, acc => do
    let g ← E.uGroup sides threshold (loopCount E.maxRerolls) []
    uGroups sides threshold n (acc ++ [g])

/-- Error texts of `evalCompoundingRoll` (eval_u_roll_expr.go:87-101). -/
def compoundingMsg (num sides : Int64) (what : Str) : Str :=
  chars!"evalCompoundingRoll(num: " ++ intStr num ++ chars!", sides: " ++ intStr sides ++
    chars!"): " ++ what

/-- `evalCompoundingRoll` (eval_u_roll_expr.go:63-126). -/
def evalCompoundingRoll (r : Roll) (threshold : Int64) : M σ (List (List Int64)) := do
  let num ← E.eval r.num
  let sides ← E.eval r.sides
  if sides < 1 then M.fail (compoundingMsg num sides chars!"ダイスの面数が少なすぎます")
  else if num < 1 then M.fail (compoundingMsg num sides chars!"振るダイス数が少なすぎます")
  else if maxMakeCap < num then M.crash makePanicMsg
  else E.uGroups sides threshold (loopCount num) []

/-- The loop of `evalURollList` (eval_u_roll_expr.go:24-32). -/
def evalCompoundingRolls (threshold : Int64) : List Roll → M σ (List (List Int64))
  | [] => pure []
  | r :: rest => do
    let gs ← E.evalCompoundingRoll r threshold
    let hs ← evalCompoundingRolls threshold rest
    pure (gs ++ hs)

/-- `evalURollList` (eval_u_roll_expr.go:11-35). -/
def evalURollList (rl : RRollList) : M σ (List (List Int64)) :=
  match rl.threshold with
  | none => M.fail chars!"evalURollList: threshold is nil"
  | some t => do
    let threshold ← E.eval t
    E.evalCompoundingRolls threshold rl.rolls

end Evaluator

/-- `object.URollExprResult` (pkg/core/object/u_roll_expr_result.go:10-29): groups, modifier and
the cached group sums (`none` = nil pointer, not yet computed). -/
structure URollExprResult where
  valueGroups : List (List Int64)
  modifier : Int64
  sumCache : Option (List Int64)
deriving DecidableEq, Repr

namespace URollExprResult

/-- `NewURollExprResult` (u_roll_expr_result.go:24-29). -/
def new (groups : List (List Int64)) (modifier : Int64) : URollExprResult :=
  { valueGroups := groups, modifier := modifier, sumCache := none }

/-- `SumOfGroups` with its cache (u_roll_expr_result.go:60-67, 84-99;
`Array.SumOfIntegers`, pkg/core/object/array.go:133-149): the sums and the updated object. -/
def sumOfGroups (r : URollExprResult) : List Int64 × URollExprResult :=
  match r.sumCache with
  | some sums => (sums, r)
  | none =>
    let sums := r.valueGroups.map sumInts
    (sums, { r with sumCache := some sums })

/-- `Array.MaxInteger` on an array of integers (pkg/core/object/array.go:103-127). -/
def maxInteger : List Int64 → Int64
  | [] => 0
  | v :: vs => vs.foldl (fun m e => if e > m then e else m) v

/-- `MaxValue` (u_roll_expr_result.go:70-74). -/
def maxValue (r : URollExprResult) : Int64 × URollExprResult :=
  let (sums, r') := r.sumOfGroups
  (maxInteger sums + r'.modifier, r')

/-- `SumOfValues` (u_roll_expr_result.go:77-81). -/
def sumOfValues (r : URollExprResult) : Int64 × URollExprResult :=
  let (sums, r') := r.sumOfGroups
  (sumInts sums + r'.modifier, r')

end URollExprResult

namespace Evaluator
variable {σ : Type} (E : Evaluator σ)

/-- Evaluation of the bonus of a U roll; `none` (nil) gives 0
(eval_u_roll_expr.go:39-51). -/
def evalBonus (bonus : Option (Sign × Expr)) : M σ Int64 :=
  match bonus with
  | none => pure 0
  | some b => E.eval (bonusExpr b)

/-- `evalURollExpr` (eval_u_roll_expr.go:38-59): the bonus is evaluated before rolling. -/
def evalURollExpr (u : URollExpr) : M σ URollExprResult := do
  let modifier ← E.evalBonus u.bonus
  let groups ← E.evalURollList u.list
  pure (.new groups modifier)

/-- `evalURollComp` (eval_u_roll_comp.go:9-42): roll result (with filled cache) and number of
successes among the modified group sums. -/
def evalURollComp (u : URollExpr) (op : CmpOp) (r : Expr) :
    M σ (URollExprResult × Int64) := do
  let res ← E.evalURollExpr u
  let target ← E.eval r
  let (sums, res') := res.sumOfGroups
  let modified := sums.map (fun x => x + res'.modifier)
  pure (res', countNumOfSuccesses modified op target)

/-- `evalChoice` (eval_choice.go:9-19): index `Value - 1`, panicking when out of range. -/
def evalChoice (items : List Str) : M σ Str := do
  let ds ← E.rollDice 1 (Int64.ofNat items.length)
  let d ← firstDie ds
  let index := d.value - 1
  if index < 0 then M.crash chars!"runtime error: index out of range"
  else
    match items[index.toInt.toNat]? with
    | some item => pure item
    | none => M.crash chars!"runtime error: index out of range"

/-! ## Stage 1: evaluating the arguments of variable nodes (eval_var_args.go) -/

/-- `evalVarArgsOfRoll` on a roll (eval_var_args.go:47-62). -/
def evalVarArgsOfRoll (r : Roll) : M σ Roll := do
  let a ← E.eval r.num
  let b ← E.eval r.sides
  pure { num := .int a, sides := .int b }

/-- `evalVarArgsOfVariableExpr` on an expression (eval_var_args.go:37-62). -/
def evalVarArgsOfVariableExpr (e : Expr) : M σ Expr :=
  match e with
  | .var .d l r => do
    let a ← E.eval l
    let b ← E.eval r
    pure (.var .d (.int a) (.int b))
  | e => M.fail (chars!"evalVarArgsOfVariableExpr not implemented: " ++ e.typeName)

/-- Treatment of a primary operand (eval_var_args.go:147-153, 180-186, 196-199, 209-215):
variable operands have their arguments evaluated, constants stay. -/
def evalVarArgsPrimary (e : Expr) : M σ Expr :=
  if e.isVariable then E.evalVarArgsOfVariableExpr e else pure e

/-- `EvalVarArgs` on an arithmetic expression (eval_var_args.go:10-31, 178-218). -/
def evalVarArgs : Expr → M σ Expr
  | .neg r => do
    let r' ← if r.isPrimary then E.evalVarArgsPrimary r else evalVarArgs r
    pure (.neg r')
  | .bin op l r => do
    let l' ← if l.isPrimary then E.evalVarArgsPrimary l else evalVarArgs l
    let r' ← if r.isPrimary then E.evalVarArgsPrimary r else evalVarArgs r
    pure (.bin op l' r')
  | .div m l r => do
    let l' ← if l.isPrimary then E.evalVarArgsPrimary l else evalVarArgs l
    let r' ← if r.isPrimary then E.evalVarArgsPrimary r else evalVarArgs r
    pure (.div m l' r')
  | .var k l r => do
    let l' ← if l.isPrimary then E.evalVarArgsPrimary l else evalVarArgs l
    let r' ← if r.isPrimary then E.evalVarArgsPrimary r else evalVarArgs r
    pure (.var k l' r')
  | e => M.fail (chars!"EvalVarArgs not implemented: " ++ e.typeName)

/-- `evalVarArgsInCommand` (eval_var_args.go:145-156). -/
def evalVarArgsInCommand (e : Expr) : M σ Expr :=
  if e.isPrimary then E.evalVarArgsPrimary e else E.evalVarArgs e

/-- `evalVarArgsInCompare` for a D comparison (eval_var_args.go:159-175): note that the left
side goes through `EvalVarArgs` even when it is primary. -/
def evalVarArgsInDCompare (l r : Expr) : M σ (Expr × Expr) := do
  let l' ← E.evalVarArgs l
  let b ← E.eval r
  pure (l', .int b)

/-- `evalVarArgsInBRollList` (eval_var_args.go:65-74); the same loop serves
`evalVarArgsInRRollList` and `evalVarArgsInURollExpr` (89-94, 114-119). -/
def evalVarArgsInRolls : List Roll → M σ (List Roll)
  | [] => pure []
  | r :: rest => do
    let r' ← E.evalVarArgsOfRoll r
    let rest' ← evalVarArgsInRolls rest
    pure (r' :: rest')

/-- Threshold part of `evalVarArgsInRRollList`/`evalVarArgsInURollExpr`
(eval_var_args.go:79-86, 104-111). -/
def evalVarArgsOfThreshold (t : Option Expr) : M σ (Option Expr) :=
  match t with
  | none => pure none
  | some e => do
    let v ← E.eval e
    pure (some (.int v))

/-- `evalVarArgsInRRollList` (eval_var_args.go:77-97): threshold first, then the rolls. -/
def evalVarArgsInRRollList (rl : RRollList) : M σ RRollList := do
  let t ← E.evalVarArgsOfThreshold rl.threshold
  let rolls ← E.evalVarArgsInRolls rl.rolls
  pure { rolls := rolls, threshold := t }

/-- Normalisation of an evaluated bonus (eval_var_args.go:128-138): dropped when zero,
otherwise a sign and a literal (`-bonusValue` wraps for MinInt64). -/
def normalizeBonus (v : Int64) : Option (Sign × Expr) :=
  if v = 0 then none
  else if v > 0 then some (.plus, .int v)
  else some (.minus, .int (-v))

/-- `evalVarArgsInURollExpr` (eval_var_args.go:100-142). -/
def evalVarArgsInURollExpr (u : URollExpr) : M σ URollExpr := do
  let list ← E.evalVarArgsInRRollList u.list
  match u.bonus with
  | none => pure { list := list, bonus := none }
  | some b => do
    let v ← E.eval (bonusExpr b)
    pure { list := list, bonus := normalizeBonus v }

/-! ## Stage 2: determining the values of D rolls (determine_values.go) -/

/-- `determineValueOfVariableExpr` / `determineValueOfDRoll` (determine_values.go:22-52). -/
def determineValueOfVariableExpr (e : Expr) : M σ Expr :=
  match e with
  | .var .d l r =>
    match l with
    | .int num =>
      match r with
      | .int sides => do
        let ds ← E.rollDice num sides
        pure (.sumRoll ds)
      | r => M.fail (chars!"sides is not Int: " ++ r.typeName)
    | l => M.fail (chars!"num is not Int: " ++ l.typeName)
  | e => M.fail (chars!"determineValueOfVariableExpr not implemented: " ++ e.typeName)

/-- `replaceVariablePrimaryExpr` (determine_values.go:56-67). -/
def replaceVariablePrimaryExpr (e : Expr) : M σ Expr :=
  if e.isVariable then E.determineValueOfVariableExpr e else pure e

/-- `DetermineValues` on an arithmetic expression (determine_values.go:9-20, 80-115). -/
def determineValues : Expr → M σ Expr
  | .neg r => do
    let r' ← if r.isPrimary then E.replaceVariablePrimaryExpr r else determineValues r
    pure (.neg r')
  | .bin op l r => do
    let l' ← if l.isPrimary then E.replaceVariablePrimaryExpr l else determineValues l
    let r' ← if r.isPrimary then E.replaceVariablePrimaryExpr r else determineValues r
    pure (.bin op l' r')
  | .div m l r => do
    let l' ← if l.isPrimary then E.replaceVariablePrimaryExpr l else determineValues l
    let r' ← if r.isPrimary then E.replaceVariablePrimaryExpr r else determineValues r
    pure (.div m l' r')
  | .var k l r => do
    let l' ← if l.isPrimary then E.replaceVariablePrimaryExpr l else determineValues l
    let r' ← if r.isPrimary then E.replaceVariablePrimaryExpr r else determineValues r
    pure (.var k l' r')
  | e => M.fail (chars!"DetermineValues not implemented: " ++ e.typeName)

/-- `determineValuesInCommand` (determine_values.go:69-78); the same treatment is given to each
side of a comparison by `determineValuesInInfixExpression` (91-115). -/
def determineValuesOperand (e : Expr) : M σ Expr :=
  if e.isPrimary then E.replaceVariablePrimaryExpr e else E.determineValues e

/-- `DetermineValues` on a comparison (determine_values.go:15-16, 91-115). -/
def determineValuesInCompare (l r : Expr) : M σ (Expr × Expr) := do
  let l' ← E.determineValuesOperand l
  let r' ← E.determineValuesOperand r
  pure (l', r')

/-! ## Reroll thresholds (reroll_threshold.go) -/

/-- Error text of `CheckRRollThreshold` without threshold (reroll_threshold.go:32). -/
def rThresholdNilMsg : Str := chars!"2R6>=5 あるいは 2R6[5] のように振り足し目標値を指定してください"

/-- Error text of `CheckURollThreshold` without threshold (reroll_threshold.go:41). -/
def uThresholdNilMsg : Str := chars!"2U6[5] のように振り足し目標値を指定してください"

/-- Error text for a threshold below 2 (reroll_threshold.go:58). -/
def thresholdTooSmallMsg : Str := chars!"振り足し目標値として2以上の整数を指定してください"

/-- `SetRerollThreshold` (reroll_threshold.go:10-27). -/
def setRerollThreshold (rl : RRollList) (r : Expr) : M σ RRollList :=
  match rl.threshold with
  | some _ => pure rl
  | none => do
    let v ← E.eval r
    pure { rl with threshold := some (.int v) }

/-- `CheckRRollThreshold`/`CheckURollThreshold`/`checkRollThreshold` (reroll_threshold.go:30-62):
`some msg` is the returned error, `none` is nil; `nilMsg` is the text for a missing threshold. -/
def checkThreshold (nilMsg : Str) (t : Option Expr) : M σ (Option Str) :=
  match t with
  | none => pure (some nilMsg)
  | some e => fun s =>
    match E.eval e s with
    | (.ok v, s') => (.ok (if v < 2 then some thresholdTooSmallMsg else none), s')
    | (.err m, s') => (.ok (some (chars!"閾値評価エラー: " ++ m)), s')
    | (.panic m, s') => (.panic m, s')

end Evaluator
end GoBCDice
