import Verif.RawCommand
import Verif.Spec.Raw
import Verif.Parser
import Verif.Testcase

/-!
# Unit tests of the project (generated by tools/gen_unit_conformance.py)

The tables of the unit tests under `pkg/core`, replayed on the model; the definitions here do what the
loops of the tests do.  Trees are made by the model of the parser and laid out in memory (`build`).  These
are *tests of the model against what the project says of itself*, not proofs of properties.
-/

namespace GoBCDice.Conformance
open Raw

/-- Characters of these tables beyond ASCII are printable. -/
def printable (c : Char) : Bool := decide (32 ≤ c.toNat ∧ c.toNat ≠ 127)

/-- Room for nested calls. -/
def depth : Nat := 1000

/-- A queue with the dice, no dice rolled yet. -/
def startWith (dice : List Die) (heap : Heap) : HSt (List Die) := ⟨⟨newQueue dice, []⟩, heap⟩

/-- The evaluator of the tests. -/
def evaluator : Evaluator (List Die) := newEvaluator queueFeeder

/-- Parse, lay out in memory, run: the outcome and the state afterwards. -/
def onTree {α : Type} (input : Str) (dice : List Die) (f : Ptr → H (List Die) α) : Option (Out α × HSt (List Die)) :=
  (parse input).map fun node =>
    let (p, h) := build node []
    f p (startWith dice h)

/-- `Execute` on the typed tree and on memory: message, dice, verdict. -/
def checkExecute (input expected : Str) (success : SuccessCheck) (dice : List Die) : Bool :=
  (match parse input with
  | none => false
  | some node =>
    match evaluator.execute chars!"DiceBot" node ⟨newQueue dice, []⟩ with
    | (.ok r, _) => decide (r.message = expected ∧ r.rolledDice = dice ∧ r.success = success)
    | _ => false) &&
  (match onTree input dice (Raw.execute printable evaluator depth chars!"DiceBot") with
  | some (.ok r, _) => decide (r.message = expected ∧ r.rolledDice = dice ∧ r.success = success)
  | _ => false)

def checkExecuteQ (input expected : Str) (dice : List Die) : Bool := checkExecute input expected .unspecified dice

def checkExecuteC (input expected : Str) : Bool := checkExecute input expected .unspecified []

def checkFormatDice (dice : List Die) (expected : Str) : Bool := decide (formatDice dice = expected)

def checkFormatDiceWithoutSpaces (dice : List Die) (expected : Str) : Bool :=
  decide (formatDiceWithoutSpaces dice = expected)

/-- `RollDice` with a queue. -/
def checkRollDice (dice : List Die) (num sides : Int64) (err : Bool) : Bool :=
  match rollDice queueFeeder num sides (newQueue dice) with
  | (.ok ds, q) => !err && decide (ds = dice.take num.toInt.toNat ∧ q.length = dice.length - num.toInt.toNat)
  | (.err _, _) => err
  | (.panic _, _) => false

/-- The tree after a function has changed it. -/
def checkTree (input expected : Str) (dice : List Die) (f : Ptr → H (List Die) Unit) : Bool :=
  match onTree input dice (fun p => do f p; sexp printable depth p) with
  | some (.ok s, _) => decide (s = expected)
  | _ => false

def checkDetermineValues (input expected : Str) (dice : List Die) : Bool :=
  checkTree input expected dice (determineValues evaluator depth)

def checkEvalVarArgs (input expected : Str) (dice : List Die) : Bool :=
  checkTree input expected dice (evalVarArgs evaluator depth)

/-- The expression of a command. -/
def expressionOf (p : Ptr) : H (List Die) Ptr := do
  match ← deref p with
  | .command _ e => pure e
  | _ => H.crash chars!"not a command"

def checkSetRerollThreshold (input expected : Str) : Bool :=
  checkTree input expected [] (fun p => do
    let e ← expressionOf p
    setRerollThreshold evaluator depth e)

/-- Equal objects: same type and same text. -/
def same (v w : Value) : Bool := decide (v.typeName = w.typeName ∧ v.inspect printable = w.inspect printable)

/-- `Eval`: an object, or an error; and the dice. -/
def checkEval (input : Str) (err : Bool) (expected : Value) (dice : List Die) : Bool :=
  match onTree input dice (Raw.eval evaluator depth) with
  | some (.ok v, s) => !err && same v expected && decide (s.st.log = dice)
  | some (.err _, _) => err
  | _ => false

def integers (vs : List Int64) : List Value := vs.map .integer

def groups (gs : List (List Int64)) : List Value := gs.map fun vs => .array (integers vs)

def checkEvalBRollComp (input : Str) (vs : List Int64) (n : Int64) (dice : List Die) : Bool :=
  checkEval input false (.bRollComp (integers vs) n) dice

def checkEvalBRollList (input : Str) (vs : List Int64) (dice : List Die) : Bool :=
  checkEval input false (.array (integers vs)) dice

def checkEvalCalc (input : Str) (v : Int64) : Bool := checkEval input false (.integer v) []

def checkEvalChoice (input s : Str) (dice : List Die) : Bool := checkEval input false (.string s) dice

def checkEvalDRollComp (input : Str) (b : Bool) (dice : List Die) : Bool := checkEval input false (.boolean b) dice

def checkEvalDRollExpr (input : Str) (v : Int64) (dice : List Die) : Bool := checkEval input false (.integer v) dice

def checkEvalRRollComp (input : Str) (gs : List (List Int64)) (n : Int64) (dice : List Die) : Bool :=
  checkEval input false (.rRollComp (groups gs) n) dice

def checkEvalRRollList (input : Str) (err : Bool) (gs : List (List Int64)) (dice : List Die) : Bool :=
  checkEval input err (.array (groups gs)) dice

/-- The sums of the groups of an object. -/
def sumsOf : Value → H (List Die) (List Value)
  | .uRollExpr gs _ => sumOfGroups gs
  | .uRollComp gs _ _ => sumOfGroups gs
  | _ => H.crash chars!"not a U roll"

/-- The groups of an object. -/
def groupsOf : Value → List Value
  | .uRollExpr gs _ => gs
  | .uRollComp gs _ _ => gs
  | _ => []

/-- `MaxValue` and `SumOfValues` (u_roll_expr_result.go:66-86), computed from the sums of the groups. -/
def maxAndSum : Value → H (List Die) (Option Int64 × Option Int64)
  | .uRollExpr gs m => do
    let sums ← sumOfGroups gs
    pure ((Value.maxInteger sums).map (· + m), (Value.sumOfIntegers sums).map (· + m))
  | _ => H.crash chars!"not a U roll"

def checkEvalURollComp (input : Str) (err : Bool) (gs : List (List Int64)) (sums : List Int64) (n : Int64)
    (dice : List Die) : Bool :=
  match onTree input dice (Raw.eval evaluator depth) with
  | some (.ok v, s) =>
    !err && (match v with | .uRollComp _ _ k => decide (k = n) | _ => false) &&
    same (.array (groupsOf v)) (.array (groups gs)) && decide (s.st.log = dice) &&
    (match sumsOf v s with
    | (.ok ss, _) => same (.array ss) (.array (integers sums))
    | _ => false)
  | some (.err _, _) => err
  | _ => false

def checkEvalURollExpr (input : Str) (err : Bool) (gs : List (List Int64)) (sums : List Int64) (max sum : Int64)
    (dice : List Die) : Bool :=
  match onTree input dice (Raw.eval evaluator depth) with
  | some (.ok v, s) =>
    !err && same (.array (groupsOf v)) (.array (groups gs)) && decide (s.st.log = dice) &&
    (match sumsOf v s with
    | (.ok ss, _) => same (.array ss) (.array (integers sums))
    | _ => false) &&
    (match maxAndSum v s with
    | (.ok r, _) => decide (r = (some max, some sum))
    | _ => false)
  | some (.err _, _) => err
  | _ => false

/-- `CheckRRollThreshold`, `CheckURollThreshold`: the error, if any. -/
def checkThresholdOf (input : Str) (nilMsg : Str) (err : Bool) (message : Str) (list : Ptr → H (List Die) Ptr) : Bool :=
  match onTree input [] (fun p => do let l ← list p; Raw.checkThreshold evaluator depth nilMsg l) with
  | some (.ok none, _) => !err
  | some (.ok (some m), _) => err && decide (m = message)
  | _ => false

def checkRThreshold (input : Str) (err : Bool) (message : Str) : Bool :=
  checkThresholdOf input Evaluator.rThresholdNilMsg err message pure

def checkUThreshold (input : Str) (err : Bool) (message : Str) : Bool :=
  checkThresholdOf input Evaluator.uThresholdNilMsg err message fun p => do
    match ← deref p with
    | .uRollExpr l _ => pure l
    | _ => H.crash chars!"not a U roll"

/-- `InfixNotation(node, true)` on memory. -/
def checkInfixNotation (input expected : Str) : Bool :=
  match onTree input [] (Raw.infixNotation depth true) with
  | some (.ok s, _) => decide (s = expected)
  | _ => false

/-- The node made last. -/
def lastNode (h : Heap) : Ptr := some (h.length - 1)

def checkType (h : Heap) (expected : Str) : Bool := decide (h.getLast?.map Obj.typeName = some expected)

def checkIsNil (h : Heap) (expected : Bool) : Bool := decide (h.getLast?.map Obj.isNil = some expected)

def checkIsPrimary (h : Heap) (expected : Bool) : Bool := decide (h.getLast?.map Obj.isPrimary = some expected)

def checkIsVariable (h : Heap) (expected : Bool) : Bool :=
  match isVariable depth (lastNode h) (startWith [] h) with
  | (.ok b, _) => b == expected
  | _ => false

def checkInspect (v : Value) (expected : Str) : Bool := decide (v.inspect printable = expected)

def checkInspectTight (v : Value) (expected : Str) : Bool := decide (v.inspectTight printable = expected)

/-- The elements of an array. -/
def elements : Value → List Value
  | .array els => els
  | _ => []

def checkJoined (v : Value) (sep expected : Str) : Bool := decide (Value.joined printable sep (elements v) = expected)

def checkMaxInteger (v : Value) (expected : Int64) (ok : Bool) : Bool :=
  decide (Value.maxInteger (elements v) = if ok then some expected else none)

def checkSum (v : Value) (expected : Int64) (ok : Bool) : Bool :=
  decide (Value.sumOfIntegers (elements v) = if ok then some expected else none)

def checkAdd (a b expected : Int64) : Bool := decide (a + b = expected)

def checkObjectType (v : Value) (expected : Str) : Bool := decide (v.typeName = expected)

def checkMaxValue (v : Value) (expected : Int64) : Bool :=
  match maxAndSum v (startWith [] []) with
  | (.ok r, _) => decide (r.1 = some expected)
  | _ => false

def checkSumOfValues (v : Value) (expected : Int64) : Bool :=
  match maxAndSum v (startWith [] []) with
  | (.ok r, _) => decide (r.2 = some expected)
  | _ => false

def checkSumOfGroups (v : Value) (expected : List Int64) : Bool :=
  match sumsOf v (startWith [] []) with
  | (.ok ss, _) => same (.array ss) (.array (integers expected))
  | _ => false

/-- `Parse` of a test case. -/
def checkParseCase (source gameID : Str) (index : Int64) (expected : Option TestCase) : Bool :=
  match parseCase printable source gameID index with
  | .ok c => decide (some c = expected)
  | .err _ => expected.isNone
  | .panic _ => false

def checkParseDice (source : Str) (expected : Option (List Die)) : Bool :=
  match parseDice printable source with
  | .ok ds => decide (some ds = expected)
  | .err _ => expected.isNone
  | .panic _ => false

/-- `ParseFile` on the content of a file: at least these test cases, in this order. -/
def checkParseFile (content gameID : Str) (expected : List TestCase) : Bool :=
  match parseFile printable content gameID with
  | .ok cs => decide (cs.take expected.length = expected)
  | _ => false

/-- `ParseFiles`: how many test cases, and the numbers of the first and the last. -/
def checkParseFiles (files : List (Str × Str)) (gameID : Str) (n : Nat) (first last : Int64) : Bool :=
  match parseFiles printable files gameID with
  | .ok cs => decide (cs.length = n ∧ cs.head?.map TestCase.index = some first ∧ cs.getLast?.map TestCase.index = some last)
  | _ => false

/-- `TestNode_Type` (pkg/core/ast/node_test.go) -/
example : (
  checkType [.command .dRollExpr none] chars!"DRollExpr" &&
  checkType [.command .dRollComp none] chars!"DRollComp" &&
  checkType [.bRollList [none]] chars!"BRollList" &&
  checkType [.command .bRollComp none] chars!"BRollComp" &&
  checkType [.rRollList [none] none] chars!"RRollList" &&
  checkType [.uRollExpr none none] chars!"URollExpr" &&
  checkType [.command .uRollComp none] chars!"URollComp" &&
  checkType [.command .calc none] chars!"Calc" &&
  checkType [.choice [none]] chars!"Choice" &&
  checkType [.unary none] chars!"UnaryMinus" &&
  checkType [.binary (.compare chars!"") none none] chars!"Compare" &&
  checkType [.binary .add none none] chars!"Add" &&
  checkType [.binary .sub none none] chars!"Subtract" &&
  checkType [.binary .mul none none] chars!"Multiply" &&
  checkType [.binary (.div .up) none none] chars!"DivideWithRoundingUp" &&
  checkType [.binary (.div .round) none none] chars!"DivideWithRounding" &&
  checkType [.binary (.div .down) none none] chars!"DivideWithRoundingDown" &&
  checkType [.binary .dRoll none none] chars!"DRoll" &&
  checkType [.binary .bRoll none none] chars!"BRoll" &&
  checkType [.binary .rRoll none none] chars!"RRoll" &&
  checkType [.binary .uRoll none none] chars!"URoll" &&
  checkType [.binary .random none none] chars!"RandomNumber" &&
  checkType [.int 0] chars!"Int" &&
  checkType [.string chars!""] chars!"String" &&
  checkType [.nilNode] chars!"Nil" &&
  checkType [.sumRoll []] chars!"SumRollResult") = true := by decide +kernel

/-- `TestNode_IsNil` (pkg/core/ast/node_test.go) -/
example : (
  checkIsNil [.command .dRollExpr none] false &&
  checkIsNil [.command .dRollComp none] false &&
  checkIsNil [.bRollList [none]] false &&
  checkIsNil [.command .bRollComp none] false &&
  checkIsNil [.rRollList [none] none] false &&
  checkIsNil [.uRollExpr none none] false &&
  checkIsNil [.command .uRollComp none] false &&
  checkIsNil [.command .calc none] false &&
  checkIsNil [.choice [none]] false &&
  checkIsNil [.unary none] false &&
  checkIsNil [.binary (.compare chars!"") none none] false &&
  checkIsNil [.binary .add none none] false &&
  checkIsNil [.binary .sub none none] false &&
  checkIsNil [.binary .mul none none] false &&
  checkIsNil [.binary (.div .up) none none] false &&
  checkIsNil [.binary (.div .round) none none] false &&
  checkIsNil [.binary (.div .down) none none] false &&
  checkIsNil [.binary .dRoll none none] false &&
  checkIsNil [.binary .bRoll none none] false &&
  checkIsNil [.binary .rRoll none none] false &&
  checkIsNil [.binary .random none none] false &&
  checkIsNil [.int 0] false &&
  checkIsNil [.string chars!""] false &&
  checkIsNil [.nilNode] true &&
  checkIsNil [.sumRoll []] false) = true := by decide +kernel

/-- `TestNode_IsPrimaryExpression` (pkg/core/ast/node_test.go) -/
example : (
  checkIsPrimary [.command .dRollExpr none] false &&
  checkIsPrimary [.command .dRollComp none] false &&
  checkIsPrimary [.bRollList [none]] false &&
  checkIsPrimary [.command .bRollComp none] false &&
  checkIsPrimary [.rRollList [none] none] false &&
  checkIsPrimary [.uRollExpr none none] false &&
  checkIsPrimary [.command .calc none] false &&
  checkIsPrimary [.choice [none]] false &&
  checkIsPrimary [.unary none] false &&
  checkIsPrimary [.binary (.compare chars!"") none none] false &&
  checkIsPrimary [.binary .add none none] false &&
  checkIsPrimary [.binary .sub none none] false &&
  checkIsPrimary [.binary .mul none none] false &&
  checkIsPrimary [.binary (.div .up) none none] false &&
  checkIsPrimary [.binary (.div .round) none none] false &&
  checkIsPrimary [.binary (.div .down) none none] false &&
  checkIsPrimary [.binary .dRoll none none] true &&
  checkIsPrimary [.binary .bRoll none none] true &&
  checkIsPrimary [.binary .rRoll none none] true &&
  checkIsPrimary [.binary .random none none] true &&
  checkIsPrimary [.int 0] true &&
  checkIsPrimary [.string chars!""] true &&
  checkIsPrimary [.nilNode] true &&
  checkIsPrimary [.sumRoll []] true) = true := by decide +kernel

/-- `TestNode_IsVariable` (pkg/core/ast/node_test.go) -/
example : (
  checkIsVariable [.nilNode] false &&
  checkIsVariable [.int 42] false &&
  checkIsVariable [.int 2, .int 6, .binary .dRoll (some 0) (some 1)] true &&
  checkIsVariable [.int 2, .int 6, .binary .bRoll (some 0) (some 1)] true &&
  checkIsVariable [.int 2, .int 6, .binary .rRoll (some 0) (some 1)] true &&
  checkIsVariable [.int 2, .int 6, .binary .uRoll (some 0) (some 1)] true &&
  checkIsVariable [.int 3, .int 5, .binary .random (some 0) (some 1)] true &&
  checkIsVariable [.int 1, .unary (some 0)] false &&
  checkIsVariable [.int 2, .int 6, .binary .dRoll (some 0) (some 1), .unary (some 2)] true &&
  checkIsVariable [.int 1, .int 2, .binary .add (some 0) (some 1)] false &&
  checkIsVariable [.int 2, .int 6, .binary .dRoll (some 0) (some 1), .int 1, .binary .add (some 2) (some 3)] true &&
  checkIsVariable [.int 1, .int 2, .int 6, .binary .dRoll (some 1) (some 2), .binary .add (some 0) (some 3)] true &&
  checkIsVariable [.int 2, .int 6, .binary .dRoll (some 0) (some 1), .int 3, .int 10, .binary .dRoll (some 3) (some 4), .binary .add (some 2) (some 5)] true &&
  checkIsVariable [.int 1, .int 2, .binary .add (some 0) (some 1), .command .calc (some 2)] false &&
  checkIsVariable [.int 2, .int 6, .binary .dRoll (some 0) (some 1), .int 1, .binary .add (some 2) (some 3), .command .dRollExpr (some 4)] true &&
  checkIsVariable [.int 2, .int 6, .binary .dRoll (some 0) (some 1), .int 7, .binary (.compare chars!">") (some 2) (some 3), .command .dRollComp (some 4)] true &&
  checkIsVariable [.int 2, .int 6, .binary .bRoll (some 0) (some 1), .bRollList [(some 2)]] true &&
  checkIsVariable [.int 2, .int 6, .binary .bRoll (some 0) (some 1), .bRollList [(some 2)], .int 7, .binary (.compare chars!">") (some 3) (some 4), .command .bRollComp (some 5)] true &&
  checkIsVariable [.int 2, .int 6, .binary .rRoll (some 0) (some 1), .nilNode, .rRollList [(some 2)] (some 3)] true &&
  checkIsVariable [.int 2, .int 6, .binary .rRoll (some 0) (some 1), .nilNode, .rRollList [(some 2)] (some 3), .int 3, .binary (.compare chars!">=") (some 4) (some 5), .command .rRollComp (some 6)] true &&
  checkIsVariable [.int 2, .int 6, .binary .uRoll (some 0) (some 1), .nilNode, .rRollList [(some 2)] (some 3), .uRollExpr (some 4) none] true &&
  checkIsVariable [.int 2, .int 6, .binary .uRoll (some 0) (some 1), .nilNode, .rRollList [(some 2)] (some 3), .int 1, .binary .add none (some 5), .uRollExpr (some 4) (some 6)] true &&
  checkIsVariable [.int 3, .int 6, .binary .uRoll (some 0) (some 1), .int 6, .rRollList [(some 2)] (some 3), .uRollExpr (some 4) none, .int 10, .binary (.compare chars!">=") (some 5) (some 6), .command .uRollComp (some 7)] true &&
  checkIsVariable [.int 2, .int 6, .binary .uRoll (some 0) (some 1), .nilNode, .rRollList [(some 2)] (some 3)] true &&
  checkIsVariable [.string chars!"hello"] false &&
  checkIsVariable [.string chars!"hello", .choice [(some 0)]] true) = true := by decide +kernel

/-- `TestExecuteBRollComp` (pkg/core/command/execute_b_roll_comp_test.go) -/
example : (
  checkExecuteQ chars!"2b6=3" chars!"DiceBot : (2B6=3) ＞ 3,4 ＞ 成功数1" [⟨3, 6⟩, ⟨4, 6⟩] &&
  checkExecuteQ chars!"2b6=3" chars!"DiceBot : (2B6=3) ＞ 2,1 ＞ 成功数0" [⟨2, 6⟩, ⟨1, 6⟩] &&
  checkExecuteQ chars!"2b6<>3" chars!"DiceBot : (2B6<>3) ＞ 3,4 ＞ 成功数1" [⟨3, 6⟩, ⟨4, 6⟩] &&
  checkExecuteQ chars!"2b6<>3" chars!"DiceBot : (2B6<>3) ＞ 2,1 ＞ 成功数2" [⟨2, 6⟩, ⟨1, 6⟩] &&
  checkExecuteQ chars!"2b6>3" chars!"DiceBot : (2B6>3) ＞ 3,4 ＞ 成功数1" [⟨3, 6⟩, ⟨4, 6⟩] &&
  checkExecuteQ chars!"2b6>3" chars!"DiceBot : (2B6>3) ＞ 2,1 ＞ 成功数0" [⟨2, 6⟩, ⟨1, 6⟩] &&
  checkExecuteQ chars!"2b6<3" chars!"DiceBot : (2B6<3) ＞ 3,4 ＞ 成功数0" [⟨3, 6⟩, ⟨4, 6⟩] &&
  checkExecuteQ chars!"2b6<3" chars!"DiceBot : (2B6<3) ＞ 2,1 ＞ 成功数2" [⟨2, 6⟩, ⟨1, 6⟩] &&
  checkExecuteQ chars!"2b6>=3" chars!"DiceBot : (2B6>=3) ＞ 3,4 ＞ 成功数2" [⟨3, 6⟩, ⟨4, 6⟩] &&
  checkExecuteQ chars!"2b6>=3" chars!"DiceBot : (2B6>=3) ＞ 2,1 ＞ 成功数0" [⟨2, 6⟩, ⟨1, 6⟩] &&
  checkExecuteQ chars!"2b6<=3" chars!"DiceBot : (2B6<=3) ＞ 3,4 ＞ 成功数1" [⟨3, 6⟩, ⟨4, 6⟩] &&
  checkExecuteQ chars!"2b6<=3" chars!"DiceBot : (2B6<=3) ＞ 2,1 ＞ 成功数2" [⟨2, 6⟩, ⟨1, 6⟩] &&
  checkExecuteQ chars!"2b6+4b10>3" chars!"DiceBot : (2B6+4B10>3) ＞ 3,4,9,7,1,5 ＞ 成功数4" [⟨3, 6⟩, ⟨4, 6⟩, ⟨9, 10⟩, ⟨7, 10⟩, ⟨1, 10⟩, ⟨5, 10⟩] &&
  checkExecuteQ chars!"2b6+4b10>3" chars!"DiceBot : (2B6+4B10>3) ＞ 3,2,5,7,1,3 ＞ 成功数2" [⟨3, 6⟩, ⟨2, 6⟩, ⟨5, 10⟩, ⟨7, 10⟩, ⟨1, 10⟩, ⟨3, 10⟩] &&
  checkExecuteQ chars!"2b6+3b8+5b12<5" chars!"DiceBot : (2B6+3B8+5B12<5) ＞ 5,2,7,3,4,11,9,8,12,6 ＞ 成功数3" [⟨5, 6⟩, ⟨2, 6⟩, ⟨7, 8⟩, ⟨3, 8⟩, ⟨4, 8⟩, ⟨11, 12⟩, ⟨9, 12⟩, ⟨8, 12⟩, ⟨12, 12⟩, ⟨6, 12⟩] &&
  checkExecuteQ chars!"2b6+3b8+5b12<5" chars!"DiceBot : (2B6+3B8+5B12<5) ＞ 3,4,7,1,5,11,3,4,10,9 ＞ 成功数5" [⟨3, 6⟩, ⟨4, 6⟩, ⟨7, 8⟩, ⟨1, 8⟩, ⟨5, 8⟩, ⟨11, 12⟩, ⟨3, 12⟩, ⟨4, 12⟩, ⟨10, 12⟩, ⟨9, 12⟩] &&
  checkExecuteQ chars!"[1...3]b6>3" chars!"DiceBot : (1B6>3) ＞ 5 ＞ 成功数1" [⟨1, 3⟩, ⟨5, 6⟩] &&
  checkExecuteQ chars!"[1...3]b6>3" chars!"DiceBot : (3B6>3) ＞ 2,4,6 ＞ 成功数2" [⟨3, 3⟩, ⟨2, 6⟩, ⟨4, 6⟩, ⟨6, 6⟩] &&
  checkExecuteQ chars!"2b[4...6]>3" chars!"DiceBot : (2B4>3) ＞ 3,4 ＞ 成功数1" [⟨1, 3⟩, ⟨3, 4⟩, ⟨4, 4⟩] &&
  checkExecuteQ chars!"2b[4...6]>3" chars!"DiceBot : (2B5>3) ＞ 5,1 ＞ 成功数1" [⟨2, 3⟩, ⟨5, 5⟩, ⟨1, 5⟩] &&
  checkExecuteQ chars!"[1...3]b[4...6]>3" chars!"DiceBot : (3B6>3) ＞ 6,4,3 ＞ 成功数2" [⟨3, 3⟩, ⟨3, 3⟩, ⟨6, 6⟩, ⟨4, 6⟩, ⟨3, 6⟩] &&
  checkExecuteQ chars!"(1*2)b6>3" chars!"DiceBot : (2B6>3) ＞ 3,4 ＞ 成功数1" [⟨3, 6⟩, ⟨4, 6⟩] &&
  checkExecuteQ chars!"([1...3]+1)b6>3" chars!"DiceBot : (3B6>3) ＞ 2,4,3 ＞ 成功数1" [⟨2, 3⟩, ⟨2, 6⟩, ⟨4, 6⟩, ⟨3, 6⟩] &&
  checkExecuteQ chars!"2b(2+4)>3" chars!"DiceBot : (2B6>3) ＞ 3,4 ＞ 成功数1" [⟨3, 6⟩, ⟨4, 6⟩] &&
  checkExecuteQ chars!"2b([3...5]+1)>3" chars!"DiceBot : (2B5>3) ＞ 1,3 ＞ 成功数0" [⟨2, 3⟩, ⟨1, 5⟩, ⟨3, 5⟩] &&
  checkExecuteQ chars!"(1*2)b(2+4)>3" chars!"DiceBot : (2B6>3) ＞ 4,3 ＞ 成功数1" [⟨4, 6⟩, ⟨3, 6⟩] &&
  checkExecuteQ chars!"2b6>=1+3" chars!"DiceBot : (2B6>=4) ＞ 4,3 ＞ 成功数1" [⟨4, 6⟩, ⟨3, 6⟩]) = true := by decide +kernel

/-- `TestExecuteBRollList` (pkg/core/command/execute_b_roll_list_test.go) -/
example : (
  checkExecuteQ chars!"2b6" chars!"DiceBot : (2B6) ＞ 3,4" [⟨3, 6⟩, ⟨4, 6⟩] &&
  checkExecuteQ chars!"2b6" chars!"DiceBot : (2B6) ＞ 6,1" [⟨6, 6⟩, ⟨1, 6⟩] &&
  checkExecuteQ chars!"[1...3]b6" chars!"DiceBot : (1B6) ＞ 5" [⟨1, 3⟩, ⟨5, 6⟩] &&
  checkExecuteQ chars!"[1...3]b6" chars!"DiceBot : (3B6) ＞ 2,4,6" [⟨3, 3⟩, ⟨2, 6⟩, ⟨4, 6⟩, ⟨6, 6⟩] &&
  checkExecuteQ chars!"2b[4...6]" chars!"DiceBot : (2B4) ＞ 3,4" [⟨1, 3⟩, ⟨3, 4⟩, ⟨4, 4⟩] &&
  checkExecuteQ chars!"2b[4...6]" chars!"DiceBot : (2B5) ＞ 5,1" [⟨2, 3⟩, ⟨5, 5⟩, ⟨1, 5⟩] &&
  checkExecuteQ chars!"[1...3]b[4...6]" chars!"DiceBot : (3B6) ＞ 6,4,3" [⟨3, 3⟩, ⟨3, 3⟩, ⟨6, 6⟩, ⟨4, 6⟩, ⟨3, 6⟩] &&
  checkExecuteQ chars!"(1*2)b6" chars!"DiceBot : (2B6) ＞ 3,4" [⟨3, 6⟩, ⟨4, 6⟩] &&
  checkExecuteQ chars!"([1...3]+1)b6" chars!"DiceBot : (3B6) ＞ 2,4,3" [⟨2, 3⟩, ⟨2, 6⟩, ⟨4, 6⟩, ⟨3, 6⟩] &&
  checkExecuteQ chars!"2b(2+4)" chars!"DiceBot : (2B6) ＞ 3,4" [⟨3, 6⟩, ⟨4, 6⟩] &&
  checkExecuteQ chars!"2b([3...5]+1)" chars!"DiceBot : (2B5) ＞ 1,3" [⟨2, 3⟩, ⟨1, 5⟩, ⟨3, 5⟩] &&
  checkExecuteQ chars!"[1...5]b(2*3)" chars!"DiceBot : (5B6) ＞ 3,5,1,5,6" [⟨5, 5⟩, ⟨3, 6⟩, ⟨5, 6⟩, ⟨1, 6⟩, ⟨5, 6⟩, ⟨6, 6⟩] &&
  checkExecuteQ chars!"(1+1)b[1...5]" chars!"DiceBot : (2B4) ＞ 3,4" [⟨4, 5⟩, ⟨3, 4⟩, ⟨4, 4⟩] &&
  checkExecuteQ chars!"(1*2)b(2+4)" chars!"DiceBot : (2B6) ＞ 4,3" [⟨4, 6⟩, ⟨3, 6⟩] &&
  checkExecuteQ chars!"2b6+4b10" chars!"DiceBot : (2B6+4B10) ＞ 1,3,1,10,3,1" [⟨1, 6⟩, ⟨3, 6⟩, ⟨1, 10⟩, ⟨10, 10⟩, ⟨3, 10⟩, ⟨1, 10⟩] &&
  checkExecuteQ chars!"2b6+4b10" chars!"DiceBot : (2B6+4B10) ＞ 3,2,5,7,1,3" [⟨3, 6⟩, ⟨2, 6⟩, ⟨5, 10⟩, ⟨7, 10⟩, ⟨1, 10⟩, ⟨3, 10⟩] &&
  checkExecuteQ chars!"2b6+3b8+5b12" chars!"DiceBot : (2B6+3B8+5B12) ＞ 3,4,7,1,5,11,3,4,10,9" [⟨3, 6⟩, ⟨4, 6⟩, ⟨7, 8⟩, ⟨1, 8⟩, ⟨5, 8⟩, ⟨11, 12⟩, ⟨3, 12⟩, ⟨4, 12⟩, ⟨10, 12⟩, ⟨9, 12⟩]) = true := by decide +kernel

/-- `TestExecuteCalc` (pkg/core/command/execute_calc_test.go) -/
example : (
  checkExecuteC chars!"C(5)" chars!"DiceBot : C(5) ＞ 計算結果 ＞ 5" &&
  checkExecuteC chars!"C(10)" chars!"DiceBot : C(10) ＞ 計算結果 ＞ 10" &&
  checkExecuteC chars!"C(42)" chars!"DiceBot : C(42) ＞ 計算結果 ＞ 42" &&
  checkExecuteC chars!"C(65535)" chars!"DiceBot : C(65535) ＞ 計算結果 ＞ 65535" &&
  checkExecuteC chars!"C(-5)" chars!"DiceBot : C(-5) ＞ 計算結果 ＞ -5" &&
  checkExecuteC chars!"C(-10)" chars!"DiceBot : C(-10) ＞ 計算結果 ＞ -10" &&
  checkExecuteC chars!"C(-42)" chars!"DiceBot : C(-42) ＞ 計算結果 ＞ -42" &&
  checkExecuteC chars!"C(-65535)" chars!"DiceBot : C(-65535) ＞ 計算結果 ＞ -65535" &&
  checkExecuteC chars!"C(+5)" chars!"DiceBot : C(5) ＞ 計算結果 ＞ 5" &&
  checkExecuteC chars!"C(+10)" chars!"DiceBot : C(10) ＞ 計算結果 ＞ 10" &&
  checkExecuteC chars!"C(+42)" chars!"DiceBot : C(42) ＞ 計算結果 ＞ 42" &&
  checkExecuteC chars!"C(+65535)" chars!"DiceBot : C(65535) ＞ 計算結果 ＞ 65535" &&
  checkExecuteC chars!"C(1+2)" chars!"DiceBot : C(1+2) ＞ 計算結果 ＞ 3" &&
  checkExecuteC chars!"C(1-2)" chars!"DiceBot : C(1-2) ＞ 計算結果 ＞ -1" &&
  checkExecuteC chars!"C(1*2)" chars!"DiceBot : C(1*2) ＞ 計算結果 ＞ 2" &&
  checkExecuteC chars!"C(1/2)" chars!"DiceBot : C(1/2) ＞ 計算結果 ＞ 0" &&
  checkExecuteC chars!"C(-1+2)" chars!"DiceBot : C(-1+2) ＞ 計算結果 ＞ 1" &&
  checkExecuteC chars!"C(+1+2)" chars!"DiceBot : C(1+2) ＞ 計算結果 ＞ 3" &&
  checkExecuteC chars!"C(1+2-3)" chars!"DiceBot : C(1+2-3) ＞ 計算結果 ＞ 0" &&
  checkExecuteC chars!"C(1*2+3)" chars!"DiceBot : C(1*2+3) ＞ 計算結果 ＞ 5" &&
  checkExecuteC chars!"C(1/2+3)" chars!"DiceBot : C(1/2+3) ＞ 計算結果 ＞ 3" &&
  checkExecuteC chars!"C(1+2*3)" chars!"DiceBot : C(1+2*3) ＞ 計算結果 ＞ 7" &&
  checkExecuteC chars!"C(1+2/3)" chars!"DiceBot : C(1+2/3) ＞ 計算結果 ＞ 1" &&
  checkExecuteC chars!"C(1+(2-3))" chars!"DiceBot : C(1+2-3) ＞ 計算結果 ＞ 0" &&
  checkExecuteC chars!"C((1+2)*3)" chars!"DiceBot : C((1+2)*3) ＞ 計算結果 ＞ 9" &&
  checkExecuteC chars!"C((1+2)/3)" chars!"DiceBot : C((1+2)/3) ＞ 計算結果 ＞ 1" &&
  checkExecuteC chars!"C(-(1+2))" chars!"DiceBot : C(-(1+2)) ＞ 計算結果 ＞ -3" &&
  checkExecuteC chars!"C(+(1+2))" chars!"DiceBot : C(1+2) ＞ 計算結果 ＞ 3" &&
  checkExecuteC chars!"C(1+50/3-2)" chars!"DiceBot : C(1+50/3-2) ＞ 計算結果 ＞ 15" &&
  checkExecuteC chars!"C(1+50/3u-2)" chars!"DiceBot : C(1+50/3U-2) ＞ 計算結果 ＞ 16" &&
  checkExecuteC chars!"C(1+50/3r-2)" chars!"DiceBot : C(1+50/3R-2) ＞ 計算結果 ＞ 16" &&
  checkExecuteC chars!"C(1+100/3-2)" chars!"DiceBot : C(1+100/3-2) ＞ 計算結果 ＞ 32" &&
  checkExecuteC chars!"C(1+100/3u-2)" chars!"DiceBot : C(1+100/3U-2) ＞ 計算結果 ＞ 33" &&
  checkExecuteC chars!"C(1+100/3r-2)" chars!"DiceBot : C(1+100/3R-2) ＞ 計算結果 ＞ 32") = true := by decide +kernel

/-- `TestExecuteChoice` (pkg/core/command/execute_choice_test.go) -/
example : (
  checkExecuteQ chars!"choice[A,B,C,D]どれにしよう" chars!"DiceBot : (CHOICE[A,B,C,D]) ＞ A" [⟨1, 4⟩] &&
  checkExecuteQ chars!"choice[A,B,C,D]どれにしよう" chars!"DiceBot : (CHOICE[A,B,C,D]) ＞ B" [⟨2, 4⟩] &&
  checkExecuteQ chars!"choice[A,B,C,D]どれにしよう" chars!"DiceBot : (CHOICE[A,B,C,D]) ＞ C" [⟨3, 4⟩] &&
  checkExecuteQ chars!"choice[A,B,C,D]どれにしよう" chars!"DiceBot : (CHOICE[A,B,C,D]) ＞ D" [⟨4, 4⟩] &&
  checkExecuteQ chars!"CHOICE[Call of Cthulhu, Sword World, Double Cross]" chars!"DiceBot : (CHOICE[Call of Cthulhu,Sword World,Double Cross]) ＞ Call of Cthulhu" [⟨1, 3⟩] &&
  checkExecuteQ chars!"CHOICE[Call of Cthulhu, Sword World, Double Cross]" chars!"DiceBot : (CHOICE[Call of Cthulhu,Sword World,Double Cross]) ＞ Sword World" [⟨2, 3⟩] &&
  checkExecuteQ chars!"CHOICE[Call of Cthulhu, Sword World, Double Cross]" chars!"DiceBot : (CHOICE[Call of Cthulhu,Sword World,Double Cross]) ＞ Double Cross" [⟨3, 3⟩] &&
  checkExecuteQ chars!"CHOICE[日本語, でも,　だいじょうぶ]" chars!"DiceBot : (CHOICE[日本語,でも,だいじょうぶ]) ＞ 日本語" [⟨1, 3⟩] &&
  checkExecuteQ chars!"CHOICE[日本語, でも,　だいじょうぶ]" chars!"DiceBot : (CHOICE[日本語,でも,だいじょうぶ]) ＞ でも" [⟨2, 3⟩] &&
  checkExecuteQ chars!"CHOICE[日本語, でも,　だいじょうぶ]" chars!"DiceBot : (CHOICE[日本語,でも,だいじょうぶ]) ＞ だいじょうぶ" [⟨3, 3⟩] &&
  checkExecuteQ chars!"choice[1+2, (3*4), 5d6]" chars!"DiceBot : (CHOICE[1+2,(3*4),5d6]) ＞ 1+2" [⟨1, 3⟩] &&
  checkExecuteQ chars!"choice[1+2, (3*4), 5d6]" chars!"DiceBot : (CHOICE[1+2,(3*4),5d6]) ＞ (3*4)" [⟨2, 3⟩] &&
  checkExecuteQ chars!"choice[1+2, (3*4), 5d6]" chars!"DiceBot : (CHOICE[1+2,(3*4),5d6]) ＞ 5d6" [⟨3, 3⟩]) = true := by decide +kernel

/-- `TestExecuteDRollComp` (pkg/core/command/execute_d_roll_comp_test.go) -/
example : (
  checkExecute chars!"2D6=7" chars!"DiceBot : (2D6=7) ＞ 7[3,4] ＞ 7 ＞ 成功" .success [⟨3, 6⟩, ⟨4, 6⟩] &&
  checkExecute chars!"2D6=7" chars!"DiceBot : (2D6=7) ＞ 6[3,3] ＞ 6 ＞ 失敗" .failure [⟨3, 6⟩, ⟨3, 6⟩] &&
  checkExecute chars!"2D6=7" chars!"DiceBot : (2D6=7) ＞ 6[3,3] ＞ 6 ＞ 失敗" .failure [⟨3, 6⟩, ⟨3, 6⟩] &&
  checkExecute chars!"2D6+1=3+4" chars!"DiceBot : (2D6+1=7) ＞ 6[2,4]+1 ＞ 7 ＞ 成功" .success [⟨2, 6⟩, ⟨4, 6⟩] &&
  checkExecute chars!"2D6+1=3+4" chars!"DiceBot : (2D6+1=7) ＞ 7[3,4]+1 ＞ 8 ＞ 失敗" .failure [⟨3, 6⟩, ⟨4, 6⟩] &&
  checkExecute chars!"2D6<>7" chars!"DiceBot : (2D6<>7) ＞ 7[3,4] ＞ 7 ＞ 失敗" .failure [⟨3, 6⟩, ⟨4, 6⟩] &&
  checkExecute chars!"2D6<>7" chars!"DiceBot : (2D6<>7) ＞ 6[3,3] ＞ 6 ＞ 成功" .success [⟨3, 6⟩, ⟨3, 6⟩] &&
  checkExecute chars!"2D6<>7" chars!"DiceBot : (2D6<>7) ＞ 8[3,5] ＞ 8 ＞ 成功" .success [⟨3, 6⟩, ⟨5, 6⟩] &&
  checkExecute chars!"2D6<7" chars!"DiceBot : (2D6<7) ＞ 6[3,3] ＞ 6 ＞ 成功" .success [⟨3, 6⟩, ⟨3, 6⟩] &&
  checkExecute chars!"2D6<7" chars!"DiceBot : (2D6<7) ＞ 7[3,4] ＞ 7 ＞ 失敗" .failure [⟨3, 6⟩, ⟨4, 6⟩] &&
  checkExecute chars!"2D6>7" chars!"DiceBot : (2D6>7) ＞ 8[3,5] ＞ 8 ＞ 成功" .success [⟨3, 6⟩, ⟨5, 6⟩] &&
  checkExecute chars!"2D6>7" chars!"DiceBot : (2D6>7) ＞ 7[3,4] ＞ 7 ＞ 失敗" .failure [⟨3, 6⟩, ⟨4, 6⟩] &&
  checkExecute chars!"2D6<=7" chars!"DiceBot : (2D6<=7) ＞ 7[3,4] ＞ 7 ＞ 成功" .success [⟨3, 6⟩, ⟨4, 6⟩] &&
  checkExecute chars!"2D6<=7" chars!"DiceBot : (2D6<=7) ＞ 8[3,5] ＞ 8 ＞ 失敗" .failure [⟨3, 6⟩, ⟨5, 6⟩] &&
  checkExecute chars!"2D6>=7" chars!"DiceBot : (2D6>=7) ＞ 7[3,4] ＞ 7 ＞ 成功" .success [⟨3, 6⟩, ⟨4, 6⟩] &&
  checkExecute chars!"2D6>=7" chars!"DiceBot : (2D6>=7) ＞ 6[3,3] ＞ 6 ＞ 失敗" .failure [⟨3, 6⟩, ⟨3, 6⟩] &&
  checkExecute chars!"-2D6<-7" chars!"DiceBot : (-2D6<-7) ＞ -8[3,5] ＞ -8 ＞ 成功" .success [⟨3, 6⟩, ⟨5, 6⟩] &&
  checkExecute chars!"-2D6<-7" chars!"DiceBot : (-2D6<-7) ＞ -7[3,4] ＞ -7 ＞ 失敗" .failure [⟨3, 6⟩, ⟨4, 6⟩] &&
  checkExecute chars!"-2D6>-7" chars!"DiceBot : (-2D6>-7) ＞ -6[3,3] ＞ -6 ＞ 成功" .success [⟨3, 6⟩, ⟨3, 6⟩] &&
  checkExecute chars!"-2D6>-7" chars!"DiceBot : (-2D6>-7) ＞ -7[3,4] ＞ -7 ＞ 失敗" .failure [⟨3, 6⟩, ⟨4, 6⟩] &&
  checkExecute chars!"-2D6<=-7" chars!"DiceBot : (-2D6<=-7) ＞ -7[3,4] ＞ -7 ＞ 成功" .success [⟨3, 6⟩, ⟨4, 6⟩] &&
  checkExecute chars!"-2D6<=-7" chars!"DiceBot : (-2D6<=-7) ＞ -6[3,3] ＞ -6 ＞ 失敗" .failure [⟨3, 6⟩, ⟨3, 6⟩] &&
  checkExecute chars!"-2D6>=-7" chars!"DiceBot : (-2D6>=-7) ＞ -7[3,4] ＞ -7 ＞ 成功" .success [⟨3, 6⟩, ⟨4, 6⟩] &&
  checkExecute chars!"-2D6>=-7" chars!"DiceBot : (-2D6>=-7) ＞ -8[3,5] ＞ -8 ＞ 失敗" .failure [⟨3, 6⟩, ⟨5, 6⟩]) = true := by decide +kernel

/-- `TestExecuteDRollExpr` (pkg/core/command/execute_d_roll_expr_test.go) -/
example : (
  checkExecuteQ chars!"2D6" chars!"DiceBot : (2D6) ＞ 8[5,3] ＞ 8" [⟨5, 6⟩, ⟨3, 6⟩] &&
  checkExecuteQ chars!"2D4" chars!"DiceBot : (2D4) ＞ 3[1,2] ＞ 3" [⟨1, 4⟩, ⟨2, 4⟩] &&
  checkExecuteQ chars!"2D6+1" chars!"DiceBot : (2D6+1) ＞ 8[2,6]+1 ＞ 9" [⟨2, 6⟩, ⟨6, 6⟩] &&
  checkExecuteQ chars!"1+2D6" chars!"DiceBot : (1+2D6) ＞ 1+7[4,3] ＞ 8" [⟨4, 6⟩, ⟨3, 6⟩] &&
  checkExecuteQ chars!"2d6+1-1-2-3-4" chars!"DiceBot : (2D6+1-1-2-3-4) ＞ 7[1,6]+1-1-2-3-4 ＞ -2" [⟨1, 6⟩, ⟨6, 6⟩] &&
  checkExecuteQ chars!"2D6+4D10" chars!"DiceBot : (2D6+4D10) ＞ 9[5,4]+21[1,9,7,4] ＞ 30" [⟨5, 6⟩, ⟨4, 6⟩, ⟨1, 10⟩, ⟨9, 10⟩, ⟨7, 10⟩, ⟨4, 10⟩] &&
  checkExecuteQ chars!"2d6*3" chars!"DiceBot : (2D6*3) ＞ 6[2,4]*3 ＞ 18" [⟨2, 6⟩, ⟨4, 6⟩] &&
  checkExecuteQ chars!"2d10+3-4" chars!"DiceBot : (2D10+3-4) ＞ 8[3,5]+3-4 ＞ 7" [⟨3, 10⟩, ⟨5, 10⟩] &&
  checkExecuteQ chars!"2d10+3*4" chars!"DiceBot : (2D10+3*4) ＞ 8[3,5]+3*4 ＞ 20" [⟨3, 10⟩, ⟨5, 10⟩] &&
  checkExecuteQ chars!"2d6*3-1d6+1" chars!"DiceBot : (2D6*3-1D6+1) ＞ 8[6,2]*3-3[3]+1 ＞ 22" [⟨6, 6⟩, ⟨2, 6⟩, ⟨3, 6⟩] &&
  checkExecuteQ chars!"(2+3)d6-1+3d6+2" chars!"DiceBot : (5D6-1+3D6+2) ＞ 17[2,3,1,5,6]-1+13[5,4,4]+2 ＞ 31" [⟨2, 6⟩, ⟨3, 6⟩, ⟨1, 6⟩, ⟨5, 6⟩, ⟨6, 6⟩, ⟨5, 6⟩, ⟨4, 6⟩, ⟨4, 6⟩] &&
  checkExecuteQ chars!"(2*3-4)d6-1d4+1" chars!"DiceBot : (2D6-1D4+1) ＞ 11[6,5]-2[2]+1 ＞ 10" [⟨6, 6⟩, ⟨5, 6⟩, ⟨2, 4⟩] &&
  checkExecuteQ chars!"((2+3)*4/3)d6*2+5" chars!"DiceBot : (6D6*2+5) ＞ 24[6,5,6,2,1,4]*2+5 ＞ 53" [⟨6, 6⟩, ⟨5, 6⟩, ⟨6, 6⟩, ⟨2, 6⟩, ⟨1, 6⟩, ⟨4, 6⟩] &&
  checkExecuteQ chars!"1D6/2" chars!"DiceBot : (1D6/2) ＞ 1[1]/2 ＞ 0" [⟨1, 6⟩] &&
  checkExecuteQ chars!"3D6/2" chars!"DiceBot : (3D6/2) ＞ 7[1,2,4]/2 ＞ 3" [⟨1, 6⟩, ⟨2, 6⟩, ⟨4, 6⟩] &&
  checkExecuteQ chars!"3D6/2+1D6" chars!"DiceBot : (3D6/2+1D6) ＞ 7[1,2,4]/2+5[5] ＞ 8" [⟨1, 6⟩, ⟨2, 6⟩, ⟨4, 6⟩, ⟨5, 6⟩] &&
  checkExecuteQ chars!"3D6+1D6/2" chars!"DiceBot : (3D6+1D6/2) ＞ 7[1,2,4]+5[5]/2 ＞ 9" [⟨1, 6⟩, ⟨2, 6⟩, ⟨4, 6⟩, ⟨5, 6⟩] &&
  checkExecuteQ chars!"3D6+1D6/2U" chars!"DiceBot : (3D6+1D6/2U) ＞ 7[1,2,4]+5[5]/2U ＞ 10" [⟨1, 6⟩, ⟨2, 6⟩, ⟨4, 6⟩, ⟨5, 6⟩] &&
  checkExecuteQ chars!"5D6/10" chars!"DiceBot : (5D6/10) ＞ 29[6,6,6,6,5]/10 ＞ 2" [⟨6, 6⟩, ⟨6, 6⟩, ⟨6, 6⟩, ⟨6, 6⟩, ⟨5, 6⟩] &&
  checkExecuteQ chars!"3D6/2U" chars!"DiceBot : (3D6/2U) ＞ 7[1,2,4]/2U ＞ 4" [⟨1, 6⟩, ⟨2, 6⟩, ⟨4, 6⟩] &&
  checkExecuteQ chars!"5D6/10u" chars!"DiceBot : (5D6/10U) ＞ 21[6,6,6,2,1]/10U ＞ 3" [⟨6, 6⟩, ⟨6, 6⟩, ⟨6, 6⟩, ⟨2, 6⟩, ⟨1, 6⟩] &&
  checkExecuteQ chars!"1D100/10R" chars!"DiceBot : (1D100/10R) ＞ 55[55]/10R ＞ 6" [⟨55, 100⟩] &&
  checkExecuteQ chars!"1D100/10r" chars!"DiceBot : (1D100/10R) ＞ 54[54]/10R ＞ 5" [⟨54, 100⟩] &&
  checkExecuteQ chars!"[1...5]D6" chars!"DiceBot : (4D6) ＞ 15[5,3,4,3] ＞ 15" [⟨4, 5⟩, ⟨5, 6⟩, ⟨3, 6⟩, ⟨4, 6⟩, ⟨3, 6⟩] &&
  checkExecuteQ chars!"([2...4]+2)D10" chars!"DiceBot : (6D10) ＞ 29[8,7,2,1,6,5] ＞ 29" [⟨3, 3⟩, ⟨8, 10⟩, ⟨7, 10⟩, ⟨2, 10⟩, ⟨1, 10⟩, ⟨6, 10⟩, ⟨5, 10⟩] &&
  checkExecuteQ chars!"[(2+3)...8]D6" chars!"DiceBot : (5D6) ＞ 14[1,2,4,6,1] ＞ 14" [⟨1, 4⟩, ⟨1, 6⟩, ⟨2, 6⟩, ⟨4, 6⟩, ⟨6, 6⟩, ⟨1, 6⟩] &&
  checkExecuteQ chars!"[5...(7+1)]D6" chars!"DiceBot : (5D6) ＞ 14[1,2,4,6,1] ＞ 14" [⟨1, 4⟩, ⟨1, 6⟩, ⟨2, 6⟩, ⟨4, 6⟩, ⟨6, 6⟩, ⟨1, 6⟩] &&
  checkExecuteQ chars!"2d[1...5]" chars!"DiceBot : (2D2) ＞ 3[1,2] ＞ 3" [⟨2, 5⟩, ⟨1, 2⟩, ⟨2, 2⟩] &&
  checkExecuteQ chars!"2d([2...4]+2)" chars!"DiceBot : (2D5) ＞ 7[4,3] ＞ 7" [⟨2, 3⟩, ⟨4, 5⟩, ⟨3, 5⟩] &&
  checkExecuteQ chars!"2d[(2+3)...8]" chars!"DiceBot : (2D8) ＞ 10[3,7] ＞ 10" [⟨4, 4⟩, ⟨3, 8⟩, ⟨7, 8⟩] &&
  checkExecuteQ chars!"2d[5...(7+1)]" chars!"DiceBot : (2D8) ＞ 10[3,7] ＞ 10" [⟨4, 4⟩, ⟨3, 8⟩, ⟨7, 8⟩] &&
  checkExecuteQ chars!"[1...5]d(2*3)" chars!"DiceBot : (5D6) ＞ 20[3,5,1,5,6] ＞ 20" [⟨5, 5⟩, ⟨3, 6⟩, ⟨5, 6⟩, ⟨1, 6⟩, ⟨5, 6⟩, ⟨6, 6⟩] &&
  checkExecuteQ chars!"(1+1)d[1...5]" chars!"DiceBot : (2D4) ＞ 7[3,4] ＞ 7" [⟨4, 5⟩, ⟨3, 4⟩, ⟨4, 4⟩] &&
  checkExecuteQ chars!"([1...4]+1)d([2...4]+2)-1" chars!"DiceBot : (3D6-1) ＞ 14[5,5,4]-1 ＞ 13" [⟨2, 4⟩, ⟨3, 3⟩, ⟨5, 6⟩, ⟨5, 6⟩, ⟨4, 6⟩]) = true := by decide +kernel

/-- `TestExecuteRRollComp` (pkg/core/command/execute_r_roll_comp_test.go) -/
example : (
  checkExecuteQ chars!"2r6>=1" chars!"DiceBot : (2R6[1]>=1) ＞ 振り足し目標値として2以上の整数を指定してください" [] &&
  checkExecuteQ chars!"2r6=3" chars!"DiceBot : (2R6[3]=3) ＞ 3,1 + 2 ＞ 成功数1" [⟨3, 6⟩, ⟨1, 6⟩, ⟨2, 6⟩] &&
  checkExecuteQ chars!"2r6=3" chars!"DiceBot : (2R6[3]=3) ＞ 6,1 + 3 + 1 ＞ 成功数1" [⟨6, 6⟩, ⟨1, 6⟩, ⟨3, 6⟩, ⟨1, 6⟩] &&
  checkExecuteQ chars!"2R6<>3" chars!"DiceBot : (2R6[3]<>3) ＞ 3,1 + 2 ＞ 成功数2" [⟨3, 6⟩, ⟨1, 6⟩, ⟨2, 6⟩] &&
  checkExecuteQ chars!"2R6<>3" chars!"DiceBot : (2R6[3]<>3) ＞ 6,1 + 3 + 1 ＞ 成功数3" [⟨6, 6⟩, ⟨1, 6⟩, ⟨3, 6⟩, ⟨1, 6⟩] &&
  checkExecuteQ chars!"2R6>3" chars!"DiceBot : (2R6[3]>3) ＞ 3,1 + 2 ＞ 成功数0" [⟨3, 6⟩, ⟨1, 6⟩, ⟨2, 6⟩] &&
  checkExecuteQ chars!"2R6>3" chars!"DiceBot : (2R6[3]>3) ＞ 6,1 + 3 + 1 ＞ 成功数1" [⟨6, 6⟩, ⟨1, 6⟩, ⟨3, 6⟩, ⟨1, 6⟩] &&
  checkExecuteQ chars!"2R6<3" chars!"DiceBot : (2R6[3]<3) ＞ 3,1 + 2 ＞ 成功数2" [⟨3, 6⟩, ⟨1, 6⟩, ⟨2, 6⟩] &&
  checkExecuteQ chars!"2R6<3" chars!"DiceBot : (2R6[3]<3) ＞ 6,1 + 3 + 1 ＞ 成功数2" [⟨6, 6⟩, ⟨1, 6⟩, ⟨3, 6⟩, ⟨1, 6⟩] &&
  checkExecuteQ chars!"2R6>=3" chars!"DiceBot : (2R6[3]>=3) ＞ 3,1 + 2 ＞ 成功数1" [⟨3, 6⟩, ⟨1, 6⟩, ⟨2, 6⟩] &&
  checkExecuteQ chars!"2R6>=3" chars!"DiceBot : (2R6[3]>=3) ＞ 6,1 + 3 + 1 ＞ 成功数2" [⟨6, 6⟩, ⟨1, 6⟩, ⟨3, 6⟩, ⟨1, 6⟩] &&
  checkExecuteQ chars!"2R6<=3" chars!"DiceBot : (2R6[3]<=3) ＞ 3,1 + 2 ＞ 成功数3" [⟨3, 6⟩, ⟨1, 6⟩, ⟨2, 6⟩] &&
  checkExecuteQ chars!"2R6<=3" chars!"DiceBot : (2R6[3]<=3) ＞ 6,1 + 3 + 1 ＞ 成功数3" [⟨6, 6⟩, ⟨1, 6⟩, ⟨3, 6⟩, ⟨1, 6⟩] &&
  checkExecuteQ chars!"2R6[3]>=4" chars!"DiceBot : (2R6[3]>=4) ＞ 6,1 + 3 + 1 ＞ 成功数1" [⟨6, 6⟩, ⟨1, 6⟩, ⟨3, 6⟩, ⟨1, 6⟩] &&
  checkExecuteQ chars!"2R4+2R6>=4" chars!"DiceBot : (2R4+2R6[4]>=4) ＞ 4,3 + 3,5 + 1 + 2 ＞ 成功数2" [⟨4, 4⟩, ⟨3, 4⟩, ⟨3, 6⟩, ⟨5, 6⟩, ⟨1, 4⟩, ⟨2, 6⟩]) = true := by decide +kernel

/-- `TestExecuteRRollList` (pkg/core/command/execute_r_roll_list_test.go) -/
example : (
  checkExecuteQ chars!"2R6" chars!"DiceBot : (2R6) ＞ 2R6>=5 あるいは 2R6[5] のように振り足し目標値を指定してください" [] &&
  checkExecuteQ chars!"2r6[1]" chars!"DiceBot : (2R6[1]) ＞ 振り足し目標値として2以上の整数を指定してください" [] &&
  checkExecuteQ chars!"2R6[3]" chars!"DiceBot : (2R6[3]) ＞ 3,1 + 2" [⟨3, 6⟩, ⟨1, 6⟩, ⟨2, 6⟩] &&
  checkExecuteQ chars!"2R6[3]" chars!"DiceBot : (2R6[3]) ＞ 6,1 + 3 + 1" [⟨6, 6⟩, ⟨1, 6⟩, ⟨3, 6⟩, ⟨1, 6⟩] &&
  checkExecuteQ chars!"12R6[6]" chars!"DiceBot : (12R6[6]) ＞ 4,1,5,4,3,2,5,1,6,3,2,5 + 5" [⟨4, 6⟩, ⟨1, 6⟩, ⟨5, 6⟩, ⟨4, 6⟩, ⟨3, 6⟩, ⟨2, 6⟩, ⟨5, 6⟩, ⟨1, 6⟩, ⟨6, 6⟩, ⟨3, 6⟩, ⟨2, 6⟩, ⟨5, 6⟩, ⟨5, 6⟩] &&
  checkExecuteQ chars!"12R6[6]" chars!"DiceBot : (12R6[6]) ＞ 2,4,4,5,4,1,2,6,6,6,1,4 + 6,4,6 + 3,4" [⟨2, 6⟩, ⟨4, 6⟩, ⟨4, 6⟩, ⟨5, 6⟩, ⟨4, 6⟩, ⟨1, 6⟩, ⟨2, 6⟩, ⟨6, 6⟩, ⟨6, 6⟩, ⟨6, 6⟩, ⟨1, 6⟩, ⟨4, 6⟩, ⟨6, 6⟩, ⟨4, 6⟩, ⟨6, 6⟩, ⟨3, 6⟩, ⟨4, 6⟩] &&
  checkExecuteQ chars!"12R6[6]" chars!"DiceBot : (12R6[6]) ＞ 2,5,4,5,3,1,3,4,2,2,4,5" [⟨2, 6⟩, ⟨5, 6⟩, ⟨4, 6⟩, ⟨5, 6⟩, ⟨3, 6⟩, ⟨1, 6⟩, ⟨3, 6⟩, ⟨4, 6⟩, ⟨2, 6⟩, ⟨2, 6⟩, ⟨4, 6⟩, ⟨5, 6⟩] &&
  checkExecuteQ chars!"2R4+2R6[4]" chars!"DiceBot : (2R4+2R6[4]) ＞ 4,3 + 3,5 + 1 + 2" [⟨4, 4⟩, ⟨3, 4⟩, ⟨3, 6⟩, ⟨5, 6⟩, ⟨1, 4⟩, ⟨2, 6⟩]) = true := by decide +kernel

/-- `TestExecuteURollComp` (pkg/core/command/execute_u_roll_comp_test.go) -/
example : (
  checkExecuteQ chars!"3U6>=7" chars!"DiceBot : (3U6>=7) ＞ 2U6[5] のように振り足し目標値を指定してください" [] &&
  checkExecuteQ chars!"3U6[1]>=7" chars!"DiceBot : (3U6[1]>=7) ＞ 振り足し目標値として2以上の整数を指定してください" [] &&
  checkExecuteQ chars!"3u6[6]=7" chars!"DiceBot : (3U6[6]=7) ＞ 11[6,5],7[6,1],5 ＞ 成功数1" [⟨6, 6⟩, ⟨5, 6⟩, ⟨6, 6⟩, ⟨1, 6⟩, ⟨5, 6⟩] &&
  checkExecuteQ chars!"3u6[6]=7" chars!"DiceBot : (3U6[6]=7) ＞ 11[6,5],7[6,1],7[6,1] ＞ 成功数2" [⟨6, 6⟩, ⟨5, 6⟩, ⟨6, 6⟩, ⟨1, 6⟩, ⟨6, 6⟩, ⟨1, 6⟩] &&
  checkExecuteQ chars!"3u6[6]-4=7" chars!"DiceBot : (3U6[6]-4=7) ＞ 11[6,5],7[6,1],5-4 ＞ 成功数1" [⟨6, 6⟩, ⟨5, 6⟩, ⟨6, 6⟩, ⟨1, 6⟩, ⟨5, 6⟩] &&
  checkExecuteQ chars!"3u6[6]<>7" chars!"DiceBot : (3U6[6]<>7) ＞ 11[6,5],7[6,1],5 ＞ 成功数2" [⟨6, 6⟩, ⟨5, 6⟩, ⟨6, 6⟩, ⟨1, 6⟩, ⟨5, 6⟩] &&
  checkExecuteQ chars!"3u6[6]<>7" chars!"DiceBot : (3U6[6]<>7) ＞ 11[6,5],7[6,1],7[6,1] ＞ 成功数1" [⟨6, 6⟩, ⟨5, 6⟩, ⟨6, 6⟩, ⟨1, 6⟩, ⟨6, 6⟩, ⟨1, 6⟩] &&
  checkExecuteQ chars!"3u6[6]+1<>7" chars!"DiceBot : (3U6[6]+1<>7) ＞ 11[6,5],7[6,1],5+1 ＞ 成功数3" [⟨6, 6⟩, ⟨5, 6⟩, ⟨6, 6⟩, ⟨1, 6⟩, ⟨5, 6⟩] &&
  checkExecuteQ chars!"3u6[6]>6" chars!"DiceBot : (3U6[6]>6) ＞ 11[6,5],7[6,1],5 ＞ 成功数2" [⟨6, 6⟩, ⟨5, 6⟩, ⟨6, 6⟩, ⟨1, 6⟩, ⟨5, 6⟩] &&
  checkExecuteQ chars!"3u6[6]>6" chars!"DiceBot : (3U6[6]>6) ＞ 11[6,5],7[6,1],7[6,1] ＞ 成功数3" [⟨6, 6⟩, ⟨5, 6⟩, ⟨6, 6⟩, ⟨1, 6⟩, ⟨6, 6⟩, ⟨1, 6⟩] &&
  checkExecuteQ chars!"3u6[6]-1>6" chars!"DiceBot : (3U6[6]-1>6) ＞ 11[6,5],7[6,1],5-1 ＞ 成功数1" [⟨6, 6⟩, ⟨5, 6⟩, ⟨6, 6⟩, ⟨1, 6⟩, ⟨5, 6⟩] &&
  checkExecuteQ chars!"3u6[6]<6" chars!"DiceBot : (3U6[6]<6) ＞ 11[6,5],7[6,1],5 ＞ 成功数1" [⟨6, 6⟩, ⟨5, 6⟩, ⟨6, 6⟩, ⟨1, 6⟩, ⟨5, 6⟩] &&
  checkExecuteQ chars!"3u6[6]<6" chars!"DiceBot : (3U6[6]<6) ＞ 11[6,5],7[6,1],7[6,1] ＞ 成功数0" [⟨6, 6⟩, ⟨5, 6⟩, ⟨6, 6⟩, ⟨1, 6⟩, ⟨6, 6⟩, ⟨1, 6⟩] &&
  checkExecuteQ chars!"3u6[6]-2<6" chars!"DiceBot : (3U6[6]-2<6) ＞ 11[6,5],7[6,1],5-2 ＞ 成功数2" [⟨6, 6⟩, ⟨5, 6⟩, ⟨6, 6⟩, ⟨1, 6⟩, ⟨5, 6⟩] &&
  checkExecuteQ chars!"3u6[6]>=7" chars!"DiceBot : (3U6[6]>=7) ＞ 11[6,5],7[6,1],5 ＞ 成功数2" [⟨6, 6⟩, ⟨5, 6⟩, ⟨6, 6⟩, ⟨1, 6⟩, ⟨5, 6⟩] &&
  checkExecuteQ chars!"3u6[6]>=7" chars!"DiceBot : (3U6[6]>=7) ＞ 11[6,5],7[6,1],7[6,1] ＞ 成功数3" [⟨6, 6⟩, ⟨5, 6⟩, ⟨6, 6⟩, ⟨1, 6⟩, ⟨6, 6⟩, ⟨1, 6⟩] &&
  checkExecuteQ chars!"3u6[6]-1>=7" chars!"DiceBot : (3U6[6]-1>=7) ＞ 11[6,5],7[6,1],5-1 ＞ 成功数1" [⟨6, 6⟩, ⟨5, 6⟩, ⟨6, 6⟩, ⟨1, 6⟩, ⟨5, 6⟩] &&
  checkExecuteQ chars!"3u6[6]<=7" chars!"DiceBot : (3U6[6]<=7) ＞ 11[6,5],7[6,1],5 ＞ 成功数2" [⟨6, 6⟩, ⟨5, 6⟩, ⟨6, 6⟩, ⟨1, 6⟩, ⟨5, 6⟩] &&
  checkExecuteQ chars!"3u6[6]<=7" chars!"DiceBot : (3U6[6]<=7) ＞ 11[6,5],7[6,1],7[6,1] ＞ 成功数2" [⟨6, 6⟩, ⟨5, 6⟩, ⟨6, 6⟩, ⟨1, 6⟩, ⟨6, 6⟩, ⟨1, 6⟩] &&
  checkExecuteQ chars!"3u6[6]-4<=7" chars!"DiceBot : (3U6[6]-4<=7) ＞ 11[6,5],7[6,1],5-4 ＞ 成功数3" [⟨6, 6⟩, ⟨5, 6⟩, ⟨6, 6⟩, ⟨1, 6⟩, ⟨5, 6⟩] &&
  checkExecuteQ chars!"3u6+5u6[6]>=7" chars!"DiceBot : (3U6+5U6[6]>=7) ＞ 3,5,3,10[6,4],1,15[6,6,3],5,1 ＞ 成功数2" [⟨3, 6⟩, ⟨5, 6⟩, ⟨3, 6⟩, ⟨6, 6⟩, ⟨4, 6⟩, ⟨1, 6⟩, ⟨6, 6⟩, ⟨6, 6⟩, ⟨3, 6⟩, ⟨5, 6⟩, ⟨1, 6⟩] &&
  checkExecuteQ chars!"(5+6)u10[10]+5>=8" chars!"DiceBot : (11U10[10]+5>=8) ＞ 3,2,7,4,7,5,4,4,7,16[10,6],1+5 ＞ 成功数9" [⟨3, 10⟩, ⟨2, 10⟩, ⟨7, 10⟩, ⟨4, 10⟩, ⟨7, 10⟩, ⟨5, 10⟩, ⟨4, 10⟩, ⟨4, 10⟩, ⟨7, 10⟩, ⟨10, 10⟩, ⟨6, 10⟩, ⟨1, 10⟩]) = true := by decide +kernel

/-- `TestExecuteURollExpr` (pkg/core/command/execute_u_roll_expr_test.go) -/
example : (
  checkExecuteQ chars!"3u6" chars!"DiceBot : (3U6) ＞ 2U6[5] のように振り足し目標値を指定してください" [] &&
  checkExecuteQ chars!"3u6[1]" chars!"DiceBot : (3U6[1]) ＞ 振り足し目標値として2以上の整数を指定してください" [] &&
  checkExecuteQ chars!"3u6[6]" chars!"DiceBot : (3U6[6]) ＞ 11[6,5],7[6,1],7[6,1] ＞ 11/25 (最大/合計)" [⟨6, 6⟩, ⟨5, 6⟩, ⟨6, 6⟩, ⟨1, 6⟩, ⟨6, 6⟩, ⟨1, 6⟩] &&
  checkExecuteQ chars!"(1+2)u6[6]" chars!"DiceBot : (3U6[6]) ＞ 11[6,5],7[6,1],7[6,1] ＞ 11/25 (最大/合計)" [⟨6, 6⟩, ⟨5, 6⟩, ⟨6, 6⟩, ⟨1, 6⟩, ⟨6, 6⟩, ⟨1, 6⟩] &&
  checkExecuteQ chars!"3u(2*3)[6]" chars!"DiceBot : (3U6[6]) ＞ 11[6,5],7[6,1],7[6,1] ＞ 11/25 (最大/合計)" [⟨6, 6⟩, ⟨5, 6⟩, ⟨6, 6⟩, ⟨1, 6⟩, ⟨6, 6⟩, ⟨1, 6⟩] &&
  checkExecuteQ chars!"3u6[12/2]" chars!"DiceBot : (3U6[6]) ＞ 11[6,5],7[6,1],7[6,1] ＞ 11/25 (最大/合計)" [⟨6, 6⟩, ⟨5, 6⟩, ⟨6, 6⟩, ⟨1, 6⟩, ⟨6, 6⟩, ⟨1, 6⟩] &&
  checkExecuteQ chars!"6U6[4]" chars!"DiceBot : (6U6[4]) ＞ 2,7[5,2],1,11[4,6,1],8[5,3],3 ＞ 11/32 (最大/合計)" [⟨2, 6⟩, ⟨5, 6⟩, ⟨2, 6⟩, ⟨1, 6⟩, ⟨4, 6⟩, ⟨6, 6⟩, ⟨1, 6⟩, ⟨5, 6⟩, ⟨3, 6⟩, ⟨3, 6⟩] &&
  checkExecuteQ chars!"6U6[4]" chars!"DiceBot : (6U6[4]) ＞ 7[4,3],1,1,23[4,6,6,4,3],1,14[6,5,3] ＞ 23/47 (最大/合計)" [⟨4, 6⟩, ⟨3, 6⟩, ⟨1, 6⟩, ⟨1, 6⟩, ⟨4, 6⟩, ⟨6, 6⟩, ⟨6, 6⟩, ⟨4, 6⟩, ⟨3, 6⟩, ⟨1, 6⟩, ⟨6, 6⟩, ⟨5, 6⟩, ⟨3, 6⟩] &&
  checkExecuteQ chars!"1U100[96]+3" chars!"DiceBot : (1U100[96]+3) ＞ 155[98,57]+3 ＞ 158/158 (最大/合計)" [⟨98, 100⟩, ⟨57, 100⟩] &&
  checkExecuteQ chars!"3u6[5]+10" chars!"DiceBot : (3U6[5]+10) ＞ 1,3,6[5,1]+10 ＞ 16/20 (最大/合計)" [⟨1, 6⟩, ⟨3, 6⟩, ⟨5, 6⟩, ⟨1, 6⟩] &&
  checkExecuteQ chars!"3u6[5]-(-2-2*4)" chars!"DiceBot : (3U6[5]+10) ＞ 1,3,6[5,1]+10 ＞ 16/20 (最大/合計)" [⟨1, 6⟩, ⟨3, 6⟩, ⟨5, 6⟩, ⟨1, 6⟩] &&
  checkExecuteQ chars!"3u6[5]-10" chars!"DiceBot : (3U6[5]-10) ＞ 1,3,6[5,1]-10 ＞ -4/0 (最大/合計)" [⟨1, 6⟩, ⟨3, 6⟩, ⟨5, 6⟩, ⟨1, 6⟩] &&
  checkExecuteQ chars!"3u6[5]+(-2-2*4)" chars!"DiceBot : (3U6[5]-10) ＞ 1,3,6[5,1]-10 ＞ -4/0 (最大/合計)" [⟨1, 6⟩, ⟨3, 6⟩, ⟨5, 6⟩, ⟨1, 6⟩] &&
  checkExecuteQ chars!"3u6+5u6[6]" chars!"DiceBot : (3U6+5U6[6]) ＞ 3,5,3,10[6,4],1,15[6,6,3],5,1 ＞ 15/43 (最大/合計)" [⟨3, 6⟩, ⟨5, 6⟩, ⟨3, 6⟩, ⟨6, 6⟩, ⟨4, 6⟩, ⟨1, 6⟩, ⟨6, 6⟩, ⟨6, 6⟩, ⟨3, 6⟩, ⟨5, 6⟩, ⟨1, 6⟩] &&
  checkExecuteQ chars!"(5+6)u10[10]+5" chars!"DiceBot : (11U10[10]+5) ＞ 3,2,7,4,7,5,4,4,7,16[10,6],1+5 ＞ 21/65 (最大/合計)" [⟨3, 10⟩, ⟨2, 10⟩, ⟨7, 10⟩, ⟨4, 10⟩, ⟨7, 10⟩, ⟨5, 10⟩, ⟨4, 10⟩, ⟨4, 10⟩, ⟨7, 10⟩, ⟨10, 10⟩, ⟨6, 10⟩, ⟨1, 10⟩]) = true := by decide +kernel

/-- `TestFormatDice` (pkg/core/dice/die_test.go) -/
example : (
  checkFormatDice [⟨2, 6⟩] chars!"2/6" &&
  checkFormatDice [⟨1, 6⟩, ⟨2, 6⟩, ⟨3, 6⟩, ⟨4, 6⟩, ⟨5, 6⟩, ⟨6, 6⟩] chars!"1/6, 2/6, 3/6, 4/6, 5/6, 6/6" &&
  checkFormatDice [⟨2, 4⟩, ⟨3, 6⟩, ⟨5, 10⟩, ⟨10, 20⟩] chars!"2/4, 3/6, 5/10, 10/20") = true := by decide +kernel

/-- `TestFormatDiceWithoutSpace` (pkg/core/dice/die_test.go) -/
example : (
  checkFormatDiceWithoutSpaces [⟨2, 6⟩] chars!"2/6" &&
  checkFormatDiceWithoutSpaces [⟨1, 6⟩, ⟨2, 6⟩, ⟨3, 6⟩, ⟨4, 6⟩, ⟨5, 6⟩, ⟨6, 6⟩] chars!"1/6,2/6,3/6,4/6,5/6,6/6" &&
  checkFormatDiceWithoutSpaces [⟨2, 4⟩, ⟨3, 6⟩, ⟨5, 10⟩, ⟨10, 20⟩] chars!"2/4,3/6,5/10,10/20") = true := by decide +kernel

/-- `TestDiceRoller_RollDice_Queue` (pkg/core/dice/roller/roller_test.go) -/
example : (
  checkRollDice [⟨1, 6⟩, ⟨2, 6⟩, ⟨3, 6⟩, ⟨4, 6⟩, ⟨5, 6⟩, ⟨6, 6⟩] 6 6 false &&
  checkRollDice [⟨1, 4⟩, ⟨2, 4⟩, ⟨3, 4⟩, ⟨4, 4⟩] 3 4 false &&
  checkRollDice [⟨1, 6⟩, ⟨2, 6⟩, ⟨3, 6⟩] 4 6 true &&
  checkRollDice [] 0 6 true &&
  checkRollDice [] (-1) 6 true &&
  checkRollDice [⟨1, (-6)⟩] 1 (-6) true &&
  checkRollDice [⟨3, 6⟩, ⟨4, 8⟩] 2 6 true) = true := by decide +kernel

/-- `TestDetermineValues` (pkg/core/evaluator/determine_values_test.go) -/
example : (
  checkDetermineValues chars!"2D6" chars!"(DRollExpr (SumRollResult (Die 5 6) (Die 3 6)))" [⟨5, 6⟩, ⟨3, 6⟩] &&
  checkDetermineValues chars!"2D4" chars!"(DRollExpr (SumRollResult (Die 1 4) (Die 2 4)))" [⟨1, 4⟩, ⟨2, 4⟩] &&
  checkDetermineValues chars!"2D6+1" chars!"(DRollExpr (+ (SumRollResult (Die 2 6) (Die 6 6)) 1))" [⟨2, 6⟩, ⟨6, 6⟩] &&
  checkDetermineValues chars!"1+2D6" chars!"(DRollExpr (+ 1 (SumRollResult (Die 4 6) (Die 3 6))))" [⟨4, 6⟩, ⟨3, 6⟩] &&
  checkDetermineValues chars!"2d6+1-1-2-3-4" chars!"(DRollExpr (- (- (- (- (+ (SumRollResult (Die 1 6) (Die 6 6)) 1) 1) 2) 3) 4))" [⟨1, 6⟩, ⟨6, 6⟩] &&
  checkDetermineValues chars!"2D6+4D10" chars!"(DRollExpr (+ (SumRollResult (Die 5 6) (Die 4 6)) (SumRollResult (Die 1 10) (Die 9 10) (Die 7 10) (Die 4 10))))" [⟨5, 6⟩, ⟨4, 6⟩, ⟨1, 10⟩, ⟨9, 10⟩, ⟨7, 10⟩, ⟨4, 10⟩] &&
  checkDetermineValues chars!"2d6*3" chars!"(DRollExpr (* (SumRollResult (Die 2 6) (Die 4 6)) 3))" [⟨2, 6⟩, ⟨4, 6⟩] &&
  checkDetermineValues chars!"2d10+3-4" chars!"(DRollExpr (- (+ (SumRollResult (Die 3 10) (Die 5 10)) 3) 4))" [⟨3, 10⟩, ⟨5, 10⟩] &&
  checkDetermineValues chars!"2d10+3*4" chars!"(DRollExpr (+ (SumRollResult (Die 3 10) (Die 5 10)) (* 3 4)))" [⟨3, 10⟩, ⟨5, 10⟩] &&
  checkDetermineValues chars!"2d6*3-1d6+1" chars!"(DRollExpr (+ (- (* (SumRollResult (Die 6 6) (Die 2 6)) 3) (SumRollResult (Die 3 6))) 1))" [⟨6, 6⟩, ⟨2, 6⟩, ⟨3, 6⟩] &&
  checkDetermineValues chars!"1D6/2" chars!"(DRollExpr (/ (SumRollResult (Die 1 6)) 2))" [⟨1, 6⟩] &&
  checkDetermineValues chars!"3D6/2" chars!"(DRollExpr (/ (SumRollResult (Die 1 6) (Die 2 6) (Die 4 6)) 2))" [⟨1, 6⟩, ⟨2, 6⟩, ⟨4, 6⟩] &&
  checkDetermineValues chars!"3D6/2+1D6" chars!"(DRollExpr (+ (/ (SumRollResult (Die 1 6) (Die 2 6) (Die 4 6)) 2) (SumRollResult (Die 5 6))))" [⟨1, 6⟩, ⟨2, 6⟩, ⟨4, 6⟩, ⟨5, 6⟩] &&
  checkDetermineValues chars!"3D6+1D6/2" chars!"(DRollExpr (+ (SumRollResult (Die 1 6) (Die 2 6) (Die 4 6)) (/ (SumRollResult (Die 5 6)) 2)))" [⟨1, 6⟩, ⟨2, 6⟩, ⟨4, 6⟩, ⟨5, 6⟩] &&
  checkDetermineValues chars!"3D6+1D6/2U" chars!"(DRollExpr (+ (SumRollResult (Die 1 6) (Die 2 6) (Die 4 6)) (/U (SumRollResult (Die 5 6)) 2)))" [⟨1, 6⟩, ⟨2, 6⟩, ⟨4, 6⟩, ⟨5, 6⟩] &&
  checkDetermineValues chars!"5D6/10" chars!"(DRollExpr (/ (SumRollResult (Die 6 6) (Die 6 6) (Die 6 6) (Die 6 6) (Die 5 6)) 10))" [⟨6, 6⟩, ⟨6, 6⟩, ⟨6, 6⟩, ⟨6, 6⟩, ⟨5, 6⟩] &&
  checkDetermineValues chars!"3D6/2U" chars!"(DRollExpr (/U (SumRollResult (Die 1 6) (Die 2 6) (Die 4 6)) 2))" [⟨1, 6⟩, ⟨2, 6⟩, ⟨4, 6⟩] &&
  checkDetermineValues chars!"5D6/10u" chars!"(DRollExpr (/U (SumRollResult (Die 6 6) (Die 6 6) (Die 6 6) (Die 2 6) (Die 1 6)) 10))" [⟨6, 6⟩, ⟨6, 6⟩, ⟨6, 6⟩, ⟨2, 6⟩, ⟨1, 6⟩] &&
  checkDetermineValues chars!"1D100/10R" chars!"(DRollExpr (/R (SumRollResult (Die 55 100)) 10))" [⟨55, 100⟩] &&
  checkDetermineValues chars!"1D100/10r" chars!"(DRollExpr (/R (SumRollResult (Die 54 100)) 10))" [⟨54, 100⟩]) = true := by decide +kernel

/-- `TestEvalBRollComp` (pkg/core/evaluator/eval_b_roll_comp_test.go) -/
example : (
  checkEvalBRollComp chars!"2b6=3" [3, 4] 1 [⟨3, 6⟩, ⟨4, 6⟩] &&
  checkEvalBRollComp chars!"2b6=3" [2, 1] 0 [⟨2, 6⟩, ⟨1, 6⟩] &&
  checkEvalBRollComp chars!"2b6<>3" [3, 4] 1 [⟨3, 6⟩, ⟨4, 6⟩] &&
  checkEvalBRollComp chars!"2b6<>3" [2, 1] 2 [⟨2, 6⟩, ⟨1, 6⟩] &&
  checkEvalBRollComp chars!"2b6>3" [3, 4] 1 [⟨3, 6⟩, ⟨4, 6⟩] &&
  checkEvalBRollComp chars!"2b6>3" [2, 1] 0 [⟨2, 6⟩, ⟨1, 6⟩] &&
  checkEvalBRollComp chars!"2b6<3" [3, 4] 0 [⟨3, 6⟩, ⟨4, 6⟩] &&
  checkEvalBRollComp chars!"2b6<3" [2, 1] 2 [⟨2, 6⟩, ⟨1, 6⟩] &&
  checkEvalBRollComp chars!"2b6>=3" [3, 4] 2 [⟨3, 6⟩, ⟨4, 6⟩] &&
  checkEvalBRollComp chars!"2b6>=3" [2, 1] 0 [⟨2, 6⟩, ⟨1, 6⟩] &&
  checkEvalBRollComp chars!"2b6<=3" [3, 4] 1 [⟨3, 6⟩, ⟨4, 6⟩] &&
  checkEvalBRollComp chars!"2b6<=3" [2, 1] 2 [⟨2, 6⟩, ⟨1, 6⟩] &&
  checkEvalBRollComp chars!"2b6+4b10>3" [3, 4, 9, 7, 1, 5] 4 [⟨3, 6⟩, ⟨4, 6⟩, ⟨9, 10⟩, ⟨7, 10⟩, ⟨1, 10⟩, ⟨5, 10⟩] &&
  checkEvalBRollComp chars!"2b6+3b8+5b12<5" [5, 2, 7, 3, 4, 11, 9, 8, 12, 6] 3 [⟨5, 6⟩, ⟨2, 6⟩, ⟨7, 8⟩, ⟨3, 8⟩, ⟨4, 8⟩, ⟨11, 12⟩, ⟨9, 12⟩, ⟨8, 12⟩, ⟨12, 12⟩, ⟨6, 12⟩]) = true := by decide +kernel

/-- `TestEvalBRollList` (pkg/core/evaluator/eval_b_roll_list_test.go) -/
example : (
  checkEvalBRollList chars!"2b6" [3, 4] [⟨3, 6⟩, ⟨4, 6⟩] &&
  checkEvalBRollList chars!"2b6" [1, 6] [⟨1, 6⟩, ⟨6, 6⟩] &&
  checkEvalBRollList chars!"(1*2)b(2+4)" [3, 4] [⟨3, 6⟩, ⟨4, 6⟩] &&
  checkEvalBRollList chars!"[1...3]b[4...6]" [3, 2, 1] [⟨3, 3⟩, ⟨1, 3⟩, ⟨3, 4⟩, ⟨2, 4⟩, ⟨1, 4⟩] &&
  checkEvalBRollList chars!"2b6+4b10" [3, 4, 9, 7, 1, 5] [⟨3, 6⟩, ⟨4, 6⟩, ⟨9, 10⟩, ⟨7, 10⟩, ⟨1, 10⟩, ⟨5, 10⟩] &&
  checkEvalBRollList chars!"2b6+3b8+5b12" [5, 2, 7, 3, 4, 11, 9, 8, 12, 6] [⟨5, 6⟩, ⟨2, 6⟩, ⟨7, 8⟩, ⟨3, 8⟩, ⟨4, 8⟩, ⟨11, 12⟩, ⟨9, 12⟩, ⟨8, 12⟩, ⟨12, 12⟩, ⟨6, 12⟩]) = true := by decide +kernel

/-- `TestEvalCalc` (pkg/core/evaluator/eval_calc_test.go) -/
example : (
  checkEvalCalc chars!"C(5)" 5 &&
  checkEvalCalc chars!"C(10)" 10 &&
  checkEvalCalc chars!"C(42)" 42 &&
  checkEvalCalc chars!"C(65535)" 65535 &&
  checkEvalCalc chars!"C(-5)" (-5) &&
  checkEvalCalc chars!"C(-10)" (-10) &&
  checkEvalCalc chars!"C(-42)" (-42) &&
  checkEvalCalc chars!"C(-65535)" (-65535) &&
  checkEvalCalc chars!"C(+5)" 5 &&
  checkEvalCalc chars!"C(+10)" 10 &&
  checkEvalCalc chars!"C(+42)" 42 &&
  checkEvalCalc chars!"C(+65535)" 65535 &&
  checkEvalCalc chars!"C(1+2)" 3 &&
  checkEvalCalc chars!"C(1-2)" (-1) &&
  checkEvalCalc chars!"C(1*2)" 2 &&
  checkEvalCalc chars!"C(1/2)" 0 &&
  checkEvalCalc chars!"C(-1+2)" 1 &&
  checkEvalCalc chars!"C(+1+2)" 3 &&
  checkEvalCalc chars!"C(1+2-3)" 0 &&
  checkEvalCalc chars!"C(1*2+3)" 5 &&
  checkEvalCalc chars!"C(1/2+3)" 3 &&
  checkEvalCalc chars!"C(1+2*3)" 7 &&
  checkEvalCalc chars!"C(1+2/3)" 1 &&
  checkEvalCalc chars!"C(1+(2-3))" 0 &&
  checkEvalCalc chars!"C((1+2)*3)" 9 &&
  checkEvalCalc chars!"C((1+2)/3)" 1 &&
  checkEvalCalc chars!"C(-(1+2))" (-3) &&
  checkEvalCalc chars!"C(+(1+2))" 3 &&
  checkEvalCalc chars!"C(1+50/3-2)" 15 &&
  checkEvalCalc chars!"C(1+50/3u-2)" 16 &&
  checkEvalCalc chars!"C(1+50/3r-2)" 16 &&
  checkEvalCalc chars!"C(1+100/3-2)" 32 &&
  checkEvalCalc chars!"C(1+100/3u-2)" 33 &&
  checkEvalCalc chars!"C(1+100/3r-2)" 32) = true := by decide +kernel

/-- `TestEvalChoice` (pkg/core/evaluator/eval_choice_test.go) -/
example : (
  checkEvalChoice chars!"choice[A,B,C,D]どれにしよう" chars!"A" [⟨1, 4⟩] &&
  checkEvalChoice chars!"choice[A,B,C,D]どれにしよう" chars!"B" [⟨2, 4⟩] &&
  checkEvalChoice chars!"choice[A,B,C,D]どれにしよう" chars!"C" [⟨3, 4⟩] &&
  checkEvalChoice chars!"choice[A,B,C,D]どれにしよう" chars!"D" [⟨4, 4⟩] &&
  checkEvalChoice chars!"CHOICE[Call of Cthulhu, Sword World, Double Cross]" chars!"Call of Cthulhu" [⟨1, 3⟩] &&
  checkEvalChoice chars!"CHOICE[Call of Cthulhu, Sword World, Double Cross]" chars!"Sword World" [⟨2, 3⟩] &&
  checkEvalChoice chars!"CHOICE[Call of Cthulhu, Sword World, Double Cross]" chars!"Double Cross" [⟨3, 3⟩] &&
  checkEvalChoice chars!"CHOICE[日本語, でも,　だいじょうぶ]" chars!"日本語" [⟨1, 3⟩] &&
  checkEvalChoice chars!"CHOICE[日本語, でも,　だいじょうぶ]" chars!"でも" [⟨2, 3⟩] &&
  checkEvalChoice chars!"CHOICE[日本語, でも,　だいじょうぶ]" chars!"だいじょうぶ" [⟨3, 3⟩] &&
  checkEvalChoice chars!"choice[1+2, (3*4), 5d6]" chars!"1+2" [⟨1, 3⟩] &&
  checkEvalChoice chars!"choice[1+2, (3*4), 5d6]" chars!"(3*4)" [⟨2, 3⟩] &&
  checkEvalChoice chars!"choice[1+2, (3*4), 5d6]" chars!"5d6" [⟨3, 3⟩]) = true := by decide +kernel

/-- `TestEvalDRollComp` (pkg/core/evaluator/eval_d_roll_comp_test.go) -/
example : (
  checkEvalDRollComp chars!"2D6=7" true [⟨3, 6⟩, ⟨4, 6⟩] &&
  checkEvalDRollComp chars!"2D6=7" false [⟨3, 6⟩, ⟨3, 6⟩] &&
  checkEvalDRollComp chars!"2D6=7" false [⟨3, 6⟩, ⟨5, 6⟩] &&
  checkEvalDRollComp chars!"2D6<>7" false [⟨3, 6⟩, ⟨4, 6⟩] &&
  checkEvalDRollComp chars!"2D6<>7" true [⟨3, 6⟩, ⟨3, 6⟩] &&
  checkEvalDRollComp chars!"2D6<>7" true [⟨3, 6⟩, ⟨5, 6⟩] &&
  checkEvalDRollComp chars!"2D6<7" true [⟨3, 6⟩, ⟨3, 6⟩] &&
  checkEvalDRollComp chars!"2D6<7" false [⟨3, 6⟩, ⟨4, 6⟩] &&
  checkEvalDRollComp chars!"2D6>7" true [⟨3, 6⟩, ⟨5, 6⟩] &&
  checkEvalDRollComp chars!"2D6>7" false [⟨3, 6⟩, ⟨4, 6⟩] &&
  checkEvalDRollComp chars!"2D6<=7" true [⟨3, 6⟩, ⟨4, 6⟩] &&
  checkEvalDRollComp chars!"2D6<=7" false [⟨3, 6⟩, ⟨5, 6⟩] &&
  checkEvalDRollComp chars!"2D6>=7" true [⟨3, 6⟩, ⟨4, 6⟩] &&
  checkEvalDRollComp chars!"2D6>=7" false [⟨3, 6⟩, ⟨3, 6⟩] &&
  checkEvalDRollComp chars!"-2D6<-7" true [⟨3, 6⟩, ⟨5, 6⟩] &&
  checkEvalDRollComp chars!"-2D6<-7" false [⟨3, 6⟩, ⟨4, 6⟩] &&
  checkEvalDRollComp chars!"-2D6>-7" true [⟨3, 6⟩, ⟨3, 6⟩] &&
  checkEvalDRollComp chars!"-2D6>-7" false [⟨3, 6⟩, ⟨4, 6⟩] &&
  checkEvalDRollComp chars!"-2D6<=-7" true [⟨3, 6⟩, ⟨4, 6⟩] &&
  checkEvalDRollComp chars!"-2D6<=-7" false [⟨3, 6⟩, ⟨3, 6⟩] &&
  checkEvalDRollComp chars!"-2D6>=-7" true [⟨3, 6⟩, ⟨4, 6⟩] &&
  checkEvalDRollComp chars!"-2D6>=-7" false [⟨3, 6⟩, ⟨5, 6⟩]) = true := by decide +kernel

/-- `TestEvalDRollExpr` (pkg/core/evaluator/eval_d_roll_expr_test.go) -/
example : (
  checkEvalDRollExpr chars!"2D6" 8 [⟨5, 6⟩, ⟨3, 6⟩] &&
  checkEvalDRollExpr chars!"2D4" 3 [⟨1, 4⟩, ⟨2, 4⟩] &&
  checkEvalDRollExpr chars!"2D6+1" 9 [⟨2, 6⟩, ⟨6, 6⟩] &&
  checkEvalDRollExpr chars!"1+2D6" 8 [⟨4, 6⟩, ⟨3, 6⟩] &&
  checkEvalDRollExpr chars!"2d6+1-1-2-3-4" (-2) [⟨1, 6⟩, ⟨6, 6⟩] &&
  checkEvalDRollExpr chars!"2D6+4D10" 30 [⟨5, 6⟩, ⟨4, 6⟩, ⟨1, 10⟩, ⟨9, 10⟩, ⟨7, 10⟩, ⟨4, 10⟩] &&
  checkEvalDRollExpr chars!"2d6*3" 18 [⟨2, 6⟩, ⟨4, 6⟩] &&
  checkEvalDRollExpr chars!"2d10+3-4" 7 [⟨3, 10⟩, ⟨5, 10⟩] &&
  checkEvalDRollExpr chars!"2d10+3*4" 20 [⟨3, 10⟩, ⟨5, 10⟩] &&
  checkEvalDRollExpr chars!"2d6*3-1d6+1" 22 [⟨6, 6⟩, ⟨2, 6⟩, ⟨3, 6⟩] &&
  checkEvalDRollExpr chars!"(2+3)d6-1+3d6+2" 31 [⟨2, 6⟩, ⟨3, 6⟩, ⟨1, 6⟩, ⟨5, 6⟩, ⟨6, 6⟩, ⟨5, 6⟩, ⟨4, 6⟩, ⟨4, 6⟩] &&
  checkEvalDRollExpr chars!"(2*3-4)d6-1d4+1" 10 [⟨6, 6⟩, ⟨5, 6⟩, ⟨2, 4⟩] &&
  checkEvalDRollExpr chars!"((2+3)*4/3)d6*2+5" 53 [⟨6, 6⟩, ⟨5, 6⟩, ⟨6, 6⟩, ⟨2, 6⟩, ⟨1, 6⟩, ⟨4, 6⟩] &&
  checkEvalDRollExpr chars!"1D6/2" 0 [⟨1, 6⟩] &&
  checkEvalDRollExpr chars!"3D6/2" 3 [⟨1, 6⟩, ⟨2, 6⟩, ⟨4, 6⟩] &&
  checkEvalDRollExpr chars!"3D6/2+1D6" 8 [⟨1, 6⟩, ⟨2, 6⟩, ⟨4, 6⟩, ⟨5, 6⟩] &&
  checkEvalDRollExpr chars!"3D6+1D6/2" 9 [⟨1, 6⟩, ⟨2, 6⟩, ⟨4, 6⟩, ⟨5, 6⟩] &&
  checkEvalDRollExpr chars!"3D6+1D6/2U" 10 [⟨1, 6⟩, ⟨2, 6⟩, ⟨4, 6⟩, ⟨5, 6⟩] &&
  checkEvalDRollExpr chars!"5D6/10" 2 [⟨6, 6⟩, ⟨6, 6⟩, ⟨6, 6⟩, ⟨6, 6⟩, ⟨5, 6⟩] &&
  checkEvalDRollExpr chars!"3D6/2U" 4 [⟨1, 6⟩, ⟨2, 6⟩, ⟨4, 6⟩] &&
  checkEvalDRollExpr chars!"5D6/10u" 3 [⟨6, 6⟩, ⟨6, 6⟩, ⟨6, 6⟩, ⟨2, 6⟩, ⟨1, 6⟩] &&
  checkEvalDRollExpr chars!"1D100/10R" 6 [⟨55, 100⟩] &&
  checkEvalDRollExpr chars!"1D100/10r" 5 [⟨54, 100⟩] &&
  checkEvalDRollExpr chars!"[1...5]D6" 15 [⟨4, 5⟩, ⟨5, 6⟩, ⟨3, 6⟩, ⟨4, 6⟩, ⟨3, 6⟩] &&
  checkEvalDRollExpr chars!"([2...4]+2)D10" 29 [⟨3, 3⟩, ⟨8, 10⟩, ⟨7, 10⟩, ⟨2, 10⟩, ⟨1, 10⟩, ⟨6, 10⟩, ⟨5, 10⟩] &&
  checkEvalDRollExpr chars!"[(2+3)...8]D6" 14 [⟨1, 4⟩, ⟨1, 6⟩, ⟨2, 6⟩, ⟨4, 6⟩, ⟨6, 6⟩, ⟨1, 6⟩] &&
  checkEvalDRollExpr chars!"[5...(7+1)]D6" 14 [⟨1, 4⟩, ⟨1, 6⟩, ⟨2, 6⟩, ⟨4, 6⟩, ⟨6, 6⟩, ⟨1, 6⟩] &&
  checkEvalDRollExpr chars!"2d[1...5]" 3 [⟨2, 5⟩, ⟨1, 2⟩, ⟨2, 2⟩] &&
  checkEvalDRollExpr chars!"2d([2...4]+2)" 7 [⟨2, 3⟩, ⟨4, 5⟩, ⟨3, 5⟩] &&
  checkEvalDRollExpr chars!"2d[(2+3)...8]" 10 [⟨4, 4⟩, ⟨3, 8⟩, ⟨7, 8⟩] &&
  checkEvalDRollExpr chars!"2d[5...(7+1)]" 10 [⟨4, 4⟩, ⟨3, 8⟩, ⟨7, 8⟩] &&
  checkEvalDRollExpr chars!"([1...4]+1)d([2...4]+2)-1" 13 [⟨2, 4⟩, ⟨3, 3⟩, ⟨5, 6⟩, ⟨5, 6⟩, ⟨4, 6⟩]) = true := by decide +kernel

/-- `TestEvalRRollComp` (pkg/core/evaluator/eval_r_roll_comp_test.go) -/
example : (
  checkEvalRRollComp chars!"2R6[3]=3" [[3, 1], [2]] 1 [⟨3, 6⟩, ⟨1, 6⟩, ⟨2, 6⟩] &&
  checkEvalRRollComp chars!"2R6[3]=3" [[6, 1], [3], [1]] 1 [⟨6, 6⟩, ⟨1, 6⟩, ⟨3, 6⟩, ⟨1, 6⟩] &&
  checkEvalRRollComp chars!"2R6[3]<>3" [[3, 1], [2]] 2 [⟨3, 6⟩, ⟨1, 6⟩, ⟨2, 6⟩] &&
  checkEvalRRollComp chars!"2R6[3]<>3" [[6, 1], [3], [1]] 3 [⟨6, 6⟩, ⟨1, 6⟩, ⟨3, 6⟩, ⟨1, 6⟩] &&
  checkEvalRRollComp chars!"2R6[3]>3" [[3, 1], [2]] 0 [⟨3, 6⟩, ⟨1, 6⟩, ⟨2, 6⟩] &&
  checkEvalRRollComp chars!"2R6[3]>3" [[6, 1], [3], [1]] 1 [⟨6, 6⟩, ⟨1, 6⟩, ⟨3, 6⟩, ⟨1, 6⟩] &&
  checkEvalRRollComp chars!"2R6[3]<3" [[3, 1], [2]] 2 [⟨3, 6⟩, ⟨1, 6⟩, ⟨2, 6⟩] &&
  checkEvalRRollComp chars!"2R6[3]<3" [[6, 1], [3], [1]] 2 [⟨6, 6⟩, ⟨1, 6⟩, ⟨3, 6⟩, ⟨1, 6⟩] &&
  checkEvalRRollComp chars!"2R6[3]>=3" [[3, 1], [2]] 1 [⟨3, 6⟩, ⟨1, 6⟩, ⟨2, 6⟩] &&
  checkEvalRRollComp chars!"2R6[3]>=3" [[6, 1], [3], [1]] 2 [⟨6, 6⟩, ⟨1, 6⟩, ⟨3, 6⟩, ⟨1, 6⟩] &&
  checkEvalRRollComp chars!"2R6[3]<=3" [[3, 1], [2]] 3 [⟨3, 6⟩, ⟨1, 6⟩, ⟨2, 6⟩] &&
  checkEvalRRollComp chars!"2R6[3]<=3" [[6, 1], [3], [1]] 3 [⟨6, 6⟩, ⟨1, 6⟩, ⟨3, 6⟩, ⟨1, 6⟩] &&
  checkEvalRRollComp chars!"2R6[3]>=4" [[6, 1], [3], [1]] 1 [⟨6, 6⟩, ⟨1, 6⟩, ⟨3, 6⟩, ⟨1, 6⟩] &&
  checkEvalRRollComp chars!"2R4+2R6[4]>=4" [[4, 3], [3, 5], [1], [2]] 2 [⟨4, 4⟩, ⟨3, 4⟩, ⟨3, 6⟩, ⟨5, 6⟩, ⟨1, 4⟩, ⟨2, 6⟩]) = true := by decide +kernel

/-- `TestEvalRRollList` (pkg/core/evaluator/eval_r_roll_list_test.go) -/
example : (
  checkEvalRRollList chars!"2R6" true [] [] &&
  checkEvalRRollList chars!"2R6[3]" false [[3, 1], [2]] [⟨3, 6⟩, ⟨1, 6⟩, ⟨2, 6⟩] &&
  checkEvalRRollList chars!"2R6[3]" false [[6, 1], [3], [1]] [⟨6, 6⟩, ⟨1, 6⟩, ⟨3, 6⟩, ⟨1, 6⟩] &&
  checkEvalRRollList chars!"12R6[6]" false [[4, 1, 5, 4, 3, 2, 5, 1, 6, 3, 2, 5], [5]] [⟨4, 6⟩, ⟨1, 6⟩, ⟨5, 6⟩, ⟨4, 6⟩, ⟨3, 6⟩, ⟨2, 6⟩, ⟨5, 6⟩, ⟨1, 6⟩, ⟨6, 6⟩, ⟨3, 6⟩, ⟨2, 6⟩, ⟨5, 6⟩, ⟨5, 6⟩] &&
  checkEvalRRollList chars!"12R6[6]" false [[6, 1, 2, 2, 2, 1, 5, 5, 1, 5, 2, 6], [4, 5]] [⟨6, 6⟩, ⟨1, 6⟩, ⟨2, 6⟩, ⟨2, 6⟩, ⟨2, 6⟩, ⟨1, 6⟩, ⟨5, 6⟩, ⟨5, 6⟩, ⟨1, 6⟩, ⟨5, 6⟩, ⟨2, 6⟩, ⟨6, 6⟩, ⟨4, 6⟩, ⟨5, 6⟩] &&
  checkEvalRRollList chars!"12R6[6]" false [[2, 4, 4, 5, 4, 1, 2, 6, 6, 6, 1, 4], [6, 4, 6], [3, 4]] [⟨2, 6⟩, ⟨4, 6⟩, ⟨4, 6⟩, ⟨5, 6⟩, ⟨4, 6⟩, ⟨1, 6⟩, ⟨2, 6⟩, ⟨6, 6⟩, ⟨6, 6⟩, ⟨6, 6⟩, ⟨1, 6⟩, ⟨4, 6⟩, ⟨6, 6⟩, ⟨4, 6⟩, ⟨6, 6⟩, ⟨3, 6⟩, ⟨4, 6⟩] &&
  checkEvalRRollList chars!"12R6[6]" false [[2, 5, 4, 5, 3, 1, 3, 4, 2, 2, 4, 5]] [⟨2, 6⟩, ⟨5, 6⟩, ⟨4, 6⟩, ⟨5, 6⟩, ⟨3, 6⟩, ⟨1, 6⟩, ⟨3, 6⟩, ⟨4, 6⟩, ⟨2, 6⟩, ⟨2, 6⟩, ⟨4, 6⟩, ⟨5, 6⟩] &&
  checkEvalRRollList chars!"12R6[6]" false [[5, 3, 5, 3, 1, 1, 6, 3, 2, 2, 5, 5], [6], [4]] [⟨5, 6⟩, ⟨3, 6⟩, ⟨5, 6⟩, ⟨3, 6⟩, ⟨1, 6⟩, ⟨1, 6⟩, ⟨6, 6⟩, ⟨3, 6⟩, ⟨2, 6⟩, ⟨2, 6⟩, ⟨5, 6⟩, ⟨5, 6⟩, ⟨6, 6⟩, ⟨4, 6⟩] &&
  checkEvalRRollList chars!"12R6[6]" false [[4, 4, 2, 1, 5, 6, 5, 1, 1, 4, 4, 6], [3, 6], [2]] [⟨4, 6⟩, ⟨4, 6⟩, ⟨2, 6⟩, ⟨1, 6⟩, ⟨5, 6⟩, ⟨6, 6⟩, ⟨5, 6⟩, ⟨1, 6⟩, ⟨1, 6⟩, ⟨4, 6⟩, ⟨4, 6⟩, ⟨6, 6⟩, ⟨3, 6⟩, ⟨6, 6⟩, ⟨2, 6⟩] &&
  checkEvalRRollList chars!"12R6[6]" false [[2, 1, 2, 5, 2, 3, 1, 3, 4, 4, 4, 5]] [⟨2, 6⟩, ⟨1, 6⟩, ⟨2, 6⟩, ⟨5, 6⟩, ⟨2, 6⟩, ⟨3, 6⟩, ⟨1, 6⟩, ⟨3, 6⟩, ⟨4, 6⟩, ⟨4, 6⟩, ⟨4, 6⟩, ⟨5, 6⟩] &&
  checkEvalRRollList chars!"12R6[6]" false [[1, 2, 3, 4, 1, 1, 2, 3, 6, 4, 1, 4], [2]] [⟨1, 6⟩, ⟨2, 6⟩, ⟨3, 6⟩, ⟨4, 6⟩, ⟨1, 6⟩, ⟨1, 6⟩, ⟨2, 6⟩, ⟨3, 6⟩, ⟨6, 6⟩, ⟨4, 6⟩, ⟨1, 6⟩, ⟨4, 6⟩, ⟨2, 6⟩] &&
  checkEvalRRollList chars!"12R6[6]" false [[4, 3, 6, 2, 2, 1, 3, 5, 1, 3, 2, 1], [6], [2]] [⟨4, 6⟩, ⟨3, 6⟩, ⟨6, 6⟩, ⟨2, 6⟩, ⟨2, 6⟩, ⟨1, 6⟩, ⟨3, 6⟩, ⟨5, 6⟩, ⟨1, 6⟩, ⟨3, 6⟩, ⟨2, 6⟩, ⟨1, 6⟩, ⟨6, 6⟩, ⟨2, 6⟩] &&
  checkEvalRRollList chars!"12R6[6]" false [[6, 6, 3, 1, 4, 2, 4, 5, 4, 3, 6, 6], [4, 4, 3, 4]] [⟨6, 6⟩, ⟨6, 6⟩, ⟨3, 6⟩, ⟨1, 6⟩, ⟨4, 6⟩, ⟨2, 6⟩, ⟨4, 6⟩, ⟨5, 6⟩, ⟨4, 6⟩, ⟨3, 6⟩, ⟨6, 6⟩, ⟨6, 6⟩, ⟨4, 6⟩, ⟨4, 6⟩, ⟨3, 6⟩, ⟨4, 6⟩] &&
  checkEvalRRollList chars!"2R4+2R6[4]" false [[4, 3], [3, 5], [1], [2]] [⟨4, 4⟩, ⟨3, 4⟩, ⟨3, 6⟩, ⟨5, 6⟩, ⟨1, 4⟩, ⟨2, 6⟩]) = true := by decide +kernel

/-- `TestEvalURollComp` (pkg/core/evaluator/eval_u_roll_comp_test.go) -/
example : (
  checkEvalURollComp chars!"3U6>=7" true [] [] 0 [] &&
  checkEvalURollComp chars!"3U6[1]>=7" true [] [] 0 [] &&
  checkEvalURollComp chars!"3u6[6]=7" false [[6, 5], [6, 1], [5]] [11, 7, 5] 1 [⟨6, 6⟩, ⟨5, 6⟩, ⟨6, 6⟩, ⟨1, 6⟩, ⟨5, 6⟩] &&
  checkEvalURollComp chars!"3u6[6]=7" false [[6, 5], [6, 1], [6, 1]] [11, 7, 7] 2 [⟨6, 6⟩, ⟨5, 6⟩, ⟨6, 6⟩, ⟨1, 6⟩, ⟨6, 6⟩, ⟨1, 6⟩] &&
  checkEvalURollComp chars!"3u6[6]-4=7" false [[6, 5], [6, 1], [5]] [11, 7, 5] 1 [⟨6, 6⟩, ⟨5, 6⟩, ⟨6, 6⟩, ⟨1, 6⟩, ⟨5, 6⟩] &&
  checkEvalURollComp chars!"3u6[6]<>7" false [[6, 5], [6, 1], [5]] [11, 7, 5] 2 [⟨6, 6⟩, ⟨5, 6⟩, ⟨6, 6⟩, ⟨1, 6⟩, ⟨5, 6⟩] &&
  checkEvalURollComp chars!"3u6[6]<>7" false [[6, 5], [6, 1], [6, 1]] [11, 7, 7] 1 [⟨6, 6⟩, ⟨5, 6⟩, ⟨6, 6⟩, ⟨1, 6⟩, ⟨6, 6⟩, ⟨1, 6⟩] &&
  checkEvalURollComp chars!"3u6[6]+1<>7" false [[6, 5], [6, 1], [5]] [11, 7, 5] 3 [⟨6, 6⟩, ⟨5, 6⟩, ⟨6, 6⟩, ⟨1, 6⟩, ⟨5, 6⟩] &&
  checkEvalURollComp chars!"3u6[6]>6" false [[6, 5], [6, 1], [5]] [11, 7, 5] 2 [⟨6, 6⟩, ⟨5, 6⟩, ⟨6, 6⟩, ⟨1, 6⟩, ⟨5, 6⟩] &&
  checkEvalURollComp chars!"3u6[6]>6" false [[6, 5], [6, 1], [6, 1]] [11, 7, 7] 3 [⟨6, 6⟩, ⟨5, 6⟩, ⟨6, 6⟩, ⟨1, 6⟩, ⟨6, 6⟩, ⟨1, 6⟩] &&
  checkEvalURollComp chars!"3u6[6]-1>6" false [[6, 5], [6, 1], [5]] [11, 7, 5] 1 [⟨6, 6⟩, ⟨5, 6⟩, ⟨6, 6⟩, ⟨1, 6⟩, ⟨5, 6⟩] &&
  checkEvalURollComp chars!"3u6[6]<6" false [[6, 5], [6, 1], [5]] [11, 7, 5] 1 [⟨6, 6⟩, ⟨5, 6⟩, ⟨6, 6⟩, ⟨1, 6⟩, ⟨5, 6⟩] &&
  checkEvalURollComp chars!"3u6[6]<6" false [[6, 5], [6, 1], [6, 1]] [11, 7, 7] 0 [⟨6, 6⟩, ⟨5, 6⟩, ⟨6, 6⟩, ⟨1, 6⟩, ⟨6, 6⟩, ⟨1, 6⟩] &&
  checkEvalURollComp chars!"3u6[6]-2<6" false [[6, 5], [6, 1], [5]] [11, 7, 5] 2 [⟨6, 6⟩, ⟨5, 6⟩, ⟨6, 6⟩, ⟨1, 6⟩, ⟨5, 6⟩] &&
  checkEvalURollComp chars!"3u6[6]>=7" false [[6, 5], [6, 1], [5]] [11, 7, 5] 2 [⟨6, 6⟩, ⟨5, 6⟩, ⟨6, 6⟩, ⟨1, 6⟩, ⟨5, 6⟩] &&
  checkEvalURollComp chars!"3u6[6]>=7" false [[6, 5], [6, 1], [6, 1]] [11, 7, 7] 3 [⟨6, 6⟩, ⟨5, 6⟩, ⟨6, 6⟩, ⟨1, 6⟩, ⟨6, 6⟩, ⟨1, 6⟩] &&
  checkEvalURollComp chars!"3u6[6]-1>=7" false [[6, 5], [6, 1], [5]] [11, 7, 5] 1 [⟨6, 6⟩, ⟨5, 6⟩, ⟨6, 6⟩, ⟨1, 6⟩, ⟨5, 6⟩] &&
  checkEvalURollComp chars!"3u6[6]<=7" false [[6, 5], [6, 1], [5]] [11, 7, 5] 2 [⟨6, 6⟩, ⟨5, 6⟩, ⟨6, 6⟩, ⟨1, 6⟩, ⟨5, 6⟩] &&
  checkEvalURollComp chars!"3u6[6]<=7" false [[6, 5], [6, 1], [6, 1]] [11, 7, 7] 2 [⟨6, 6⟩, ⟨5, 6⟩, ⟨6, 6⟩, ⟨1, 6⟩, ⟨6, 6⟩, ⟨1, 6⟩] &&
  checkEvalURollComp chars!"3u6[6]-4<=7" false [[6, 5], [6, 1], [5]] [11, 7, 5] 3 [⟨6, 6⟩, ⟨5, 6⟩, ⟨6, 6⟩, ⟨1, 6⟩, ⟨5, 6⟩] &&
  checkEvalURollComp chars!"3u6+5u6[6]>=7" false [[3], [5], [3], [6, 4], [1], [6, 6, 3], [5], [1]] [3, 5, 3, 10, 1, 15, 5, 1] 2 [⟨3, 6⟩, ⟨5, 6⟩, ⟨3, 6⟩, ⟨6, 6⟩, ⟨4, 6⟩, ⟨1, 6⟩, ⟨6, 6⟩, ⟨6, 6⟩, ⟨3, 6⟩, ⟨5, 6⟩, ⟨1, 6⟩] &&
  checkEvalURollComp chars!"(5+6)u10[10]+5>=8" false [[3], [2], [7], [4], [7], [5], [4], [4], [7], [10, 6], [1]] [3, 2, 7, 4, 7, 5, 4, 4, 7, 16, 1] 9 [⟨3, 10⟩, ⟨2, 10⟩, ⟨7, 10⟩, ⟨4, 10⟩, ⟨7, 10⟩, ⟨5, 10⟩, ⟨4, 10⟩, ⟨4, 10⟩, ⟨7, 10⟩, ⟨10, 10⟩, ⟨6, 10⟩, ⟨1, 10⟩]) = true := by decide +kernel

/-- `TestEvalURollExpr` (pkg/core/evaluator/eval_u_roll_expr_test.go) -/
example : (
  checkEvalURollExpr chars!"3U6" true [] [] 0 0 [] &&
  checkEvalURollExpr chars!"3u6[6]" false [[6, 5], [6, 1], [6, 1]] [11, 7, 7] 11 25 [⟨6, 6⟩, ⟨5, 6⟩, ⟨6, 6⟩, ⟨1, 6⟩, ⟨6, 6⟩, ⟨1, 6⟩] &&
  checkEvalURollExpr chars!"(1+2)u6[6]" false [[6, 5], [6, 1], [6, 1]] [11, 7, 7] 11 25 [⟨6, 6⟩, ⟨5, 6⟩, ⟨6, 6⟩, ⟨1, 6⟩, ⟨6, 6⟩, ⟨1, 6⟩] &&
  checkEvalURollExpr chars!"3u(2*3)[6]" false [[6, 5], [6, 1], [6, 1]] [11, 7, 7] 11 25 [⟨6, 6⟩, ⟨5, 6⟩, ⟨6, 6⟩, ⟨1, 6⟩, ⟨6, 6⟩, ⟨1, 6⟩] &&
  checkEvalURollExpr chars!"3u6[12/2]" false [[6, 5], [6, 1], [6, 1]] [11, 7, 7] 11 25 [⟨6, 6⟩, ⟨5, 6⟩, ⟨6, 6⟩, ⟨1, 6⟩, ⟨6, 6⟩, ⟨1, 6⟩] &&
  checkEvalURollExpr chars!"6U6[4]" false [[2], [5, 2], [1], [4, 6, 1], [5, 3], [3]] [2, 7, 1, 11, 8, 3] 11 32 [⟨2, 6⟩, ⟨5, 6⟩, ⟨2, 6⟩, ⟨1, 6⟩, ⟨4, 6⟩, ⟨6, 6⟩, ⟨1, 6⟩, ⟨5, 6⟩, ⟨3, 6⟩, ⟨3, 6⟩] &&
  checkEvalURollExpr chars!"6U6[4]" false [[4, 3], [1], [1], [4, 6, 6, 4, 3], [1], [6, 5, 3]] [7, 1, 1, 23, 1, 14] 23 47 [⟨4, 6⟩, ⟨3, 6⟩, ⟨1, 6⟩, ⟨1, 6⟩, ⟨4, 6⟩, ⟨6, 6⟩, ⟨6, 6⟩, ⟨4, 6⟩, ⟨3, 6⟩, ⟨1, 6⟩, ⟨6, 6⟩, ⟨5, 6⟩, ⟨3, 6⟩] &&
  checkEvalURollExpr chars!"1U100[96]+3" false [[98, 57]] [155] 158 158 [⟨98, 100⟩, ⟨57, 100⟩] &&
  checkEvalURollExpr chars!"3u6[5]+10" false [[1], [3], [5, 1]] [1, 3, 6] 16 20 [⟨1, 6⟩, ⟨3, 6⟩, ⟨5, 6⟩, ⟨1, 6⟩] &&
  checkEvalURollExpr chars!"3u6[5]-10" false [[1], [3], [5, 1]] [1, 3, 6] (-4) 0 [⟨1, 6⟩, ⟨3, 6⟩, ⟨5, 6⟩, ⟨1, 6⟩] &&
  checkEvalURollExpr chars!"3u6+5u6[6]" false [[3], [5], [3], [6, 4], [1], [6, 6, 3], [5], [1]] [3, 5, 3, 10, 1, 15, 5, 1] 15 43 [⟨3, 6⟩, ⟨5, 6⟩, ⟨3, 6⟩, ⟨6, 6⟩, ⟨4, 6⟩, ⟨1, 6⟩, ⟨6, 6⟩, ⟨6, 6⟩, ⟨3, 6⟩, ⟨5, 6⟩, ⟨1, 6⟩] &&
  checkEvalURollExpr chars!"(5+6)u10[10]+5" false [[3], [2], [7], [4], [7], [5], [4], [4], [7], [10, 6], [1]] [3, 2, 7, 4, 7, 5, 4, 4, 7, 16, 1] 21 65 [⟨3, 10⟩, ⟨2, 10⟩, ⟨7, 10⟩, ⟨4, 10⟩, ⟨7, 10⟩, ⟨5, 10⟩, ⟨4, 10⟩, ⟨4, 10⟩, ⟨7, 10⟩, ⟨10, 10⟩, ⟨6, 10⟩, ⟨1, 10⟩]) = true := by decide +kernel

/-- `TestEvalVarArgs` (pkg/core/evaluator/eval_var_args_test.go) -/
example : (
  checkEvalVarArgs chars!"(1+2)d6" chars!"(DRollExpr (DRoll 3 6))" [] &&
  checkEvalVarArgs chars!"4d(3*2)" chars!"(DRollExpr (DRoll 4 6))" [] &&
  checkEvalVarArgs chars!"(8/2)D(4+6)" chars!"(DRollExpr (DRoll 4 10))" [] &&
  checkEvalVarArgs chars!"-(1+2)d6" chars!"(DRollExpr (- (DRoll 3 6)))" [] &&
  checkEvalVarArgs chars!"(2+3)d6-1+3d6+2" chars!"(DRollExpr (+ (+ (- (DRoll 5 6) 1) (DRoll 3 6)) 2))" [] &&
  checkEvalVarArgs chars!"(2*3-4)d6-1d4+1" chars!"(DRollExpr (+ (- (DRoll 2 6) (DRoll 1 4)) 1))" [] &&
  checkEvalVarArgs chars!"((2+3)*4/3)d6*2+5" chars!"(DRollExpr (+ (* (DRoll 6 6) 2) 5))" [] &&
  checkEvalVarArgs chars!"(2-1)d(8/2)*(1+1)d(3*4/2)+2*3" chars!"(DRollExpr (+ (* (DRoll 1 4) (DRoll 2 6)) (* 2 3)))" [] &&
  checkEvalVarArgs chars!"[1...5]D6" chars!"(DRollExpr (DRoll 4 6))" [⟨4, 5⟩] &&
  checkEvalVarArgs chars!"([2...4]+2)D10" chars!"(DRollExpr (DRoll 6 10))" [⟨3, 3⟩] &&
  checkEvalVarArgs chars!"[(2+3)...8]D6" chars!"(DRollExpr (DRoll 5 6))" [⟨1, 4⟩] &&
  checkEvalVarArgs chars!"[5...(7+1)]D6" chars!"(DRollExpr (DRoll 5 6))" [⟨1, 4⟩] &&
  checkEvalVarArgs chars!"2d[1...5]" chars!"(DRollExpr (DRoll 2 2))" [⟨2, 5⟩] &&
  checkEvalVarArgs chars!"2d([2...4]+2)" chars!"(DRollExpr (DRoll 2 5))" [⟨2, 3⟩] &&
  checkEvalVarArgs chars!"2d[(2+3)...8]" chars!"(DRollExpr (DRoll 2 8))" [⟨4, 4⟩] &&
  checkEvalVarArgs chars!"2d[5...(7+1)]" chars!"(DRollExpr (DRoll 2 8))" [⟨4, 4⟩] &&
  checkEvalVarArgs chars!"([1...4]+1)d([2...4]+2)-1" chars!"(DRollExpr (- (DRoll 3 6) 1))" [⟨2, 4⟩, ⟨3, 3⟩] &&
  checkEvalVarArgs chars!"(1*2)D6+1>7" chars!"(DRollComp (> (+ (DRoll 2 6) 1) 7))" [] &&
  checkEvalVarArgs chars!"2D(3*2)+1>7" chars!"(DRollComp (> (+ (DRoll 2 6) 1) 7))" [] &&
  checkEvalVarArgs chars!"(1*2)d6+3d(3+1)>15" chars!"(DRollComp (> (+ (DRoll 2 6) (DRoll 3 4)) 15))" [] &&
  checkEvalVarArgs chars!"2d6+1>3+4" chars!"(DRollComp (> (+ (DRoll 2 6) 1) 7))" [] &&
  checkEvalVarArgs chars!"[1...3]b6" chars!"(BRollList (BRoll 1 6))" [⟨1, 3⟩] &&
  checkEvalVarArgs chars!"2b[4...6]" chars!"(BRollList (BRoll 2 4))" [⟨1, 3⟩] &&
  checkEvalVarArgs chars!"[1...3]b[4...6]" chars!"(BRollList (BRoll 3 6))" [⟨3, 3⟩, ⟨3, 3⟩] &&
  checkEvalVarArgs chars!"(1*2)b6" chars!"(BRollList (BRoll 2 6))" [] &&
  checkEvalVarArgs chars!"([1...3]+1)b6" chars!"(BRollList (BRoll 3 6))" [⟨2, 3⟩] &&
  checkEvalVarArgs chars!"2b(2+4)" chars!"(BRollList (BRoll 2 6))" [] &&
  checkEvalVarArgs chars!"2b([3...5]+1)" chars!"(BRollList (BRoll 2 5))" [⟨2, 3⟩] &&
  checkEvalVarArgs chars!"(1*2)b(2+4)" chars!"(BRollList (BRoll 2 6))" [] &&
  checkEvalVarArgs chars!"(1*2)b(2+4)+(8/2)b(101/10R)" chars!"(BRollList (BRoll 2 6) (BRoll 4 10))" [] &&
  checkEvalVarArgs chars!"2b6+4b10>10/3" chars!"(BRollComp (> (BRollList (BRoll 2 6) (BRoll 4 10)) 3))" [] &&
  checkEvalVarArgs chars!"(3+2)r6" chars!"(RRollList nil (RRoll 5 6))" [] &&
  checkEvalVarArgs chars!"1r(2*3)" chars!"(RRollList nil (RRoll 1 6))" [] &&
  checkEvalVarArgs chars!"(1*3)r6+2r(5+1)" chars!"(RRollList nil (RRoll 3 6) (RRoll 2 6))" [] &&
  checkEvalVarArgs chars!"6R6[2*3]" chars!"(RRollList 6 (RRoll 6 6))" [] &&
  checkEvalVarArgs chars!"3r6>1*4" chars!"(RRollComp (> (RRollList nil (RRoll 3 6)) 4))" [] &&
  checkEvalVarArgs chars!"(1+2)u6[6]" chars!"(URollExpr (RRollList 6 (URoll 3 6)))" [] &&
  checkEvalVarArgs chars!"3u(2*3)[6]" chars!"(URollExpr (RRollList 6 (URoll 3 6)))" [] &&
  checkEvalVarArgs chars!"3u6[12/2]" chars!"(URollExpr (RRollList 6 (URoll 3 6)))" [] &&
  checkEvalVarArgs chars!"3u6[5]-(-2-2*4)" chars!"(URollExpr (+ (RRollList 5 (URoll 3 6)) 10))" [] &&
  checkEvalVarArgs chars!"3u6[5]+(-2-2*4)" chars!"(URollExpr (- (RRollList 5 (URoll 3 6)) 10))" [] &&
  checkEvalVarArgs chars!"3u6[5]+(-2+2)" chars!"(URollExpr (RRollList 5 (URoll 3 6)))" [] &&
  checkEvalVarArgs chars!"(5+6)u10[10]+5" chars!"(URollExpr (+ (RRollList 10 (URoll 11 10)) 5))" []) = true := by decide +kernel

/-- `TestSetRerollThreshold` (pkg/core/evaluator/reroll_threshold_test.go) -/
example : (
  checkSetRerollThreshold chars!"3r6<=4" chars!"(RRollComp (<= (RRollList 4 (RRoll 3 6)) 4))" &&
  checkSetRerollThreshold chars!"3r6+2r4<=2" chars!"(RRollComp (<= (RRollList 2 (RRoll 3 6) (RRoll 2 4)) 2))" &&
  checkSetRerollThreshold chars!"(3+2)r6>=5" chars!"(RRollComp (>= (RRollList 5 (RRoll (+ 3 2) 6)) 5))" &&
  checkSetRerollThreshold chars!"1r(2*3)>=4" chars!"(RRollComp (>= (RRollList 4 (RRoll 1 (* 2 3))) 4))" &&
  checkSetRerollThreshold chars!"3r6>1*4" chars!"(RRollComp (> (RRollList 4 (RRoll 3 6)) (* 1 4)))" &&
  checkSetRerollThreshold chars!"6R6[6]>=5" chars!"(RRollComp (>= (RRollList 6 (RRoll 6 6)) 5))") = true := by decide +kernel

/-- `TestCheckRRollThreshold` (pkg/core/evaluator/reroll_threshold_test.go) -/
example : (
  checkRThreshold chars!"2r6[4]" false chars!"" &&
  checkRThreshold chars!"6R6[6]" false chars!"" &&
  checkRThreshold chars!"2r6" true chars!"2R6>=5 あるいは 2R6[5] のように振り足し目標値を指定してください" &&
  checkRThreshold chars!"2r6[0]" true chars!"振り足し目標値として2以上の整数を指定してください" &&
  checkRThreshold chars!"2r6+3r4[1]" true chars!"振り足し目標値として2以上の整数を指定してください") = true := by decide +kernel

/-- `TestCheckURollThreshold` (pkg/core/evaluator/reroll_threshold_test.go) -/
example : (
  checkUThreshold chars!"2u6[4]" false chars!"" &&
  checkUThreshold chars!"6U6[6]" false chars!"" &&
  checkUThreshold chars!"2u6" true chars!"2U6[5] のように振り足し目標値を指定してください" &&
  checkUThreshold chars!"2u6[0]" true chars!"振り足し目標値として2以上の整数を指定してください" &&
  checkUThreshold chars!"2u6+3u4[1]" true chars!"振り足し目標値として2以上の整数を指定してください") = true := by decide +kernel

/-- `TestInfixNotation` (pkg/core/notation/notation_test.go), cases 1 to 60 -/
example : (
  checkInfixNotation chars!"C(1)" chars!"C(1)" &&
  checkInfixNotation chars!"C(-1)" chars!"C(-1)" &&
  checkInfixNotation chars!"C(1-(-1))" chars!"C(1-(-1))" &&
  checkInfixNotation chars!"C(-1+2)" chars!"C(-1+2)" &&
  checkInfixNotation chars!"C((-1)*2)" chars!"C(-1*2)" &&
  checkInfixNotation chars!"C((-1)*(-2))" chars!"C(-1*(-2))" &&
  checkInfixNotation chars!"C(((1+2)+3)+4)" chars!"C(1+2+3+4)" &&
  checkInfixNotation chars!"C(((1+2)+3)-4)" chars!"C(1+2+3-4)" &&
  checkInfixNotation chars!"C(((1+2)+3)*4)" chars!"C((1+2+3)*4)" &&
  checkInfixNotation chars!"C(((1+2)+3)/4)" chars!"C((1+2+3)/4)" &&
  checkInfixNotation chars!"C(((1+2)-3)+4)" chars!"C(1+2-3+4)" &&
  checkInfixNotation chars!"C(((1+2)-3)-4)" chars!"C(1+2-3-4)" &&
  checkInfixNotation chars!"C(((1+2)-3)*4)" chars!"C((1+2-3)*4)" &&
  checkInfixNotation chars!"C(((1+2)-3)/4)" chars!"C((1+2-3)/4)" &&
  checkInfixNotation chars!"C(((1+2)*3)+4)" chars!"C((1+2)*3+4)" &&
  checkInfixNotation chars!"C(((1+2)*3)-4)" chars!"C((1+2)*3-4)" &&
  checkInfixNotation chars!"C(((1+2)*3)*4)" chars!"C((1+2)*3*4)" &&
  checkInfixNotation chars!"C(((1+2)*3)/4)" chars!"C((1+2)*3/4)" &&
  checkInfixNotation chars!"C(((1+2)/3)+4)" chars!"C((1+2)/3+4)" &&
  checkInfixNotation chars!"C(((1+2)/3)-4)" chars!"C((1+2)/3-4)" &&
  checkInfixNotation chars!"C(((1+2)/3)*4)" chars!"C((1+2)/3*4)" &&
  checkInfixNotation chars!"C(((1+2)/3)/4)" chars!"C((1+2)/3/4)" &&
  checkInfixNotation chars!"C(((1-2)+3)+4)" chars!"C(1-2+3+4)" &&
  checkInfixNotation chars!"C(((1-2)+3)-4)" chars!"C(1-2+3-4)" &&
  checkInfixNotation chars!"C(((1-2)+3)*4)" chars!"C((1-2+3)*4)" &&
  checkInfixNotation chars!"C(((1-2)+3)/4)" chars!"C((1-2+3)/4)" &&
  checkInfixNotation chars!"C(((1-2)-3)+4)" chars!"C(1-2-3+4)" &&
  checkInfixNotation chars!"C(((1-2)-3)-4)" chars!"C(1-2-3-4)" &&
  checkInfixNotation chars!"C(((1-2)-3)*4)" chars!"C((1-2-3)*4)" &&
  checkInfixNotation chars!"C(((1-2)-3)/4)" chars!"C((1-2-3)/4)" &&
  checkInfixNotation chars!"C(((1-2)*3)+4)" chars!"C((1-2)*3+4)" &&
  checkInfixNotation chars!"C(((1-2)*3)-4)" chars!"C((1-2)*3-4)" &&
  checkInfixNotation chars!"C(((1-2)*3)*4)" chars!"C((1-2)*3*4)" &&
  checkInfixNotation chars!"C(((1-2)*3)/4)" chars!"C((1-2)*3/4)" &&
  checkInfixNotation chars!"C(((1-2)/3)+4)" chars!"C((1-2)/3+4)" &&
  checkInfixNotation chars!"C(((1-2)/3)-4)" chars!"C((1-2)/3-4)" &&
  checkInfixNotation chars!"C(((1-2)/3)*4)" chars!"C((1-2)/3*4)" &&
  checkInfixNotation chars!"C(((1-2)/3)/4)" chars!"C((1-2)/3/4)" &&
  checkInfixNotation chars!"C(((1*2)+3)+4)" chars!"C(1*2+3+4)" &&
  checkInfixNotation chars!"C(((1*2)+3)-4)" chars!"C(1*2+3-4)" &&
  checkInfixNotation chars!"C(((1*2)+3)*4)" chars!"C((1*2+3)*4)" &&
  checkInfixNotation chars!"C(((1*2)+3)/4)" chars!"C((1*2+3)/4)" &&
  checkInfixNotation chars!"C(((1*2)-3)+4)" chars!"C(1*2-3+4)" &&
  checkInfixNotation chars!"C(((1*2)-3)-4)" chars!"C(1*2-3-4)" &&
  checkInfixNotation chars!"C(((1*2)-3)*4)" chars!"C((1*2-3)*4)" &&
  checkInfixNotation chars!"C(((1*2)-3)/4)" chars!"C((1*2-3)/4)" &&
  checkInfixNotation chars!"C(((1*2)*3)+4)" chars!"C(1*2*3+4)" &&
  checkInfixNotation chars!"C(((1*2)*3)-4)" chars!"C(1*2*3-4)" &&
  checkInfixNotation chars!"C(((1*2)*3)*4)" chars!"C(1*2*3*4)" &&
  checkInfixNotation chars!"C(((1*2)*3)/4)" chars!"C(1*2*3/4)" &&
  checkInfixNotation chars!"C(((1*2)/3)+4)" chars!"C(1*2/3+4)" &&
  checkInfixNotation chars!"C(((1*2)/3)-4)" chars!"C(1*2/3-4)" &&
  checkInfixNotation chars!"C(((1*2)/3)*4)" chars!"C(1*2/3*4)" &&
  checkInfixNotation chars!"C(((1*2)/3)/4)" chars!"C(1*2/3/4)" &&
  checkInfixNotation chars!"C(((1/2)+3)+4)" chars!"C(1/2+3+4)" &&
  checkInfixNotation chars!"C(((1/2)+3)-4)" chars!"C(1/2+3-4)" &&
  checkInfixNotation chars!"C(((1/2)+3)*4)" chars!"C((1/2+3)*4)" &&
  checkInfixNotation chars!"C(((1/2)+3)/4)" chars!"C((1/2+3)/4)" &&
  checkInfixNotation chars!"C(((1/2)-3)+4)" chars!"C(1/2-3+4)" &&
  checkInfixNotation chars!"C(((1/2)-3)-4)" chars!"C(1/2-3-4)") = true := by decide +kernel

/-- `TestInfixNotation` (pkg/core/notation/notation_test.go), cases 61 to 120 -/
example : (
  checkInfixNotation chars!"C(((1/2)-3)*4)" chars!"C((1/2-3)*4)" &&
  checkInfixNotation chars!"C(((1/2)-3)/4)" chars!"C((1/2-3)/4)" &&
  checkInfixNotation chars!"C(((1/2)*3)+4)" chars!"C(1/2*3+4)" &&
  checkInfixNotation chars!"C(((1/2)*3)-4)" chars!"C(1/2*3-4)" &&
  checkInfixNotation chars!"C(((1/2)*3)*4)" chars!"C(1/2*3*4)" &&
  checkInfixNotation chars!"C(((1/2)*3)/4)" chars!"C(1/2*3/4)" &&
  checkInfixNotation chars!"C(((1/2)/3)+4)" chars!"C(1/2/3+4)" &&
  checkInfixNotation chars!"C(((1/2)/3)-4)" chars!"C(1/2/3-4)" &&
  checkInfixNotation chars!"C(((1/2)/3)*4)" chars!"C(1/2/3*4)" &&
  checkInfixNotation chars!"C(((1/2)/3)/4)" chars!"C(1/2/3/4)" &&
  checkInfixNotation chars!"C((1+(2+3))+4)" chars!"C(1+2+3+4)" &&
  checkInfixNotation chars!"C((1+(2+3))-4)" chars!"C(1+2+3-4)" &&
  checkInfixNotation chars!"C((1+(2+3))*4)" chars!"C((1+2+3)*4)" &&
  checkInfixNotation chars!"C((1+(2+3))/4)" chars!"C((1+2+3)/4)" &&
  checkInfixNotation chars!"C((1+(2-3))+4)" chars!"C(1+2-3+4)" &&
  checkInfixNotation chars!"C((1+(2-3))-4)" chars!"C(1+2-3-4)" &&
  checkInfixNotation chars!"C((1+(2-3))*4)" chars!"C((1+2-3)*4)" &&
  checkInfixNotation chars!"C((1+(2-3))/4)" chars!"C((1+2-3)/4)" &&
  checkInfixNotation chars!"C((1+(2*3))+4)" chars!"C(1+2*3+4)" &&
  checkInfixNotation chars!"C((1+(2*3))-4)" chars!"C(1+2*3-4)" &&
  checkInfixNotation chars!"C((1+(2*3))*4)" chars!"C((1+2*3)*4)" &&
  checkInfixNotation chars!"C((1+(2*3))/4)" chars!"C((1+2*3)/4)" &&
  checkInfixNotation chars!"C((1+(2/3))+4)" chars!"C(1+2/3+4)" &&
  checkInfixNotation chars!"C((1+(2/3))-4)" chars!"C(1+2/3-4)" &&
  checkInfixNotation chars!"C((1+(2/3))*4)" chars!"C((1+2/3)*4)" &&
  checkInfixNotation chars!"C((1+(2/3))/4)" chars!"C((1+2/3)/4)" &&
  checkInfixNotation chars!"C((1-(2+3))+4)" chars!"C(1-(2+3)+4)" &&
  checkInfixNotation chars!"C((1-(2+3))-4)" chars!"C(1-(2+3)-4)" &&
  checkInfixNotation chars!"C((1-(2+3))*4)" chars!"C((1-(2+3))*4)" &&
  checkInfixNotation chars!"C((1-(2+3))/4)" chars!"C((1-(2+3))/4)" &&
  checkInfixNotation chars!"C((1-(2-3))+4)" chars!"C(1-(2-3)+4)" &&
  checkInfixNotation chars!"C((1-(2-3))-4)" chars!"C(1-(2-3)-4)" &&
  checkInfixNotation chars!"C((1-(2-3))*4)" chars!"C((1-(2-3))*4)" &&
  checkInfixNotation chars!"C((1-(2-3))/4)" chars!"C((1-(2-3))/4)" &&
  checkInfixNotation chars!"C((1-(2*3))+4)" chars!"C(1-2*3+4)" &&
  checkInfixNotation chars!"C((1-(2*3))-4)" chars!"C(1-2*3-4)" &&
  checkInfixNotation chars!"C((1-(2*3))*4)" chars!"C((1-2*3)*4)" &&
  checkInfixNotation chars!"C((1-(2*3))/4)" chars!"C((1-2*3)/4)" &&
  checkInfixNotation chars!"C((1-(2/3))+4)" chars!"C(1-2/3+4)" &&
  checkInfixNotation chars!"C((1-(2/3))-4)" chars!"C(1-2/3-4)" &&
  checkInfixNotation chars!"C((1-(2/3))*4)" chars!"C((1-2/3)*4)" &&
  checkInfixNotation chars!"C((1-(2/3))/4)" chars!"C((1-2/3)/4)" &&
  checkInfixNotation chars!"C((1*(2+3))+4)" chars!"C(1*(2+3)+4)" &&
  checkInfixNotation chars!"C((1*(2+3))-4)" chars!"C(1*(2+3)-4)" &&
  checkInfixNotation chars!"C((1*(2+3))*4)" chars!"C(1*(2+3)*4)" &&
  checkInfixNotation chars!"C((1*(2+3))/4)" chars!"C(1*(2+3)/4)" &&
  checkInfixNotation chars!"C((1*(2-3))+4)" chars!"C(1*(2-3)+4)" &&
  checkInfixNotation chars!"C((1*(2-3))-4)" chars!"C(1*(2-3)-4)" &&
  checkInfixNotation chars!"C((1*(2-3))*4)" chars!"C(1*(2-3)*4)" &&
  checkInfixNotation chars!"C((1*(2-3))/4)" chars!"C(1*(2-3)/4)" &&
  checkInfixNotation chars!"C((1*(2*3))+4)" chars!"C(1*2*3+4)" &&
  checkInfixNotation chars!"C((1*(2*3))-4)" chars!"C(1*2*3-4)" &&
  checkInfixNotation chars!"C((1*(2*3))*4)" chars!"C(1*2*3*4)" &&
  checkInfixNotation chars!"C((1*(2*3))/4)" chars!"C(1*2*3/4)" &&
  checkInfixNotation chars!"C((1*(2/3))+4)" chars!"C(1*2/3+4)" &&
  checkInfixNotation chars!"C((1*(2/3))-4)" chars!"C(1*2/3-4)" &&
  checkInfixNotation chars!"C((1*(2/3))*4)" chars!"C(1*2/3*4)" &&
  checkInfixNotation chars!"C((1*(2/3))/4)" chars!"C(1*2/3/4)" &&
  checkInfixNotation chars!"C((1/(2+3))+4)" chars!"C(1/(2+3)+4)" &&
  checkInfixNotation chars!"C((1/(2+3))-4)" chars!"C(1/(2+3)-4)") = true := by decide +kernel

/-- `TestInfixNotation` (pkg/core/notation/notation_test.go), cases 121 to 180 -/
example : (
  checkInfixNotation chars!"C((1/(2+3))*4)" chars!"C(1/(2+3)*4)" &&
  checkInfixNotation chars!"C((1/(2+3))/4)" chars!"C(1/(2+3)/4)" &&
  checkInfixNotation chars!"C((1/(2-3))+4)" chars!"C(1/(2-3)+4)" &&
  checkInfixNotation chars!"C((1/(2-3))-4)" chars!"C(1/(2-3)-4)" &&
  checkInfixNotation chars!"C((1/(2-3))*4)" chars!"C(1/(2-3)*4)" &&
  checkInfixNotation chars!"C((1/(2-3))/4)" chars!"C(1/(2-3)/4)" &&
  checkInfixNotation chars!"C((1/(2*3))+4)" chars!"C(1/(2*3)+4)" &&
  checkInfixNotation chars!"C((1/(2*3))-4)" chars!"C(1/(2*3)-4)" &&
  checkInfixNotation chars!"C((1/(2*3))*4)" chars!"C(1/(2*3)*4)" &&
  checkInfixNotation chars!"C((1/(2*3))/4)" chars!"C(1/(2*3)/4)" &&
  checkInfixNotation chars!"C((1/(2/3))+4)" chars!"C(1/(2/3)+4)" &&
  checkInfixNotation chars!"C((1/(2/3))-4)" chars!"C(1/(2/3)-4)" &&
  checkInfixNotation chars!"C((1/(2/3))*4)" chars!"C(1/(2/3)*4)" &&
  checkInfixNotation chars!"C((1/(2/3))/4)" chars!"C(1/(2/3)/4)" &&
  checkInfixNotation chars!"C((1+2)+(3+4))" chars!"C(1+2+3+4)" &&
  checkInfixNotation chars!"C((1+2)+(3-4))" chars!"C(1+2+3-4)" &&
  checkInfixNotation chars!"C((1+2)+(3*4))" chars!"C(1+2+3*4)" &&
  checkInfixNotation chars!"C((1+2)+(3/4))" chars!"C(1+2+3/4)" &&
  checkInfixNotation chars!"C((1+2)-(3+4))" chars!"C(1+2-(3+4))" &&
  checkInfixNotation chars!"C((1+2)-(3-4))" chars!"C(1+2-(3-4))" &&
  checkInfixNotation chars!"C((1+2)-(3*4))" chars!"C(1+2-3*4)" &&
  checkInfixNotation chars!"C((1+2)-(3/4))" chars!"C(1+2-3/4)" &&
  checkInfixNotation chars!"C((1+2)*(3+4))" chars!"C((1+2)*(3+4))" &&
  checkInfixNotation chars!"C((1+2)*(3-4))" chars!"C((1+2)*(3-4))" &&
  checkInfixNotation chars!"C((1+2)*(3*4))" chars!"C((1+2)*3*4)" &&
  checkInfixNotation chars!"C((1+2)*(3/4))" chars!"C((1+2)*3/4)" &&
  checkInfixNotation chars!"C((1+2)/(3+4))" chars!"C((1+2)/(3+4))" &&
  checkInfixNotation chars!"C((1+2)/(3-4))" chars!"C((1+2)/(3-4))" &&
  checkInfixNotation chars!"C((1+2)/(3*4))" chars!"C((1+2)/(3*4))" &&
  checkInfixNotation chars!"C((1+2)/(3/4))" chars!"C((1+2)/(3/4))" &&
  checkInfixNotation chars!"C((1-2)+(3+4))" chars!"C(1-2+3+4)" &&
  checkInfixNotation chars!"C((1-2)+(3-4))" chars!"C(1-2+3-4)" &&
  checkInfixNotation chars!"C((1-2)+(3*4))" chars!"C(1-2+3*4)" &&
  checkInfixNotation chars!"C((1-2)+(3/4))" chars!"C(1-2+3/4)" &&
  checkInfixNotation chars!"C((1-2)-(3+4))" chars!"C(1-2-(3+4))" &&
  checkInfixNotation chars!"C((1-2)-(3-4))" chars!"C(1-2-(3-4))" &&
  checkInfixNotation chars!"C((1-2)-(3*4))" chars!"C(1-2-3*4)" &&
  checkInfixNotation chars!"C((1-2)-(3/4))" chars!"C(1-2-3/4)" &&
  checkInfixNotation chars!"C((1-2)*(3+4))" chars!"C((1-2)*(3+4))" &&
  checkInfixNotation chars!"C((1-2)*(3-4))" chars!"C((1-2)*(3-4))" &&
  checkInfixNotation chars!"C((1-2)*(3*4))" chars!"C((1-2)*3*4)" &&
  checkInfixNotation chars!"C((1-2)*(3/4))" chars!"C((1-2)*3/4)" &&
  checkInfixNotation chars!"C((1-2)/(3+4))" chars!"C((1-2)/(3+4))" &&
  checkInfixNotation chars!"C((1-2)/(3-4))" chars!"C((1-2)/(3-4))" &&
  checkInfixNotation chars!"C((1-2)/(3*4))" chars!"C((1-2)/(3*4))" &&
  checkInfixNotation chars!"C((1-2)/(3/4))" chars!"C((1-2)/(3/4))" &&
  checkInfixNotation chars!"C((1*2)+(3+4))" chars!"C(1*2+3+4)" &&
  checkInfixNotation chars!"C((1*2)+(3-4))" chars!"C(1*2+3-4)" &&
  checkInfixNotation chars!"C((1*2)+(3*4))" chars!"C(1*2+3*4)" &&
  checkInfixNotation chars!"C((1*2)+(3/4))" chars!"C(1*2+3/4)" &&
  checkInfixNotation chars!"C((1*2)-(3+4))" chars!"C(1*2-(3+4))" &&
  checkInfixNotation chars!"C((1*2)-(3-4))" chars!"C(1*2-(3-4))" &&
  checkInfixNotation chars!"C((1*2)-(3*4))" chars!"C(1*2-3*4)" &&
  checkInfixNotation chars!"C((1*2)-(3/4))" chars!"C(1*2-3/4)" &&
  checkInfixNotation chars!"C((1*2)*(3+4))" chars!"C(1*2*(3+4))" &&
  checkInfixNotation chars!"C((1*2)*(3-4))" chars!"C(1*2*(3-4))" &&
  checkInfixNotation chars!"C((1*2)*(3*4))" chars!"C(1*2*3*4)" &&
  checkInfixNotation chars!"C((1*2)*(3/4))" chars!"C(1*2*3/4)" &&
  checkInfixNotation chars!"C((1*2)/(3+4))" chars!"C(1*2/(3+4))" &&
  checkInfixNotation chars!"C((1*2)/(3-4))" chars!"C(1*2/(3-4))") = true := by decide +kernel

/-- `TestInfixNotation` (pkg/core/notation/notation_test.go), cases 181 to 240 -/
example : (
  checkInfixNotation chars!"C((1*2)/(3*4))" chars!"C(1*2/(3*4))" &&
  checkInfixNotation chars!"C((1*2)/(3/4))" chars!"C(1*2/(3/4))" &&
  checkInfixNotation chars!"C((1/2)+(3+4))" chars!"C(1/2+3+4)" &&
  checkInfixNotation chars!"C((1/2)+(3-4))" chars!"C(1/2+3-4)" &&
  checkInfixNotation chars!"C((1/2)+(3*4))" chars!"C(1/2+3*4)" &&
  checkInfixNotation chars!"C((1/2)+(3/4))" chars!"C(1/2+3/4)" &&
  checkInfixNotation chars!"C((1/2)-(3+4))" chars!"C(1/2-(3+4))" &&
  checkInfixNotation chars!"C((1/2)-(3-4))" chars!"C(1/2-(3-4))" &&
  checkInfixNotation chars!"C((1/2)-(3*4))" chars!"C(1/2-3*4)" &&
  checkInfixNotation chars!"C((1/2)-(3/4))" chars!"C(1/2-3/4)" &&
  checkInfixNotation chars!"C((1/2)*(3+4))" chars!"C(1/2*(3+4))" &&
  checkInfixNotation chars!"C((1/2)*(3-4))" chars!"C(1/2*(3-4))" &&
  checkInfixNotation chars!"C((1/2)*(3*4))" chars!"C(1/2*3*4)" &&
  checkInfixNotation chars!"C((1/2)*(3/4))" chars!"C(1/2*3/4)" &&
  checkInfixNotation chars!"C((1/2)/(3+4))" chars!"C(1/2/(3+4))" &&
  checkInfixNotation chars!"C((1/2)/(3-4))" chars!"C(1/2/(3-4))" &&
  checkInfixNotation chars!"C((1/2)/(3*4))" chars!"C(1/2/(3*4))" &&
  checkInfixNotation chars!"C((1/2)/(3/4))" chars!"C(1/2/(3/4))" &&
  checkInfixNotation chars!"C(1+((2+3)+4))" chars!"C(1+2+3+4)" &&
  checkInfixNotation chars!"C(1+((2+3)-4))" chars!"C(1+2+3-4)" &&
  checkInfixNotation chars!"C(1+((2+3)*4))" chars!"C(1+(2+3)*4)" &&
  checkInfixNotation chars!"C(1+((2+3)/4))" chars!"C(1+(2+3)/4)" &&
  checkInfixNotation chars!"C(1+((2-3)+4))" chars!"C(1+2-3+4)" &&
  checkInfixNotation chars!"C(1+((2-3)-4))" chars!"C(1+2-3-4)" &&
  checkInfixNotation chars!"C(1+((2-3)*4))" chars!"C(1+(2-3)*4)" &&
  checkInfixNotation chars!"C(1+((2-3)/4))" chars!"C(1+(2-3)/4)" &&
  checkInfixNotation chars!"C(1+((2*3)+4))" chars!"C(1+2*3+4)" &&
  checkInfixNotation chars!"C(1+((2*3)-4))" chars!"C(1+2*3-4)" &&
  checkInfixNotation chars!"C(1+((2*3)*4))" chars!"C(1+2*3*4)" &&
  checkInfixNotation chars!"C(1+((2*3)/4))" chars!"C(1+2*3/4)" &&
  checkInfixNotation chars!"C(1+((2/3)+4))" chars!"C(1+2/3+4)" &&
  checkInfixNotation chars!"C(1+((2/3)-4))" chars!"C(1+2/3-4)" &&
  checkInfixNotation chars!"C(1+((2/3)*4))" chars!"C(1+2/3*4)" &&
  checkInfixNotation chars!"C(1+((2/3)/4))" chars!"C(1+2/3/4)" &&
  checkInfixNotation chars!"C(1-((2+3)+4))" chars!"C(1-(2+3+4))" &&
  checkInfixNotation chars!"C(1-((2+3)-4))" chars!"C(1-(2+3-4))" &&
  checkInfixNotation chars!"C(1-((2+3)*4))" chars!"C(1-(2+3)*4)" &&
  checkInfixNotation chars!"C(1-((2+3)/4))" chars!"C(1-(2+3)/4)" &&
  checkInfixNotation chars!"C(1-((2-3)+4))" chars!"C(1-(2-3+4))" &&
  checkInfixNotation chars!"C(1-((2-3)-4))" chars!"C(1-(2-3-4))" &&
  checkInfixNotation chars!"C(1-((2-3)*4))" chars!"C(1-(2-3)*4)" &&
  checkInfixNotation chars!"C(1-((2-3)/4))" chars!"C(1-(2-3)/4)" &&
  checkInfixNotation chars!"C(1-((2*3)+4))" chars!"C(1-(2*3+4))" &&
  checkInfixNotation chars!"C(1-((2*3)-4))" chars!"C(1-(2*3-4))" &&
  checkInfixNotation chars!"C(1-((2*3)*4))" chars!"C(1-2*3*4)" &&
  checkInfixNotation chars!"C(1-((2*3)/4))" chars!"C(1-2*3/4)" &&
  checkInfixNotation chars!"C(1-((2/3)+4))" chars!"C(1-(2/3+4))" &&
  checkInfixNotation chars!"C(1-((2/3)-4))" chars!"C(1-(2/3-4))" &&
  checkInfixNotation chars!"C(1-((2/3)*4))" chars!"C(1-2/3*4)" &&
  checkInfixNotation chars!"C(1-((2/3)/4))" chars!"C(1-2/3/4)" &&
  checkInfixNotation chars!"C(1*((2+3)+4))" chars!"C(1*(2+3+4))" &&
  checkInfixNotation chars!"C(1*((2+3)-4))" chars!"C(1*(2+3-4))" &&
  checkInfixNotation chars!"C(1*((2+3)*4))" chars!"C(1*(2+3)*4)" &&
  checkInfixNotation chars!"C(1*((2+3)/4))" chars!"C(1*(2+3)/4)" &&
  checkInfixNotation chars!"C(1*((2-3)+4))" chars!"C(1*(2-3+4))" &&
  checkInfixNotation chars!"C(1*((2-3)-4))" chars!"C(1*(2-3-4))" &&
  checkInfixNotation chars!"C(1*((2-3)*4))" chars!"C(1*(2-3)*4)" &&
  checkInfixNotation chars!"C(1*((2-3)/4))" chars!"C(1*(2-3)/4)" &&
  checkInfixNotation chars!"C(1*((2*3)+4))" chars!"C(1*(2*3+4))" &&
  checkInfixNotation chars!"C(1*((2*3)-4))" chars!"C(1*(2*3-4))") = true := by decide +kernel

/-- `TestInfixNotation` (pkg/core/notation/notation_test.go), cases 241 to 300 -/
example : (
  checkInfixNotation chars!"C(1*((2*3)*4))" chars!"C(1*2*3*4)" &&
  checkInfixNotation chars!"C(1*((2*3)/4))" chars!"C(1*2*3/4)" &&
  checkInfixNotation chars!"C(1*((2/3)+4))" chars!"C(1*(2/3+4))" &&
  checkInfixNotation chars!"C(1*((2/3)-4))" chars!"C(1*(2/3-4))" &&
  checkInfixNotation chars!"C(1*((2/3)*4))" chars!"C(1*2/3*4)" &&
  checkInfixNotation chars!"C(1*((2/3)/4))" chars!"C(1*2/3/4)" &&
  checkInfixNotation chars!"C(1/((2+3)+4))" chars!"C(1/(2+3+4))" &&
  checkInfixNotation chars!"C(1/((2+3)-4))" chars!"C(1/(2+3-4))" &&
  checkInfixNotation chars!"C(1/((2+3)*4))" chars!"C(1/((2+3)*4))" &&
  checkInfixNotation chars!"C(1/((2+3)/4))" chars!"C(1/((2+3)/4))" &&
  checkInfixNotation chars!"C(1/((2-3)+4))" chars!"C(1/(2-3+4))" &&
  checkInfixNotation chars!"C(1/((2-3)-4))" chars!"C(1/(2-3-4))" &&
  checkInfixNotation chars!"C(1/((2-3)*4))" chars!"C(1/((2-3)*4))" &&
  checkInfixNotation chars!"C(1/((2-3)/4))" chars!"C(1/((2-3)/4))" &&
  checkInfixNotation chars!"C(1/((2*3)+4))" chars!"C(1/(2*3+4))" &&
  checkInfixNotation chars!"C(1/((2*3)-4))" chars!"C(1/(2*3-4))" &&
  checkInfixNotation chars!"C(1/((2*3)*4))" chars!"C(1/(2*3*4))" &&
  checkInfixNotation chars!"C(1/((2*3)/4))" chars!"C(1/(2*3/4))" &&
  checkInfixNotation chars!"C(1/((2/3)+4))" chars!"C(1/(2/3+4))" &&
  checkInfixNotation chars!"C(1/((2/3)-4))" chars!"C(1/(2/3-4))" &&
  checkInfixNotation chars!"C(1/((2/3)*4))" chars!"C(1/(2/3*4))" &&
  checkInfixNotation chars!"C(1/((2/3)/4))" chars!"C(1/(2/3/4))" &&
  checkInfixNotation chars!"C(1+(2+(3+4)))" chars!"C(1+2+3+4)" &&
  checkInfixNotation chars!"C(1+(2+(3-4)))" chars!"C(1+2+3-4)" &&
  checkInfixNotation chars!"C(1+(2+(3*4)))" chars!"C(1+2+3*4)" &&
  checkInfixNotation chars!"C(1+(2+(3/4)))" chars!"C(1+2+3/4)" &&
  checkInfixNotation chars!"C(1+(2-(3+4)))" chars!"C(1+2-(3+4))" &&
  checkInfixNotation chars!"C(1+(2-(3-4)))" chars!"C(1+2-(3-4))" &&
  checkInfixNotation chars!"C(1+(2-(3*4)))" chars!"C(1+2-3*4)" &&
  checkInfixNotation chars!"C(1+(2-(3/4)))" chars!"C(1+2-3/4)" &&
  checkInfixNotation chars!"C(1+(2*(3+4)))" chars!"C(1+2*(3+4))" &&
  checkInfixNotation chars!"C(1+(2*(3-4)))" chars!"C(1+2*(3-4))" &&
  checkInfixNotation chars!"C(1+(2*(3*4)))" chars!"C(1+2*3*4)" &&
  checkInfixNotation chars!"C(1+(2*(3/4)))" chars!"C(1+2*3/4)" &&
  checkInfixNotation chars!"C(1+(2/(3+4)))" chars!"C(1+2/(3+4))" &&
  checkInfixNotation chars!"C(1+(2/(3-4)))" chars!"C(1+2/(3-4))" &&
  checkInfixNotation chars!"C(1+(2/(3*4)))" chars!"C(1+2/(3*4))" &&
  checkInfixNotation chars!"C(1+(2/(3/4)))" chars!"C(1+2/(3/4))" &&
  checkInfixNotation chars!"C(1-(2+(3+4)))" chars!"C(1-(2+3+4))" &&
  checkInfixNotation chars!"C(1-(2+(3-4)))" chars!"C(1-(2+3-4))" &&
  checkInfixNotation chars!"C(1-(2+(3*4)))" chars!"C(1-(2+3*4))" &&
  checkInfixNotation chars!"C(1-(2+(3/4)))" chars!"C(1-(2+3/4))" &&
  checkInfixNotation chars!"C(1-(2-(3+4)))" chars!"C(1-(2-(3+4)))" &&
  checkInfixNotation chars!"C(1-(2-(3-4)))" chars!"C(1-(2-(3-4)))" &&
  checkInfixNotation chars!"C(1-(2-(3*4)))" chars!"C(1-(2-3*4))" &&
  checkInfixNotation chars!"C(1-(2-(3/4)))" chars!"C(1-(2-3/4))" &&
  checkInfixNotation chars!"C(1-(2*(3+4)))" chars!"C(1-2*(3+4))" &&
  checkInfixNotation chars!"C(1-(2*(3-4)))" chars!"C(1-2*(3-4))" &&
  checkInfixNotation chars!"C(1-(2*(3*4)))" chars!"C(1-2*3*4)" &&
  checkInfixNotation chars!"C(1-(2*(3/4)))" chars!"C(1-2*3/4)" &&
  checkInfixNotation chars!"C(1-(2/(3+4)))" chars!"C(1-2/(3+4))" &&
  checkInfixNotation chars!"C(1-(2/(3-4)))" chars!"C(1-2/(3-4))" &&
  checkInfixNotation chars!"C(1-(2/(3*4)))" chars!"C(1-2/(3*4))" &&
  checkInfixNotation chars!"C(1-(2/(3/4)))" chars!"C(1-2/(3/4))" &&
  checkInfixNotation chars!"C(1*(2+(3+4)))" chars!"C(1*(2+3+4))" &&
  checkInfixNotation chars!"C(1*(2+(3-4)))" chars!"C(1*(2+3-4))" &&
  checkInfixNotation chars!"C(1*(2+(3*4)))" chars!"C(1*(2+3*4))" &&
  checkInfixNotation chars!"C(1*(2+(3/4)))" chars!"C(1*(2+3/4))" &&
  checkInfixNotation chars!"C(1*(2-(3+4)))" chars!"C(1*(2-(3+4)))" &&
  checkInfixNotation chars!"C(1*(2-(3-4)))" chars!"C(1*(2-(3-4)))") = true := by decide +kernel

/-- `TestInfixNotation` (pkg/core/notation/notation_test.go), cases 301 to 360 -/
example : (
  checkInfixNotation chars!"C(1*(2-(3*4)))" chars!"C(1*(2-3*4))" &&
  checkInfixNotation chars!"C(1*(2-(3/4)))" chars!"C(1*(2-3/4))" &&
  checkInfixNotation chars!"C(1*(2*(3+4)))" chars!"C(1*2*(3+4))" &&
  checkInfixNotation chars!"C(1*(2*(3-4)))" chars!"C(1*2*(3-4))" &&
  checkInfixNotation chars!"C(1*(2*(3*4)))" chars!"C(1*2*3*4)" &&
  checkInfixNotation chars!"C(1*(2*(3/4)))" chars!"C(1*2*3/4)" &&
  checkInfixNotation chars!"C(1*(2/(3+4)))" chars!"C(1*2/(3+4))" &&
  checkInfixNotation chars!"C(1*(2/(3-4)))" chars!"C(1*2/(3-4))" &&
  checkInfixNotation chars!"C(1*(2/(3*4)))" chars!"C(1*2/(3*4))" &&
  checkInfixNotation chars!"C(1*(2/(3/4)))" chars!"C(1*2/(3/4))" &&
  checkInfixNotation chars!"C(1/(2+(3+4)))" chars!"C(1/(2+3+4))" &&
  checkInfixNotation chars!"C(1/(2+(3-4)))" chars!"C(1/(2+3-4))" &&
  checkInfixNotation chars!"C(1/(2+(3*4)))" chars!"C(1/(2+3*4))" &&
  checkInfixNotation chars!"C(1/(2+(3/4)))" chars!"C(1/(2+3/4))" &&
  checkInfixNotation chars!"C(1/(2-(3+4)))" chars!"C(1/(2-(3+4)))" &&
  checkInfixNotation chars!"C(1/(2-(3-4)))" chars!"C(1/(2-(3-4)))" &&
  checkInfixNotation chars!"C(1/(2-(3*4)))" chars!"C(1/(2-3*4))" &&
  checkInfixNotation chars!"C(1/(2-(3/4)))" chars!"C(1/(2-3/4))" &&
  checkInfixNotation chars!"C(1/(2*(3+4)))" chars!"C(1/(2*(3+4)))" &&
  checkInfixNotation chars!"C(1/(2*(3-4)))" chars!"C(1/(2*(3-4)))" &&
  checkInfixNotation chars!"C(1/(2*(3*4)))" chars!"C(1/(2*3*4))" &&
  checkInfixNotation chars!"C(1/(2*(3/4)))" chars!"C(1/(2*3/4))" &&
  checkInfixNotation chars!"C(1/(2/(3+4)))" chars!"C(1/(2/(3+4)))" &&
  checkInfixNotation chars!"C(1/(2/(3-4)))" chars!"C(1/(2/(3-4)))" &&
  checkInfixNotation chars!"C(1/(2/(3*4)))" chars!"C(1/(2/(3*4)))" &&
  checkInfixNotation chars!"C(1/(2/(3/4)))" chars!"C(1/(2/(3/4)))" &&
  checkInfixNotation chars!"C(1/2u)" chars!"C(1/2U)" &&
  checkInfixNotation chars!"C(1/2r)" chars!"C(1/2R)" &&
  checkInfixNotation chars!"C(100/(1+2)u)" chars!"C(100/(1+2)U)" &&
  checkInfixNotation chars!"C(100/(1+2)r)" chars!"C(100/(1+2)R)" &&
  checkInfixNotation chars!"C(-1+-2*-3--4)" chars!"C(-1+(-2)*(-3)-(-4))" &&
  checkInfixNotation chars!"C(-1+(-2-3)*-4)" chars!"C(-1+(-2-3)*(-4))" &&
  checkInfixNotation chars!"C((-1+-2)-3*-4)" chars!"C(-1+(-2)-3*(-4))" &&
  checkInfixNotation chars!"C(-1+-1*2-32/8)" chars!"C(-1+(-1)*2-32/8)" &&
  checkInfixNotation chars!"C(-1+(-(-1-3))*2-32/8)" chars!"C(-1+(-(-1-3))*2-32/8)" &&
  checkInfixNotation chars!"C(-1+(-(-1-(1+2)))*2-32/8)" chars!"C(-1+(-(-1-(1+2)))*2-32/8)" &&
  checkInfixNotation chars!"2D6" chars!"2D6" &&
  checkInfixNotation chars!"12D60" chars!"12D60" &&
  checkInfixNotation chars!"-2D6" chars!"-2D6" &&
  checkInfixNotation chars!"+2D6" chars!"2D6" &&
  checkInfixNotation chars!"2D6+1" chars!"2D6+1" &&
  checkInfixNotation chars!"1+2D6" chars!"1+2D6" &&
  checkInfixNotation chars!"-2D6+1" chars!"-2D6+1" &&
  checkInfixNotation chars!"+2D6+1" chars!"2D6+1" &&
  checkInfixNotation chars!"2d6+1-1-2-3-4" chars!"2D6+1-1-2-3-4" &&
  checkInfixNotation chars!"2D6+4D10" chars!"2D6+4D10" &&
  checkInfixNotation chars!"(2D6)" chars!"2D6" &&
  checkInfixNotation chars!"-(2D6)" chars!"-2D6" &&
  checkInfixNotation chars!"+(2D6)" chars!"2D6" &&
  checkInfixNotation chars!"2d6*3" chars!"2D6*3" &&
  checkInfixNotation chars!"2d6/2" chars!"2D6/2" &&
  checkInfixNotation chars!"2d6/2u" chars!"2D6/2U" &&
  checkInfixNotation chars!"2d6/2r" chars!"2D6/2R" &&
  checkInfixNotation chars!"100/2d6+1" chars!"100/2D6+1" &&
  checkInfixNotation chars!"100/2d6u+1" chars!"100/2D6U+1" &&
  checkInfixNotation chars!"100/2d6r+1" chars!"100/2D6R+1" &&
  checkInfixNotation chars!"100/(2d6+1)+4*5" chars!"100/(2D6+1)+4*5" &&
  checkInfixNotation chars!"100/(2d6+1)u+4*5" chars!"100/(2D6+1)U+4*5" &&
  checkInfixNotation chars!"100/(2d6+1)r+4*5" chars!"100/(2D6+1)R+4*5" &&
  checkInfixNotation chars!"4d10/2d6+1" chars!"4D10/2D6+1") = true := by decide +kernel

/-- `TestInfixNotation` (pkg/core/notation/notation_test.go), cases 361 to 420 -/
example : (
  checkInfixNotation chars!"4d10/2d6u+1" chars!"4D10/2D6U+1" &&
  checkInfixNotation chars!"4d10/2d6r+1" chars!"4D10/2D6R+1" &&
  checkInfixNotation chars!"2d10+3-4" chars!"2D10+3-4" &&
  checkInfixNotation chars!"2d10+3*4" chars!"2D10+3*4" &&
  checkInfixNotation chars!"2d10/3+4*5-6" chars!"2D10/3+4*5-6" &&
  checkInfixNotation chars!"2d10/3u+4*5-6" chars!"2D10/3U+4*5-6" &&
  checkInfixNotation chars!"2d10/3r+4*5-6" chars!"2D10/3R+4*5-6" &&
  checkInfixNotation chars!"2d6*3-1d6+1" chars!"2D6*3-1D6+1" &&
  checkInfixNotation chars!"(2+3)d6-1+3d6+2" chars!"(2+3)D6-1+3D6+2" &&
  checkInfixNotation chars!"(2*3-4)d6-1d4+1" chars!"(2*3-4)D6-1D4+1" &&
  checkInfixNotation chars!"((2+3)*4/3)d6*2+5" chars!"((2+3)*4/3)D6*2+5" &&
  checkInfixNotation chars!"2d(1+5)" chars!"2D(1+5)" &&
  checkInfixNotation chars!"(8/2)D(4+6)" chars!"(8/2)D(4+6)" &&
  checkInfixNotation chars!"(2-1)d(8/2)*(1+1)d(3*4/2)+2*3" chars!"(2-1)D(8/2)*(1+1)D(3*4/2)+2*3" &&
  checkInfixNotation chars!"[1...5]D6" chars!"[1...5]D6" &&
  checkInfixNotation chars!"([2...4]+2)D10" chars!"([2...4]+2)D10" &&
  checkInfixNotation chars!"[(2+3)...8]D6" chars!"[(2+3)...8]D6" &&
  checkInfixNotation chars!"[5...(7+1)]D6" chars!"[5...(7+1)]D6" &&
  checkInfixNotation chars!"2d[1...5]" chars!"2D[1...5]" &&
  checkInfixNotation chars!"2d([2...4]+2)" chars!"2D([2...4]+2)" &&
  checkInfixNotation chars!"2d[(2+3)...8]" chars!"2D[(2+3)...8]" &&
  checkInfixNotation chars!"2d[5...(7+1)]" chars!"2D[5...(7+1)]" &&
  checkInfixNotation chars!"[1...5]d(2*3)" chars!"[1...5]D(2*3)" &&
  checkInfixNotation chars!"(1+1)d[1...5]" chars!"(1+1)D[1...5]" &&
  checkInfixNotation chars!"([1...4]+1)d([2...4]+2)-1" chars!"([1...4]+1)D([2...4]+2)-1" &&
  checkInfixNotation chars!"2D6=7" chars!"2D6=7" &&
  checkInfixNotation chars!"2D6+1=7" chars!"2D6+1=7" &&
  checkInfixNotation chars!"1+2D6=7" chars!"1+2D6=7" &&
  checkInfixNotation chars!"2D6<>7" chars!"2D6<>7" &&
  checkInfixNotation chars!"2D6<7" chars!"2D6<7" &&
  checkInfixNotation chars!"2D6>7" chars!"2D6>7" &&
  checkInfixNotation chars!"2D6<=7" chars!"2D6<=7" &&
  checkInfixNotation chars!"2D6>=7" chars!"2D6>=7" &&
  checkInfixNotation chars!"-2D6<-7" chars!"-2D6<-7" &&
  checkInfixNotation chars!"-2D6>-7" chars!"-2D6>-7" &&
  checkInfixNotation chars!"-2D6<=-7" chars!"-2D6<=-7" &&
  checkInfixNotation chars!"-2D6>=-7" chars!"-2D6>=-7" &&
  checkInfixNotation chars!"2b6" chars!"2B6" &&
  checkInfixNotation chars!"[1...3]b6" chars!"[1...3]B6" &&
  checkInfixNotation chars!"2b[4...6]" chars!"2B[4...6]" &&
  checkInfixNotation chars!"[1...3]b[4...6]" chars!"[1...3]B[4...6]" &&
  checkInfixNotation chars!"(1*2)b6" chars!"(1*2)B6" &&
  checkInfixNotation chars!"([1...3]+1)b6" chars!"([1...3]+1)B6" &&
  checkInfixNotation chars!"2b(2+4)" chars!"2B(2+4)" &&
  checkInfixNotation chars!"2b([3...5]+1)" chars!"2B([3...5]+1)" &&
  checkInfixNotation chars!"[1...5]b(2*3)" chars!"[1...5]B(2*3)" &&
  checkInfixNotation chars!"(1+1)b[1...5]" chars!"(1+1)B[1...5]" &&
  checkInfixNotation chars!"(1*2)b(2+4)" chars!"(1*2)B(2+4)" &&
  checkInfixNotation chars!"2b6+4b10" chars!"2B6+4B10" &&
  checkInfixNotation chars!"2b6+3b8+5b12" chars!"2B6+3B8+5B12" &&
  checkInfixNotation chars!"2b6=3" chars!"2B6=3" &&
  checkInfixNotation chars!"2b6<>3" chars!"2B6<>3" &&
  checkInfixNotation chars!"2b6>3" chars!"2B6>3" &&
  checkInfixNotation chars!"2b6<3" chars!"2B6<3" &&
  checkInfixNotation chars!"2b6>=3" chars!"2B6>=3" &&
  checkInfixNotation chars!"2b6<=3" chars!"2B6<=3" &&
  checkInfixNotation chars!"2b6>4-1" chars!"2B6>4-1" &&
  checkInfixNotation chars!"2b6+4b10>4" chars!"2B6+4B10>4" &&
  checkInfixNotation chars!"2b6>-(-1*3)" chars!"2B6>-(-1*3)" &&
  checkInfixNotation chars!"3r6>=4" chars!"3R6>=4") = true := by decide +kernel

/-- `TestInfixNotation` (pkg/core/notation/notation_test.go), cases 421 to 456 -/
example : (
  checkInfixNotation chars!"3r6+2r6<=2" chars!"3R6+2R6<=2" &&
  checkInfixNotation chars!"(3+2)r6>=5" chars!"(3+2)R6>=5" &&
  checkInfixNotation chars!"1r(2*3)>=4" chars!"1R(2*3)>=4" &&
  checkInfixNotation chars!"3r6>1*4" chars!"3R6>1*4" &&
  checkInfixNotation chars!"2r6" chars!"2R6" &&
  checkInfixNotation chars!"2r6[5]" chars!"2R6[5]" &&
  checkInfixNotation chars!"3r6+2r6[2]" chars!"3R6+2R6[2]" &&
  checkInfixNotation chars!"6R6[6]>=5" chars!"6R6[6]>=5" &&
  checkInfixNotation chars!"6R6[2*3]>=5" chars!"6R6[2*3]>=5" &&
  checkInfixNotation chars!"3u6" chars!"3U6" &&
  checkInfixNotation chars!"(1*3)u6" chars!"(1*3)U6" &&
  checkInfixNotation chars!"3u(5+1)" chars!"3U(5+1)" &&
  checkInfixNotation chars!"3u6[6]" chars!"3U6[6]" &&
  checkInfixNotation chars!"3u6[2+4]" chars!"3U6[2+4]" &&
  checkInfixNotation chars!"3u6+5u6[6]" chars!"3U6+5U6[6]" &&
  checkInfixNotation chars!"3u6[6]+1" chars!"3U6[6]+1" &&
  checkInfixNotation chars!"3u6[6]-1" chars!"3U6[6]-1" &&
  checkInfixNotation chars!"3u6[6]+1*2" chars!"3U6[6]+1*2" &&
  checkInfixNotation chars!"3u6[6]+5/2" chars!"3U6[6]+5/2" &&
  checkInfixNotation chars!"1U100[96]+3" chars!"1U100[96]+3" &&
  checkInfixNotation chars!"3u6[6]=10" chars!"3U6[6]=10" &&
  checkInfixNotation chars!"3u6[6]<>10" chars!"3U6[6]<>10" &&
  checkInfixNotation chars!"3u6[6]>10" chars!"3U6[6]>10" &&
  checkInfixNotation chars!"3u6[6]<10" chars!"3U6[6]<10" &&
  checkInfixNotation chars!"3u6[6]>=10" chars!"3U6[6]>=10" &&
  checkInfixNotation chars!"3u6[6]<=10" chars!"3U6[6]<=10" &&
  checkInfixNotation chars!"3u6[6]>=2+8" chars!"3U6[6]>=2+8" &&
  checkInfixNotation chars!"3u6[6]+1>=10" chars!"3U6[6]+1>=10" &&
  checkInfixNotation chars!"3u6+5u6[6]>=7" chars!"3U6+5U6[6]>=7" &&
  checkInfixNotation chars!"(5+6)u10[10]+5>=8" chars!"(5+6)U10[10]+5>=8" &&
  checkInfixNotation chars!"choice[A,B,C]どれにしよう" chars!"CHOICE[A,B,C]" &&
  checkInfixNotation chars!"choice[A,B, ]" chars!"CHOICE[A,B]" &&
  checkInfixNotation chars!"Choice[ A, B,   C     ,D ]" chars!"CHOICE[A,B,C,D]" &&
  checkInfixNotation chars!"CHOICE[Call of Cthulhu, Sword World, Double Cross]" chars!"CHOICE[Call of Cthulhu,Sword World,Double Cross]" &&
  checkInfixNotation chars!"CHOICE[日本語, でも,　だいじょうぶ]" chars!"CHOICE[日本語,でも,だいじょうぶ]" &&
  checkInfixNotation chars!"choice[1+2, (3*4), 5d6]" chars!"CHOICE[1+2,(3*4),5d6]") = true := by decide +kernel

/-- `TestArray_Inspect` (pkg/core/object/array_test.go) -/
example : (
  checkInspect (.array []) chars!"[]" &&
  checkInspect (.array [(.integer 1), (.integer 2)]) chars!"[1, 2]" &&
  checkInspect (.array [(.integer 2), (.integer 3), (.integer 5), (.integer 8), (.integer 13)]) chars!"[2, 3, 5, 8, 13]") = true := by decide +kernel

/-- `TestArray_InspectWithoutSpaces` (pkg/core/object/array_test.go) -/
example : (
  checkInspectTight (.array []) chars!"[]" &&
  checkInspectTight (.array [(.integer 1), (.integer 2)]) chars!"[1,2]" &&
  checkInspectTight (.array [(.integer 2), (.integer 3), (.integer 5), (.integer 8), (.integer 13)]) chars!"[2,3,5,8,13]" &&
  checkInspectTight (.array [(.array [(.integer 1), (.integer 2)]), (.array [(.integer 3), (.integer 4)])]) chars!"[[1,2],[3,4]]") = true := by decide +kernel

/-- `TestArray_JoinedElements` (pkg/core/object/array_test.go) -/
example : (
  checkJoined (.array []) [] chars!"" &&
  checkJoined (.array [(.integer 1), (.integer 2)]) chars!"," chars!"1,2" &&
  checkJoined (.array [(.integer 2), (.integer 3), (.integer 5), (.integer 8), (.integer 13)]) chars!"," chars!"2,3,5,8,13" &&
  checkJoined (.array [(.integer 1), (.integer 2)]) chars!"/" chars!"1/2" &&
  checkJoined (.array [(.integer 2), (.integer 3), (.integer 5), (.integer 8), (.integer 13)]) chars!"/" chars!"2/3/5/8/13") = true := by decide +kernel

/-- `TestArray_MaxInteger` (pkg/core/object/array_test.go) -/
example : (
  checkMaxInteger (.array []) 0 true &&
  checkMaxInteger (.array [(.integer 1), (.string chars!"str")]) 0 false &&
  checkMaxInteger (.array [(.integer 1)]) 1 true &&
  checkMaxInteger (.array [(.integer 1), (.integer 2)]) 2 true &&
  checkMaxInteger (.array [(.integer 2), (.integer 1)]) 2 true &&
  checkMaxInteger (.array [(.integer 2), (.integer 3), (.integer 5), (.integer 8), (.integer 13)]) 13 true &&
  checkMaxInteger (.array [(.integer 3), (.integer 2), (.integer 8), (.integer 13), (.integer 5)]) 13 true) = true := by decide +kernel

/-- `TestArray_SumOfIntegers` (pkg/core/object/array_test.go) -/
example : (
  checkSum (.array []) 0 true &&
  checkSum (.array [(.integer 1), (.string chars!"str")]) 0 false &&
  checkSum (.array [(.integer 1)]) 1 true &&
  checkSum (.array [(.integer 1), (.integer 2)]) 3 true &&
  checkSum (.array [(.integer 2), (.integer 3), (.integer 5), (.integer 8), (.integer 13)]) 31 true) = true := by decide +kernel

/-- `TestBRollCompResult_Inspect` (pkg/core/object/b_roll_comp_result_test.go) -/
example : (
  checkInspect (.bRollComp [(.integer 3), (.integer 4)] 1) chars!"<BRollCompResult Values=[3, 4], NumOfSuccesses=1>" &&
  checkInspect (.bRollComp [(.integer 3), (.integer 4), (.integer 9), (.integer 7), (.integer 1), (.integer 5)] 3) chars!"<BRollCompResult Values=[3, 4, 9, 7, 1, 5], NumOfSuccesses=3>") = true := by decide +kernel

/-- `TestBoolean_Inspect` (pkg/core/object/boolean_test.go) -/
example : (
  checkInspect (.boolean true) chars!"true" &&
  checkInspect (.boolean false) chars!"false") = true := by decide +kernel

/-- `TestInteger_Inspect` (pkg/core/object/integer_test.go) -/
example : (
  checkInspect (.integer 1) chars!"1" &&
  checkInspect (.integer 0) chars!"0" &&
  checkInspect (.integer (-1)) chars!"-1" &&
  checkInspect (.integer 12) chars!"12" &&
  checkInspect (.integer 12345) chars!"12345") = true := by decide +kernel

/-- `TestInteger_Add` (pkg/core/object/integer_test.go) -/
example : (
  checkAdd 1 2 3 &&
  checkAdd 2 4 6 &&
  checkAdd 3 5 8) = true := by decide +kernel

/-- `TestObject_Type` (pkg/core/object/object_test.go) -/
example : (
  checkObjectType (.integer 0) chars!"INTEGER" &&
  checkObjectType (.boolean false) chars!"BOOLEAN" &&
  checkObjectType (.string []) chars!"STRING" &&
  checkObjectType (.array []) chars!"ARRAY" &&
  checkObjectType (.bRollComp [] 0) chars!"B_ROLL_COMP_RESULT" &&
  checkObjectType (.rRollComp [] 0) chars!"R_ROLL_COMP_RESULT" &&
  checkObjectType (.uRollExpr [] 0) chars!"U_ROLL_EXPR_RESULT" &&
  checkObjectType (.uRollComp [] 0 0) chars!"U_ROLL_COMP_RESULT") = true := by decide +kernel

/-- `TestRRollCompResult_Inspect` (pkg/core/object/r_roll_comp_result_test.go) -/
example : (
  checkInspect (.rRollComp [(.array [(.integer 3), (.integer 1)]), (.array [(.integer 2)])] 1) chars!"<RRollCompResult ValueGroups=[[3, 1], [2]], NumOfSuccesses=1>" &&
  checkInspect (.rRollComp [(.array [(.integer 6), (.integer 1)]), (.array [(.integer 3)]), (.array [(.integer 1)])] 3) chars!"<RRollCompResult ValueGroups=[[6, 1], [3], [1]], NumOfSuccesses=3>") = true := by decide +kernel

/-- `TestString_Inspect` (pkg/core/object/string_test.go) -/
example : (
  checkInspect (.string chars!"Abcde") chars!"\"Abcde\"" &&
  checkInspect (.string chars!"あいうえお") chars!"\"あいうえお\"" &&
  checkInspect (.string chars!"タブ\t入り") chars!"\"タブ\\t入り\"" &&
  checkInspect (.string chars!"\"ダブルクォート\" 入り") chars!"\"\\\"ダブルクォート\\\" 入り\"") = true := by decide +kernel

/-- `TestURollCompResult_Inspect` (pkg/core/object/u_roll_comp_result_test.go) -/
example : (
  checkInspect (.uRollComp [(.array [(.integer 6), (.integer 1)]), (.array [(.integer 3)]), (.array [(.integer 1)])] 1 2) chars!"<URollCompResult RollResult=<URollExprResult ValueGroups=[[6, 1], [3], [1]], Modifier=1>, NumOfSuccesses=2>" &&
  checkInspect (.uRollComp [(.array [(.integer 6), (.integer 1)]), (.array [(.integer 3)]), (.array [(.integer 1)])] 1 0) chars!"<URollCompResult RollResult=<URollExprResult ValueGroups=[[6, 1], [3], [1]], Modifier=1>, NumOfSuccesses=0>") = true := by decide +kernel

/-- `TestURollExprResult_Inspect` (pkg/core/object/u_roll_expr_result_test.go) -/
example : (
  checkInspect (.uRollExpr [(.array [(.integer 3), (.integer 1)]), (.array [(.integer 2)])] 0) chars!"<URollExprResult ValueGroups=[[3, 1], [2]], Modifier=0>" &&
  checkInspect (.uRollExpr [(.array [(.integer 6), (.integer 1)]), (.array [(.integer 3)]), (.array [(.integer 1)])] 1) chars!"<URollExprResult ValueGroups=[[6, 1], [3], [1]], Modifier=1>" &&
  checkInspect (.uRollExpr [(.array [(.integer 6), (.integer 1)]), (.array [(.integer 3)]), (.array [(.integer 1)])] (-1)) chars!"<URollExprResult ValueGroups=[[6, 1], [3], [1]], Modifier=-1>") = true := by decide +kernel

/-- `TestURollExprResult_MaxValue` (pkg/core/object/u_roll_expr_result_test.go) -/
example : (
  checkMaxValue (.uRollExpr [(.array [(.integer 3), (.integer 1)]), (.array [(.integer 2)])] 0) 4 &&
  checkMaxValue (.uRollExpr [(.array [(.integer 6), (.integer 1)]), (.array [(.integer 3)]), (.array [(.integer 1)])] 1) 8 &&
  checkMaxValue (.uRollExpr [(.array [(.integer 6), (.integer 1)]), (.array [(.integer 3)]), (.array [(.integer 1)])] (-1)) 6 &&
  checkMaxValue (.uRollExpr [(.array [(.integer 3)]), (.array [(.integer 5)]), (.array [(.integer 3)]), (.array [(.integer 6), (.integer 4)]), (.array [(.integer 1)]), (.array [(.integer 6), (.integer 6), (.integer 3)]), (.array [(.integer 5)]), (.array [(.integer 1)])] 0) 15) = true := by decide +kernel

/-- `TestURollExprResult_SumOfValues` (pkg/core/object/u_roll_expr_result_test.go) -/
example : (
  checkSumOfValues (.uRollExpr [(.array [(.integer 3), (.integer 1)]), (.array [(.integer 2)])] 0) 6 &&
  checkSumOfValues (.uRollExpr [(.array [(.integer 6), (.integer 1)]), (.array [(.integer 3)]), (.array [(.integer 1)])] 1) 12 &&
  checkSumOfValues (.uRollExpr [(.array [(.integer 6), (.integer 1)]), (.array [(.integer 3)]), (.array [(.integer 1)])] (-1)) 10 &&
  checkSumOfValues (.uRollExpr [(.array [(.integer 3)]), (.array [(.integer 5)]), (.array [(.integer 3)]), (.array [(.integer 6), (.integer 4)]), (.array [(.integer 1)]), (.array [(.integer 6), (.integer 6), (.integer 3)]), (.array [(.integer 5)]), (.array [(.integer 1)])] 0) 43) = true := by decide +kernel

/-- `TestURollExprResult_SumOfGroups` (pkg/core/object/u_roll_expr_result_test.go) -/
example : (
  checkSumOfGroups (.uRollExpr [(.array [(.integer 3), (.integer 1)]), (.array [(.integer 2)])] 0) [4, 2] &&
  checkSumOfGroups (.uRollExpr [(.array [(.integer 6), (.integer 1)]), (.array [(.integer 3)]), (.array [(.integer 1)])] 1) [7, 3, 1] &&
  checkSumOfGroups (.uRollExpr [(.array [(.integer 6), (.integer 1)]), (.array [(.integer 3)]), (.array [(.integer 1)])] (-1)) [7, 3, 1] &&
  checkSumOfGroups (.uRollExpr [(.array [(.integer 3)]), (.array [(.integer 5)]), (.array [(.integer 3)]), (.array [(.integer 6), (.integer 4)]), (.array [(.integer 1)]), (.array [(.integer 6), (.integer 6), (.integer 3)]), (.array [(.integer 5)]), (.array [(.integer 1)])] 0) [3, 5, 3, 10, 1, 15, 5, 1]) = true := by decide +kernel

/-- `TestParse` (pkg/dicebot/testing/testcase_test.go) -/
example : (
  checkParseCase chars!"" [] 0 none &&
  checkParseCase chars!"input:" [] 0 none &&
  checkParseCase chars!"input:\n2d6+1-1-2-3-4\noutput:\nDiceBot : (2D6+1-1-2-3-4) ＞ 5[4,1]+1-1-2-3-4 ＞ -4\nrand:4/6,1/6" chars!"DiceBot" 1 (some ⟨chars!"DiceBot", 1, [chars!"2d6+1-1-2-3-4"], chars!"DiceBot : (2D6+1-1-2-3-4) ＞ 5[4,1]+1-1-2-3-4 ＞ -4", [⟨4, 6⟩, ⟨1, 6⟩]⟩) &&
  checkParseCase chars!"input:\nS2d6\noutput:\nDiceBot : (2D6) ＞ 5[4,1] ＞ 5###secret dice###\nrand:4/6,1/6" chars!"DiceBot" 2 (some ⟨chars!"DiceBot", 2, [chars!"S2d6"], chars!"DiceBot : (2D6) ＞ 5[4,1] ＞ 5###secret dice###", [⟨4, 6⟩, ⟨1, 6⟩]⟩) &&
  checkParseCase chars!"input:\nGETSST\noutput:\nSatasupe : サタスペ作成：ベース部品：「大型の金属製の筒」  アクセサリ部品：「ガスボンベや殺虫剤」\n部品効果：「命中：8、ダメージ：5、耐久度3、両手」「爆発3」\n完成品：サタスペ  （ダメージ＋5・命中8・射撃、「両手」「爆発3」「サタスペ1」「耐久度3」）\nrand:6/6,6/6,6/6" chars!"Satasupe" 1 (some ⟨chars!"Satasupe", 1, [chars!"GETSST"], chars!"Satasupe : サタスペ作成：ベース部品：「大型の金属製の筒」  アクセサリ部品：「ガスボンベや殺虫剤」\n部品効果：「命中：8、ダメージ：5、耐久度3、両手」「爆発3」\n完成品：サタスペ  （ダメージ＋5・命中8・射撃、「両手」「爆発3」「サタスペ1」「耐久度3」）", [⟨6, 6⟩, ⟨6, 6⟩, ⟨6, 6⟩]⟩) &&
  checkParseCase chars!"input:\nCCT\noutput:\nGranCrest : 国特徴・文化表(13) ＞ 禁欲的\nあなたの国民は、道徳を重んじ、常に自分の欲望を制限することが理想的だと考えている。\n食料＋４、資金－１\nrand:1/6,3/6" chars!"GranCrest" 1 (some ⟨chars!"GranCrest", 1, [chars!"CCT"], chars!"GranCrest : 国特徴・文化表(13) ＞ 禁欲的\nあなたの国民は、道徳を重んじ、常に自分の欲望を制限することが理想的だと考えている。\n食料＋４、資金－１", [⟨1, 6⟩, ⟨3, 6⟩]⟩)) = true := by decide +kernel

/-- `TestParseDice` (pkg/dicebot/testing/testcase_test.go) -/
example : (
  checkParseDice chars!"1" none &&
  checkParseDice chars!"1/6,1" none &&
  checkParseDice chars!"a1/6" none &&
  checkParseDice chars!"" (some []) &&
  checkParseDice chars!"1/6" (some [⟨1, 6⟩]) &&
  checkParseDice chars!"1/6,2/6,3/6" (some [⟨1, 6⟩, ⟨2, 6⟩, ⟨3, 6⟩]) &&
  checkParseDice chars!"1/6, 2/6, 3/6" (some [⟨1, 6⟩, ⟨2, 6⟩, ⟨3, 6⟩])) = true := by decide +kernel

/-- `TestParseFile` (pkg/dicebot/testing/testcase_test.go) -/
example : (
  checkParseFile chars!"input:\n2d6+1-1-2-3-4\noutput:\nDiceBot : (2D6+1-1-2-3-4) ＞ 5[4,1]+1-1-2-3-4 ＞ -4\nrand:4/6,1/6\n============================\ninput:\nS2d6\noutput:\nDiceBot : (2D6) ＞ 5[4,1] ＞ 5###secret dice###\nrand:4/6,1/6\n============================\ninput:\n4d10\noutput:\n4d10 : (4D10) ＞ 18[3,2,5,8] ＞ 18\nrand:3/10,2/10,5/10,8/10\n============================\ninput:\n2R6\noutput:\nDiceBot : 2R6 ＞ 条件が間違っています。2R6>=5 あるいは 2R6[5] のように振り足し目標値を指定してください。\nrand:\n" chars!"DiceBot" [⟨chars!"DiceBot", 1, [chars!"2d6+1-1-2-3-4"], chars!"DiceBot : (2D6+1-1-2-3-4) ＞ 5[4,1]+1-1-2-3-4 ＞ -4", [⟨4, 6⟩, ⟨1, 6⟩]⟩,
    ⟨chars!"DiceBot", 2, [chars!"S2d6"], chars!"DiceBot : (2D6) ＞ 5[4,1] ＞ 5###secret dice###", [⟨4, 6⟩, ⟨1, 6⟩]⟩,
    ⟨chars!"DiceBot", 3, [chars!"4d10"], chars!"4d10 : (4D10) ＞ 18[3,2,5,8] ＞ 18", [⟨3, 10⟩, ⟨2, 10⟩, ⟨5, 10⟩, ⟨8, 10⟩]⟩,
    ⟨chars!"DiceBot", 4, [chars!"2R6"], chars!"DiceBot : 2R6 ＞ 条件が間違っています。2R6>=5 あるいは 2R6[5] のように振り足し目標値を指定してください。", []⟩] &&
  checkParseFile chars!"input:\nGETSST\noutput:\nSatasupe : サタスペ作成：ベース部品：「大型の金属製の筒」  アクセサリ部品：「ガスボンベや殺虫剤」\n部品効果：「命中：8、ダメージ：5、耐久度3、両手」「爆発3」\n完成品：サタスペ  （ダメージ＋5・命中8・射撃、「両手」「爆発3」「サタスペ1」「耐久度3」）\nrand:6/6,6/6,6/6\n============================\ninput:\nCCT\noutput:\nGranCrest : 国特徴・文化表(13) ＞ 禁欲的\nあなたの国民は、道徳を重んじ、常に自分の欲望を制限することが理想的だと考えている。\n食料＋４、資金－１\nrand:1/6,3/6\n" chars!"multiline" [⟨chars!"multiline", 1, [chars!"GETSST"], chars!"Satasupe : サタスペ作成：ベース部品：「大型の金属製の筒」  アクセサリ部品：「ガスボンベや殺虫剤」\n部品効果：「命中：8、ダメージ：5、耐久度3、両手」「爆発3」\n完成品：サタスペ  （ダメージ＋5・命中8・射撃、「両手」「爆発3」「サタスペ1」「耐久度3」）", [⟨6, 6⟩, ⟨6, 6⟩, ⟨6, 6⟩]⟩,
    ⟨chars!"multiline", 2, [chars!"CCT"], chars!"GranCrest : 国特徴・文化表(13) ＞ 禁欲的\nあなたの国民は、道徳を重んじ、常に自分の欲望を制限することが理想的だと考えている。\n食料＋４、資金－１", [⟨1, 6⟩, ⟨3, 6⟩]⟩]) = true := by decide +kernel

/-- `TestParseFiles` (pkg/dicebot/testing/testcase_test.go:283-322) -/
example : checkParseFiles [(chars!"testdata/DiceBot.txt", chars!"input:\n2d6+1-1-2-3-4\noutput:\nDiceBot : (2D6+1-1-2-3-4) ＞ 5[4,1]+1-1-2-3-4 ＞ -4\nrand:4/6,1/6\n============================\ninput:\nS2d6\noutput:\nDiceBot : (2D6) ＞ 5[4,1] ＞ 5###secret dice###\nrand:4/6,1/6\n============================\ninput:\n4d10\noutput:\n4d10 : (4D10) ＞ 18[3,2,5,8] ＞ 18\nrand:3/10,2/10,5/10,8/10\n============================\ninput:\n2R6\noutput:\nDiceBot : 2R6 ＞ 条件が間違っています。2R6>=5 あるいは 2R6[5] のように振り足し目標値を指定してください。\nrand:\n"),
  (chars!"testdata/multiline.txt", chars!"input:\nGETSST\noutput:\nSatasupe : サタスペ作成：ベース部品：「大型の金属製の筒」  アクセサリ部品：「ガスボンベや殺虫剤」\n部品効果：「命中：8、ダメージ：5、耐久度3、両手」「爆発3」\n完成品：サタスペ  （ダメージ＋5・命中8・射撃、「両手」「爆発3」「サタスペ1」「耐久度3」）\nrand:6/6,6/6,6/6\n============================\ninput:\nCCT\noutput:\nGranCrest : 国特徴・文化表(13) ＞ 禁欲的\nあなたの国民は、道徳を重んじ、常に自分の欲望を制限することが理想的だと考えている。\n食料＋４、資金－１\nrand:1/6,3/6\n")] chars!"DiceBot" 6 1 6 = true := by decide +kernel

end GoBCDice.Conformance
