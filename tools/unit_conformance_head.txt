import Verif.RawCommand
import Verif.Spec.Raw
import Verif.Parser
import Verif.Testcase

/-!
# Unit tests of the project (generated by tools/gen_unit_conformance.py)

The tables of the unit tests under `pkg/core`, replayed on the model; the definitions here do what the
loops of the tests do.  Trees are made by the model of the parser and laid out in memory (`build`).  These
are *tests of the model against what the project says of itself*, not proofs of properties.
-/

namespace GoBCDice.Conformance
open Raw

/-- Characters of these tables beyond ASCII are printable. -/
def printable (c : Char) : Bool := decide (32 ≤ c.toNat ∧ c.toNat ≠ 127)

/-- Room for nested calls. -/
def depth : Nat := 1000

/-- A queue with the dice, no dice rolled yet. -/
def startWith (dice : List Die) (heap : Heap) : HSt (List Die) := ⟨⟨newQueue dice, []⟩, heap⟩

/-- The evaluator of the tests. -/
def evaluator : Evaluator (List Die) := newEvaluator queueFeeder

/-- Parse, lay out in memory, run: the outcome and the state afterwards. -/
def onTree {α : Type} (input : Str) (dice : List Die) (f : Ptr → H (List Die) α) : Option (Out α × HSt (List Die)) :=
  (parse input).map fun node =>
    let (p, h) := build node []
    f p (startWith dice h)

/-- `Execute` on the typed tree and on memory: message, dice, verdict. -/
def checkExecute (input expected : Str) (success : SuccessCheck) (dice : List Die) : Bool :=
  (match parse input with
  | none => false
  | some node =>
    match evaluator.execute chars!"DiceBot" node ⟨newQueue dice, []⟩ with
    | (.ok r, _) => decide (r.message = expected ∧ r.rolledDice = dice ∧ r.success = success)
    | _ => false) &&
  (match onTree input dice (Raw.execute printable evaluator depth chars!"DiceBot") with
  | some (.ok r, _) => decide (r.message = expected ∧ r.rolledDice = dice ∧ r.success = success)
  | _ => false)

def checkExecuteQ (input expected : Str) (dice : List Die) : Bool := checkExecute input expected .unspecified dice

def checkExecuteC (input expected : Str) : Bool := checkExecute input expected .unspecified []

def checkFormatDice (dice : List Die) (expected : Str) : Bool := decide (formatDice dice = expected)

def checkFormatDiceWithoutSpaces (dice : List Die) (expected : Str) : Bool :=
  decide (formatDiceWithoutSpaces dice = expected)

/-- `RollDice` with a queue. -/
def checkRollDice (dice : List Die) (num sides : Int64) (err : Bool) : Bool :=
  match rollDice queueFeeder num sides (newQueue dice) with
  | (.ok ds, q) => !err && decide (ds = dice.take num.toInt.toNat ∧ q.length = dice.length - num.toInt.toNat)
  | (.err _, _) => err
  | (.panic _, _) => false

/-- The tree after a function has changed it. -/
def checkTree (input expected : Str) (dice : List Die) (f : Ptr → H (List Die) Unit) : Bool :=
  match onTree input dice (fun p => do f p; sexp printable depth p) with
  | some (.ok s, _) => decide (s = expected)
  | _ => false

def checkDetermineValues (input expected : Str) (dice : List Die) : Bool :=
  checkTree input expected dice (determineValues evaluator depth)

def checkEvalVarArgs (input expected : Str) (dice : List Die) : Bool :=
  checkTree input expected dice (evalVarArgs evaluator depth)

/-- The expression of a command. -/
def expressionOf (p : Ptr) : H (List Die) Ptr := do
  match ← deref p with
  | .command _ e => pure e
  | _ => H.crash chars!"not a command"

def checkSetRerollThreshold (input expected : Str) : Bool :=
  checkTree input expected [] (fun p => do
    let e ← expressionOf p
    setRerollThreshold evaluator depth e)

/-- Equal objects: same type and same text. -/
def same (v w : Value) : Bool := decide (v.typeName = w.typeName ∧ v.inspect printable = w.inspect printable)

/-- `Eval`: an object, or an error; and the dice. -/
def checkEval (input : Str) (err : Bool) (expected : Value) (dice : List Die) : Bool :=
  match onTree input dice (Raw.eval evaluator depth) with
  | some (.ok v, s) => !err && same v expected && decide (s.st.log = dice)
  | some (.err _, _) => err
  | _ => false

def integers (vs : List Int64) : List Value := vs.map .integer

def groups (gs : List (List Int64)) : List Value := gs.map fun vs => .array (integers vs)

def checkEvalBRollComp (input : Str) (vs : List Int64) (n : Int64) (dice : List Die) : Bool :=
  checkEval input false (.bRollComp (integers vs) n) dice

def checkEvalBRollList (input : Str) (vs : List Int64) (dice : List Die) : Bool :=
  checkEval input false (.array (integers vs)) dice

def checkEvalCalc (input : Str) (v : Int64) : Bool := checkEval input false (.integer v) []

def checkEvalChoice (input s : Str) (dice : List Die) : Bool := checkEval input false (.string s) dice

def checkEvalDRollComp (input : Str) (b : Bool) (dice : List Die) : Bool := checkEval input false (.boolean b) dice

def checkEvalDRollExpr (input : Str) (v : Int64) (dice : List Die) : Bool := checkEval input false (.integer v) dice

def checkEvalRRollComp (input : Str) (gs : List (List Int64)) (n : Int64) (dice : List Die) : Bool :=
  checkEval input false (.rRollComp (groups gs) n) dice

def checkEvalRRollList (input : Str) (err : Bool) (gs : List (List Int64)) (dice : List Die) : Bool :=
  checkEval input err (.array (groups gs)) dice

/-- The sums of the groups of an object. -/
def sumsOf : Value → H (List Die) (List Value)
  | .uRollExpr gs _ => sumOfGroups gs
  | .uRollComp gs _ _ => sumOfGroups gs
  | _ => H.crash chars!"not a U roll"

/-- The groups of an object. -/
def groupsOf : Value → List Value
  | .uRollExpr gs _ => gs
  | .uRollComp gs _ _ => gs
  | _ => []

/-- `MaxValue` and `SumOfValues` (u_roll_expr_result.go:66-86), computed from the sums of the groups. -/
def maxAndSum : Value → H (List Die) (Option Int64 × Option Int64)
  | .uRollExpr gs m => do
    let sums ← sumOfGroups gs
    pure ((Value.maxInteger sums).map (· + m), (Value.sumOfIntegers sums).map (· + m))
  | _ => H.crash chars!"not a U roll"

def checkEvalURollComp (input : Str) (err : Bool) (gs : List (List Int64)) (sums : List Int64) (n : Int64)
    (dice : List Die) : Bool :=
  match onTree input dice (Raw.eval evaluator depth) with
  | some (.ok v, s) =>
    !err && (match v with | .uRollComp _ _ k => decide (k = n) | _ => false) &&
    same (.array (groupsOf v)) (.array (groups gs)) && decide (s.st.log = dice) &&
    (match sumsOf v s with
    | (.ok ss, _) => same (.array ss) (.array (integers sums))
    | _ => false)
  | some (.err _, _) => err
  | _ => false

def checkEvalURollExpr (input : Str) (err : Bool) (gs : List (List Int64)) (sums : List Int64) (max sum : Int64)
    (dice : List Die) : Bool :=
  match onTree input dice (Raw.eval evaluator depth) with
  | some (.ok v, s) =>
    !err && same (.array (groupsOf v)) (.array (groups gs)) && decide (s.st.log = dice) &&
    (match sumsOf v s with
    | (.ok ss, _) => same (.array ss) (.array (integers sums))
    | _ => false) &&
    (match maxAndSum v s with
    | (.ok r, _) => decide (r = (some max, some sum))
    | _ => false)
  | some (.err _, _) => err
  | _ => false

/-- `CheckRRollThreshold`, `CheckURollThreshold`: the error, if any. -/
def checkThresholdOf (input : Str) (nilMsg : Str) (err : Bool) (message : Str) (list : Ptr → H (List Die) Ptr) : Bool :=
  match onTree input [] (fun p => do let l ← list p; Raw.checkThreshold evaluator depth nilMsg l) with
  | some (.ok none, _) => !err
  | some (.ok (some m), _) => err && decide (m = message)
  | _ => false

def checkRThreshold (input : Str) (err : Bool) (message : Str) : Bool :=
  checkThresholdOf input Evaluator.rThresholdNilMsg err message pure

def checkUThreshold (input : Str) (err : Bool) (message : Str) : Bool :=
  checkThresholdOf input Evaluator.uThresholdNilMsg err message fun p => do
    match ← deref p with
    | .uRollExpr l _ => pure l
    | _ => H.crash chars!"not a U roll"

/-- `InfixNotation(node, true)` on memory. -/
def checkInfixNotation (input expected : Str) : Bool :=
  match onTree input [] (Raw.infixNotation depth true) with
  | some (.ok s, _) => decide (s = expected)
  | _ => false

/-- The node made last. -/
def lastNode (h : Heap) : Ptr := some (h.length - 1)

def checkType (h : Heap) (expected : Str) : Bool := decide (h.getLast?.map Obj.typeName = some expected)

def checkIsNil (h : Heap) (expected : Bool) : Bool := decide (h.getLast?.map Obj.isNil = some expected)

def checkIsPrimary (h : Heap) (expected : Bool) : Bool := decide (h.getLast?.map Obj.isPrimary = some expected)

def checkIsVariable (h : Heap) (expected : Bool) : Bool :=
  match isVariable depth (lastNode h) (startWith [] h) with
  | (.ok b, _) => b == expected
  | _ => false

def checkInspect (v : Value) (expected : Str) : Bool := decide (v.inspect printable = expected)

def checkInspectTight (v : Value) (expected : Str) : Bool := decide (v.inspectTight printable = expected)

/-- The elements of an array. -/
def elements : Value → List Value
  | .array els => els
  | _ => []

def checkJoined (v : Value) (sep expected : Str) : Bool := decide (Value.joined printable sep (elements v) = expected)

def checkMaxInteger (v : Value) (expected : Int64) (ok : Bool) : Bool :=
  decide (Value.maxInteger (elements v) = if ok then some expected else none)

def checkSum (v : Value) (expected : Int64) (ok : Bool) : Bool :=
  decide (Value.sumOfIntegers (elements v) = if ok then some expected else none)

def checkAdd (a b expected : Int64) : Bool := decide (a + b = expected)

def checkObjectType (v : Value) (expected : Str) : Bool := decide (v.typeName = expected)

def checkMaxValue (v : Value) (expected : Int64) : Bool :=
  match maxAndSum v (startWith [] []) with
  | (.ok r, _) => decide (r.1 = some expected)
  | _ => false

def checkSumOfValues (v : Value) (expected : Int64) : Bool :=
  match maxAndSum v (startWith [] []) with
  | (.ok r, _) => decide (r.2 = some expected)
  | _ => false

def checkSumOfGroups (v : Value) (expected : List Int64) : Bool :=
  match sumsOf v (startWith [] []) with
  | (.ok ss, _) => same (.array ss) (.array (integers expected))
  | _ => false

/-- `Parse` of a test case. -/
def checkParseCase (source gameID : Str) (index : Int64) (expected : Option TestCase) : Bool :=
  match parseCase printable source gameID index with
  | .ok c => decide (some c = expected)
  | .err _ => expected.isNone
  | .panic _ => false

def checkParseDice (source : Str) (expected : Option (List Die)) : Bool :=
  match parseDice printable source with
  | .ok ds => decide (some ds = expected)
  | .err _ => expected.isNone
  | .panic _ => false

/-- `ParseFile` on the content of a file: at least these test cases, in this order. -/
def checkParseFile (content gameID : Str) (expected : List TestCase) : Bool :=
  match parseFile printable content gameID with
  | .ok cs => decide (cs.take expected.length = expected)
  | _ => false

/-- `ParseFiles`: how many test cases, and the numbers of the first and the last. -/
def checkParseFiles (files : List (Str × Str)) (gameID : Str) (n : Nat) (first last : Int64) : Bool :=
  match parseFiles printable files gameID with
  | .ok cs => decide (cs.length = n ∧ cs.head?.map TestCase.index = some first ∧ cs.getLast?.map TestCase.index = some last)
  | _ => false
