import Verif.Spec.NodeCalls

/-!
# Specification: the kinds of nodes and what each entry point accepts

Names are those of the table in the documentation of package `ast` (node.go:50-88).
-/

namespace GoBCDice

open Raw

/-- The kind of a node, by name. -/
inductive NodeKind : Obj → Str → Prop
  | int (v) : NodeKind (.int v) chars!"Int"
  | string (s) : NodeKind (.string s) chars!"String"
  | nil : NodeKind .nilNode chars!"Nil"
  | sumRoll (ds) : NodeKind (.sumRoll ds) chars!"SumRollResult"
  | minus (r) : NodeKind (.unary r) chars!"UnaryMinus"
  | add (l r) : NodeKind (.binary .add l r) chars!"Add"
  | sub (l r) : NodeKind (.binary .sub l r) chars!"Subtract"
  | mul (l r) : NodeKind (.binary .mul l r) chars!"Multiply"
  | compare (op l r) : NodeKind (.binary (.compare op) l r) chars!"Compare"
  | divUp (l r) : NodeKind (.binary (.div .up) l r) chars!"DivideWithRoundingUp"
  | divRound (l r) : NodeKind (.binary (.div .round) l r) chars!"DivideWithRounding"
  | divDown (l r) : NodeKind (.binary (.div .down) l r) chars!"DivideWithRoundingDown"
  | dRoll (l r) : NodeKind (.binary .dRoll l r) chars!"DRoll"
  | bRoll (l r) : NodeKind (.binary .bRoll l r) chars!"BRoll"
  | rRoll (l r) : NodeKind (.binary .rRoll l r) chars!"RRoll"
  | uRoll (l r) : NodeKind (.binary .uRoll l r) chars!"URoll"
  | random (l r) : NodeKind (.binary .random l r) chars!"RandomNumber"
  | dRollExpr (e) : NodeKind (.command .dRollExpr e) chars!"DRollExpr"
  | dRollComp (e) : NodeKind (.command .dRollComp e) chars!"DRollComp"
  | bRollComp (e) : NodeKind (.command .bRollComp e) chars!"BRollComp"
  | rRollComp (e) : NodeKind (.command .rRollComp e) chars!"RRollComp"
  | uRollComp (e) : NodeKind (.command .uRollComp e) chars!"URollComp"
  | «calc» (e) : NodeKind (.command .calc e) chars!"Calc"
  | bRollList (ps) : NodeKind (.bRollList ps) chars!"BRollList"
  | rRollList (ps t) : NodeKind (.rRollList ps t) chars!"RRollList"
  | uRollExpr (l b) : NodeKind (.uRollExpr l b) chars!"URollExpr"
  | choice (ps) : NodeKind (.choice ps) chars!"Choice"

/-- Values without parts, apart from the items of a choice. -/
def atomNames : List Str := [chars!"Int", chars!"String", chars!"Nil", chars!"SumRollResult"]

/-- Operators. -/
def operatorNames : List Str :=
  [chars!"UnaryMinus", chars!"Add", chars!"Subtract", chars!"Multiply", chars!"Compare", chars!"DivideWithRoundingUp",
   chars!"DivideWithRounding", chars!"DivideWithRoundingDown", chars!"DRoll", chars!"BRoll", chars!"RRoll",
   chars!"URoll", chars!"RandomNumber"]

/-- Commands that have one operand. -/
def wrapperNames : List Str :=
  [chars!"DRollExpr", chars!"DRollComp", chars!"BRollComp", chars!"RRollComp", chars!"URollComp", chars!"Calc"]

/-- Lists of rolls. -/
def listNames : List Str := [chars!"BRollList", chars!"RRollList", chars!"URollExpr"]

/-- All kinds. -/
def kindNames : List Str := atomNames ++ operatorNames ++ wrapperNames ++ listNames ++ [chars!"Choice"]

/-- The kinds that a call refuses. -/
def NodeCall.refused : NodeCall → List Str
  | .eval _ => [chars!"String", chars!"Nil"]
  | .evalVarArgs _ => atomNames ++ [chars!"Choice"]
  | .determineValues _ => atomNames ++ listNames ++ [chars!"Choice"]
  | .execute _ _ => atomNames ++ operatorNames
  | .infixNotation _ _ => [chars!"String", chars!"Nil"]
  | .sexp _ => []

/-- What it says then, before the name of the kind. -/
def NodeCall.complaint : NodeCall → Str
  | .eval _ => chars!"unknown type: "
  | .evalVarArgs _ => chars!"EvalVarArgs not implemented: "
  | .determineValues _ => chars!"DetermineValues not implemented: "
  | .execute _ _ => chars!"command execution not implemented: "
  | .infixNotation _ _ => chars!"infix notation not implemented: "
  | .sexp _ => []

/-- The same call on another node. -/
def NodeCall.at (c : NodeCall) (p : Ptr) : NodeCall :=
  match c with
  | .eval _ => .eval p
  | .evalVarArgs _ => .evalVarArgs p
  | .determineValues _ => .determineValues p
  | .execute g _ => .execute g p
  | .infixNotation wl _ => .infixNotation wl p
  | .sexp _ => .sexp p

end GoBCDice
