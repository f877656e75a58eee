import Verif.RawCommand
import Verif.Command
import Verif.SExp

/-!
# What it means that memory holds a tree

* `Rep h p e fp`: the node at `p`, with everything below it, is the expression `e`, and the nodes
  met are those listed in `fp` (a node met twice is listed twice, so that `fp.Nodup` says that no
  node is shared);
* `RepNode`: the same for a whole command;
* `Frame h fp h'`: between `h` and `h'` only nodes listed in `fp` were overwritten (nodes may have
  been added);
* `build`: a tree laid out in memory by constructor calls;
* `executeT`: execution on immutable trees, returning the tree that is left behind.
-/

namespace GoBCDice

/-! ## Heights -/

/-- Number of nodes on the longest path of an expression. -/
def Expr.height : Expr → Nat
  | .int _ => 1
  | .sumRoll _ => 1
  | .neg r => r.height + 1
  | .bin _ l r => max l.height r.height + 1
  | .div _ l r => max l.height r.height + 1
  | .var _ l r => max l.height r.height + 1

/-- A roll. -/
def Roll.height (r : Roll) : Nat := max r.num.height r.sides.height + 1

/-- The highest roll of a list. -/
def rollsHeight : List Roll → Nat
  | [] => 0
  | r :: rest => max r.height (rollsHeight rest)

/-- A threshold or the node `Nil`. -/
def thresholdHeight : Option Expr → Nat
  | none => 1
  | some e => e.height

/-- A roll list. -/
def RRollList.height (rl : RRollList) : Nat :=
  max (rollsHeight rl.rolls) (thresholdHeight rl.threshold) + 1

/-- A U roll with its bonus.  (Displaying it makes a copy of the bonus with the roll list as its
left operand, hence one level more.) -/
def URollExpr.height (u : URollExpr) : Nat :=
  match u.bonus with
  | none => u.list.height + 1
  | some b => max (u.list.height + 1) (bonusExpr b).height + 1

/-- A command. -/
def Node.height : Node → Nat
  | .choice _ => 2
  | .calc e => e.height + 1
  | .dRollExpr e => e.height + 1
  | .dRollComp l _ r => max l.height r.height + 2
  | .bRollList rolls => rollsHeight rolls + 1
  | .bRollComp rolls _ r => max (rollsHeight rolls + 1) r.height + 2
  | .rRollList rl => rl.height
  | .rRollComp rl _ r => max rl.height r.height + 2
  | .uRollExpr u => u.height
  | .uRollComp u _ r => max u.height r.height + 2

namespace Raw

/-! ## Trees in memory -/

/-- The expression that an infix node stands for; comparisons and B, R, U rolls are no
expressions. -/
def infixExpr : InfixKind → Expr → Expr → Option Expr
  | .add, l, r => some (.bin .add l r)
  | .sub, l, r => some (.bin .sub l r)
  | .mul, l, r => some (.bin .mul l r)
  | .div m, l, r => some (.div m l r)
  | .dRoll, l, r => some (.var .d l r)
  | .random, l, r => some (.var .rand l r)
  | _, _, _ => none

/-- The node at `p` is the root of the expression. -/
inductive Rep (h : Heap) : Ptr → Expr → List Ref → Prop
  | int {r v} : h[r]? = some (.int v) → Rep h (some r) (.int v) [r]
  | sumRoll {r ds} : h[r]? = some (.sumRoll ds) → Rep h (some r) (.sumRoll ds) [r]
  | neg {r p e fp} : h[r]? = some (.unary p) → Rep h p e fp → Rep h (some r) (.neg e) (r :: fp)
  | binary {r k lp rp a b e fl fr} : h[r]? = some (.binary k lp rp) → infixExpr k a b = some e →
      Rep h lp a fl → Rep h rp b fr → Rep h (some r) e (r :: (fl ++ fr))

/-- The pointers lead to rolls of kind `k`. -/
inductive RepRolls (h : Heap) (k : InfixKind) : List Ptr → List Roll → List Ref → Prop
  | nil : RepRolls h k [] [] []
  | cons {r lp rp a b ps rest fl fr fs} : h[r]? = some (.binary k lp rp) →
      Rep h lp a fl → Rep h rp b fr → RepRolls h k ps rest fs →
      RepRolls h k (some r :: ps) ({ num := a, sides := b } :: rest) (r :: (fl ++ fr) ++ fs)

/-- A threshold: the node `Nil` (of which there may be any number, shared or not) or an
expression. -/
inductive RepThreshold (h : Heap) : Ptr → Option Expr → List Ref → Prop
  | none {r} : h[r]? = some .nilNode → RepThreshold h (some r) none []
  | some {p e fp} : Rep h p e fp → RepThreshold h p (some e) fp

/-- An R or U roll list. -/
inductive RepRRollList (h : Heap) (k : InfixKind) : Ptr → RRollList → List Ref → Prop
  | mk {r ps tp rolls t fs ft} : h[r]? = some (.rRollList ps tp) → RepRolls h k ps rolls fs →
      RepThreshold h tp t ft →
      RepRRollList h k (some r) { rolls := rolls, threshold := t } (r :: (ft ++ fs))

/-- A bonus: a nil pointer or a sum or difference with left operand 0. -/
inductive RepBonus (h : Heap) : Ptr → Option (Sign × Expr) → List Ref → Prop
  | none : RepBonus h none none []
  | some {p b fp} : Rep h p (bonusExpr b) fp → RepBonus h p (some b) fp

/-- A U roll with bonus. -/
inductive RepURollExpr (h : Heap) : Ptr → URollExpr → List Ref → Prop
  | mk {r lp bp list bonus fl fb} : h[r]? = some (.uRollExpr lp bp) →
      RepRRollList h .uRoll lp list fl → RepBonus h bp bonus fb →
      RepURollExpr h (some r) { list := list, bonus := bonus } (r :: (fl ++ fb))

/-- The items of a choice. -/
inductive RepItems (h : Heap) : List Ptr → List Str → List Ref → Prop
  | nil : RepItems h [] [] []
  | cons {r s ps rest fs} : h[r]? = some (.string s) → RepItems h ps rest fs →
      RepItems h (some r :: ps) (s :: rest) (r :: fs)

/-- The node at `p` is the root of the command. -/
inductive RepNode (h : Heap) : Ptr → Node → List Ref → Prop
  | choice {r ps items fs} : h[r]? = some (.choice ps) → RepItems h ps items fs →
      RepNode h (some r) (.choice items) (r :: fs)
  | calc {r p e fp} : h[r]? = some (.command .calc p) → Rep h p e fp →
      RepNode h (some r) (.calc e) (r :: fp)
  | dRollExpr {r p e fp} : h[r]? = some (.command .dRollExpr p) → Rep h p e fp →
      RepNode h (some r) (.dRollExpr e) (r :: fp)
  | dRollComp {r c lp rp op a b fl fr} : h[r]? = some (.command .dRollComp (some c)) →
      h[c]? = some (.binary (.compare (CmpOp.str op)) lp rp) → Rep h lp a fl → Rep h rp b fr →
      RepNode h (some r) (.dRollComp a op b) (r :: c :: (fl ++ fr))
  | bRollList {r ps rolls fs} : h[r]? = some (.bRollList ps) → RepRolls h .bRoll ps rolls fs →
      RepNode h (some r) (.bRollList rolls) (r :: fs)
  | bRollComp {r c l ps rp op rolls b fl fr} : h[r]? = some (.command .bRollComp (some c)) →
      h[c]? = some (.binary (.compare (CmpOp.str op)) (some l) rp) →
      h[l]? = some (.bRollList ps) → RepRolls h .bRoll ps rolls fl → Rep h rp b fr →
      RepNode h (some r) (.bRollComp rolls op b) (r :: c :: l :: (fl ++ fr))
  | rRollList {p rl fp} : RepRRollList h .rRoll p rl fp → RepNode h p (.rRollList rl) fp
  | rRollComp {r c lp rp op rl b fl fr} : h[r]? = some (.command .rRollComp (some c)) →
      h[c]? = some (.binary (.compare (CmpOp.str op)) lp rp) → RepRRollList h .rRoll lp rl fl →
      Rep h rp b fr → RepNode h (some r) (.rRollComp rl op b) (r :: c :: (fl ++ fr))
  | uRollExpr {p u fp} : RepURollExpr h p u fp → RepNode h p (.uRollExpr u) fp
  | uRollComp {r c lp rp op u b fl fr} : h[r]? = some (.command .uRollComp (some c)) →
      h[c]? = some (.binary (.compare (CmpOp.str op)) lp rp) → RepURollExpr h lp u fl →
      Rep h rp b fr → RepNode h (some r) (.uRollComp u op b) (r :: c :: (fl ++ fr))

/-- What an object is, without the links that execution may replace: the operands of an operator,
the expression of a command, the reroll threshold of a roll list and the bonus of a U roll. -/
def Obj.skeleton : Obj → Obj
  | .unary _ => .unary none
  | .binary k _ _ => .binary k none none
  | .command ty _ => .command ty none
  | .rRollList rolls _ => .rRollList rolls none
  | .uRollExpr list _ => .uRollExpr list none
  | o => o

/-- Only nodes of `fp` were overwritten. -/
def Frame (h : Heap) (fp : List Ref) (h' : Heap) : Prop :=
  h.length ≤ h'.length ∧ ∀ r, r < h.length → r ∉ fp → h'[r]? = h[r]?

/-! ## Constructor calls -/

/-- `ast.New...`: a new object at the end of memory. -/
def mk (h : Heap) (o : Obj) : Ptr × Heap := (some h.length, h ++ [o])

/-- The kind of node of an operator. -/
def binKind : BinOp → InfixKind
  | .add => .add
  | .sub => .sub
  | .mul => .mul

/-- The kind of node of a roll or random number inside an expression. -/
def varKind : VarKind → InfixKind
  | .d => .dRoll
  | .rand => .random

/-- Operands first, then the node: the order in which the actions of the parser run. -/
def buildExpr : Expr → Heap → Ptr × Heap
  | .int v, h => mk h (.int v)
  | .sumRoll ds, h => mk h (.sumRoll ds)
  | .neg r, h =>
    let (p, h1) := buildExpr r h
    mk h1 (.unary p)
  | .bin op l r, h =>
    let (lp, h1) := buildExpr l h
    let (rp, h2) := buildExpr r h1
    mk h2 (.binary (binKind op) lp rp)
  | .div m l r, h =>
    let (lp, h1) := buildExpr l h
    let (rp, h2) := buildExpr r h1
    mk h2 (.binary (.div m) lp rp)
  | .var k l r, h =>
    let (lp, h1) := buildExpr l h
    let (rp, h2) := buildExpr r h1
    mk h2 (.binary (varKind k) lp rp)

/-- `ast.NewBRoll`, `ast.NewRRoll`, `ast.NewURoll`. -/
def buildRolls (k : InfixKind) : List Roll → Heap → List Ptr × Heap
  | [], h => ([], h)
  | r :: rest, h =>
    let (lp, h1) := buildExpr r.num h
    let (rp, h2) := buildExpr r.sides h1
    let (p, h3) := mk h2 (.binary k lp rp)
    let (ps, h4) := buildRolls k rest h3
    (p :: ps, h4)

/-- A threshold or `ast.NilInstance()`. -/
def buildThreshold : Option Expr → Heap → Ptr × Heap
  | none, h => mk h .nilNode
  | some e, h => buildExpr e h

/-- `ast.NewRRollList`. -/
def buildRRollList (k : InfixKind) (rl : RRollList) (h : Heap) : Ptr × Heap :=
  let (ps, h1) := buildRolls k rl.rolls h
  let (t, h2) := buildThreshold rl.threshold h1
  mk h2 (.rRollList ps t)

/-- A bonus or nil. -/
def buildBonus : Option (Sign × Expr) → Heap → Ptr × Heap
  | none, h => (none, h)
  | some b, h => buildExpr (bonusExpr b) h

/-- `ast.NewURollExpr`. -/
def buildURollExpr (u : URollExpr) (h : Heap) : Ptr × Heap :=
  let (l, h1) := buildRRollList .uRoll u.list h
  let (b, h2) := buildBonus u.bonus h1
  mk h2 (.uRollExpr l b)

/-- `ast.NewString` for every item. -/
def buildItems : List Str → Heap → List Ptr × Heap
  | [], h => ([], h)
  | s :: rest, h =>
    let (p, h1) := mk h (.string s)
    let (ps, h2) := buildItems rest h1
    (p :: ps, h2)

/-- `ast.NewCompare` and the command around it. -/
def buildComp (ty : CommandType) (op : CmpOp) (l : Ptr) (r : Expr) (h : Heap) : Ptr × Heap :=
  let (rp, h1) := buildExpr r h
  let (c, h2) := mk h1 (.binary (.compare op.str) l rp)
  mk h2 (.command ty c)

/-- A whole command. -/
def build : Node → Heap → Ptr × Heap
  | .choice items, h =>
    let (ps, h1) := buildItems items h
    mk h1 (.choice ps)
  | .calc e, h =>
    let (p, h1) := buildExpr e h
    mk h1 (.command .calc p)
  | .dRollExpr e, h =>
    let (p, h1) := buildExpr e h
    mk h1 (.command .dRollExpr p)
  | .dRollComp l op r, h =>
    let (p, h1) := buildExpr l h
    buildComp .dRollComp op p r h1
  | .bRollList rolls, h =>
    let (ps, h1) := buildRolls .bRoll rolls h
    mk h1 (.bRollList ps)
  | .bRollComp rolls op r, h =>
    let (ps, h1) := buildRolls .bRoll rolls h
    let (p, h2) := mk h1 (.bRollList ps)
    buildComp .bRollComp op p r h2
  | .rRollList rl, h => buildRRollList .rRoll rl h
  | .rRollComp rl op r, h =>
    let (p, h1) := buildRRollList .rRoll rl h
    buildComp .rRollComp op p r h1
  | .uRollExpr u, h => buildURollExpr u h
  | .uRollComp u op r, h =>
    let (p, h1) := buildURollExpr u h
    buildComp .uRollComp op p r h1

end Raw

/-! ## Execution with the tree left behind -/

namespace Evaluator
variable {σ : Type} (E : Evaluator σ)

/-- Result and remaining tree of `executeDRollExpr`: every roll is replaced by its dice. -/
def executeDRollExprT (gameID : Str) (e : Expr) : M σ (Result × Node) := do
  let e1 ← E.evalVarArgsInCommand e
  let e2 ← E.determineValuesOperand e1
  let v ← E.eval e2
  let dice ← rolledDice
  pure (mkResult gameID [parenthesize (infixNotation true e1), infixNotation true e2, intStr v] dice,
    .dRollExpr e2)

/-- Result and remaining tree of `executeDRollComp`: both sides are replaced by their values. -/
def executeDRollCompT (gameID : Str) (l : Expr) (op : CmpOp) (r : Expr) : M σ (Result × Node) := do
  let (l1, r1) ← E.evalVarArgsInDCompare l r
  let notation1 := infixNotation true l1 ++ op.str ++ infixNotation true r1
  let (l2, r2) ← E.determineValuesInCompare l1 r1
  let notation2 := infixNotation true l2
  let leftValue ← E.eval l2
  let a ← E.eval (.int leftValue)
  let b ← E.eval r2
  let holds := op.holds a b
  let dice ← rolledDice
  pure (mkResult gameID
    [parenthesize notation1, notation2, intStr leftValue,
      if holds then chars!"成功" else chars!"失敗"]
    dice (if holds then .success else .failure), .dRollComp (.int leftValue) op r2)

/-- Result and remaining tree of `executeBRollList`: the arguments of the rolls are literals. -/
def executeBRollListT (gameID : Str) (rolls : List Roll) : M σ (Result × Node) := do
  let rolls1 ← E.evalVarArgsInRolls rolls
  let vs ← E.evalBRollList rolls1
  let dice ← rolledDice
  pure (mkResult gameID [parenthesize (rollsNotation chars!"B" rolls1), joinedElements vs] dice,
    .bRollList rolls1)

/-- Result and remaining tree of `executeBRollComp`. -/
def executeBRollCompT (gameID : Str) (rolls : List Roll) (op : CmpOp) (r : Expr) :
    M σ (Result × Node) := do
  let rolls1 ← E.evalVarArgsInRolls rolls
  let b ← E.eval r
  let r1 := Expr.int b
  let notation1 := rollsNotation chars!"B" rolls1 ++ op.str ++ infixNotation true r1
  let (vs, n) ← E.evalBRollComp rolls1 op r1
  let dice ← rolledDice
  pure (mkResult gameID [parenthesize notation1, joinedElements vs, successCountPart n] dice,
    .bRollComp rolls1 op r1)

/-- Result and remaining tree of `executeRRollList`. -/
def executeRRollListT (gameID : Str) (rl : RRollList) : M σ (Result × Node) := do
  let rl1 ← E.evalVarArgsInRRollList rl
  let notation1 := parenthesize (rRollListNotation chars!"R" rl1)
  let check ← E.checkThreshold rThresholdNilMsg rl1.threshold
  match check with
  | some msg => pure (mkResult gameID [notation1, msg] [], .rRollList rl1)
  | none => do
    let groups ← E.evalRRollList rl1
    let dice ← rolledDice
    pure (mkResult gameID [notation1, formatRRollValues groups] dice, .rRollList rl1)

/-- Result and remaining tree of `executeRRollComp`: the threshold is filled in. -/
def executeRRollCompT (gameID : Str) (rl : RRollList) (op : CmpOp) (r : Expr) :
    M σ (Result × Node) := do
  let rl1 ← E.evalVarArgsInRRollList rl
  let b ← E.eval r
  let r1 := Expr.int b
  let rl2 ← E.setRerollThreshold rl1 r1
  let notation1 := parenthesize (rRollListNotation chars!"R" rl2 ++ op.str ++ infixNotation true r1)
  let check ← E.checkThreshold rThresholdNilMsg rl2.threshold
  match check with
  | some msg => pure (mkResult gameID [notation1, msg] [], .rRollComp rl2 op r1)
  | none => do
    let (groups, n) ← E.evalRRollComp rl2 op r1
    let dice ← rolledDice
    pure (mkResult gameID [notation1, formatRRollValues groups, successCountPart n] dice,
      .rRollComp rl2 op r1)

/-- Result and remaining tree of `executeURollExpr`. -/
def executeURollExprT (gameID : Str) (u : URollExpr) : M σ (Result × Node) := do
  let u1 ← E.evalVarArgsInURollExpr u
  let notation1 := parenthesize (uRollExprNotation u1)
  let check ← E.checkThreshold uThresholdNilMsg u1.list.threshold
  match check with
  | some msg => pure (mkResult gameID [notation1, msg] [], .uRollExpr u1)
  | none => do
    let res ← E.evalURollExpr u1
    let dice ← rolledDice
    pure (mkResult gameID
      [notation1, formatURollExprValueGroupsAndModifier res, formatMaxAndSum res] dice,
      .uRollExpr u1)

/-- Result and remaining tree of `executeURollComp`. -/
def executeURollCompT (gameID : Str) (u : URollExpr) (op : CmpOp) (r : Expr) :
    M σ (Result × Node) := do
  let u1 ← E.evalVarArgsInURollExpr u
  let b ← E.eval r
  let r1 := Expr.int b
  let notation1 := parenthesize (uRollExprNotation u1 ++ op.str ++ infixNotation true r1)
  let check ← E.checkThreshold uThresholdNilMsg u1.list.threshold
  match check with
  | some msg => pure (mkResult gameID [notation1, msg] [], .uRollComp u1 op r1)
  | none => do
    let (res, n) ← E.evalURollComp u1 op r1
    let dice ← rolledDice
    pure (mkResult gameID
      [notation1, formatURollExprValueGroupsAndModifier res, successCountPart n] dice,
      .uRollComp u1 op r1)

/-- Result and remaining tree of `Execute`; calculations and choices stay as they were. -/
def executeT (gameID : Str) : Node → M σ (Result × Node)
  | .choice items => do
    let r ← E.executeChoice gameID items
    pure (r, .choice items)
  | .calc e => do
    let r ← E.executeCalc gameID e
    pure (r, .calc e)
  | .dRollExpr e => E.executeDRollExprT gameID e
  | .dRollComp l op r => E.executeDRollCompT gameID l op r
  | .bRollList rolls => E.executeBRollListT gameID rolls
  | .bRollComp rolls op r => E.executeBRollCompT gameID rolls op r
  | .rRollList rl => E.executeRRollListT gameID rl
  | .rRollComp rl op r => E.executeRRollCompT gameID rl op r
  | .uRollExpr u => E.executeURollExprT gameID u
  | .uRollComp u op r => E.executeURollCompT gameID u op r

end Evaluator
end GoBCDice
