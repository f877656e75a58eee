import Verif.Spec.Command

/-!
# Which commands are displayed faithfully

The first part of a message shows the command with its operands computed.  These predicates say
when that text, executed again, means the same; the exceptions are the known oddities of the
displayed notation.
-/

namespace GoBCDice

/-- The leftmost factors of a product contain no division. -/
def Expr.noDivSpine : Expr → Prop
  | .div _ _ _ => False
  | .bin .mul l _ => l.noDivSpine
  | _ => True

/-- No product has a right factor that starts with a division: `a*(b/c)` is displayed `a*b/c`. -/
def Expr.mulSafe : Expr → Prop
  | .neg r => r.mulSafe
  | .bin .mul l r => l.mulSafe ∧ r.mulSafe ∧ r.noDivSpine
  | .bin _ l r => l.mulSafe ∧ r.mulSafe
  | .div _ l r => l.mulSafe ∧ r.mulSafe
  | .var _ l r => l.mulSafe ∧ r.mulSafe
  | _ => True

/-- The expression is never worth the smallest integer, whose numeral cannot be read back. -/
def Expr.NotMin (e : Expr) : Prop := ∀ ds v, Ev e ds v → v ≠ Int64.minValue

/-- Commands whose displayed form means the same. -/
def Node.Faithful (limit : Nat) : Node → Prop
  | .choice items => ∀ i ∈ items, i ≠ []
  | .calc e => e.mulSafe
  | .dRollExpr e => e.mulSafe
  | .dRollComp l _ r => l.mulSafe ∧ r.NotMin
  | .bRollList _ => True
  | .bRollComp _ _ r => r.NotMin
  | .rRollList rl => rl.rolls.length ≤ limit
  | .rRollComp rl _ r => rl.rolls.length ≤ limit ∧ r.NotMin
  | .uRollExpr u => ∀ p ∈ u.bonus, p.2.NotMin
  | .uRollComp u _ r => (∀ p ∈ u.bonus, p.2.NotMin) ∧ r.NotMin

/-- Every arithmetic expression of the roll satisfies `P`. -/
def Roll.All (P : Expr → Prop) (r : Roll) : Prop := P r.num ∧ P r.sides

/-- Every arithmetic expression of the roll list satisfies `P`. -/
def RRollList.All (P : Expr → Prop) (rl : RRollList) : Prop :=
  (∀ r ∈ rl.rolls, r.All P) ∧ ∀ t ∈ rl.threshold, P t

/-- Every arithmetic expression of the U roll satisfies `P`. -/
def URollExpr.All (P : Expr → Prop) (u : URollExpr) : Prop :=
  u.list.All P ∧ ∀ b ∈ u.bonus, P b.2

/-- Every arithmetic expression of the command satisfies `P`. -/
def Node.All (P : Expr → Prop) : Node → Prop
  | .choice _ => True
  | .calc e => P e
  | .dRollExpr e => P e
  | .dRollComp l _ r => P l ∧ P r
  | .bRollList rs => ∀ r ∈ rs, r.All P
  | .bRollComp rs _ e => (∀ r ∈ rs, r.All P) ∧ P e
  | .rRollList rl => rl.All P
  | .rRollComp rl _ e => rl.All P ∧ P e
  | .uRollExpr u => u.All P
  | .uRollComp u _ e => u.All P ∧ P e

/-- The command is not a choice with an empty item (such an item is displayed as nothing). -/
def Node.NoEmptyItem : Node → Prop
  | .choice items => ∀ i ∈ items, i ≠ []
  | _ => True

end GoBCDice
