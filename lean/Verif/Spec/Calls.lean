import Verif.Spec.Dice
import Verif.Spec.Eval
import Verif.Spec.Grammar

/-!
# Specification vocabulary for executions that may fail: feeder calls
-/

namespace GoBCDice

/-- `Calls F s cs s'`: starting in state `s`, calling the feeder with the sides in `cs` gives the
answers in `cs` (a die, an error or a panic) and leaves the feeder in state `s'`. -/
inductive Calls {σ : Type} (F : DieFeeder σ) : σ → List (Int64 × Out Die) → σ → Prop where
  | nil (s : σ) : Calls F s [] s
  | cons {s s₁ s₂ : σ} {k : Int64} {o : Out Die} {cs : List (Int64 × Out Die)} :
      F.next s k = (o, s₁) → Calls F s₁ cs s₂ → Calls F s ((k, o) :: cs) s₂

/-- Whatever faces the dice show, the expression is worth at most 2^44. -/
def Expr.AtMostCap (e : Expr) : Prop :=
  ∀ ds v, (∀ d ∈ ds, d.Fair) → Ev e ds v → v.toInt ≤ 2 ^ 44

/-- No D roll in the expression can ask for more than 2^44 dice. -/
def Expr.SmallCounts : Expr → Prop
  | .int _ => True
  | .sumRoll _ => True
  | .neg r => r.SmallCounts
  | .bin _ l r => l.SmallCounts ∧ r.SmallCounts
  | .div _ l r => l.SmallCounts ∧ r.SmallCounts
  | .var .d l r => l.AtMostCap ∧ l.SmallCounts ∧ r.SmallCounts
  | .var .rand l r => l.SmallCounts ∧ r.SmallCounts

/-- The same for a B, R or U roll. -/
def Roll.SmallCounts (r : Roll) : Prop :=
  r.num.AtMostCap ∧ r.num.SmallCounts ∧ r.sides.SmallCounts

/-- The same for all rolls of a command. -/
def Node.SmallCounts : Node → Prop
  | .choice _ => True
  | .calc e => e.SmallCounts
  | .dRollExpr e => e.SmallCounts
  | .dRollComp l _ r => l.SmallCounts ∧ r.SmallCounts
  | .bRollList rs => ∀ r ∈ rs, r.SmallCounts
  | .bRollComp rs _ e => (∀ r ∈ rs, r.SmallCounts) ∧ e.SmallCounts
  | .rRollList rl => (∀ r ∈ rl.rolls, r.SmallCounts) ∧ ∀ e ∈ rl.threshold, e.SmallCounts
  | .rRollComp rl _ t =>
      ((∀ r ∈ rl.rolls, r.SmallCounts) ∧ ∀ e ∈ rl.threshold, e.SmallCounts) ∧ t.SmallCounts
  | .uRollExpr u => ((∀ r ∈ u.list.rolls, r.SmallCounts) ∧ ∀ e ∈ u.list.threshold, e.SmallCounts) ∧
      ∀ b ∈ u.bonus, b.2.SmallCounts
  | .uRollComp u _ t =>
      (((∀ r ∈ u.list.rolls, r.SmallCounts) ∧ ∀ e ∈ u.list.threshold, e.SmallCounts) ∧
        ∀ b ∈ u.bonus, b.2.SmallCounts) ∧ t.SmallCounts

/-- Number of random elements of a roll: itself and those in its operands. -/
def Roll.rands (r : Roll) : Nat := r.num.rands + r.sides.rands + 1

/-- Number of random elements of a list of rolls. -/
def rollsRands (rs : List Roll) : Nat := (rs.map Roll.rands).sum

/-- Number of random elements of an optional expression. -/
def optRands : Option Expr → Nat
  | none => 0
  | some e => e.rands

/-- Number of rolls and random numbers written in a command (a choice is one). -/
def Node.rands : Node → Nat
  | .choice _ => 1
  | .calc e => e.rands
  | .dRollExpr e => e.rands
  | .dRollComp l _ r => l.rands + r.rands
  | .bRollList rs => rollsRands rs
  | .bRollComp rs _ e => rollsRands rs + e.rands
  | .rRollList rl => rollsRands rl.rolls + optRands rl.threshold
  | .rRollComp rl _ t => rollsRands rl.rolls + optRands rl.threshold + t.rands
  | .uRollExpr u => rollsRands u.list.rolls + optRands u.list.threshold +
      optRands (u.bonus.map Prod.snd)
  | .uRollComp u _ t => rollsRands u.list.rolls + optRands u.list.threshold +
      optRands (u.bonus.map Prod.snd) + t.rands

end GoBCDice
