import Verif.Dice

/-!
# Specification vocabulary for dice

Nothing here depends on how the roller or the evaluator is written.
-/

namespace GoBCDice

/-- `Draws F s ds s'`: starting in state `s`, calling the feeder once per element of `ds`, each
time asking for that die's number of sides, delivers exactly the dice `ds` in this order and
leaves the feeder in state `s'`. -/
inductive Draws {σ : Type} (F : DieFeeder σ) : σ → List Die → σ → Prop where
  | nil (s : σ) : Draws F s [] s
  | cons {s s₁ s₂ : σ} {d : Die} {ds : List Die} :
      F.next s d.sides = (.ok d, s₁) → Draws F s₁ ds s₂ → Draws F s (d :: ds) s₂

/-- A die showing one of its faces. -/
def Die.Fair (d : Die) : Prop := 1 ≤ d.value ∧ d.value ≤ d.sides

instance (d : Die) : Decidable d.Fair := inferInstanceAs (Decidable (_ ∧ _))

/-- A feeder that only ever delivers dice showing one of their faces, from any state it can reach
from `s` is captured by an invariant `I` on its states. -/
def DieFeeder.FairOn {σ : Type} (F : DieFeeder σ) (I : σ → Prop) : Prop :=
  ∀ s sides, 1 ≤ sides → I s →
    I (F.next s sides).2 ∧ (∀ m, (F.next s sides).1 ≠ .panic m) ∧
    ∀ d, (F.next s sides).1 = .ok d → d.Fair

end GoBCDice
