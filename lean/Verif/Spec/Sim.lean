import Verif.BCDice

/-!
# Specification: feeders that answer alike

`AnswerAlike F G R`: `R` relates states of two feeders; from related states they give the same
answer to the same request and go to related states.
-/

namespace GoBCDice

/-- Two feeders answer alike from states related by `R`. -/
def AnswerAlike {σ τ : Type} (F : DieFeeder σ) (G : DieFeeder τ) (R : σ → τ → Prop) : Prop :=
  ∀ s t k, R s t → (F.next s k).1 = (G.next t k).1 ∧ R (F.next s k).2 (G.next t k).2

/-- Two game systems have the same information and, given evaluators whose feeders answer alike,
answer their own commands alike. -/
def BotsAlike {σ τ : Type} (b : DiceBot σ) (c : DiceBot τ) (R : σ → τ → Prop) : Prop :=
  b.info = c.info ∧
  ∀ (cmd : Str) (E : Evaluator σ) (E' : Evaluator τ), AnswerAlike E.F E'.F R →
    E.maxRerolls = E'.maxRerolls → ∀ s t log, R s t →
    (b.executeCommand cmd E ⟨s, log⟩).1 = (c.executeCommand cmd E' ⟨t, log⟩).1 ∧
    R (b.executeCommand cmd E ⟨s, log⟩).2.feeder (c.executeCommand cmd E' ⟨t, log⟩).2.feeder

end GoBCDice
