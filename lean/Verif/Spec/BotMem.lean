import Verif.BotMem

/-!
# What the client leaves alone
-/

namespace GoBCDice

variable {σ : Type}

/-- The operation goes through functions and methods only: no exported field is assigned. -/
def BotOp.proper : BotOp σ → Bool
  | .writeInfo _ _ => false
  | .pointTo _ _ => false
  | .assign _ _ => false
  | _ => true

/-- The operation does not assign the field `DiceBot` of a `BCDice`. -/
def BotOp.keepsDiceBots : BotOp σ → Bool
  | .assign _ _ => false
  | _ => true

/-- The `BCDice` with number `b` uses the information with number `p`. -/
def BotMem.Uses (w : BotMem σ) (b p : Nat) : Prop :=
  ∃ o m, w.bots[b]? = some o ∧ o.diceBot = some m ∧ w.impls[m]? = some (some p)

/-- The same answer under another name. -/
def underName (g : Str) (a : Out Result × σ) : Out Result × σ := (a.1.map fun r => { r with gameID := g }, a.2)

end GoBCDice
