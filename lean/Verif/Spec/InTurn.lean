import Verif.Spec.Grammar
import Verif.Spec.Command
import Verif.BCDice

/-!
# Answers by their last part, and the operations on totals
-/

namespace GoBCDice

/-- With the feeder in state `f`, the text is answered with a result whose last message part is `last` and whose dice are `ds`; the
feeder is then in state `f'`. -/
def Replies {σ : Type} (F : DieFeeder σ) (gameID text : Str) (f : σ) (ds : List Die) (last : Str) (f' : σ) : Prop :=
  ∃ r, executeBasicCommand F gameID text f = (.ok r, f') ∧ r.rolledDice = ds ∧ r.parts.getLast? = some last

/-- The last part of a comparison of B, R or U rolls. -/
def successesShown (n : Int64) : Str := chars!"成功数" ++ intStr n

/-- The last part of a U roll. -/
def maxAndTotalShown (max total : Int64) : Str := intStr max ++ chars!"/" ++ intStr total ++ chars!" (最大/合計)"

/-- The operations on totals, as they are written and as 64 bit numbers. -/
inductive Operation : Str → (Int64 → Int64 → Int64) → Prop where
  | plus : Operation chars!"+" (· + ·)
  | minus : Operation chars!"-" (· - ·)
  | times : Operation chars!"*" (· * ·)

/-- The text contains no random number `[a...b]` (and no threshold). -/
def NoRandomNumber (s : Str) : Prop := '[' ∉ s

end GoBCDice
