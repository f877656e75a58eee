import Verif.Complete
import Verif.Spec.Repl
import Verif.Spec.Grammar

/-!
# What completion offers
-/

namespace GoBCDice

/-- The words on a way down from the roots of a tree. -/
inductive PcItem.Path : List PcItem → List Str → Prop where
  | stop {items : List PcItem} {name : Str} {children : List PcItem} :
      .mk name children ∈ items → Path items [name]
  | down {items : List PcItem} {name : Str} {children : List PcItem} {words : List Str} :
      .mk name children ∈ items → Path children words → Path items (name :: words)

/-- The line after its words have been completed: each is followed by a blank. -/
def completedLine (words : List Str) : Str := (words.map (· ++ chars!" ")).flatten

/-- A game id that can be typed: it is not empty, does not begin or end with white space, and is on
one line. -/
def Typeable (id : Str) : Prop :=
  id ≠ [] ∧ (∀ c ∈ id.head?, ¬ WhiteSpace c) ∧ (∀ c ∈ id.getLast?, ¬ WhiteSpace c) ∧ '\n' ∉ id

end GoBCDice
