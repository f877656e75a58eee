import Verif.Pigeon

/-!
# How deep parentheses are nested in a text
-/

namespace GoBCDice

open Pigeon (Sym)

/-- How often a rune occurs. -/
def occurrences (c : Char) (data : List Sym) : Nat := (data.map Sym.rn).count c

/-- At most `d` parentheses are open at any place: whatever is read, at most `d` more have been opened than closed. -/
def NestedAtMost (d : Nat) (data : List Sym) : Prop :=
  ∀ read rest, data = read ++ rest → occurrences '(' read ≤ occurrences ')' read + d

end GoBCDice
