import Verif.Parser
import Verif.Lemmas.SExpTree

/-!
# C54: S-expressions identify trees
-/

namespace GoBCDice

/-- C54: command trees with the same S-expression are the same tree, whatever the table of
printable characters used by `%q`. -/
theorem C54_sexp_injective (isPrint : Char → Bool) (n m : Node)
    (h : n.sexp isPrint = m.sexp isPrint) : n = m :=
  Node.sexp_inj isPrint h

/-- C54, for inputs: two accepted inputs show the same S-expression exactly when they are parsed to
the same tree. -/
theorem C54_same_sexp_iff_same_tree (isPrint : Char → Bool) (s t : Str) (n m : Node)
    (hs : parse s = some n) (ht : parse t = some m) :
    n.sexp isPrint = m.sexp isPrint ↔ parse s = parse t := by
  rw [hs, ht]
  exact ⟨fun h => by rw [Node.sexp_inj isPrint h], fun h => by cases h; rfl⟩

/-- Non-vacuity: different texts of one tree, and trees whose texts differ only in the grouping. -/
example : ∃ n m k, parse chars!"2D6-1-2>=7" = some n ∧ parse chars!"(2D6-1)-2>=7" = some m ∧
    parse chars!"2D6-(1-2)>=7" = some k ∧
    n.sexp (fun _ => true) = chars!"(DRollComp (>= (- (- (DRoll 2 6) 1) 2) 7))" ∧
    m.sexp (fun _ => true) = n.sexp (fun _ => true) ∧
    k.sexp (fun _ => true) = chars!"(DRollComp (>= (- (DRoll 2 6) (- 1 2)) 7))" := by
  exact ⟨_, _, _, rfl, rfl, rfl, by decide, by decide, by decide⟩

/-- Non-vacuity: quotes inside choice items are escaped, so `a" "b` is one item. -/
example : (Node.choice [chars!"a\" \"b"]).sexp (fun _ => true) = chars!"(Choice \"a\\\" \\\"b\")" ∧
    (Node.choice [chars!"a", chars!"b"]).sexp (fun _ => true) = chars!"(Choice \"a\" \"b\")" := by
  decide

end GoBCDice
