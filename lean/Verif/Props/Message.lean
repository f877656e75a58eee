import Verif.Lemmas.Message
import Verif.Props.Display

/-!
# C55: the second part of the message of a D roll

The specification is `RollsShown` (Spec/Message.lean), a relation on texts and dice.
-/

namespace GoBCDice
variable {σ : Type} (E : Evaluator σ)

/-- **C55.**  A D roll is answered `(a) ＞ b ＞ value` where `b` is `a` with each `xDy`, from left to
right, replaced by the sum and the values of the dice rolled for it; these dice are the last ones
reported (those before them were drawn for the operands of the rolls). -/
theorem C55_dRoll_message (g : Str) (e : Expr) (s s' : St σ) (r : Result)
    (h : E.execute g (.dRollExpr e) ⟨s.feeder, []⟩ = (.ok r, s')) :
    ∃ a b as rs v, r.parts = [chars!"(" ++ a ++ chars!")", b, intStr v] ∧
      r.rolledDice = as ++ rs ∧ RollsShown a rs b := by
  obtain ⟨ds, ho, -, -⟩ := (execute_ok_iff E g _ _ _ r).mp h
  cases ho with | dRollExpr h1 h2 h3 =>
  exact ⟨_, _, _, _, _, rfl, rfl, h2.shown true⟩

/-- **C55, comparisons.**  `(a op target) ＞ b ＞ value ＞ verdict`, in the same way. -/
theorem C55_dComp_message (g : Str) (l : Expr) (op : CmpOp) (t : Expr) (s s' : St σ) (r : Result)
    (h : E.execute g (.dRollComp l op t) ⟨s.feeder, []⟩ = (.ok r, s')) :
    ∃ a b as rs target v verdict,
      r.parts = [chars!"(" ++ (a ++ op.str ++ intStr target) ++ chars!")", b, intStr v, verdict] ∧
      r.rolledDice = as ++ rs ∧ RollsShown a rs b := by
  obtain ⟨ds, ho, -, -⟩ := (execute_ok_iff E g _ _ _ r).mp h
  cases ho with | dRollComp h0 h1 hr h2 h3 =>
  exact ⟨_, _, _, _, _, _, _, rfl, rfl, h2.shown true⟩

/-- **C55, determinacy.**  The text and the dice leave no choice about what is shown. -/
theorem C55_determined (a b b' : Str) (rs : List Die) (h : RollsShown a rs b)
    (h' : RollsShown a rs b') : b = b' := h.unique h'

/-- **C55** through `ExecuteCommand`: whenever the command is a D roll. -/
theorem C55_command (F : DieFeeder σ) (g c : Str) (f f' : σ) (r : Result) (e : Expr)
    (ht : CommandText c (.dRollExpr e)) (h : executeBasicCommand F g c f = (.ok r, f')) :
    ∃ a b as rs v, r.parts = [chars!"(" ++ a ++ chars!")", b, intStr v] ∧
      r.rolledDice = as ++ rs ∧ Draws F f (as ++ rs) f' ∧ RollsShown a rs b := by
  obtain ⟨node, ds, ht', ho, hd⟩ := executeBasicCommand_ok_text.mp h
  obtain rfl : .dRollExpr e = node := C27_unambiguous _ _ _ ht ht'
  cases ho with | dRollExpr h1 h2 h3 =>
  exact ⟨_, _, _, _, _, rfl, rfl, hd, h2.shown true⟩

-- non-vacuity: an operand drawn first, two rolls, a product and a parenthesis
example : (executeCommand queueFeeder (basicBot []) chars!"[1...3]D6-2*(1D4+3)"
    [⟨2, 3⟩, ⟨4, 6⟩, ⟨5, 6⟩, ⟨1, 4⟩]).1 = .ok
      { gameID := chars!"DiceBot",
        parts := [chars!"(2D6-2*(1D4+3))", chars!"9[4,5]-2*(1[1]+3)", chars!"1"],
        rolledDice := [⟨2, 3⟩, ⟨4, 6⟩, ⟨5, 6⟩, ⟨1, 4⟩], success := .unspecified, isSecret := false } := by
  decide

example : RollsShown chars!"2D6-2*(1D4+3)" [⟨4, 6⟩, ⟨5, 6⟩, ⟨1, 4⟩] chars!"9[4,5]-2*(1[1]+3)" := by
  have h1 : RollsShown chars!"-2*(1D4+3)" [⟨1, 4⟩] chars!"-2*(1[1]+3)" :=
    RollsShown.roll (t := chars!"-2*(") (x := 1) (y := 4) (g := [⟨1, 4⟩]) (rs := []) (a := chars!"+3)")
      (b := chars!"+3)") (by decide) (by intro c hc; cases hc; decide) (by decide)
      (by intro c hc; cases hc; decide) (.text (by decide))
  exact RollsShown.roll (t := []) (x := 2) (y := 6) (g := [⟨4, 6⟩, ⟨5, 6⟩]) (rs := [⟨1, 4⟩])
    (by decide) (by intro c hc; cases hc) (by decide) (by intro c hc; cases hc; decide) h1

end GoBCDice
