import Verif.Lemmas.NodeNotation
import Verif.Props.Display

/-!
# C61: the infix notation of whole commands

`InfixNotation` applied to a parsed command gives a command text; the grammar (`CommandText`,
`Der`) and the outcomes (`Outcome`, through `executeBasicCommand`) are the independent
specifications.
-/

namespace GoBCDice

theorem items_ok {s : Str} {node : Node} (h : CommandText s node) (hi : node.NoEmptyItem) :
    ∀ items, node = .choice items → SameWord chars!"choice" chars!"CHOICE" ∧
      ItemsText (join chars!"," items) items := by
  rintro items rfl
  cases h with
  | choice _ h _ => exact ⟨sameWord_choice, itemsText_self h hi⟩

/-- **C61.**  The notation of a parsed command is again a command, and showing that one gives the
same text. -/
theorem C61_reads (s : Str) (node : Node) (h : CommandText s node) (hi : node.NoEmptyItem) :
    ∃ node', CommandText (nodeNotation node) node' ∧ nodeNotation node' = nodeNotation node :=
  ⟨_, commandText_notation h (items_ok h hi), nodeNotation_norm node⟩

/-- **C61.**  Executing the notation of a parsed command is executing the command: with any feeder
both succeed together, with the same result, the same message, the same dice, and leave the feeder
in the same state.  The known exception, a product whose right factor is a quotient, is excluded
(`mulSafe`). -/
theorem C61_means {σ : Type} (F : DieFeeder σ) (g s : Str) (node : Node) (h : CommandText s node)
    (hi : node.NoEmptyItem) (hs : node.All Expr.mulSafe) (f f' : σ) (r : Result) :
    executeBasicCommand F g (nodeNotation node) f = (.ok r, f') ↔
      executeBasicCommand F g s f = (.ok r, f') := by
  have hn := commandText_notation h (items_ok h hi)
  rw [executeBasicCommand_ok_text, executeBasicCommand_ok_text]
  constructor
  · rintro ⟨n, ds, ht, ho, hd⟩
    obtain rfl := C27_unambiguous _ _ _ hn ht
    exact ⟨node, ds, h, (outcome_norm hs ds r).mp ho, hd⟩
  · rintro ⟨n, ds, ht, ho, hd⟩
    obtain rfl := C27_unambiguous _ _ _ h ht
    exact ⟨_, ds, hn, (outcome_norm hs ds r).mpr ho, hd⟩

/-- **C61, the bonus of a U roll.**  A reader who takes what follows the roll list as ordinary
arithmetic (put a 0 in front and apply the usual rules of signs and parentheses) finds the bonus
the program uses: parentheses are printed exactly where they are needed for that. -/
theorem C61_bonus (s : Str) (u : URollExpr) (sg : Sign) (e : Expr) (h : URollText s u)
    (hb : u.bonus = some (sg, e)) (hs : e.mulSafe) :
    ∃ list rl bonus e', nodeNotation (.uRollExpr u) = list ++ bonus ∧
      RRollsText ('U', 'u') list rl ∧
      Der (.add .int) (chars!"0" ++ bonus) e' ∧ ∀ ds v, Ev e' ds v ↔ Bonus u.bonus ds v := by
  obtain ⟨rl, bo⟩ := u
  obtain ⟨a, b, -, h1, h2⟩ := h
  dsimp only at hb h1 h2
  subst hb
  have he : e.Shape .int := by
    cases h2 with
    | plus h => exact h.shape
    | minus h => exact h.shape
  have ht := rRollsText_notation h1
  refine ⟨_, _, sg.str ++ bonusOperandNotation sg e, (bonusExpr (sg, e)).norm,
    List.append_assoc .., ht, ?_, ?_⟩
  · have h0 : (bonusExpr (sg, e)).Shape .int := by
      cases sg <;> exact ⟨by show (0 : Int64) ≤ 0; decide, he⟩
    have := der_notation true h0
    have e0 : infixNotation true (bonusExpr (sg, e)) =
        chars!"0" ++ (sg.str ++ bonusOperandNotation sg e) := by
      have z : intStr 0 = chars!"0" := by decide
      rw [← z]
      cases sg <;> exact List.append_assoc ..
    rwa [e0] at this
  · intro ds v
    have hs0 : (bonusExpr (sg, e)).mulSafe := by cases sg <;> exact ⟨trivial, hs⟩
    rw [ev_norm hs0]
    constructor
    · intro h
      cases sg with
      | plus =>
        obtain ⟨_, _, _, _, rfl, rfl, h1, h2⟩ := ev_add_iff.mp h
        cases h1
        simpa using Bonus.plus h2
      | minus =>
        obtain ⟨_, _, _, _, rfl, rfl, h1, h2⟩ := ev_sub_iff.mp h
        cases h1
        simpa using Bonus.minus h2
    · intro h
      cases h with
      | plus h => simpa [bonusExpr] using Ev.add (.int 0) h
      | minus h => simpa [bonusExpr] using Ev.sub (.int 0) h

-- non-vacuity
example : nodeNotation (.uRollComp ⟨⟨[⟨.int 3, .bin .add (.int 2) (.int 4)⟩], some (.int 6)⟩, some (.minus, .bin .add (.int 1) (.int 2))⟩ .ge (.int 9))
    = chars!"3U(2+4)[6]-(1+2)>=9" := by decide

example : parse chars!"3u(2+4)[6]-1+2>=9" = some (.uRollComp ⟨⟨[⟨.int 3, .bin .add (.int 2) (.int 4)⟩], some (.int 6)⟩, some (.minus, .bin .add (.int 1) (.int 2))⟩ .ge (.int 9)) := by decide

example : Node.All Expr.mulSafe (.uRollComp ⟨⟨[⟨.int 3, .bin .add (.int 2) (.int 4)⟩], some (.int 6)⟩, some (.minus, .bin .add (.int 1) (.int 2))⟩ .ge (.int 9)) := by
  refine ⟨⟨⟨?_, ?_⟩, ?_⟩, trivial⟩
  · intro r hr; cases List.mem_singleton.mp hr; exact ⟨trivial, trivial, trivial⟩
  · intro t ht; cases ht; trivial
  · intro t ht; cases ht; exact ⟨trivial, trivial⟩

example : nodeNotation (.bRollComp [⟨.int 2, .int 6⟩, ⟨.neg (.int 1), .var .rand (.int 1) (.int 4)⟩] .ge
    (.neg (.bin .sub (.int 4) (.int 5)))) = chars!"2B6+(-1)B[1...4]>=-(4-5)" := by decide

end GoBCDice
