import Verif.Lemmas.Redisplay
import Verif.Props.Parser
import Verif.Props.Top

/-!
# The displayed command (C26)

The first part of every message shows the command with its operands computed, in the command
language.  Executing that text again, on the dice of the rolls proper, gives the same message.
-/

namespace GoBCDice

open Expr

/-- An arithmetic expression and its displayed text have the same values, when no product has a
right factor starting with a division. -/
theorem C26_value {s : Str} {k : Kind} {e : Expr} (h : Der (.add k) s e) (hs : e.mulSafe) :
    ∃ e', Der (.add k) (infixNotation true e) e' ∧ ∀ ds v, Ev e' ds v ↔ Ev e ds v :=
  ⟨e.norm, der_notation true h.shape, ev_norm hs⟩

/-- Whatever the expression, its displayed text is in the language and is displayed as itself. -/
theorem C26_stable {s : Str} {k : Kind} {e : Expr} (h : Der (.add k) s e) :
    ∃ e', Der (.add k) (infixNotation true e) e' ∧ infixNotation true e' = infixNotation true e :=
  ⟨e.norm, der_notation true h.shape, infixNotation_norm e true⟩

theorem notMin_neg {v : Int64} (h : v ≠ Int64.minValue) : -v ≠ Int64.minValue := by
  intro hc
  have : v = -Int64.minValue := by rw [← hc, Int64.neg_neg]
  exact h (by rw [this]; decide)

theorem Bonus.notMin {b : Option (Sign × Expr)} {ds : List Die} {m : Int64} (h : Bonus b ds m)
    (hb : ∀ p ∈ b, p.2.NotMin) : m ≠ Int64.minValue := by
  cases h with
  | absent => decide
  | plus h => exact hb _ rfl _ _ h
  | minus h => exact notMin_neg (hb _ rfl _ _ h)

theorem itemsText_self {body : Str} {items : List Str} (h : ItemsText body items)
    (hne : ∀ i ∈ items, i ≠ []) : ItemsText (join chars!"," items) items := by
  have one : ∀ {raw item : Str}, ItemText raw item → item ≠ [] → ItemText item item := by
    rintro raw item ⟨h1, _, a, b, rfl, ha, hb, hh, hl⟩ hn
    refine ⟨fun c hc => h1 c (by simp [hc]), ?_, [], [], by simp, by simp, by simp, hh, hl⟩
    cases item with
    | nil => exact absurd rfl hn
    | cons c cs => exact ⟨c, by simp, fun hc => hh c (by simp) (.inr hc)⟩
  induction h with
  | one h => have := ItemsText.one (one h (hne _ (by simp))); simpa [join] using this
  | @cons raw item s items h hi ih =>
    have : ItemsText (join chars!"," items) items := ih fun i hi => hne i (by simp [hi])
    cases hi with
    | one _ => exact .cons (one h (hne _ (by simp))) this
    | cons _ _ => exact .cons (one h (hne _ (by simp))) this

theorem sameWord_choice : SameWord chars!"choice" chars!"CHOICE" :=
  ⟨.inr (.inl (by decide)), .inr (.inl (by decide)), .inr (.inl (by decide)), .inr (.inl (by decide)),
    .inr (.inl (by decide)), .inr (.inl (by decide)), trivial⟩

/-- **Redisplay.**  When a roll command succeeds, the first part of the message is a text in
parentheses which is itself a command; executed on the dice of the rolls proper (the last dice
drawn, those for random operands not needed any more) it gives the same message and the same
verdict. -/
theorem C26_redisplay {limit : Nat} {g s : Str} {node : Node} {ds : List Die} {r : Result}
    (ht : CommandText s node) (hf : node.Faithful limit) (ho : Outcome limit g node ds r)
    (hr : r.rolledDice ≠ []) :
    ∃ shown rest node' rs, r.parts = (chars!"(" ++ shown ++ chars!")") :: rest ∧
      CommandText shown node' ∧ rs <:+ ds ∧
      Outcome limit g node' rs { r with rolledDice := rs } := by
  cases ho with
  | @choice items d item h1 h2 h3 =>
    refine ⟨choiceNotation items, _, .choice items, _, rfl, ?_, List.suffix_refl _, .choice h1 h2 h3⟩
    cases ht with
    | choice _ hi _ =>
      have := CommandText.choice (kw := chars!"CHOICE") (rest := []) (seps := [])
        sameWord_choice (itemsText_self hi hf) (.inl rfl)
      simpa [choiceNotation] using this
  | «calc» h => exact absurd rfl hr
  | @dRollExpr e e1 e2 as rs v h1 h2 h3 =>
    cases ht with
    | dRollExpr hd hn =>
      refine ⟨infixNotation true e1, _, .dRollExpr e1.norm, rs, rfl, ?_, List.suffix_append _ _, ?_⟩
      · exact .dRollExpr (der_notation true (h1.shape hd.shape h2))
          (by rw [rands_norm]; exact h1.rands hn)
      · have := Outcome.dRollExpr (limit := limit) (gameID := g) h1.literal.norm_literal h2.norm
          ((ev_norm (h2.mulSafe (h1.mulSafe hf)) _ _).mpr h3)
        simpa [infixNotation_norm] using this
  | @dRollComp l l1 l2 r op as bs rs v target hc h1 hb h2 h3 =>
    cases ht with
    | dRollComp hd hn hcmp =>
      obtain ⟨t, htd, hte⟩ := intStr_reads target (hf.2 _ _ hb)
      refine ⟨infixNotation true l1 ++ op.str ++ intStr target, _, .dRollComp l1.norm op t, rs, rfl,
        ?_, List.suffix_append _ _, ?_⟩
      · rw [List.append_assoc]
        exact .dRollComp (der_notation true (h1.shape hd.shape h2))
          (by rw [rands_norm]; exact h1.rands hn) (.mk htd)
      · have := Outcome.dRollComp (limit := limit) (gameID := g) (op := op) (dCompLeft_norm hc h1)
          h1.literal.norm_literal hte h2.norm
          ((ev_norm (h2.mulSafe (h1.mulSafe hf.1)) _ _).mpr h3)
        simpa [infixNotation_norm] using this
  | @bRollList rolls as ps gs h1 h2 =>
    cases ht with
    | bRollList hd =>
      refine ⟨rollsText chars!"B" ps, _, .bRollList (litRolls ps), gs.flatten, rfl, ?_,
        List.suffix_append _ _, ?_⟩
      · exact .bRollList (rollsText_reads _ _ ps (h1.ne_nil hd.ne_nil) h2.nonneg)
      · simpa using Outcome.bRollList (limit := limit) (gameID := g) (args_litRolls ps) h2
  | @bRollComp rolls op r as bs ps gs target h1 hb h2 =>
    cases ht with
    | bRollComp hd hcmp =>
      obtain ⟨t, htd, hte⟩ := intStr_reads target (hf _ _ hb)
      refine ⟨rollsText chars!"B" ps ++ op.str ++ intStr target, _, .bRollComp (litRolls ps) op t,
        gs.flatten, rfl, ?_, List.suffix_append _ _, ?_⟩
      · rw [List.append_assoc]
        exact .bRollComp (rollsText_reads _ _ ps (h1.ne_nil hd.ne_nil) h2.nonneg) (.mk htd)
      · simpa using Outcome.bRollComp (limit := limit) (gameID := g) (op := op) (args_litRolls ps)
          hte h2
  | rRollRefused => exact absurd rfl hr
  | @rRollList rl ts as th ps gs hth h1 h2 h3 =>
    cases ht with
    | rRollList hd =>
      obtain ⟨_, _, _, hd1, _⟩ := hd
      have hp : ∀ p ∈ ps, 0 ≤ p.1 ∧ 0 ≤ p.2 := by
        have := h3.nonneg
        rwa [List.take_of_length_le (by rw [h1.length]; exact hf)] at this
      refine ⟨rollsText chars!"R" ps ++ thresholdText (some th), _,
        .rRollList { rolls := litRolls ps, threshold := some (.int th) }, gs.flatten, rfl, ?_,
        List.suffix_append _ _, ?_⟩
      · exact .rRollList ⟨_, _, rfl, rollsText_reads _ _ ps (h1.ne_nil hd1.ne_nil) hp,
          thresholdText_reads h2⟩
      · simpa using Outcome.rRollList (limit := limit) (gameID := g)
          (rl := { rolls := litRolls ps, threshold := some (.int th) })
          (.given (.int th)) (args_litRolls ps) h2 h3
  | rRollCompRefused => exact absurd rfl hr
  | @rRollComp rl op r ts as bs th th' ps gs target hth h1 hb ho h2 h3 =>
    cases ht with
    | rRollComp hd hcmp =>
      obtain ⟨_, _, _, hd1, _⟩ := hd
      obtain ⟨t, htd, hte⟩ := intStr_reads target (hf.2 _ _ hb)
      have hp : ∀ p ∈ ps, 0 ≤ p.1 ∧ 0 ≤ p.2 := by
        have := h3.nonneg
        rwa [List.take_of_length_le (by rw [h1.length]; exact hf.1)] at this
      refine ⟨rollsText chars!"R" ps ++ thresholdText (some th') ++ op.str ++ intStr target, _,
        .rRollComp { rolls := litRolls ps, threshold := some (.int th') } op t, gs.flatten, rfl, ?_,
        List.suffix_append _ _, ?_⟩
      · rw [List.append_assoc (_ ++ _)]
        exact .rRollComp ⟨_, _, rfl, rollsText_reads _ _ ps (h1.ne_nil hd1.ne_nil) hp,
          thresholdText_reads h2⟩ (.mk htd)
      · simpa using Outcome.rRollComp (limit := limit) (gameID := g) (op := op)
          (rl := { rolls := litRolls ps, threshold := some (.int th') }) (th := some th')
          (.given (.int th')) (args_litRolls ps) hte rfl h2 h3
  | uRollRefused => exact absurd rfl hr
  | @uRollExpr u ts as ms th ps m mx gs hth h1 hb h2 h3 h4 =>
    cases ht with
    | uRollExpr hd =>
      obtain ⟨_, _, _, ⟨_, _, _, hd1, _⟩, _⟩ := hd
      obtain ⟨b, hbt, hbe⟩ := bonusText_reads (hb.notMin hf)
      refine ⟨rollsText chars!"U" ps ++ thresholdText (some th) ++ bonusText m, _,
        .uRollExpr { list := { rolls := litRolls ps, threshold := some (.int th) }, bonus := b },
        gs.flatten, rfl, ?_, List.suffix_append _ _, ?_⟩
      · exact .uRollExpr ⟨_, _, rfl, ⟨_, _, rfl, rollsText_reads _ _ ps (h1.ne_nil hd1.ne_nil)
          h3.nonneg, thresholdText_reads h2⟩, hbt⟩
      · simpa using Outcome.uRollExpr (limit := limit) (gameID := g)
          (u := { list := { rolls := litRolls ps, threshold := some (.int th) }, bonus := b })
          (.given (.int th)) (args_litRolls ps) hbe h2 h3 h4
  | uRollCompRefused => exact absurd rfl hr
  | @uRollComp u op r ts as ms bs th ps m target gs hth h1 hb he h2 h3 =>
    cases ht with
    | uRollComp hd hcmp =>
      obtain ⟨_, _, _, ⟨_, _, _, hd1, _⟩, _⟩ := hd
      obtain ⟨b, hbt, hbe⟩ := bonusText_reads (hb.notMin hf.1)
      obtain ⟨t, htd, hte⟩ := intStr_reads target (hf.2 _ _ he)
      refine ⟨rollsText chars!"U" ps ++ thresholdText (some th) ++ bonusText m ++ op.str ++
          intStr target, _,
        .uRollComp { list := { rolls := litRolls ps, threshold := some (.int th) }, bonus := b } op t,
        gs.flatten, rfl, ?_, List.suffix_append _ _, ?_⟩
      · rw [List.append_assoc (_ ++ _)]
        exact .uRollComp ⟨_, _, rfl, ⟨_, _, rfl, rollsText_reads _ _ ps (h1.ne_nil hd1.ne_nil)
          h3.nonneg, thresholdText_reads h2⟩, hbt⟩ (.mk htd)
      · simpa using Outcome.uRollComp (limit := limit) (gameID := g) (op := op)
          (u := { list := { rolls := litRolls ps, threshold := some (.int th) }, bonus := b })
          (.given (.int th)) (args_litRolls ps) hbe hte h2 h3

/-- A command text does not start with the secret marker. -/
theorem CommandText.not_secret {s : Str} {node : Node} (h : CommandText s node) :
    ¬ StartsSecret s := by
  cases hn : node.isRollCommand with
  | true => exact rollChars_not_secret (C32_roll_chars s node hn ((parse_iff s node).mpr h))
  | false =>
    rintro ⟨c, rest, rfl, hc⟩
    generalize hx : c :: rest = x at h
    cases h with
    | @choice kw body seps rest' items hk _ _ =>
      match kw, hk with
      | k :: ks, hk =>
        simp only [List.cons_append, List.cons.injEq] at hx
        obtain ⟨rfl, -⟩ := hx
        rcases hk.1 with h | ⟨h, -, -⟩ | ⟨h, -⟩
        · subst h; revert hc; decide
        · rcases hc with rfl | rfl <;> revert h <;> decide
        · revert h; decide
    | «calc» hk _ =>
      simp only [List.cons_append, List.cons.injEq] at hx
      obtain ⟨rfl, -⟩ := hx
      rcases hk with rfl | rfl <;> revert hc <;> decide
    | _ => simp [Node.isRollCommand] at hn

/-- A successful basic command has an outcome. -/
theorem executeBasicCommand_ok_text {σ : Type} {F : DieFeeder σ} {g c : Str} {f f' : σ} {r : Result} :
    executeBasicCommand F g c f = (.ok r, f') ↔
      ∃ node ds, CommandText c node ∧ Outcome 10000 g node ds r ∧ Draws F f ds f' := by
  have hl : loopCount (newEvaluator F).maxRerolls = 10000 := by
    show loopCount 10000 = 10000
    decide
  unfold executeBasicCommand runFresh
  constructor
  · intro h
    cases hp : parse c with
    | none => rw [hp] at h; simp at h
    | some node =>
      rw [hp] at h
      simp only [Prod.mk.injEq] at h
      obtain ⟨ds, ho, hd, -⟩ := (execute_ok_iff (newEvaluator F) g node f _ r).mp
        (Prod.ext h.1 rfl)
      rw [hl] at ho
      rw [h.2] at hd
      exact ⟨node, ds, (parse_iff c node).mp hp, ho, hd⟩
  · rintro ⟨node, ds, hp, ho, hd⟩
    rw [(parse_iff c node).mpr hp]
    rw [← hl] at ho
    have := (execute_ok_iff (newEvaluator F) g node f ⟨f', ds⟩ r).mpr ⟨ds, ho, hd, rfl⟩
    simp only [this]

/-- **C26.**  `ExecuteCommand`, whatever the feeder: the first part of the message of a successful
roll, without its parentheses, is a command which, given the dice of the rolls proper in a queue,
produces the same message and verdict and uses up the queue. -/
theorem C26_command {σ : Type} (F : DieFeeder σ) (usage input : Str) (f f' : σ) (r : Result)
    (h : executeCommand F (basicBot usage) input f = (.ok r, f'))
    (hf : ∀ node, (CommandText (checkSecret input).1 node ∨
      CommandText (firstPart (checkSecret input).1) node) → node.Faithful 10000)
    (hr : r.rolledDice ≠ []) :
    ∃ shown rest rs, r.parts = (chars!"(" ++ shown ++ chars!")") :: rest ∧ rs <:+ r.rolledDice ∧
      executeCommand queueFeeder (basicBot usage) shown rs =
        (.ok { r with rolledDice := rs, isSecret := false }, []) := by
  have key : ∀ c f1 r1 f2, (c = (checkSecret input).1 ∨ c = firstPart (checkSecret input).1) →
      executeBasicCommand F chars!"DiceBot" c f1 = (.ok r1, f2) →
      r = r1.withSecret (checkSecret input).2 →
      ∃ shown rest rs, r.parts = (chars!"(" ++ shown ++ chars!")") :: rest ∧
        rs <:+ r.rolledDice ∧ executeCommand queueFeeder (basicBot usage) shown rs =
        (.ok { r with rolledDice := rs, isSecret := false }, []) := by
    rintro c f1 r1 f2 hc hx rfl
    obtain ⟨node, ds, ht, ho, hd⟩ := executeBasicCommand_ok_text.mp hx
    have hfn : node.Faithful 10000 := by
      rcases hc with rfl | rfl
      · exact hf node (.inl ht)
      · exact hf node (.inr ht)
    obtain ⟨shown, rest, node', rs, h1, h2, h3, h4⟩ := C26_redisplay ht hfn ho hr
    have hds : ds = r1.rolledDice := by
      rcases ho.accounting with h | ⟨h, -⟩
      · exact h.symm
      · exact absurd h hr
    refine ⟨shown, rest, rs, h1, hds ▸ h3, ?_⟩
    rw [executeCommand_basic, checkSecret_plain h2.not_secret]
    simp only [executeBasicCommand_ok_text.mpr ⟨node', rs, h2, h4, draws_queue.mpr (List.append_nil rs).symm⟩]
    rfl
  rw [executeCommand_basic] at h
  split at h
  · rename_i r1 f2 hx
    simp only [Prod.mk.injEq, Out.ok.injEq] at h
    exact key _ _ _ _ (.inl rfl) hx h.1.symm
  · simp at h
  · rename_i f2 hx
    generalize hy : executeBasicCommand F chars!"DiceBot" (firstPart (checkSecret input).1) f2 = y at h
    obtain ⟨o, f3⟩ := y
    cases o with
    | ok r1 =>
      simp only [Out.map, Prod.mk.injEq, Out.ok.injEq] at h
      exact key _ _ _ _ (.inr rfl) hy h.1.symm
    | err m => simp [Out.map] at h
    | panic m => simp [Out.map] at h

-- non-vacuity: a secret command with a random operand, products, a comparison and a comment
example : (executeCommand queueFeeder (basicBot []) chars!"S[1...3]D6+2*(3-1)>=5 hit?"
    [⟨2, 3⟩, ⟨4, 6⟩, ⟨5, 6⟩]).1 = .ok
      { gameID := chars!"DiceBot",
        parts := [chars!"(2D6+2*(3-1)>=5)", chars!"9[4,5]+2*(3-1)", chars!"13", chars!"成功"],
        rolledDice := [⟨2, 3⟩, ⟨4, 6⟩, ⟨5, 6⟩], success := .success, isSecret := true } := by
  decide

example : Node.Faithful 10000 (.dRollComp (.bin .add (.var .d (.var .rand (.int 1) (.int 3)) (.int 6))
    (.bin .mul (.int 2) (.bin .sub (.int 3) (.int 1)))) .ge (.int 5)) :=
  ⟨⟨⟨⟨trivial, trivial⟩, trivial⟩, trivial, ⟨trivial, trivial⟩, trivial⟩,
    fun _ _ h => by cases h; decide⟩

/-- **C26 for calculations.**  The first part of the message of a calculation is a calculation with
the same result. -/
theorem C26_calc {σ : Type} (F : DieFeeder σ) (g c : Str) (f f' : σ) (r : Result) (e : Expr)
    (ht : CommandText c (.calc e)) (hs : e.mulSafe)
    (h : executeBasicCommand F g c f = (.ok r, f')) :
    ∃ shown rest, r.parts = shown :: rest ∧ executeBasicCommand F g shown f = (.ok r, f') := by
  obtain ⟨node, ds, ht', ho, hd⟩ := executeBasicCommand_ok_text.mp h
  obtain rfl : .calc e = node := C27_unambiguous _ _ _ ht ht'
  cases ho with
  | @«calc» _ _ v he =>
    cases ht with
    | @«calc» s rest _ x hc hder =>
      refine ⟨calcNotation e, _, rfl, ?_⟩
      refine executeBasicCommand_ok_text.mpr ⟨.calc e.norm, ds, ?_, ?_, hd⟩
      · have := CommandText.calc (c := 'C') (rest := []) (.inl rfl)
          (der_notation true hder.shape)
        simpa [calcNotation] using this
      · have := Outcome.calc (limit := 10000) (gameID := g) ((ev_norm hs ds v).mpr he)
        simpa [calcNotation, infixNotation_norm] using this

/-- **C26, the exception.**  `C(2*(3/2))` is 2 but is displayed as `C(2*3/2)`, which is 3; and
`1D6*(3/2)` is displayed as `1D6*3/2`. -/
theorem C26_refuted :
    (∃ r, executeCommand queueFeeder (basicBot []) chars!"C(2*(3/2))" [] = (.ok r, []) ∧
      r.parts = [chars!"C(2*3/2)", chars!"計算結果", chars!"2"]) ∧
    (∃ r, executeCommand queueFeeder (basicBot []) chars!"C(2*3/2)" [] = (.ok r, []) ∧
      r.parts = [chars!"C(2*3/2)", chars!"計算結果", chars!"3"]) ∧
    (∃ r, executeCommand queueFeeder (basicBot []) chars!"1D6*(3/2)" [⟨5, 6⟩] = (.ok r, []) ∧
      r.parts = [chars!"(1D6*3/2)", chars!"5[5]*3/2", chars!"5"]) ∧
    (∃ r, executeCommand queueFeeder (basicBot []) chars!"1D6*3/2" [⟨5, 6⟩] = (.ok r, []) ∧
      r.parts = [chars!"(1D6*3/2)", chars!"5[5]*3/2", chars!"7"]) := by
  refine ⟨⟨_, rfl, ?_⟩, ⟨_, rfl, ?_⟩, ⟨_, rfl, ?_⟩, ⟨_, rfl, ?_⟩⟩ <;> decide

end GoBCDice
