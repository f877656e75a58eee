import Verif.Lemmas.PigeonCost
import Verif.Props.Pigeon
import Verif.Props.Sim
import Verif.Props.ReplOutput

/-!
# The generated parser: it always returns (C66), but not always soon (C67)
-/

namespace GoBCDice

open Pigeon (Sym Pos Val)

namespace Pigeon

/-- Rules that may match nothing. -/
def goNull (name : Str) : Bool :=
  [chars!"ResetRandCount", chars!"IncRandCount", chars!"EOT"].contains name

/-- Ranks of the rules: a rule is above those it may call before reading anything. -/
def goRanks : List (Str × Nat) :=
  [(chars!"Command", 9), (chars!"CommandWithExpression", 8), (chars!"ChoiceItems", 2), (chars!"ChoiceItem", 1),
   (chars!"DRollExprCommand", 7), (chars!"DRollCompCommand", 7), (chars!"BRollList", 3),
   (chars!"BRollComp", 4), (chars!"RRollList", 3), (chars!"RRollComp", 4), (chars!"URollComp", 5),
   (chars!"URollExpr", 4), (chars!"URollList", 3), (chars!"IntExpr", 4), (chars!"IntExprAdditive", 3),
   (chars!"IntExprMultitive", 2), (chars!"IntExprPrimary", 1), (chars!"DRollComp", 6), (chars!"DRollExpr", 6),
   (chars!"DRollExprAdditive", 5), (chars!"DRollExprMultitive", 4), (chars!"DRollExprPrimary", 3),
   (chars!"IntRandExpr", 4), (chars!"IntRandExprAdditive", 3), (chars!"IntRandExprMultitive", 2),
   (chars!"IntRandExprPrimary", 1), (chars!"DRoll", 2), (chars!"BRoll", 2), (chars!"RRoll", 2),
   (chars!"URoll", 2), (chars!"RollOperand", 1), (chars!"RandomNumberOperand", 1)]

/-- The rank of a rule. -/
def goRank (name : Str) : Nat := (goRanks.lookup name).getD 0

theorem goRank_lt (name : Str) : goRank name < 10 := by
  unfold goRank
  cases h : goRanks.lookup name with
  | none => decide
  | some k =>
    have hm := lookup_mem h
    have : ∀ p ∈ goRanks, p.2 < 10 := by decide
    exact this _ hm

set_option maxRecDepth 20000 in
theorem goGrammar_analysed_with (filename : Str) (a : Bool) :
    Analysed ⟨filename, goGrammar, a⟩ goNull goRank 16 10 := by
  have hall : ∀ r ∈ goGrammar, (goNull r.1 = true ∨ nullE goNull r.2 = false) ∧ loopsOk goNull r.2 = true ∧
      headsLt goNull goRank (goRank r.1) r.2 = true ∧ sizeE r.2 ≤ 16 := by
    have : (goGrammar.all fun r => (goNull r.1 || !nullE goNull r.2) && loopsOk goNull r.2 &&
        headsLt goNull goRank (goRank r.1) r.2 && decide (sizeE r.2 ≤ 16)) = true := by decide
    intro r hr
    have := List.all_eq_true.1 this r hr
    simp only [Bool.and_eq_true, Bool.or_eq_true, Bool.not_eq_true', decide_eq_true_eq] at this
    exact ⟨this.1.1.1, this.1.1.2, this.1.2, this.2⟩
  refine ⟨goGrammar_clean, ?_, ?_, ?_, ?_, goRank_lt⟩
  · intro name e hl hn
    rcases (hall _ (lookup_mem hl)).1 with h | h
    · rw [hn] at h; cases h
    · exact h
  · exact fun name e hl => (hall _ (lookup_mem hl)).2.1
  · exact fun name e hl => (hall _ (lookup_mem hl)).2.2.1
  · exact fun name e hl => (hall _ (lookup_mem hl)).2.2.2

theorem goGrammar_analysed (filename : Str) : Analysed ⟨filename, goGrammar, false⟩ goNull goRank 16 10 :=
  goGrammar_analysed_with filename false

theorem run_command_total (filename : Str) (data : List Sym) :
    run ⟨filename, goGrammar, false⟩ (parseDepth data) (.expr (.ruleRef chars!"Command"))
      (initState ⟨filename, goGrammar, false⟩ data) ≠ none := by
  refine run_total (goGrammar_analysed filename) _ _ _ 10 (Nat.le_refl _) rfl rfl (by decide) ?_
  have : (initState ⟨filename, goGrammar, false⟩ data).left = data.length := by
    unfold PState.left
    rw [(initState_fields data).1]
  rw [this]
  simp only [sizeT, sizeE]
  unfold parseDepth
  omega

end Pigeon

/-! ### C66 -/

/-- **C66.** `Parse` returns on all data, valid or not; the depth of its calls is at most linear in
the length. -/
theorem C66_returns (filename : Str) (data : List Sym) :
    (∃ r, Parses filename data r) ∧
    Pigeon.parseFuel ⟨filename, Pigeon.goGrammar, false⟩ (171 * (data.length + 1)) data ≠ none := by
  have h : Pigeon.parseFuel ⟨filename, Pigeon.goGrammar, false⟩ (171 * (data.length + 1)) data ≠ none := by
    have := Pigeon.run_command_total filename data
    unfold parseDepth at this
    show (Pigeon.run ⟨filename, Pigeon.goGrammar, false⟩ (171 * (data.length + 1)) _ _).map _ ≠ none
    intro hc
    exact this (Option.map_eq_none_iff.1 hc)
  refine ⟨?_, h⟩
  cases hp : Pigeon.parseFuel ⟨filename, Pigeon.goGrammar, false⟩ (171 * (data.length + 1)) data with
  | none => exact absurd hp h
  | some r => exact ⟨r, _, hp⟩

/-- What `Parse` returns is unique. -/
theorem Parses.unique {filename : Str} {data : List Sym} {r r' : Except Str Val}
    (h : Parses filename data r) (h' : Parses filename data r') : r = r' := by
  obtain ⟨n, hn⟩ := h
  obtain ⟨m, hm⟩ := h'
  have conv : ∀ {k x}, Pigeon.parseFuel ⟨filename, Pigeon.goGrammar, false⟩ k data = some x →
      ∃ y, Pigeon.Runs ⟨filename, Pigeon.goGrammar, false⟩ (.expr (.ruleRef chars!"Command"))
        (Pigeon.initState ⟨filename, Pigeon.goGrammar, false⟩ data) y ∧
        Pigeon.finish ⟨filename, Pigeon.goGrammar, false⟩ y = x := by
    intro k x hx
    have hx' : (Pigeon.run ⟨filename, Pigeon.goGrammar, false⟩ k (.expr (.ruleRef chars!"Command"))
      (Pigeon.initState ⟨filename, Pigeon.goGrammar, false⟩ data)).map (Pigeon.finish _) = some x := hx
    obtain ⟨y, h1, h2⟩ := Option.map_eq_some_iff.1 hx'
    exact ⟨y, ⟨k, h1⟩, h2⟩
  obtain ⟨y, h1, h2⟩ := conv hn
  obtain ⟨y', h1', h2'⟩ := conv hm
  rw [← h2, ← h2', h1.unique h1']

theorem goParse_iff (filename : Str) (data : List Sym) (r : Except Str Val) :
    Parses filename data r ↔ goParse filename data = r := by
  have h := (C66_returns filename data).2
  cases hp : Pigeon.parseFuel ⟨filename, Pigeon.goGrammar, false⟩ (171 * (data.length + 1)) data with
  | none => exact absurd hp h
  | some x =>
    have hx : Parses filename data x := ⟨_, hp⟩
    have hg : goParse filename data = x := by
      unfold goParse parseDepth
      rw [hp]; rfl
    rw [hg]
    exact ⟨fun hr => hx.unique hr, fun hr => hr ▸ hx⟩

/-- The text of the error, if there is one. -/
theorem parses_error (filename s : Str) (h : parse s = none) :
    Parses filename (utf8 s) (.error (parseErrorText filename s)) := by
  obtain ⟨r, hr⟩ := (C66_returns filename (utf8 s)).1
  have hg : goParse filename (s.map Sym.ofChar) = r := (goParse_iff _ _ _).1 hr
  unfold parseErrorText
  rw [hg]
  cases r with
  | error m => exact hr
  | ok v =>
    exfalso
    obtain ⟨node, hn⟩ := C64_sound filename (utf8 s) (Pigeon.decoded_utf8 s) v hr
    have := (C64_rule_functions filename s node).1 ⟨v, hr, hn.1⟩
    rw [h] at this
    cases this

/-- **C66.** What a basic command returns: the error of `Parse` with its text, or what executing the
tree `Parse` returns gives. -/
theorem C66_execute {σ : Type} (F : DieFeeder σ) (gameID c : Str) (f : σ) :
    (∀ m, Parses chars!"input" (utf8 c) (.error m) → executeBasicCommand F gameID c f = (.err m, f)) ∧
    (∀ v node, Parses chars!"input" (utf8 c) (.ok v) → v.toNode = some node →
      executeBasicCommand F gameID c f = runFresh ((newEvaluator F).execute gameID node) f) := by
  constructor
  · intro m hm
    have hp : parse c = none := by
      cases h : parse c with
      | none => rfl
      | some node =>
        obtain ⟨v, hv, -⟩ := (C64_rule_functions chars!"input" c node).2 h
        cases hv.unique hm
    have := (parses_error chars!"input" c hp).unique hm
    simp only [executeBasicCommand, hp]
    cases this
    rfl
  · intro v node hv hn
    have hp : parse c = some node := (C64_rule_functions chars!"input" c node).1 ⟨v, hv, hn⟩
    simp only [executeBasicCommand, hp]

/-- **C66.** If neither the text (without a secret marker) nor its first word is a command, the error
of `ExecuteCommand` is the error of `Parse` on the first word: a D command without a random element,
or no match, with a position in the first word. -/
theorem C66_malformed {σ : Type} (F : DieFeeder σ) (usage input : Str) (f : σ)
    (h1 : ∀ node, ¬ CommandText (checkSecret input).1 node)
    (h2 : ∀ node, ¬ CommandText (firstPart (checkSecret input).1) node) :
    ∃ m, executeCommand F (basicBot usage) input f = (.err m, f) ∧
      Parses chars!"input" (utf8 (firstPart (checkSecret input).1)) (.error m) ∧
      ((∃ rule, (rule = chars!"DRollExprCommand" ∨ rule = chars!"DRollCompCommand") ∧
        m = located chars!"input" (posAt (utf8 (firstPart (checkSecret input).1)) 0) (some rule)
          chars!"random element not found") ∨
       (∃ pos expected, m = located chars!"input" pos none
          (chars!"no match found, expected: " ++ expected) ∧
        (pos = ⟨1, 1, 0⟩ ∨ ∃ k, k ≤ (firstPart (checkSecret input).1).length ∧
          pos = posAt (utf8 (firstPart (checkSecret input).1)) k))) := by
  have none_of : ∀ s, (∀ node, ¬ CommandText s node) → parse s = none := by
    intro s hs
    cases h : parse s with
    | none => rfl
    | some node => exact absurd ((parse_iff _ _).mp h) (hs node)
  have p1 := none_of _ h1
  have p2 := none_of _ h2
  have he := parses_error chars!"input" _ p2
  refine ⟨_, ?_, he, C65_kinds _ _ _ he⟩
  simp [executeCommand, executeDiceBotCommand, runFresh, basicBot, M.fail, executeBasicCommand, p1, p2]

-- non-vacuity: the hypotheses hold and the message is as computed
set_option maxRecDepth 20000 in
example : parse chars!"hello world" = none ∧ parse (firstPart chars!"hello world") = none ∧
    parse chars!"2d6+ x" = none ∧ parse (firstPart chars!"2d6+ x") = none := by decide

set_option maxRecDepth 20000 in
example : (executeCommand queueFeeder (basicBot []) chars!"S2d6+ x" []) = (.err
    chars!"input:1:5 (4): no match found, expected: \"(\", \"+\", \"-\", \"[\" or [0-9]", []) := by
  have h1 : parse chars!"2d6+ x" = none := by decide
  have h2 : parse chars!"2d6+" = none := by decide
  obtain ⟨m, h, hm, -⟩ := C66_malformed queueFeeder [] chars!"S2d6+ x" []
    (fun node hn => by rw [← parse_iff] at hn; exact absurd (hn.symm.trans h1) (by simp))
    (fun node hn => by rw [← parse_iff] at hn; exact absurd (hn.symm.trans h2) (by simp))
  have hm' : Parses chars!"input" (utf8 chars!"2d6+") (.error
      chars!"input:1:5 (4): no match found, expected: \"(\", \"+\", \"-\", \"[\" or [0-9]") :=
    ⟨120, Pigeon.of_errorOf (by decide +kernel)⟩
  have : (Except.error m : Except Str Val) = .error _ := Parses.unique hm hm'
  cases this
  exact h

/-- **C66.** `.ast` with a text that is no command prints the error of `Parse` in red. -/
theorem C66_ast {ρ : Type} (env : ReplEnv ρ) (r : ReplState ρ) (ev : ReadEvent ρ) (hok : ev.Ok)
    (args : Str) (hne : args ≠ []) (ha : Asks ev (.command .ast args)) (m : Str)
    (hm : Parses chars!"REPL" (utf8 (checkSecret args).1) (.error m)) :
    replStep env r ev = (.running, { r with out := r.out ++ chars!"\x1b[31m" ++ m ++ chars!"\x1b[0m\n" }) := by
  rw [step_perform env r ev hok.1 ha]
  have hp : parse (checkSecret args).1 = none := by
    cases h : parse (checkSecret args).1 with
    | none => rfl
    | some node =>
      obtain ⟨v, hv, -⟩ := (C64_rule_functions chars!"REPL" _ node).2 h
      cases hv.unique hm
  have : (Except.error (parseErrorText chars!"REPL" (checkSecret args).1) : Except Str Val) = .error m :=
    (parses_error chars!"REPL" _ hp).unique hm
  cases this
  simp [perform, runHandler, cmd_handler, replAst, hne, hp, ReplState.printError, ReplState.println,
    ReplState.print, statusOf, escRed, escReset]

/-! ### C67 -/

theorem nested_length : ∀ n, (nested n).length = 4 * n + 1
  | 0 => rfl
  | n + 1 => by simp [nested, nested_length n]; omega

/-- **C67.** Parsing time is not polynomial: there are commands of length 4n+4, which the parser
accepts, on which `Parse` calls its expression matcher at least 2ⁿ times. -/
theorem C67_exponential (filename : Str) (n : Nat) :
    (nestedCalc n).length = 4 * n + 4 ∧
    (∃ e, CommandText (nestedCalc n) (.calc e)) ∧
    2 ^ n ≤ parseExprCalls filename (utf8 (nestedCalc n)) := by
  refine ⟨?_, ?_, ?_⟩
  · simp [nestedCalc, nested_length]
  · obtain ⟨e, he, -⟩ := Pigeon.nested_der n
    have := CommandText.calc (c := 'c') (rest := []) (.inr rfl) he
    rw [List.append_nil] at this
    exact ⟨e, this⟩
  · have ht := Pigeon.run_command_total filename (utf8 (nestedCalc n))
    unfold parseExprCalls
    cases hrun : Pigeon.run ⟨filename, Pigeon.goGrammar, false⟩ (parseDepth (utf8 (nestedCalc n)))
        (.expr (.ruleRef chars!"Command")) (Pigeon.initState ⟨filename, Pigeon.goGrammar, false⟩ (utf8 (nestedCalc n))) with
    | none => exact absurd hrun ht
    | some r =>
      have := Pigeon.cost_command (env := ⟨filename, Pigeon.goGrammar, false⟩) rfl n r ⟨_, hrun⟩
      cases r with
      | ret v ok st =>
        have h' : 2 ^ n + 1 ≤ st.exprCnt := this
        dsimp only; omega
      | panic m st =>
        have h' : 2 ^ n + 1 ≤ st.exprCnt := this
        dsimp only; omega

-- a concrete case: 12 bytes, at least 4 calls (there are many more)
set_option maxRecDepth 20000 in
example : nestedCalc 2 = chars!"c(1/(1/(1)))" ∧
    parseExprCalls [] (utf8 (nestedCalc 2)) > 100 := by decide +kernel

end GoBCDice
