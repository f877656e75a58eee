import Verif.Props.Parser
import Verif.Props.Commands
import Verif.BCDice

/-!
# Properties of `BCDice.ExecuteCommand` (C23, C25, C33, C34, C53)
-/

namespace GoBCDice
variable {σ : Type}

/-! ### C25 -/

/-- **C25.** If neither the text (without a secret marker) nor its first word is a command, the
result is an error and the feeder is untouched. -/
theorem C25_malformed (F : DieFeeder σ) (usage input : Str) (f : σ)
    (h1 : ∀ node, ¬ CommandText (checkSecret input).1 node)
    (h2 : ∀ node, ¬ CommandText (firstPart (checkSecret input).1) node) :
    ∃ msg, executeCommand F (basicBot usage) input f = (.err msg, f) := by
  have p1 : parse (checkSecret input).1 = none := by
    cases h : parse (checkSecret input).1 with
    | none => rfl
    | some node => exact absurd ((parse_iff _ _).mp h) (h1 node)
  have p2 : parse (firstPart (checkSecret input).1) = none := by
    cases h : parse (firstPart (checkSecret input).1) with
    | none => rfl
    | some node => exact absurd ((parse_iff _ _).mp h) (h2 node)
  refine ⟨parseErrorText chars!"input" (firstPart (checkSecret input).1), ?_⟩
  simp [executeCommand, executeDiceBotCommand, runFresh, basicBot, M.fail, executeBasicCommand, p1, p2]

-- non-vacuity: hello world is not a command, and neither is hello
example : parse chars!"hello world" = none ∧ parse (firstPart chars!"hello world") = none := by decide

/-! ### The basic dice bot -/

/-- With the basic dice bot, `ExecuteCommand` tries the whole text, then its first word. -/
theorem executeCommand_basic (F : DieFeeder σ) (usage input : Str) (f : σ) :
    executeCommand F (basicBot usage) input f =
      match executeBasicCommand F chars!"DiceBot" (checkSecret input).1 f with
      | (.ok r, f2) => (.ok (r.withSecret (checkSecret input).2), f2)
      | (.panic m, f2) => (.panic m, f2)
      | (.err _, f2) =>
        ((executeBasicCommand F chars!"DiceBot" (firstPart (checkSecret input).1) f2).1.map
            (fun r => r.withSecret (checkSecret input).2),
          (executeBasicCommand F chars!"DiceBot" (firstPart (checkSecret input).1) f2).2) := by
  simp only [executeCommand, executeDiceBotCommand, runFresh, basicBot, M.fail, basicInfo]
  generalize executeBasicCommand F _ (checkSecret input).1 f = x
  obtain ⟨o, f2⟩ := x
  cases o with
  | ok r => rfl
  | panic m => rfl
  | err m =>
    simp only []
    generalize executeBasicCommand F _ (firstPart (checkSecret input).1) f2 = y
    obtain ⟨o, f3⟩ := y
    cases o <;> rfl

/-! ### C33 -/

/-- The text starts with the secret marker. -/
def StartsSecret (input : Str) : Prop := ∃ c rest, input = c :: rest ∧ (c = 'S' ∨ c = 's')

theorem checkSecret_cons {c : Char} (hc : c = 'S' ∨ c = 's') (input : Str) :
    checkSecret (c :: input) = (input, true) := by
  simp only [checkSecret]; rw [if_pos hc]

theorem checkSecret_plain {input : Str} (h : ¬ StartsSecret input) :
    checkSecret input = (input, false) := by
  cases input with
  | nil => rfl
  | cons c rest =>
    simp only [checkSecret]
    rw [if_neg]
    intro hc
    exact h ⟨c, rest, rfl, hc⟩

theorem withSecret_withSecret (r : Result) (a b : Bool) : (r.withSecret a).withSecret b = r.withSecret b :=
  rfl

/-- **C33.** `S`+input does what input does — same outcome, same dice, same feeder — with
`IsSecret` set, whatever the dice bot. -/
theorem C33_secret (F : DieFeeder σ) (bot : DiceBot σ) (input : Str) (f : σ) (c : Char)
    (hc : c = 'S' ∨ c = 's') (hi : ¬ StartsSecret input) :
    executeCommand F bot (c :: input) f =
      ((executeCommand F bot input f).1.map (fun r => { r with isSecret := true }),
        (executeCommand F bot input f).2) := by
  simp only [executeCommand, checkSecret_cons hc, checkSecret_plain hi]
  split
  · rfl
  · rfl
  · split
    · rfl
    · rfl
    · split <;> rfl

/-- **C33.** The result of a successful command is secret exactly when the input starts with `S` or
`s`. -/
theorem C33_flag (F : DieFeeder σ) (bot : DiceBot σ) (input : Str) (f f' : σ) (r : Result)
    (h : executeCommand F bot input f = (.ok r, f')) : r.isSecret = true ↔ StartsSecret input := by
  have hr : r.isSecret = (checkSecret input).2 := by
    simp only [executeCommand] at h
    split at h
    · simp only [Prod.mk.injEq, Out.ok.injEq] at h; rw [← h.1]; rfl
    · simp at h
    · split at h
      · simp only [Prod.mk.injEq, Out.ok.injEq] at h; rw [← h.1]; rfl
      · simp at h
      · split at h
        · simp only [Prod.mk.injEq, Out.ok.injEq] at h; rw [← h.1]; rfl
        · simp at h
        · simp at h
  rw [hr]
  constructor
  · intro hs
    refine Classical.byContradiction fun hn => ?_
    rw [checkSecret_plain hn] at hs
    simp at hs
  · rintro ⟨c, rest, rfl, hc⟩
    rw [checkSecret_cons hc]

-- non-vacuity
example : executeCommand queueFeeder (basicBot []) chars!"S2D6" [⟨3, 6⟩, ⟨4, 6⟩, ⟨1, 2⟩] =
    (.ok { gameID := chars!"DiceBot", parts := [chars!"(2D6)", chars!"7[3,4]", chars!"7"],
           rolledDice := [⟨3, 6⟩, ⟨4, 6⟩], success := .unspecified, isSecret := true },
      [⟨1, 2⟩]) := by decide

/-! ### C34 -/

theorem firstPart_no_space {s : Str} (h : ∀ c ∈ s, isReSpace c = false) : firstPart s = s := by
  have := List.takeWhile_append_of_pos (p := fun c => !isReSpace c) (l₁ := s) (l₂ := [])
    (fun c hc => by simp [h c hc])
  simpa [firstPart] using this

/-- **C34.** The exact behaviour on a failing command: a command without white space whose evaluation
fails is evaluated a second time, from the feeder state the first attempt left, and the outcome of
the second attempt is reported. -/
theorem C34_retry (F : DieFeeder σ) (usage w : Str) (f f1 : σ) (node : Node) (msg : Str) (log : List Die)
    (hs : ¬ StartsSecret w) (hw : ∀ c ∈ w, isReSpace c = false) (hp : parse w = some node)
    (he : (newEvaluator F).execute chars!"DiceBot" node ⟨f, []⟩ = (.err msg, ⟨f1, log⟩)) :
    executeCommand F (basicBot usage) w f =
      (((newEvaluator F).execute chars!"DiceBot" node ⟨f1, []⟩).1.map (fun r => r.withSecret false),
        ((newEvaluator F).execute chars!"DiceBot" node ⟨f1, []⟩).2.feeder) := by
  rw [executeCommand_basic, checkSecret_plain hs]
  simp only [executeBasicCommand, hp, runFresh, he, firstPart_no_space hw]

/-- **C34**, the expectation refuted: a failing command can cost dice twice and its failure can be
turned into a success by the dice that follow. -/
theorem C34_refuted :
    (newEvaluator queueFeeder).execute chars!"DiceBot" (.dRollExpr (.var .d (.int 1) (.int 6)))
      ⟨[⟨3, 8⟩, ⟨4, 6⟩], []⟩ =
        (.err chars!"RollDice(num: 1, sides: 6) -> 3/8: ダイスの面数が指定と一致しません", ⟨[⟨4, 6⟩], []⟩) ∧
    executeCommand queueFeeder (basicBot []) chars!"1D6" [⟨3, 8⟩, ⟨4, 6⟩] =
      (.ok { gameID := chars!"DiceBot", parts := [chars!"(1D6)", chars!"4[4]", chars!"4"],
             rolledDice := [⟨4, 6⟩], success := .unspecified, isSecret := false }, []) ∧
    (executeCommand queueFeeder (basicBot []) chars!"1D6/0" [⟨3, 6⟩, ⟨4, 6⟩, ⟨5, 6⟩]).2 =
      [⟨5, 6⟩] := by
  decide

/-- **C34.** At most two attempts are ever made: the feeder is left either as one evaluation of the
whole text leaves it, or as one evaluation of the first word leaves it after that. -/
theorem C34_two_attempts (F : DieFeeder σ) (usage input : Str) (f : σ) :
    let cmd := (checkSecret input).1
    let f1 := (executeBasicCommand F chars!"DiceBot" cmd f).2
    (executeCommand F (basicBot usage) input f).2 =
      if (executeBasicCommand F chars!"DiceBot" cmd f).1.isErr then
        (executeBasicCommand F chars!"DiceBot" (firstPart cmd) f1).2
      else f1 := by
  simp only [executeCommand_basic]
  split <;> (rename_i h; simp [h, Out.isErr])

/-! ### C53 -/

/-- **C53.** If the whole text is not a command, its outcome is that of one evaluation of its first
word. -/
theorem C53_first_word (F : DieFeeder σ) (usage input : Str) (f : σ) (hs : ¬ StartsSecret input)
    (hp : parse input = none) :
    executeCommand F (basicBot usage) input f =
      ((executeBasicCommand F chars!"DiceBot" (firstPart input) f).1.map (fun r => r.withSecret false),
        (executeBasicCommand F chars!"DiceBot" (firstPart input) f).2) := by
  rw [executeCommand_basic, checkSecret_plain hs]
  have : executeBasicCommand F chars!"DiceBot" input f = (.err (parseErrorText chars!"input" input), f) := by
    simp [executeBasicCommand, hp]
  rw [this]

theorem rollChars_no_space {c : Char} (h : c ∈ rollChars) : isReSpace c = false := by
  revert h
  have : ∀ c ∈ rollChars, isReSpace c = false := by decide
  exact this c

theorem rollChars_not_secret {s : Str} (h : ∀ c ∈ s, c ∈ rollChars) : ¬ StartsSecret s := by
  rintro ⟨c, rest, rfl, hc⟩
  have := h c (by simp)
  rcases hc with rfl | rfl <;> revert this <;> decide

theorem withSecret_self {σ : Type} {g : Str} {node : Node} {E : Evaluator σ} {s s' : St σ} {r : Result}
    (h : E.execute g node s = (.ok r, s')) (hs : s.log = []) : r.withSecret false = r := by
  obtain ⟨f, log⟩ := s
  simp only at hs; subst hs
  obtain ⟨ds, ho, -, -⟩ := (execute_ok_iff E g node f s' r).mp h
  cases ho <;> rfl

/-- **C53.** A comment after a roll command is ignored: the command is evaluated (once), whatever
follows the white space. -/
theorem C53_comment (F : DieFeeder σ) (usage w rest : Str) (x : Char) (f : σ) (node : Node)
    (hp : parse w = some node) (hn : node.isRollCommand = true) (hx : isReSpace x = true) :
    executeCommand F (basicBot usage) (w ++ x :: rest) f =
      (((newEvaluator F).execute chars!"DiceBot" node ⟨f, []⟩).1,
        ((newEvaluator F).execute chars!"DiceBot" node ⟨f, []⟩).2.feeder) := by
  have hc := C32_roll_chars w node hn hp
  have hne : w ≠ [] := by
    rintro rfl
    have : parse [] = none := by decide
    rw [this] at hp
    simp at hp
  have hst : ∃ c w', w = c :: w' := by
    cases w with
    | nil => exact absurd rfl hne
    | cons c w' => exact ⟨c, w', rfl⟩
  obtain ⟨c0, w', hw'⟩ := hst
  have hns : ¬ StartsSecret (w ++ x :: rest) := by
    rintro ⟨c, r, h1, h2⟩
    rw [hw'] at h1
    simp only [List.cons_append, List.cons.injEq] at h1
    exact rollChars_not_secret hc ⟨c0, w', hw', by rw [h1.1]; exact h2⟩
  have hfp : firstPart (w ++ x :: rest) = w := by
    unfold firstPart
    rw [List.takeWhile_append_of_pos (fun c h => by simp [rollChars_no_space (hc c h)])]
    simp [hx]
  have hnone : parse (w ++ x :: rest) = none := by
    cases h : parse (w ++ x :: rest) with
    | none => rfl
    | some node' =>
      cases hr : node'.isRollCommand with
      | true =>
        have := C32_roll_chars _ _ hr h x (by simp)
        rw [rollChars_no_space this] at hx
        exact absurd hx (by simp)
      | false =>
        exfalso
        have hcc : ¬ ('C' ∈ rollChars ∨ 'c' ∈ rollChars) := by decide
        have h0 : c0 ∈ rollChars := hc c0 (by simp [hw'])
        rw [hw', List.cons_append] at h
        have h' := (parse_iff _ _).mp h
        generalize hs : c0 :: (w' ++ x :: rest) = s at h'
        cases h' with
        | @choice kw body seps rest' items hkw =>
          cases kw with
          | nil => exact hkw.elim
          | cons y kw =>
            simp only [List.cons_append, List.cons.injEq] at hs
            obtain ⟨rfl, -⟩ := hs
            have hl : SameLetter 'c' c0 := hkw.1
            rw [← toLowerRune_sameLetter _ _ (by decide) (by decide) (by decide), toLowerRune_c] at hl
            rcases hl with rfl | rfl
            · exact hcc (.inl h0)
            · exact hcc (.inr h0)
        | «calc» hcl =>
          simp only [List.cons_append, List.cons.injEq] at hs
          obtain ⟨rfl, -⟩ := hs
          rcases hcl with rfl | rfl
          · exact hcc (.inl h0)
          · exact hcc (.inr h0)
        | _ => simp [Node.isRollCommand] at hr
  rw [C53_first_word F usage _ f hns hnone, hfp]
  simp only [executeBasicCommand, hp, runFresh]
  cases ho : (newEvaluator F).execute chars!"DiceBot" node ⟨f, []⟩ with
  | mk o s' =>
    cases o with
    | ok r => simp only [Out.map, withSecret_self ho rfl]
    | err => rfl
    | panic => rfl

-- non-vacuity
example : executeCommand queueFeeder (basicBot []) chars!"1D6 attack the troll [2D6]" [⟨3, 6⟩] =
    (.ok { gameID := chars!"DiceBot", parts := [chars!"(1D6)", chars!"3[3]", chars!"3"],
           rolledDice := [⟨3, 6⟩], success := .unspecified, isSecret := false }, []) := by decide

/-! ### C23 -/

/-- Evaluation of an expression without random elements is a constant. -/
theorem eval_const (e : Expr) (h : e.rands = 0) :
    ∃ o : Out Int64, o.isPanic = false ∧ ∀ {σ : Type} (E : Evaluator σ) (s : St σ), E.eval e s = (o, s) := by
  induction e with
  | int v => exact ⟨.ok v, rfl, fun _ _ => rfl⟩
  | sumRoll ds => exact ⟨.ok (sumDice ds), rfl, fun _ _ => rfl⟩
  | neg r ih =>
    obtain ⟨o, h1, h2⟩ := ih h
    refine ⟨o.map (-·), by cases o <;> simp_all [Out.map, Out.isPanic], fun E s => ?_⟩
    show M.bnd (E.eval r) _ s = _
    unfold M.bnd
    rw [h2]
    cases o <;> rfl
  | bin op l r ihl ihr =>
    simp only [Expr.rands] at h
    obtain ⟨o1, h1, h2⟩ := ihl (by omega)
    obtain ⟨o2, h3, h4⟩ := ihr (by omega)
    refine ⟨match o1 with
      | .ok a => o2.map (fun b => op.apply a b)
      | .err m => .err m
      | .panic m => .panic m, ?_, fun E s => ?_⟩
    · cases o1
      · cases o2 <;> simp_all [Out.map, Out.isPanic]
      · rfl
      · simp [Out.isPanic] at h1
    · show M.bnd (E.eval l) (fun a => M.bnd (E.eval r) _) s = _
      unfold M.bnd
      rw [h2]
      cases o1
      · simp only [h4]; cases o2 <;> rfl
      · rfl
      · rfl
  | div m l r ihl ihr =>
    simp only [Expr.rands] at h
    obtain ⟨o1, h1, h2⟩ := ihl (by omega)
    obtain ⟨o2, h3, h4⟩ := ihr (by omega)
    refine ⟨match o1 with
      | .ok a => match o2 with
        | .ok b => if b = 0 then .err (intStr a ++ chars!" divided by zero") else .ok (divValue m a b)
        | .err m => .err m
        | .panic m => .panic m
      | .err m => .err m
      | .panic m => .panic m, ?_, fun E s => ?_⟩
    · cases o1
      · cases o2
        · simp only; split <;> rfl
        · rfl
        · simp [Out.isPanic] at h3
      · rfl
      · simp [Out.isPanic] at h1
    · show M.bnd (E.eval l) (fun a => M.bnd (E.eval r) (fun b => Evaluator.evalIntegerDivide m a b)) s = _
      unfold M.bnd
      rw [h2]
      cases o1
      · simp only [h4]
        cases o2
        · simp only [Evaluator.evalIntegerDivide]
          split <;> rfl
        · rfl
        · rfl
      · rfl
      · rfl
  | var => simp [Expr.rands] at h

/-- **C23.** Executing a text that starts with a Calc command gives a fixed outcome, whatever the
feeder; it never panics, leaves the feeder unchanged and reports no dice. -/
theorem C23_calc_pure (usage input : Str) (e : Expr)
    (hp : parse (checkSecret input).1 = some (.calc e)) :
    ∃ o : Out Result, o.isPanic = false ∧ (∀ r, o = .ok r → r.rolledDice = []) ∧
      ∀ {σ : Type} (F : DieFeeder σ) (f : σ), executeCommand F (basicBot usage) input f = (o, f) := by
  have hr : e.rands = 0 := by
    have := (parse_iff _ _).mp hp
    generalize (checkSecret input).1 = s at this
    cases this with
    | «calc» _ h => exact h.int_rands (by simp)
  obtain ⟨o, h1, h2⟩ := eval_const e hr
  have hfp : parse (firstPart (checkSecret input).1) = some (.calc e) := by
    have := (parse_iff _ _).mp hp
    generalize (checkSecret input).1 = s at this
    cases this with
    | @«calc» t rest _ c hc ht =>
      have e0 : firstPart ([c] ++ chars!"(" ++ t ++ chars!")" ++ rest) =
          [c] ++ chars!"(" ++ t ++ chars!")" ++ firstPart rest := by
        unfold firstPart
        rw [List.takeWhile_append_of_pos]
        intro x hx
        have hx' : x = c ∨ x = '(' ∨ x ∈ t ∨ x = ')' := by simpa [or_assoc] using hx
        rcases hx' with rfl | rfl | h | rfl
        · rcases hc with rfl | rfl <;> decide
        · decide
        · simp [rollChars_no_space (ht.chars x h)]
        · decide
      rw [e0, parse_iff]
      exact .calc hc ht
  refine ⟨(o.map (fun v => mkResult chars!"DiceBot" [calcNotation e, chars!"計算結果", intStr v] [])).map
      (fun r => r.withSecret (checkSecret input).2), ?_, ?_, ?_⟩
  · cases o <;> simp_all [Out.map, Out.isPanic]
  · intro r hr
    cases o <;> simp [Out.map] at hr
    rw [← hr]; rfl
  · intro σ F f
    have hb : ∀ c, parse c = some (.calc e) → executeBasicCommand F chars!"DiceBot" c f =
        (o.map (fun v => mkResult chars!"DiceBot" [calcNotation e, chars!"計算結果", intStr v] []), f) := by
      intro c hc
      simp only [executeBasicCommand, hc, runFresh, Evaluator.execute, Evaluator.executeCalc]
      have hx : ((do
          let v ← (newEvaluator F).eval e
          pure (mkResult chars!"DiceBot" [calcNotation e, chars!"計算結果", intStr v] []) :
            M σ Result)) ⟨f, []⟩ =
          (o.map (fun v => mkResult chars!"DiceBot" [calcNotation e, chars!"計算結果", intStr v] []),
            ⟨f, []⟩) := by
        show M.bnd ((newEvaluator F).eval e) _ _ = _
        unfold M.bnd
        rw [h2]
        cases o <;> rfl
      rw [hx]
    rw [executeCommand_basic, hb _ hp]
    cases o with
    | ok v => rfl
    | err m => simp only [Out.map, hb _ hfp]
    | panic m => rfl

-- non-vacuity: a successful calculation and a failing one
example : parse chars!"C((7+3)/4U) rest" = some (.calc (.div .up (.bin .add (.int 7) (.int 3)) (.int 4))) := by
  decide
example : (executeCommand queueFeeder (basicBot []) chars!"C(1/0)" [⟨1, 6⟩]) =
    (.err chars!"1 divided by zero", [⟨1, 6⟩]) := by decide

end GoBCDice
