import Verif.Props.Session
import Verif.Props.BotMem
import Verif.Props.Display

/-!
# Properties of texts as typed, stated with `Marked` and `FirstWord`

The theorems C23, C24, C25, C26, C34, C53, C66 and C104 name the functions of the model that take the mark of a secret roll
off a text and cut its first word. Here they are stated with the relations of `Spec/Answer` instead.
-/

namespace GoBCDice

variable {σ : Type}

/-- **C23.** A text that is a calculation, marked as secret or not. -/
theorem C23_typed (usage : Str) {input body : Str} {secret : Bool} (e : Expr) (hm : Marked input body secret)
    (h : CommandText body (.calc e)) :
    ∃ o : Out Result, o.isPanic = false ∧ (∀ r, o = .ok r → r.rolledDice = []) ∧
      ∀ {σ : Type} (F : DieFeeder σ) (f : σ), executeCommand F (basicBot usage) input f = (o, f) :=
  C23_calc_pure usage input e (by rw [marked_iff.mp hm]; exact (parse_iff _ _).mpr h)

/-- **C24.** With fair dice no text whose command, or that of its first word, has small counts makes the program panic. -/
theorem C24_typed (F : DieFeeder σ) (I : σ → Prop) (hF : F.FairOn I) (usage : Str) {input body word : Str} {secret : Bool}
    (hm : Marked input body secret) (hw : FirstWord body word) (hi : input.length < 2 ^ 63) (f : σ) (hf : I f)
    (hs : ∀ node, CommandText body node ∨ CommandText word node → node.SmallCounts) :
    (executeCommand F (basicBot usage) input f).1.isPanic = false :=
  C24_basicBot F I hF usage input hi f hf (by rw [marked_iff.mp hm]; dsimp only; rw [firstWord_iff.mp hw]; exact hs)

/-- **C25.** A text that is no command and does not begin with one is answered with an error, at the cost of no die. -/
theorem C25_typed (F : DieFeeder σ) (usage : Str) {input body word : Str} {secret : Bool} (hm : Marked input body secret)
    (hw : FirstWord body word) (f : σ) (h : ∀ node, ¬ CommandText body node ∧ ¬ CommandText word node) :
    ∃ msg, executeCommand F (basicBot usage) input f = (.err msg, f) :=
  C25_malformed F usage input f (by rw [marked_iff.mp hm]; exact fun n => (h n).1)
    (by rw [marked_iff.mp hm]; dsimp only; rw [firstWord_iff.mp hw]; exact fun n => (h n).2)

/-- **C26.** The command shown in the answer to a typed text, typed again, gives the same answer. -/
theorem C26_typed (F : DieFeeder σ) (usage : Str) {input body word : Str} {secret : Bool} (hm : Marked input body secret)
    (hw : FirstWord body word) (f f' : σ) (r : Result) (h : executeCommand F (basicBot usage) input f = (.ok r, f'))
    (hf : ∀ node, CommandText body node ∨ CommandText word node → node.Faithful 10000) (hr : r.rolledDice ≠ []) :
    ∃ shown rest rs, r.parts = (chars!"(" ++ shown ++ chars!")") :: rest ∧ rs <:+ r.rolledDice ∧
      executeCommand queueFeeder (basicBot usage) shown rs =
        (.ok { r with rolledDice := rs, isSecret := false }, []) :=
  C26_command F usage input f f' r h
    (by rw [marked_iff.mp hm]; dsimp only; rw [firstWord_iff.mp hw]; exact hf) hr

/-- **C34.** A typed text is tried as a whole; if that fails, for whatever reason, its first word is tried with the dice
that are left. -/
theorem C34_typed (F : DieFeeder σ) (usage : Str) {input body word : Str} {secret : Bool} (hm : Marked input body secret)
    (hw : FirstWord body word) (f f₁ : σ) (o₁ : Out Result)
    (h : executeBasicCommand F chars!"DiceBot" body f = (o₁, f₁)) :
    (∀ msg, o₁ = .err msg → executeCommand F (basicBot usage) input f =
      ((executeBasicCommand F chars!"DiceBot" word f₁).1.map (fun r => r.withSecret secret),
        (executeBasicCommand F chars!"DiceBot" word f₁).2)) ∧
    ((∀ msg, o₁ ≠ .err msg) → executeCommand F (basicBot usage) input f =
      (o₁.map (fun r => r.withSecret secret), f₁)) := by
  have hm' := marked_iff.mp hm
  have hw' := firstWord_iff.mp hw
  constructor
  · rintro msg rfl
    have hg : executeBasicCommand F (basicInfo usage).gameID body f = (.err msg, f₁) := h
    simp only [executeCommand, executeDiceBotCommand, basicBot, hm', hw', runFresh, M.fail, hg]
    rcases hx : executeBasicCommand F (basicInfo usage).gameID word f₁ with ⟨o, f₂⟩
    have hx' : executeBasicCommand F chars!"DiceBot" word f₁ = (o, f₂) := hx
    rw [hx']
    cases o <;> rfl
  · intro hn
    cases o₁ with
    | err m => exact absurd rfl (hn m)
    | ok r =>
      have hg : executeBasicCommand F (basicInfo usage).gameID body f = (.ok r, f₁) := h
      simp only [executeCommand, executeDiceBotCommand, basicBot, hm', runFresh, M.fail, hg]
      rfl
    | panic m =>
      have hg : executeBasicCommand F (basicInfo usage).gameID body f = (.panic m, f₁) := h
      simp only [executeCommand, executeDiceBotCommand, basicBot, hm', runFresh, M.fail, hg]
      rfl

/-- **C66.** The error of a text that is no command and does not begin with one is that of parsing its first word. -/
theorem C66_typed (F : DieFeeder σ) (usage : Str) {input body word : Str} {secret : Bool} (hm : Marked input body secret)
    (hw : FirstWord body word) (f : σ) (h : ∀ node, ¬ CommandText body node ∧ ¬ CommandText word node) :
    ∃ m, executeCommand F (basicBot usage) input f = (.err m, f) ∧ Parses chars!"input" (utf8 word) (.error m) := by
  obtain ⟨m, h1, h2, _⟩ := C66_malformed F usage input f (by rw [marked_iff.mp hm]; exact fun n => (h n).1)
    (by rw [marked_iff.mp hm]; dsimp only; rw [firstWord_iff.mp hw]; exact fun n => (h n).2)
  rw [marked_iff.mp hm] at h2
  dsimp only at h2
  rw [firstWord_iff.mp hw] at h2
  exact ⟨m, h1, h2⟩

/-- **C104.** A BCDice whose dice bot has no information panics exactly on texts that are commands or begin with one. -/
theorem C104_typed (F : DieFeeder σ) (usage : Str) (history : List (BotOp σ)) (b m : Nat) (o : BCObj) {input body word : Str}
    {secret : Bool} (hm : Marked input body secret) (hw : FirstWord body word) :
    let w := (BotMem.start σ usage).run F history
    w.bots[b]? = some o → o.diceBot = some m → w.impls[m]? = some none →
    ∃ f, w.feeders[o.feeder]? = some f ∧
      ((∃ node, CommandText body node ∨ CommandText word node) →
        w.answer F b input = some (.panic Raw.nilDereference, f)) ∧
      ((∀ node, ¬ CommandText body node ∧ ¬ CommandText word node) →
        w.answer F b input = some (executeCommand F (basicBot usage) input f)) := by
  intro w hb hd hi
  obtain ⟨f, hf, ⟨h, _⟩ | ⟨p, i, hu, _⟩ | ⟨m', h1, _, h⟩⟩ := C104_answer F usage history b o hb
  · rw [hd] at h; cases h
  · obtain ⟨o', m', h1, h2, h3⟩ := hu
    rw [hb] at h1; cases h1
    rw [hd] at h2; cases h2
    rw [hi] at h3; cases h3
  · refine ⟨f, hf, ?_⟩
    have := h input
    rw [marked_iff.mp hm] at this
    dsimp only at this
    rw [firstWord_iff.mp hw] at this
    exact this

/-! ## Concrete texts -/

/-- A secret calculation with a remark. -/
example : Marked chars!"sC(1+2) why" chars!"C(1+2) why" true ∧ FirstWord chars!"C(1+2) why" chars!"C(1+2)" ∧
    CommandText chars!"C(1+2)" (.calc (.bin .add (.int 1) (.int 2))) :=
  ⟨marked_iff.mpr (by decide), firstWord_iff.mpr (by decide), (parse_iff _ _).mp (by decide)⟩

/-- The whole text fails, its first word is rolled. -/
example : executeCommand queueFeeder (basicBot chars!"") chars!"S1D6 for luck" [⟨4, 6⟩] =
    (.ok ⟨chars!"DiceBot", [chars!"(1D6)", chars!"4[4]", chars!"4"], [⟨4, 6⟩], .unspecified, true⟩, []) := by
  have h := (C34_typed queueFeeder chars!"" (marked_iff.mpr (by decide) : Marked chars!"S1D6 for luck" chars!"1D6 for luck" true)
    (firstWord_iff.mpr (by decide) : FirstWord _ chars!"1D6") [⟨4, 6⟩] [⟨4, 6⟩]
    (executeBasicCommand queueFeeder chars!"DiceBot" chars!"1D6 for luck" [⟨4, 6⟩]).1 (by decide +kernel)).1
    (match (executeBasicCommand queueFeeder chars!"DiceBot" chars!"1D6 for luck" [⟨4, 6⟩]).1 with
      | .err m => m
      | _ => []) (by decide +kernel)
  rw [h]
  decide +kernel

end GoBCDice
