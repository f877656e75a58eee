import Verif.Props.ByHand
import Verif.Props.Top

/-!
# C98 and C112 for what is typed: with the mark of secret rolls in front and comments behind
-/

namespace GoBCDice

theorem IsComment.space {rest : Str} (h : IsComment rest) : rest = [] ∨ ∃ x t, rest = x :: t ∧ isReSpace x = true := by
  rcases h with h | ⟨x, t, h, hx⟩
  · exact .inl h
  · refine .inr ⟨x, t, h, ?_⟩
    rcases hx with rfl | rfl | rfl | rfl | rfl <;> decide

theorem roll_first {s : Str} {n : Node} (hp : parse s = some n) (hn : n.isRollCommand = true) (rest : Str) (hr : IsComment rest) :
    firstPart (s ++ rest) = s := by
  have h1 : ∀ c ∈ s, (!isReSpace c) = true := fun c hc => by
    have := C32_roll_chars s n hn hp c hc
    revert this
    have : ∀ c ∈ rollChars, (!isReSpace c) = true := by decide
    exact this c
  unfold firstPart
  rw [List.takeWhile_append_of_pos h1]
  rcases hr.space with rfl | ⟨x, t, rfl, hx⟩
  · simp
  · simp [hx]

theorem roll_unmarked {s : Str} {n : Node} (hp : parse s = some n) (hn : n.isRollCommand = true) (rest : Str) :
    ∃ c t, s ++ rest = c :: t ∧ c ≠ 'S' ∧ c ≠ 's' := by
  cases s with
  | nil =>
    exfalso
    revert hp
    rw [show parse [] = none by decide]
    simp
  | cons c t =>
    have h := C32_roll_chars _ n hn hp c (by simp)
    refine ⟨c, t ++ rest, rfl, ?_, ?_⟩ <;> (rintro rfl; revert h; decide)

/-- A roll command with a comment is no command. -/
theorem roll_comment {s : Str} {n : Node} (hp : parse s = some n) (hn : n.isRollCommand = true) {x : Char} (t : Str)
    (hx : isReSpace x = true) : parse (s ++ x :: t) = none := by
  have hc := C32_roll_chars s n hn hp
  have hst : ∃ c w', s = c :: w' := by
    cases s with
    | nil =>
      exfalso
      revert hp
      rw [show parse [] = none by decide]
      simp
    | cons c w' => exact ⟨c, w', rfl⟩
  obtain ⟨c0, w', hw'⟩ := hst
  cases h : parse (s ++ x :: t) with
  | none => rfl
  | some node' =>
    cases hr : node'.isRollCommand with
    | true =>
      have := C32_roll_chars _ _ hr h x (by simp)
      rw [rollChars_no_space this] at hx
      exact absurd hx (by simp)
    | false =>
      exfalso
      have hcc : ¬ ('C' ∈ rollChars ∨ 'c' ∈ rollChars) := by decide
      have h0 : c0 ∈ rollChars := hc c0 (by simp [hw'])
      rw [hw', List.cons_append] at h
      have h' := (parse_iff _ _).mp h
      generalize hs : c0 :: (w' ++ x :: t) = z at h'
      cases h' with
      | @choice kw body seps rest' items hkw =>
        cases kw with
        | nil => exact hkw.elim
        | cons y kw =>
          simp only [List.cons_append, List.cons.injEq] at hs
          obtain ⟨rfl, -⟩ := hs
          have hl : SameLetter 'c' c0 := hkw.1
          rw [← toLowerRune_sameLetter _ _ (by decide) (by decide) (by decide), toLowerRune_c] at hl
          rcases hl with rfl | rfl
          · exact hcc (.inl h0)
          · exact hcc (.inr h0)
      | «calc» hcl =>
        simp only [List.cons_append, List.cons.injEq] at hs
        obtain ⟨rfl, -⟩ := hs
        rcases hcl with rfl | rfl
        · exact hcc (.inl h0)
        · exact hcc (.inr h0)
      | _ => simp [Node.isRollCommand] at hr

/-- What is answered to a roll command, given what executing it does. -/
def typedAnswer {σ : Type} (secret again : Bool) (X : σ → Out Result × σ) (f : σ) : Out Result × σ :=
  match X f with
  | (.ok r, f1) => (.ok (r.withSecret secret), f1)
  | (.panic m, f1) => (.panic m, f1)
  | (.err m, f1) => if again then ((X f1).1.map (·.withSecret secret), (X f1).2) else (.err m, f1)

theorem typed_roll {σ : Type} (F : DieFeeder σ) (usage : Str) {mark s rest : Str} {n : Node} (hm : IsMark mark)
    (hp : parse s = some n) (hn : n.isRollCommand = true) (hr : IsComment rest) (f : σ) :
    executeCommand F (basicBot usage) (mark ++ s ++ rest) f =
      typedAnswer (!mark.isEmpty) rest.isEmpty (executeBasicCommand F chars!"DiceBot" s) f := by
  have hc : checkSecret (mark ++ s ++ rest) = (s ++ rest, !mark.isEmpty) := by
    rcases hm with rfl | rfl | rfl
    · obtain ⟨c, t, h, h1, h2⟩ := roll_unmarked hp hn rest
      simp [h, checkSecret, h1, h2]
    · simp [checkSecret]
    · simp [checkSecret]
  rw [executeCommand_basic, hc]
  simp only [roll_first hp hn rest hr]
  rcases hr.space with rfl | ⟨x, t, rfl, hx⟩
  · simp only [List.append_nil, typedAnswer, List.isEmpty_nil]
    rcases executeBasicCommand F chars!"DiceBot" s f with ⟨o, f1⟩
    cases o <;> simp
  · have h0 : ∃ m, executeBasicCommand F chars!"DiceBot" (s ++ x :: t) f = (.err m, f) := by
      unfold executeBasicCommand
      rw [roll_comment hp hn t hx]
      exact ⟨_, rfl⟩
    obtain ⟨m, h0⟩ := h0
    simp only [h0, typedAnswer, List.isEmpty_cons]
    rcases executeBasicCommand F chars!"DiceBot" s f with ⟨o, f1⟩
    cases o <;> simp [Out.map]

/-- **C98.** Two ways of writing the same roll command are answered alike whatever the mark and the comment. -/
theorem C98_typed {σ : Type} (F : DieFeeder σ) (usage mark s t rest : Str) (n : Node) (hm : IsMark mark) (hr : IsComment rest)
    (hs : parse s = some n) (ht : parse t = some n) (hn : n.isRollCommand = true) (f : σ) :
    executeCommand F (basicBot usage) (mark ++ s ++ rest) f = executeCommand F (basicBot usage) (mark ++ t ++ rest) f := by
  rw [typed_roll F usage hm hs hn hr, typed_roll F usage hm ht hn hr]
  have : executeBasicCommand F chars!"DiceBot" s = executeBasicCommand F chars!"DiceBot" t := by
    funext f
    rw [executeBasicCommand, executeBasicCommand, hs, ht]
  rw [this]

theorem SameNode.isRoll {n n' : Node} (h : SameNode n n') (hn : n.isRollCommand = true) : n'.isRollCommand = true := by
  cases h <;> first | rfl | cases hn

theorem AlikeResults.withSecret {r r' : Result} (h : AlikeResults r r') (b : Bool) :
    AlikeResults (r.withSecret b) (r'.withSecret b) := ⟨h.game, h.length, h.outcome, h.dice, h.success, rfl⟩

theorem typedAnswer_alike {σ : Type} (secret again : Bool) {X Y : σ → Out Result × σ}
    (h : ∀ f, AlikeAnswers (X f).1 (Y f).1 ∧ (X f).2 = (Y f).2) (f : σ) :
    AlikeAnswers (typedAnswer secret again X f).1 (typedAnswer secret again Y f).1 ∧
      (typedAnswer secret again X f).2 = (typedAnswer secret again Y f).2 := by
  have hf := h f
  unfold typedAnswer
  rcases hx : X f with ⟨o, f1⟩
  rcases hy : Y f with ⟨o', f1'⟩
  rw [hx, hy] at hf
  obtain ⟨ha, rfl⟩ := hf
  cases ha with
  | ok hr => exact ⟨.ok (hr.withSecret _), rfl⟩
  | panic m => exact ⟨.panic m, rfl⟩
  | err m =>
    cases again with
    | false => exact ⟨.err m, rfl⟩
    | true =>
      have h1 := h f1
      simp only [if_true]
      rcases hx1 : X f1 with ⟨o, f2⟩
      rcases hy1 : Y f1 with ⟨o', f2'⟩
      rw [hx1, hy1] at h1
      obtain ⟨ha, rfl⟩ := h1
      cases ha with
      | ok hr => exact ⟨.ok (hr.withSecret _), rfl⟩
      | panic m => exact ⟨.panic m, rfl⟩
      | err m => exact ⟨.err m, rfl⟩

/-- **C112.** Typed to the bot, with or without the mark of secret rolls and with any comment: if the bot answers `C(m)` and `C(w)`
with the same value, it answers a roll command in which `(w)` stands for `(m)` alike. -/
theorem C112_typed {σ τ τ' : Type} (F : DieFeeder σ) (F₁ : DieFeeder τ) (F₂ : DieFeeder τ') (usage g₁ g₂ mark a m w b rest : Str)
    (f₁ f₁' : τ) (f₂ f₂' : τ') (r₁ r₂ : Result) (n : Node) (hm : Balanced m) (hw : Balanced w)
    (hmark : IsMark mark) (hrest : IsComment rest)
    (h₁ : executeBasicCommand F₁ g₁ (chars!"C(" ++ m ++ chars!")") f₁ = (.ok r₁, f₁'))
    (h₂ : executeBasicCommand F₂ g₂ (chars!"C(" ++ w ++ chars!")") f₂ = (.ok r₂, f₂'))
    (hv : r₁.parts.getLast? = r₂.parts.getLast?)
    (hn : parse (a ++ chars!"(" ++ m ++ chars!")" ++ b) = some n) (hc : n.isRollCommand = true) (hs : n.isSingleRollComp = false)
    (f : σ) :
    AlikeAnswers (executeCommand F (basicBot usage) (mark ++ (a ++ chars!"(" ++ m ++ chars!")" ++ b) ++ rest) f).1
      (executeCommand F (basicBot usage) (mark ++ (a ++ chars!"(" ++ w ++ chars!")" ++ b) ++ rest) f).1 ∧
    (executeCommand F (basicBot usage) (mark ++ (a ++ chars!"(" ++ m ++ chars!")" ++ b) ++ rest) f).2 =
      (executeCommand F (basicBot usage) (mark ++ (a ++ chars!"(" ++ w ++ chars!")" ++ b) ++ rest) f).2 := by
  have hc' : n.isChoice = false := by cases n <;> first | rfl | cases hc
  obtain ⟨n', hn', h⟩ := by_hand_text hm hw h₁ h₂ hv hn hc'
  rw [typed_roll F usage hmark hn hc hrest, typed_roll F usage hmark hn' (h.isRoll hc) hrest]
  exact typedAnswer_alike _ _ (fun f => C112_by_hand F F₁ F₂ _ g₁ g₂ a m w b f₁ f₁' f₂ f₂' r₁ r₂ n hm hw h₁ h₂ hv hn hc' hs f) f

/-- **C112.** And B, R and U commands, and D commands with the calculation in the target, in exactly the same way. -/
theorem C112_typed_rolls {σ τ τ' : Type} (F : DieFeeder σ) (F₁ : DieFeeder τ) (F₂ : DieFeeder τ') (usage g₁ g₂ mark a m w b rest : Str)
    (f₁ f₁' : τ) (f₂ f₂' : τ') (r₁ r₂ : Result) (n : Node) (hm : Balanced m) (hw : Balanced w)
    (hmark : IsMark mark) (hrest : IsComment rest)
    (h₁ : executeBasicCommand F₁ g₁ (chars!"C(" ++ m ++ chars!")") f₁ = (.ok r₁, f₁'))
    (h₂ : executeBasicCommand F₂ g₂ (chars!"C(" ++ w ++ chars!")") f₂ = (.ok r₂, f₂'))
    (hv : r₁.parts.getLast? = r₂.parts.getLast?)
    (hn : parse (a ++ chars!"(" ++ m ++ chars!")" ++ b) = some n)
    (hc : n.showsValues = true ∨ (∃ l op r, n = .dRollComp l op r) ∧ ∃ c ∈ a, c = '=' ∨ c = '<' ∨ c = '>') (f : σ) :
    executeCommand F (basicBot usage) (mark ++ (a ++ chars!"(" ++ m ++ chars!")" ++ b) ++ rest) f =
      executeCommand F (basicBot usage) (mark ++ (a ++ chars!"(" ++ w ++ chars!")" ++ b) ++ rest) f := by
  have hroll : n.isRollCommand = true := by
    rcases hc with hc | ⟨⟨l, op, r, rfl⟩, -⟩
    · cases n <;> first | rfl | cases hc
    · rfl
  obtain ⟨n', hn', h⟩ := by_hand_text hm hw h₁ h₂ hv hn (by cases n <;> first | rfl | cases hroll)
  rw [typed_roll F usage hmark hn hroll hrest, typed_roll F usage hmark hn' (h.isRoll hroll) hrest]
  have : executeBasicCommand F chars!"DiceBot" (a ++ chars!"(" ++ m ++ chars!")" ++ b) =
      executeBasicCommand F chars!"DiceBot" (a ++ chars!"(" ++ w ++ chars!")" ++ b) := by
    funext f
    rcases hc with hc | ⟨⟨l, op, r, rfl⟩, hc⟩
    · exact C112_rolls F F₁ F₂ _ g₁ g₂ a m w b f₁ f₁' f₂ f₂' r₁ r₂ n hm hw h₁ h₂ hv hn hc f
    · exact C112_target F F₁ F₂ _ g₁ g₂ a m w b f₁ f₁' f₂ f₂' r₁ r₂ l r op hm hw h₁ h₂ hv hn hc f
  rw [this]

/-- A case met: a secret roll with a comment, `2*3` against `6`. -/
example (F : DieFeeder σ) (usage : Str) (f : σ) :
    executeCommand F (basicBot usage) (chars!"S" ++ (chars!"" ++ chars!"(" ++ chars!"2*3" ++ chars!")" ++ chars!"B6") ++ chars!" 攻撃") f =
      executeCommand F (basicBot usage) (chars!"S" ++ (chars!"" ++ chars!"(" ++ chars!"6" ++ chars!")" ++ chars!"B6") ++ chars!" 攻撃") f := by
  have h1 : ∃ r, executeBasicCommand queueFeeder chars!"DiceBot" (chars!"C(" ++ chars!"2*3" ++ chars!")") [] = (.ok r, []) ∧
      r.parts.getLast? = some chars!"6" := ⟨_, rfl, by decide⟩
  have h2 : ∃ r, executeBasicCommand queueFeeder chars!"DiceBot" (chars!"C(" ++ chars!"6" ++ chars!")") [] = (.ok r, []) ∧
      r.parts.getLast? = some chars!"6" := ⟨_, rfl, by decide⟩
  obtain ⟨r1, h1, p1⟩ := h1
  obtain ⟨r2, h2, p2⟩ := h2
  have hn : ∃ n, parse (chars!"" ++ chars!"(" ++ chars!"2*3" ++ chars!")" ++ chars!"B6") = some n ∧ n.showsValues = true :=
    ⟨_, rfl, by decide⟩
  obtain ⟨n, hn, hs⟩ := hn
  exact C112_typed_rolls F queueFeeder queueFeeder usage _ _ _ _ _ _ _ _ _ _ _ _ _ _ n (.plain (by decide)) (.plain (by decide))
    (.inr (.inl rfl)) (.inr ⟨_, _, rfl, .inr (.inr (.inr (.inr rfl)))⟩) h1 h2 (p1.trans p2.symm) hn (.inl hs) f

/-- A case met: `s2d6+1` and `s2D6+001`, with a comment. -/
example (F : DieFeeder σ) (usage : Str) (f : σ) :
    executeCommand F (basicBot usage) (chars!"s" ++ chars!"2d6+1" ++ chars!" attack!") f =
      executeCommand F (basicBot usage) (chars!"s" ++ chars!"2D6+001" ++ chars!" attack!") f :=
  C98_typed F usage _ _ _ _ _ (.inr (.inr rfl))
    (.inr ⟨_, _, rfl, .inr (.inr (.inr (.inr rfl)))⟩) rfl rfl rfl f

end GoBCDice
