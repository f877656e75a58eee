import Verif.Lemmas.Text
import Verif.Props.Outcome

/-!
# C93: the text of answers

The specification is `Plain`, `Result.Chosen` and `verdictOf` (Spec/Text.lean).  `splitSeq` is the
model of Go's `strings.Split`.
-/

namespace GoBCDice
variable {σ : Type}

/-- A result was given by the whole text or its first word. -/
theorem answer_outcome {F : DieFeeder σ} {usage input : Str} {f f' : σ} {r : Result}
    (h : executeCommand F (basicBot usage) input f = (.ok r, f')) :
    ∃ t node ds r0 secret, (∀ c ∈ t, c ∈ input) ∧ CommandText t node ∧ Outcome 10000 chars!"DiceBot" node ds r0 ∧
      r = { r0 with isSecret := secret } := by
  obtain ⟨body, secret, word, r0, hm, hw, rfl, hs⟩ := (C78_answer F usage input f f' r).mp h
  have hb : ∀ c ∈ body, c ∈ input := by
    cases hm with
    | secret => intro c hc; exact List.mem_cons_of_mem _ hc
    | plain => exact fun c hc => hc
  have hwb : ∀ c ∈ word, c ∈ body := by
    cases hw with
    | whole => exact fun c hc => hc
    | cut => intro c hc; simp [hc]
  rcases hs with ⟨node, ds, h1, h2, -⟩ | ⟨msg, f1, -, node, ds, h1, h2, -⟩
  · exact ⟨_, _, _, _, _, hb, h1, h2, rfl⟩
  · exact ⟨_, _, _, _, _, fun c hc => hb c (hwb c hc), h1, h2, rfl⟩

/-- **C93.** Whatever is typed and whatever the dice, every part of the answer is made of the
characters of `answerLetters` (no line break, no control character, no mark between parts), unless
it is the answer to a choice, whose items are made of typed characters and contain no comma and no
closing bracket. -/
theorem C93_characters (F : DieFeeder σ) (usage input : Str) (f f' : σ) (r : Result)
    (h : executeCommand F (basicBot usage) input f = (.ok r, f')) :
    (∀ p ∈ r.parts, Plain p) ∨
      ∃ items, r.Chosen items ∧ ∀ item ∈ items, ∀ c ∈ item, c ∈ input ∧ c ≠ ',' ∧ c ≠ ']' := by
  obtain ⟨t, node, ds, r0, secret, ht, hc, ho, rfl⟩ := answer_outcome h
  rcases ho.plain with ⟨items, rfl, h1⟩ | ⟨-, h1⟩
  · refine .inr ⟨items, h1, fun item hi c hx => ?_⟩
    have := hc.items_sub item hi c hx
    exact ⟨ht c this.1, this.2⟩
  · exact .inl h1

/-- **C93, messages.** A character of the message that was not typed is one of `answerLetters`, of
"DiceBot : ", of "CHOICE" or the mark between parts.  So the message is a single line whenever the
typed text is one, and a character that marks up text is not in the message unless it was typed. -/
theorem C93_message (F : DieFeeder σ) (usage input : Str) (f f' : σ) (r : Result)
    (h : executeCommand F (basicBot usage) input f = (.ok r, f')) (c : Char) (hc : c ∈ r.message) :
    c ∈ input ∨ c ∈ answerLetters ∨ c ∈ chars!"DiceBot : CHOICE＞" := by
  have hg : r.gameID = chars!"DiceBot" := by
    obtain ⟨t, node, ds, r0, secret, -, -, ho, rfl⟩ := answer_outcome h
    cases ho <;> rfl
  simp only [Result.message, Result.joinedParts, List.mem_append, hg] at hc
  rcases hc with (hc | hc) | hc
  · exact .inr (.inr (by revert hc; revert c; decide))
  · exact .inr (.inr (by revert hc; revert c; decide))
  · have hc' := mem_join hc
    clear hc
    rcases hc' with hc | ⟨p, hp, hc⟩
    · exact .inr (.inr (by revert hc; revert c; decide))
    · rcases C93_characters F usage input f f' r h with h1 | ⟨items, ⟨item, hi, h1⟩, h2⟩
      · exact .inr (.inl (h1 p hp c hc))
      · rw [h1] at hp
        simp only [List.mem_cons, List.not_mem_nil, or_false] at hp
        rcases hp with rfl | rfl
        · simp only [List.mem_append] at hc
          rcases hc with (hc | hc) | hc
          · refine .inr ?_
            revert hc; revert c; decide
          · have hc' := mem_join hc
            clear hc
            rcases hc' with hc | ⟨s, hs, hc⟩
            · refine .inr ?_
              revert hc; revert c; decide
            · exact .inl (h2 s hs c hc).1
          · refine .inr ?_
            revert hc; revert c; decide
        · exact .inl (h2 p hi c hc).1

/-- **C93, one line.** A command without line breaks is answered in one line. -/
theorem C93_one_line (F : DieFeeder σ) (usage input : Str) (f f' : σ) (r : Result)
    (h : executeCommand F (basicBot usage) input f = (.ok r, f')) (hn : '\n' ∉ input) : '\n' ∉ r.message := by
  intro hc
  rcases C93_message F usage input f f' r h _ hc with h1 | h1 | h1
  · exact hn h1
  · exact absurd h1 (by decide)
  · exact absurd h1 (by decide)

/-- **C93, taking a message apart.** Unless a choice was asked for, splitting the joined parts at
" ＞ " gives the parts back, and the last part tells the verdict; the same if no mark was typed. -/
theorem C93_parts (F : DieFeeder σ) (usage input : Str) (f f' : σ) (r : Result)
    (h : executeCommand F (basicBot usage) input f = (.ok r, f'))
    (hn : (∀ items, ¬ r.Chosen items) ∨ partMark ∉ input) :
    splitSeq chars!" ＞ " r.joinedParts = r.parts := by
  have hne : r.parts ≠ [] := by
    obtain ⟨t, node, ds, r0, secret, -, -, ho, rfl⟩ := answer_outcome h
    cases ho <;> simp
  refine splitSeq_join (a := chars!" ") (b := chars!" ") (m := partMark) (by decide) (by decide) hne ?_
  intro p hp hm
  rcases C93_characters F usage input f f' r h with h1 | ⟨items, h1, h2⟩
  · exact absurd (h1 p hp _ hm) (by decide)
  · rcases hn with hn | hn
    · exact hn items h1
    · obtain ⟨item, hi, h1⟩ := h1
      rw [h1] at hp
      simp only [List.mem_cons, List.not_mem_nil, or_false] at hp
      rcases hp with rfl | rfl
      · simp only [List.mem_append] at hm
        rcases hm with (hm | hm) | hm
        · exact absurd hm (by decide)
        · rcases mem_join hm with hm | ⟨s, hs, hm⟩
          · exact absurd hm (by decide)
          · exact hn (h2 s hs _ hm).1
        · exact absurd hm (by decide)
      · exact hn (h2 p hi _ hm).1

/-- **C93, the verdict.** Unless a choice was asked for, the verdict reported in the result is the one
the last part of the message states, and none is reported when it states none. -/
theorem C93_verdict (F : DieFeeder σ) (usage input : Str) (f f' : σ) (r : Result)
    (h : executeCommand F (basicBot usage) input f = (.ok r, f')) (hn : ∀ items, ¬ r.Chosen items) :
    r.success = verdictOf r.parts := by
  obtain ⟨t, node, ds, r0, secret, ht, hc, ho, rfl⟩ := answer_outcome h
  refine ho.verdict ?_
  rintro items rfl
  rcases ho.plain with ⟨items, -, h1⟩ | ⟨h0, -⟩
  · exact hn items h1
  · exact h0 items rfl

/-- The answer to a choice has a letter no other answer has. -/
theorem Result.Chosen.not_plain {r : Result} {items : List Str} (h : r.Chosen items) :
    ¬ ∀ p ∈ r.parts, Plain p := by
  obtain ⟨item, -, h⟩ := h
  intro hp
  have := hp _ (by rw [h]; exact List.mem_cons_self) 'H' (by simp)
  exact absurd this (by decide)

/-- **C93, same message.** Two answers, neither of which is that to a choice, with the same message
have the same parts and the same verdict, whatever was typed and whatever the dice. -/
theorem C93_same_message (F : DieFeeder σ) (G : DieFeeder σ) (usage usage' input input' : Str)
    (f f' g g' : σ) (r r' : Result)
    (h : executeCommand F (basicBot usage) input f = (.ok r, f')) (hn : ∀ items, ¬ r.Chosen items)
    (h' : executeCommand G (basicBot usage') input' g = (.ok r', g')) (hn' : ∀ items, ¬ r'.Chosen items)
    (he : r.message = r'.message) : r.parts = r'.parts ∧ r.success = r'.success := by
  have hg : ∀ {F : DieFeeder σ} {usage input : Str} {f f' : σ} {r : Result},
      executeCommand F (basicBot usage) input f = (.ok r, f') → r.gameID = chars!"DiceBot" := by
    intro F usage input f f' r h
    obtain ⟨t, node, ds, r0, secret, -, -, ho, rfl⟩ := answer_outcome h
    cases ho <;> rfl
  have hj : r.joinedParts = r'.joinedParts := by
    unfold Result.message at he
    rw [hg h, hg h'] at he
    exact List.append_cancel_left he
  have hp : r.parts = r'.parts := by
    rw [← C93_parts F usage input f f' r h (.inl hn), ← C93_parts G usage' input' g g' r' h' (.inl hn'), hj]
  exact ⟨hp, by rw [C93_verdict F usage input f f' r h hn, C93_verdict G usage' input' g g' r' h' hn', hp]⟩

-- non-vacuity: every kind of answer
example : ((executeCommand queueFeeder (basicBot []) chars!"s2d6+1>=7 comment" [⟨3, 6⟩, ⟨4, 6⟩]).1.map Result.message) =
    .ok chars!"DiceBot : (2D6+1>=7) ＞ 7[3,4]+1 ＞ 8 ＞ 成功" := by decide

/-- **C93, choices are the exception.** An item of a choice may contain the mark between parts, which
the splitting then takes for one. -/
theorem C93_choice_mark :
    ∃ r, (executeCommand queueFeeder (basicBot []) chars!"choice[a ＞ b,c]" [⟨1, 2⟩]).1 = .ok r ∧
      r.parts = [chars!"(CHOICE[a ＞ b,c])", chars!"a ＞ b"] ∧
      splitSeq chars!" ＞ " r.joinedParts =
        [chars!"(CHOICE[a", chars!"b,c])", chars!"a", chars!"b"] := by
  refine ⟨{ gameID := chars!"DiceBot", parts := [chars!"(CHOICE[a ＞ b,c])", chars!"a ＞ b"],
              rolledDice := [⟨1, 2⟩], success := .unspecified, isSecret := false }, ?_, rfl, ?_⟩ <;> decide

/-- **C93, choices are the exception.** An item of a choice may be the word for success; no verdict is
reported. -/
theorem C93_choice_verdict :
    ∃ r, (executeCommand queueFeeder (basicBot []) chars!"choice[成功,失敗]" [⟨1, 2⟩]).1 = .ok r ∧
      verdictOf r.parts = .success ∧ r.success = .unspecified := by
  refine ⟨{ gameID := chars!"DiceBot", parts := [chars!"(CHOICE[成功,失敗])", chars!"成功"],
              rolledDice := [⟨1, 2⟩], success := .unspecified, isSecret := false }, ?_, ?_, rfl⟩ <;> decide

/-- **C93, line breaks.** A choice typed over two lines is answered in several. -/
theorem C93_choice_line :
    ∃ r, (executeCommand queueFeeder (basicBot []) chars!"choice[a\nb,c]" [⟨1, 2⟩]).1 = .ok r ∧
      '\n' ∈ r.message := by
  refine ⟨{ gameID := chars!"DiceBot", parts := [chars!"(CHOICE[a\nb,c])", chars!"a\nb"],
              rolledDice := [⟨1, 2⟩], success := .unspecified, isSecret := false }, ?_, ?_⟩ <;> decide

end GoBCDice
