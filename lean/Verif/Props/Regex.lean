import Verif.Lemmas.RegexGroups
import Verif.Spec.Regex
import Verif.Props.Outcome
import Verif.Props.Bytes
import Verif.Props.CaseRead
import Verif.Props.Sim

/-!
# C89: the regular expressions of the code

`groupsIn` and `deleteIn` read an expression from its literal in the source and match it by the rules of
package regexp.  First: the matcher finds a match if and only if there is one (`RxMatch`, Spec/Regex.lean),
and a leftmost one.  Then: what each of the six expressions of the repository gives for every text, in
the words of the specifications of the other properties, and that the functions by which the rest of the
model replaces them are right.
-/

namespace GoBCDice

open Pigeon (Sym)

variable {α : Type} {rn : α → Char} {total : Nat}

/-! ## The matcher -/

theorem RxMatch.suffix {r : Rx} {s t : List α} (h : RxMatch rn total r s t) : t <:+ s := by
  induction h with
  | rune _ => exact List.suffix_cons ..
  | bot _ => exact List.suffix_refl _
  | eot => exact List.suffix_refl _
  | empty => exact List.suffix_refl _
  | seq _ _ h1 h2 => exact h2.trans h1
  | starNil => exact List.suffix_refl _
  | starMore _ _ h1 h2 => exact h2.trans h1
  | plus _ _ h1 h2 => exact h2.trans h1
  | optNone => exact List.suffix_refl _
  | optSome _ h => exact h
  | cap _ h => exact h

/-- Rounds find what the rule for `*` derives. -/
theorem rounds_iff {r : Rx} (ih : ∀ (s t : List α) caps, (∃ st ∈ r.ways rn total ⟨s, caps⟩, st.rest = t) ↔ RxMatch rn total r s t) :
    ∀ (n : Nat) (s t : List α) caps, s.length ≤ n →
      ((∃ st ∈ rxRounds (r.ways rn total) n ⟨s, caps⟩, st.rest = t) ↔ RxMatch rn total (.star r) s t) := by
  have sound : ∀ (n : Nat) (st st' : RxState α), st' ∈ rxRounds (r.ways rn total) n st →
      RxMatch rn total (.star r) st.rest st'.rest := by
    intro n
    induction n with
    | zero =>
      intro st st' h
      rw [List.mem_singleton.1 h]
      exact .starNil
    | succ n ihn =>
      intro st st' h
      rcases List.mem_append.1 h with h | h
      · obtain ⟨m, hm, h⟩ := List.mem_flatMap.1 h
        have hm := (List.mem_filter.1 hm).1
        exact .starMore ((ih st.rest m.rest st.caps).1 ⟨m, hm, rfl⟩) (ihn _ _ h)
      · rw [List.mem_singleton.1 h]
        exact .starNil
  intro n s t caps hn
  constructor
  · rintro ⟨st, h, rfl⟩
    exact sound n _ _ h
  · intro h
    generalize hr : Rx.star r = q at h
    induction h generalizing n caps with
    | starNil =>
      cases hr
      exact ⟨⟨_, caps⟩, by cases n <;> simp [rxRounds], rfl⟩
    | @starMore r' s m t h1 h2 ih1 ih2 =>
      cases hr
      by_cases hlt : m.length < s.length
      · obtain ⟨st, hst, rfl⟩ := (ih s _ caps).2 h1
        cases n with
        | zero => omega
        | succ n =>
          obtain ⟨st', hst', he⟩ := ih2 n st.caps (by omega) rfl
          exact ⟨st', List.mem_append.2 (.inl (List.mem_flatMap.2 ⟨st, List.mem_filter.2 ⟨hst, by simpa using hlt⟩, hst'⟩)), he⟩
      · have := h1.suffix
        obtain ⟨p, hp⟩ := this
        have hl := congrArg List.length hp
        rw [List.length_append] at hl
        have : p = [] := List.length_eq_zero_iff.1 (by omega)
        subst this
        rw [List.nil_append] at hp
        subst hp
        exact ih2 n caps hn rfl
    | _ => cases hr

theorem ways_iff (r : Rx) : ∀ (s t : List α) (caps : List (Nat × List α)),
    (∃ st ∈ r.ways rn total ⟨s, caps⟩, st.rest = t) ↔ RxMatch rn total r s t := by
  induction r with
  | rune c =>
    intro s t caps
    cases s with
    | nil => exact ⟨fun ⟨_, h, _⟩ => (by cases h), fun h => (by cases h)⟩
    | cons x s =>
      unfold Rx.ways
      dsimp only
      by_cases hc : c.has (rn x) = true
      · rw [if_pos hc]
        constructor
        · rintro ⟨st, h, rfl⟩
          rw [List.mem_singleton.1 h]
          exact .rune hc
        · intro h
          cases h
          exact ⟨_, List.mem_singleton.2 rfl, rfl⟩
      · rw [if_neg hc]
        exact ⟨fun ⟨_, h, _⟩ => (by cases h), fun h => (by cases h; exact absurd ‹_› hc)⟩
  | bot =>
    intro s t caps
    unfold Rx.ways
    dsimp only
    split
    · rename_i hl
      constructor
      · rintro ⟨st, h, rfl⟩
        rw [List.mem_singleton.1 h]
        exact .bot hl
      · intro h
        cases h
        exact ⟨_, List.mem_singleton.2 rfl, rfl⟩
    · rename_i hl
      exact ⟨fun ⟨_, h, _⟩ => (by cases h), fun h => (by cases h; exact absurd ‹_› hl)⟩
  | eot =>
    intro s t caps
    unfold Rx.ways
    dsimp only
    cases s with
    | nil =>
      constructor
      · rintro ⟨st, h, rfl⟩
        rw [List.mem_singleton.1 h]
        exact .eot
      · intro h
        cases h
        exact ⟨_, List.mem_singleton.2 rfl, rfl⟩
    | cons x s => exact ⟨fun ⟨_, h, _⟩ => (by cases h), fun h => (by cases h)⟩
  | empty =>
    intro s t caps
    constructor
    · rintro ⟨st, h, rfl⟩
      rw [List.mem_singleton.1 h]
      exact .empty
    · intro h
      cases h
      exact ⟨_, List.mem_singleton.2 rfl, rfl⟩
  | seq a b iha ihb =>
    intro s t caps
    constructor
    · rintro ⟨st, h, rfl⟩
      obtain ⟨m, hm, h⟩ := List.mem_flatMap.1 h
      exact .seq ((iha s m.rest caps).1 ⟨m, hm, rfl⟩) ((ihb m.rest st.rest m.caps).1 ⟨st, h, rfl⟩)
    · intro h
      cases h with
      | seq h1 h2 =>
        obtain ⟨m, hm, rfl⟩ := (iha s _ caps).2 h1
        obtain ⟨st, hst, rfl⟩ := (ihb m.rest t m.caps).2 h2
        exact ⟨st, List.mem_flatMap.2 ⟨m, hm, hst⟩, rfl⟩
  | star r ih =>
    intro s t caps
    exact rounds_iff ih s.length s t caps (Nat.le_refl _)
  | plus r ih =>
    intro s t caps
    constructor
    · rintro ⟨st, h, rfl⟩
      obtain ⟨m, hm, h⟩ := List.mem_flatMap.1 h
      exact .plus ((ih s m.rest caps).1 ⟨m, hm, rfl⟩)
        ((rounds_iff ih m.rest.length m.rest st.rest m.caps (Nat.le_refl _)).1 ⟨st, h, rfl⟩)
    · intro h
      cases h with
      | plus h1 h2 =>
        obtain ⟨m, hm, rfl⟩ := (ih s _ caps).2 h1
        obtain ⟨st, hst, rfl⟩ := (rounds_iff ih m.rest.length m.rest t m.caps (Nat.le_refl _)).2 h2
        exact ⟨st, List.mem_flatMap.2 ⟨m, hm, hst⟩, rfl⟩
  | opt r ih =>
    intro s t caps
    constructor
    · rintro ⟨st, h, rfl⟩
      rcases List.mem_append.1 h with h | h
      · exact .optSome ((ih s st.rest caps).1 ⟨st, h, rfl⟩)
      · rw [List.mem_singleton.1 h]
        exact .optNone
    · intro h
      cases h with
      | optNone => exact ⟨⟨s, caps⟩, List.mem_append.2 (.inr (List.mem_singleton.2 rfl)), rfl⟩
      | optSome h =>
        obtain ⟨st, hst, rfl⟩ := (ih s t caps).2 h
        exact ⟨st, List.mem_append.2 (.inl hst), rfl⟩
  | cap i r ih =>
    intro s t caps
    constructor
    · rintro ⟨st, h, rfl⟩
      obtain ⟨m, hm, rfl⟩ := List.mem_map.1 h
      exact .cap ((ih s m.rest caps).1 ⟨m, hm, rfl⟩)
    · intro h
      cases h with
      | cap h =>
        obtain ⟨m, hm, rfl⟩ := (ih s t caps).2 h
        exact ⟨_, List.mem_map.2 ⟨m, hm, rfl⟩, rfl⟩

theorem ways_none (r : Rx) (s : List α) : (r.ways rn total ⟨s, []⟩).head? = none ↔ ∀ t, ¬ RxMatch rn total r s t := by
  rw [List.head?_eq_none_iff]
  constructor
  · intro h t ht
    obtain ⟨st, hst, -⟩ := (ways_iff r s t []).2 ht
    rw [h] at hst
    cases hst
  · intro h
    rw [List.eq_nil_iff_forall_not_mem]
    intro st hst
    exact h st.rest ((ways_iff r s st.rest []).1 ⟨st, hst, rfl⟩)

/-- **C89.** A search fails if and only if the expression matches nowhere. -/
theorem C89_search_none (r : Rx) (s : List α) :
    r.search rn total s = none ↔ ∀ front s' t, s = front ++ s' → ¬ RxMatch rn total r s' t := by
  induction s with
  | nil =>
    unfold Rx.search
    rw [Option.map_eq_none_iff, ways_none]
    constructor
    · intro h front s' t e
      rw [(List.append_eq_nil_iff.1 e.symm).2]
      exact h t
    · intro h t
      exact h [] [] t rfl
  | cons x s ih =>
    unfold Rx.search
    cases hw : (r.ways rn total ⟨x :: s, []⟩).head? with
    | some st =>
      refine ⟨fun h => (by cases h), fun h => ?_⟩
      have := (ways_none r (x :: s)).2 (fun t => h [] (x :: s) t rfl)
      rw [hw] at this
      cases this
    | none =>
      dsimp only
      rw [Option.map_eq_none_iff, ih]
      constructor
      · intro h front s' t e
        cases front with
        | nil =>
          rw [List.nil_append] at e
          rw [← e]
          exact (ways_none r (x :: s)).1 hw t
        | cons y front =>
          rw [List.cons_append, List.cons.injEq] at e
          exact h front s' t e.2
      · intro h front s' t e
        exact h (x :: front) s' t (by rw [e, List.cons_append])

/-- **C89.** A search that succeeds gives a match, and none begins further left. -/
theorem C89_search_some (r : Rx) (s front : List α) (st : RxState α) (h : r.search rn total s = some (front, st)) :
    (∃ taken, s = front ++ taken ++ st.rest ∧ RxMatch rn total r (taken ++ st.rest) st.rest) ∧
    ∀ front' s' t, s = front' ++ s' → RxMatch rn total r s' t → front.length ≤ front'.length := by
  induction s generalizing front with
  | nil =>
    unfold Rx.search at h
    cases hw : (r.ways rn total ⟨[], []⟩).head? with
    | none => rw [hw] at h; cases h
    | some st' =>
      rw [hw] at h
      cases h
      have hm := (ways_iff r [] st.rest []).1 ⟨st, List.mem_of_head? hw, rfl⟩
      obtain ⟨taken, ht⟩ := hm.suffix
      exact ⟨⟨taken, by rw [List.nil_append, ht], by rw [ht]; exact hm⟩, fun _ _ _ _ _ => Nat.zero_le _⟩
  | cons x s ih =>
    unfold Rx.search at h
    cases hw : (r.ways rn total ⟨x :: s, []⟩).head? with
    | some st' =>
      rw [hw] at h
      cases h
      have hm := (ways_iff r (x :: s) st.rest []).1 ⟨st, List.mem_of_head? hw, rfl⟩
      obtain ⟨taken, ht⟩ := hm.suffix
      exact ⟨⟨taken, by rw [List.nil_append, ht], by rw [ht]; exact hm⟩, fun _ _ _ _ _ => Nat.zero_le _⟩
    | none =>
      rw [hw] at h
      dsimp only at h
      cases hs : r.search rn total s with
      | none => rw [hs] at h; cases h
      | some p =>
        obtain ⟨f, st'⟩ := p
        rw [hs] at h
        cases h
        obtain ⟨⟨taken, ht, hm⟩, hleft⟩ := ih f hs
        refine ⟨⟨taken, by rw [ht]; rfl, hm⟩, ?_⟩
        intro front' s' t e hm'
        cases front' with
        | nil =>
          rw [List.nil_append] at e
          rw [← e] at hm'
          exact absurd hm' ((ways_none r (x :: s)).1 hw t)
        | cons y front' =>
          rw [List.cons_append, List.cons.injEq] at e
          exact Nat.succ_le_succ (hleft front' s' t e.2 hm')

/-! ## The six expressions -/

/-- **C89.** All six expressions compile (`MustCompile` does not panic when the packages are loaded), with
the number of groups that the code uses. -/
theorem C89_compile : ∃ r1 r2 r3 r4 r5 r6,
    compileRx firstPartRe = some (r1, 2) ∧ compileRx sourceRe = some (r2, 3) ∧ compileRx diceRe = some (r3, 2) ∧
    compileRx commandRe = some (r4, 2) ∧ compileRx tailSpacesRe = some (r5, 0) ∧ compileRx rollDiceRe = some (r6, 2) :=
  ⟨_, _, _, _, _, _, compile_firstPart, compile_source, compile_dice, compile_command, compile_tail, compile_roll⟩

/-- **C89.** `commandFirstPartRe` matches every text, and its first group is the first word: the index
`separated[1]` never panics, and the rest of the model has the right word. -/
theorem C89_first_word (s : Str) : ∃ w rest, groupsIn id firstPartRe s = some [w, rest] ∧ FirstWord s w ∧
    firstPart s = w :=
  ⟨_, _, groups_firstPart s, firstWord_iff.2 rfl, rfl⟩

/-- **C89.** The same on bytes that need not be valid UTF-8: the bytes of the runes of the first group
are the bytes before the first blank byte. -/
theorem C89_first_word_bytes (bs : Bytes) : ∃ w rest, groupsIn Sym.rn firstPartRe (decode bs) = some [w, rest] ∧
    bs.take (w.map Sym.w).sum = firstWordBytes bs ∧ firstPartBytes bs = firstWordBytes bs :=
  ⟨_, _, groups_firstPart (decode bs), firstPartBytes_eq bs, firstPartBytes_eq bs⟩

/-- **C89.** `diceRe` matches the texts of one die, and its groups are the two numerals. -/
theorem C89_die (s : Str) (d : Die) :
    (∃ v w, groupsIn id diceRe s = some [v, w] ∧ d = ⟨atoiSat v, atoiSat w⟩) ↔ DieText s d := by
  rw [← matchDie_iff, groups_die]
  cases matchDie s <;> simp [Prod.ext_iff]

/-- **C89.** The function by which the reader of test cases replaces `diceRe`. -/
theorem C89_die_groups (s : Str) : groupsIn id diceRe s = (matchDie s).map fun (v, w) => [v, w] := groups_die s

/-- **C89.** `rollDiceRe` matches a numeral, blanks and a numeral, and nothing else. -/
theorem C89_roll (args a b : Str) : groupsIn id rollDiceRe args = some [a, b] ↔
    ∃ sp, args = a ++ sp ++ b ∧ a ≠ [] ∧ sp ≠ [] ∧ b ≠ [] ∧ (∀ c ∈ a, isDigit c = true) ∧
    (∀ c ∈ sp, Blank c) ∧ (∀ c ∈ b, isDigit c = true) := by
  rw [← matchRoll_iff, groups_roll]
  cases matchRoll args with
  | none => simp
  | some p => simp [Prod.ext_iff]

/-- **C89.** `sourceRe` divides the source of a test case, where a division exists, in the one way with
the longest input and then the longest output. -/
theorem C89_source (s i o d : Str) : groupsIn id sourceRe s = some [i, o, d] ↔ CaseDivision s i o d := by
  rw [← matchSource_iff, groups_source]
  cases matchSource s with
  | none => simp
  | some p => simp [Prod.ext_iff]

/-- **C89.** It fails only on sources without a division. -/
theorem C89_source_none (s : Str) : groupsIn id sourceRe s = none ↔ ∀ i o d, ¬ CaseSections s i o d := by
  rw [groups_source, Option.map_eq_none_iff]
  constructor
  · exact matchSource_none s
  · intro h
    cases hm : matchSource s with
    | none => rfl
    | some p => exact absurd ((matchSource_iff _ _ _ _).1 hm).1 (h _ _ _)

/-- **C89.** `commandRe` on a line as the main loop has it (trimmed, of one line) matches the command
lines, and its groups are the name and the arguments. -/
theorem C89_command (line name args : Str) (hn : '\n' ∉ trimSpace line) :
    groupsIn id commandRe (trimSpace line) = some [name, args] ↔
      CommandLine (trimSpace line) name args ∧ name ≠ [] ∧ ∀ c ∈ name, NameChar c := by
  have hl : ∀ c ∈ (trimSpace line).getLast?, isReSpace c = false := by
    intro c hc
    cases hr : isReSpace c with
    | false => rfl
    | true =>
      have := trimSpace_last line c hc
      rw [isReSpace_isSpace hr] at this
      cases this
  rw [groups_command hl]
  constructor
  · intro h
    cases hm : matchCommand (trimSpace line) with
    | none => rw [hm] at h; cases h
    | some p =>
      obtain ⟨n, a⟩ := p
      rw [hm] at h
      cases h
      obtain ⟨h1, h2⟩ := matchCommand_name hm
      exact ⟨(matchCommand_iff hn _ _ h1 h2).1 hm, h1, h2⟩
  · rintro ⟨h, h1, h2⟩
    rw [(matchCommand_iff hn _ _ h1 h2).2 h]
    rfl

/-- **C89.** The same for trimmed lines with newlines in them: the function by which the model of the
main loop replaces `commandRe`. -/
theorem C89_command_groups (line : Str) : groupsIn id commandRe (trimSpace line) =
    (matchCommand (trimSpace line)).map fun (n, a) => [n, a] := by
  apply groups_command
  intro c hc
  cases hr : isReSpace c with
  | false => rfl
  | true =>
    have := trimSpace_last line c hc
    rw [isReSpace_isSpace hr] at this
    cases this

/-- **C89.** Replacing `tailSpacesRe` by nothing takes away the blanks at the end, and no more. -/
theorem C89_tail (s t : Str) : deleteIn id tailSpacesRe s = some t ↔
    (∃ sp, s = t ++ sp ∧ ∀ c ∈ sp, Blank c) ∧ ∀ c ∈ t.getLast?, ¬ Blank c := by
  rw [delete_tail]
  unfold trimRightSpaces
  have e : s.reverse.takeWhile isReSpace ++ s.reverse.dropWhile isReSpace = s.reverse := List.takeWhile_append_dropWhile
  constructor
  · intro h
    cases h
    refine ⟨⟨(s.reverse.takeWhile isReSpace).reverse, ?_, ?_⟩, ?_⟩
    · rw [← List.reverse_append, e, List.reverse_reverse]
    · intro c hc
      exact (isReSpace_blank c).1 (rx_takeWhile_imp (List.mem_reverse.1 hc))
    · intro c hc hb
      rw [List.getLast?_reverse] at hc
      cases hd : s.reverse.dropWhile isReSpace with
      | nil => rw [hd] at hc; cases hc
      | cons x rest =>
        rw [hd] at hc
        cases hc
        have := (isReSpace_blank c).2 hb
        rw [rx_dropWhile_head hd] at this
        cases this
  · rintro ⟨⟨sp, rfl, hsp⟩, hl⟩
    rw [List.reverse_append]
    have hall : (sp.reverse).dropWhile isReSpace = [] := by
      apply List.length_eq_zero_iff.1
      rw [rx_all_iff_dropWhile, List.all_reverse, List.all_eq_true]
      intro c hc
      exact (isReSpace_blank c).2 (hsp c hc)
    have : (sp.reverse ++ t.reverse).dropWhile isReSpace = t.reverse.dropWhile isReSpace := by
      rw [List.dropWhile_append, hall]
      rfl
    rw [this]
    cases hr : t.reverse with
    | nil => rw [List.reverse_eq_nil_iff.1 hr]; rfl
    | cons x u =>
      have hx : t.getLast? = some x := by rw [List.getLast?_eq_head?_reverse, hr]; rfl
      rw [List.dropWhile_cons, if_neg (fun h => hl x hx ((isReSpace_blank x).1 h)), ← hr, List.reverse_reverse]

/-! Concrete cases. -/

example : groupsIn id firstPartRe chars!"2d6+1 fire damage" = some [chars!"2d6+1", chars!" fire damage"] := by
  decide +kernel

example : groupsIn id diceRe chars!" 12/20\n" = some [chars!"12", chars!"20"] := by decide +kernel

example : groupsIn id commandRe chars!".set-game  Cthulhu 7" = some [chars!"set-game", chars!"Cthulhu 7"] := by
  decide +kernel

example : groupsIn id commandRe chars!"2d6" = none := by decide +kernel

example : groupsIn id sourceRe chars!"input:\n2d6\noutput:\nrand:\nrand:1/6" =
    some [chars!"2d6", chars!"\nrand:", chars!"1/6"] := by decide +kernel

example : deleteIn id tailSpacesRe chars!"a b \t " = some chars!"a b" := by decide +kernel

/-- A text in the middle that matches, so that the search moves. -/
example : (Rx.plus (.rune ⟨false, digitRanges⟩)).search id 5 chars!"ab12c" = some (chars!"ab", ⟨chars!"c", []⟩) := by
  rfl

end GoBCDice
