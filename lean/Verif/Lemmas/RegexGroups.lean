import Verif.Lemmas.Regex
import Verif.Repl
import Verif.Testcase
import Verif.Bytes

/-!
# The groups of the expressions of the repository
-/

namespace GoBCDice

variable {α : Type} {rn : α → Char}

theorem reSpace_has (x : Char) : (RuneClass.mk false spaceRanges).has x = isReSpace x := has_spaces x

theorem reSpace_hasNot (x : Char) : (RuneClass.mk true spaceRanges).has x = !isReSpace x := by
  rw [← reSpace_has]; unfold RuneClass.has; cases List.any _ _ <;> rfl

theorem compile_firstPart : compileRx firstPartRe = some (.seq .bot (.seq (.cap 1 (.seq (.star (.rune ⟨true, spaceRanges⟩)) .empty))
    (.seq (.opt (.cap 2 (.seq (.rune ⟨false, spaceRanges⟩) (.seq (.star (.rune (reDot false))) .empty)))) .empty)), 2) := by
  decide

theorem compile_dice : compileRx diceRe = some (.seq .bot (.seq (.star (.rune ⟨false, spaceRanges⟩))
    (.seq (.cap 1 (.seq (.plus (.rune ⟨false, digitRanges⟩)) .empty)) (.seq (.rune ⟨false, [('/', '/')]⟩)
    (.seq (.cap 2 (.seq (.plus (.rune ⟨false, digitRanges⟩)) .empty)) (.seq (.star (.rune ⟨false, spaceRanges⟩))
    (.seq .eot .empty)))))), 2) := by
  decide

theorem compile_roll : compileRx rollDiceRe = some (.seq .bot
    (.seq (.cap 1 (.seq (.plus (.rune ⟨false, digitRanges⟩)) .empty)) (.seq (.plus (.rune ⟨false, spaceRanges⟩))
    (.seq (.cap 2 (.seq (.plus (.rune ⟨false, digitRanges⟩)) .empty)) 
    (.seq .eot .empty)))), 2) := by
  decide

theorem compile_tail : compileRx tailSpacesRe = some (.seq (.plus (.rune ⟨false, spaceRanges⟩)) (.seq .eot .empty), 0) := by
  decide

theorem compile_command : compileRx commandRe = some (.seq .bot (.seq (.rune ⟨false, [('.', '.')]⟩)
    (.seq (.cap 1 (.seq (.plus (.rune ⟨false, [('-', '-'), ('a', 'z')]⟩)) .empty))
    (.seq (.star (.seq (.plus (.rune ⟨false, spaceRanges⟩)) (.seq (.cap 2 (.seq (.plus (.rune (reDot false))) .empty)) .empty)))
      .empty))), 2) := by
  decide

/-- The runes of a text, one by one. -/
def litRx : Str → Rx → Rx
  | [], r => r
  | c :: s, r => .seq (.rune ⟨false, [(c, c)]⟩) (litRx s r)

theorem compile_source : compileRx sourceRe = some (.seq .bot (litRx chars!"input:\n"
    (.seq (.cap 1 (.seq (.plus (.rune (reDot true))) .empty)) (litRx chars!"\noutput:"
    (.seq (.cap 2 (.seq (.star (.rune (reDot true))) .empty)) (litRx chars!"\nrand:"
    (.seq (.cap 3 (.seq (.star (.rune (reDot true))) .empty)) .empty)))))), 3) := by
  decide +kernel

/-- The groups of an expression that begins with `\A`. -/
theorem groups_bot {source : Str} {r : Rx} {n : Nat} (h : compileRx source = some (.seq .bot r, n)) (s : List α) :
    groupsIn rn source s = r.first rn s.length ⟨s, []⟩ fun st =>
      some ((List.range n).map fun i => groupOf st.caps (i + 1)) := by
  unfold groupsIn
  rw [h]
  show findSubmatch rn _ s = _
  unfold findSubmatch
  rw [search_bot, Option.map_map]
  unfold Rx.first
  generalize r.ways rn s.length ⟨s, []⟩ = l
  cases l <;> rfl

theorem digit_has (x : Char) : (RuneClass.mk false digitRanges).has x = isDigit x := by
  unfold RuneClass.has digitRanges isDigit
  simp

theorem single_has (c x : Char) : (RuneClass.mk false [(c, c)]).has x = decide (x = c) := by
  unfold RuneClass.has
  simp only [List.any_cons, List.any_nil, Bool.or_false, Bool.bne_false, ← Bool.decide_and]
  congr 1
  exact propext ⟨fun h => Char.le_antisymm h.2 h.1, fun h => h ▸ ⟨Char.le_refl _, Char.le_refl _⟩⟩

theorem rx_digit_not_space {x : Char} (h : isDigit x = true) : isReSpace x = false := by
  unfold isReSpace
  simp only [Bool.or_eq_false_iff, decide_eq_false_iff_not]
  refine ⟨⟨⟨⟨?_, ?_⟩, ?_⟩, ?_⟩, ?_⟩ <;> (rintro rfl; exact absurd h (by decide))

theorem rx_space_not_digit {x : Char} (h : isReSpace x = true) : isDigit x = false := by
  cases hd : isDigit x
  · rfl
  · rw [rx_digit_not_space hd] at h; cases h

theorem dot_has (x : Char) : (reDot false).has x = decide (x ≠ '\n') := by
  unfold RuneClass.has reDot
  have := single_has '\n' x
  unfold RuneClass.has at this
  rw [Bool.bne_false] at this
  rw [if_neg (by decide), this]
  simp

theorem dotAll_has (x : Char) : (reDot true).has x = true := rfl

theorem rx_dropWhile_head {p : α → Bool} {s rest : List α} {x : α} (h : s.dropWhile p = x :: rest) : p x = false := by
  induction s with
  | nil => cases h
  | cons y s ih =>
    rw [List.dropWhile_cons] at h
    split at h
    · exact ih h
    · rename_i hp
      cases h
      simpa using hp

/-- The groups of `firstPartRe`. -/
theorem groups_firstPart (s : List α) : groupsIn rn firstPartRe s =
    some [s.takeWhile (fun x => !isReSpace (rn x)),
      match s.dropWhile (fun x => !isReSpace (rn x)) with
      | [] => []
      | x :: rest => x :: rest.takeWhile (fun x => decide (rn x ≠ '\n'))] := by
  rw [groups_bot compile_firstPart]
  simp only [first_seq, first_cap, first_empty, first_star_rune, first_opt, reSpace_hasNot, first_rune]
  apply greedy_longest
  rw [rx_take_dropWhile]
  cases hd : s.dropWhile (fun x => !isReSpace (rn x)) with
  | nil => rfl
  | cons x rest =>
    have hx : isReSpace (rn x) = true := by simpa using rx_dropWhile_head hd
    dsimp only
    rw [reSpace_has, if_pos hx]
    simp only [dot_has]
    rw [greedy_total]
    show some [_, _] = _
    congr 2
    congr 1
    show (x :: rest).take ((x :: rest).length - _) = _
    have hle : (rest.dropWhile (fun x => decide (rn x ≠ '\n'))).length ≤ rest.length := length_dropWhile_le' ..
    rw [List.length_cons, Nat.succ_sub hle, List.take_succ_cons, rx_take_dropWhile]

theorem rx_all_iff_dropWhile {p : Char → Bool} (s : Str) : (s.dropWhile p).length = 0 ↔ s.all p = true := by
  rw [List.length_eq_zero_iff]
  induction s with
  | nil => simp
  | cons x s ih =>
    rw [List.dropWhile_cons, List.all_cons]
    by_cases hp : p x = true
    · rw [if_pos hp, ih, hp, Bool.true_and]
    · rw [if_neg hp]
      simp [hp]

/-- The groups of `diceRe`. -/
theorem groups_die (s : Str) : groupsIn id diceRe s = (matchDie s).map fun (v, w) => [v, w] := by
  rw [groups_bot compile_dice]
  simp only [first_seq, first_cap, first_empty, first_star_rune, first_plus_rune, first_eot, reSpace_has, digit_has,
    first_rune, single_has, id]
  unfold matchDie
  rw [greedy_only]
  · generalize s.dropWhile (fun x => isReSpace x) = s1
    dsimp only
    rw [greedy1_only]
    · rw [rx_take_dropWhile]
      cases hv : s1.takeWhile isDigit with
      | nil => rw [if_pos rfl]; rfl
      | cons v vs =>
        rw [if_neg (by simp)]
        cases hr : s1.dropWhile isDigit with
        | nil => rfl
        | cons x s2 =>
          dsimp only
          by_cases hx : x = '/'
          · subst hx
            rw [if_pos (by decide), greedy1_only]
            · rw [rx_take_dropWhile]
              show _ = Option.map _ (match s2.takeWhile isDigit with
                | [] => none
                | w => if (s2.dropWhile isDigit).all isReSpace then some (v :: vs, w) else none)
              dsimp only
              cases hw : s2.takeWhile isDigit with
              | nil => rw [if_pos rfl]; rfl
              | cons w ws =>
                rw [if_neg (by simp), greedy_only]
                · dsimp only
                  by_cases ha : (s2.dropWhile isDigit).all isReSpace = true
                  · rw [if_pos ((rx_all_iff_dropWhile _).2 ha), if_pos ha]; rfl
                  · rw [if_neg (fun h => ha ((rx_all_iff_dropWhile _).1 h)), if_neg ha]; rfl
                · intro x rest _; rfl
            · intro x rest hx
              dsimp only
              unfold greedy
              rw [if_neg (by rw [rx_digit_not_space hx]; decide)]
              rfl
          · rw [if_neg (by simpa using hx)]
            split
            · rename_i h; cases h
            · rename_i h _ ; cases h; exact absurd rfl hx
            · rfl
    · intro x rest hx
      dsimp only
      rw [if_neg]
      simp only [decide_eq_true_eq]
      rintro rfl
      exact absurd hx (by decide)
  · intro x rest hx
    show greedy1 _ _ _ (x :: rest) = none
    unfold greedy1
    dsimp only
    rw [if_neg]
    rw [rx_space_not_digit hx]; decide

/-- The groups of `rollDiceRe`. -/
theorem groups_roll (s : Str) : groupsIn id rollDiceRe s = (matchRoll s).map fun (v, w) => [v, w] := by
  rw [groups_bot compile_roll]
  simp only [first_seq, first_cap, first_empty, first_plus_rune, first_eot, reSpace_has, digit_has, id]
  unfold matchRoll
  dsimp only
  rw [greedy1_only]
  · rw [rx_take_dropWhile]
    dsimp only
    generalize s.dropWhile isDigit = t
    by_cases hn : s.takeWhile isDigit = []
    · rw [if_pos hn, if_neg (by simp [hn])]; rfl
    · rw [if_neg hn, greedy1_only]
      · by_cases hs : t.takeWhile isReSpace = []
        · rw [if_pos hs, if_neg (by simp [hs])]; rfl
        · rw [if_neg hs]
          dsimp only
          generalize t.dropWhile isReSpace = d
          rw [greedy1_only]
          · rw [rx_take_dropWhile]
            dsimp only
            cases d with
            | nil => rw [if_pos (by rfl), if_neg (by simp)]; rfl
            | cons x d =>
              by_cases ha : (x :: d).all isDigit = true
              · have hx : isDigit x = true := by rw [List.all_cons, Bool.and_eq_true] at ha; exact ha.1
                have htw : (x :: d).takeWhile isDigit = x :: d := by
                  rw [← rx_take_dropWhile, (rx_all_iff_dropWhile _).2 ha, Nat.sub_zero, List.take_length]
                rw [htw, if_neg (by simp), if_pos ((rx_all_iff_dropWhile _).2 ha), if_pos ⟨hn, hs, by simp, ha⟩]
                rfl
              · rw [if_neg (c := _ ∧ _) (fun h => ha h.2.2.2), if_neg (c := _ = 0) (fun h => ha ((rx_all_iff_dropWhile _).1 h))]
                split <;> rfl
          · intro x rest _; rfl
      · intro x rest hx
        dsimp only
        unfold greedy1
        dsimp only
        rw [if_neg]
        rw [rx_space_not_digit hx]; decide
  · intro x rest hx
    dsimp only
    unfold greedy1
    dsimp only
    rw [if_neg]
    rw [rx_digit_not_space hx]; decide

theorem first_lit {β : Type} (r : Rx) (total : Nat) (k : RxState Char → Option β) : ∀ (w : Str) (st : RxState Char),
    (litRx w r).first id total st k =
      if w.isPrefixOf st.rest then r.first id total ⟨st.rest.drop w.length, st.caps⟩ k else none
  | [], st => rfl
  | c :: w, st => by
    obtain ⟨s, caps⟩ := st
    unfold litRx
    rw [first_seq, first_rune]
    cases s with
    | nil => rfl
    | cons x s =>
      dsimp only
      rw [first_lit r total k w, single_has]
      by_cases hx : x = c
      · subst hx
        rw [if_pos (by simp)]
        simp
      · have : List.isPrefixOf (c :: w) (x :: s) = false := by
          simp only [List.isPrefixOf, Bool.and_eq_false_iff, beq_eq_false_iff_ne]
          exact .inl (fun h => hx h.symm)
        rw [this, if_neg (by simpa using hx)]
        rfl

/-- Any text up to the last separator behind which the rest of the expression matches. -/
theorem greedy_split {β γ : Type} (sep : Str) (f : Str → Option β) (h : Str → β → γ) (caps : List (Nat × Str))
    (k : RxState Char → Option γ) : ∀ (s pre : Str),
    (∀ t, k ⟨t, caps⟩ = if sep.isPrefixOf t then
      (f (t.drop sep.length)).map (h ((pre ++ s).take ((pre ++ s).length - t.length))) else none) →
    greedy (fun _ => true) caps k s = (splitLast sep f s).map fun (p, a) => h (pre ++ p) a
  | [], pre, hk => by
    unfold greedy splitLast
    rw [hk]
    cases sep with
    | nil =>
      rw [if_pos rfl, if_pos (by rfl), Option.map_map]
      simp [Function.comp_def]
    | cons c sep =>
      rw [if_neg (by simp), if_neg (by simp)]
      rfl
  | x :: s, pre, hk => by
    unfold greedy splitLast
    rw [if_pos rfl, greedy_split sep f h caps k s (pre ++ [x]) (by
      intro t
      rw [hk t, List.append_assoc]
      rfl)]
    cases splitLast sep f s with
    | some q => simp
    | none =>
      show k _ = _
      dsimp only
      rw [hk]
      have : (pre ++ x :: s).take ((pre ++ x :: s).length - (x :: s).length) = pre := by
        rw [List.length_append, Nat.add_sub_cancel, List.take_left]
      rw [this]
      by_cases hp : sep.isPrefixOf (x :: s) = true
      · rw [if_pos hp, if_pos hp, Option.map_map]
        congr 1
        funext a
        simp
      · rw [if_neg hp, if_neg hp]
        rfl

/-- The groups of `sourceRe`. -/
theorem groups_source (s : Str) : groupsIn id sourceRe s = (matchSource s).map fun (i, o, r) => [i, o, r] := by
  rw [groups_bot compile_source, first_lit]
  unfold matchSource
  by_cases hp : chars!"input:\n".isPrefixOf s = true
  · rw [if_pos hp, if_pos hp]
    dsimp only
    rw [show s.drop (chars!"input:\n").length = s.drop 7 from rfl]
    generalize s.drop 7 = t
    simp only [first_seq, first_cap, first_empty, first_plus_rune, first_star_rune, dotAll_has, first_lit, greedy_total]
    -- what follows the first group
    have inner : ∀ (caps : List (Nat × Str)) (u : Str),
        greedy (fun _ => true) caps (fun st' =>
          if chars!"\nrand:".isPrefixOf st'.rest then
            some ((List.range 3).map fun i => groupOf
              ((3, (st'.rest.drop 6).take ((st'.rest.drop 6).length - ((st'.rest.drop 6).dropWhile fun _ => true).length)) ::
                (2, u.take (u.length - st'.rest.length)) :: st'.caps) (i + 1))
          else none) u =
        (splitLast chars!"\nrand:" some u).map fun (o, r) =>
          (List.range 3).map fun i => groupOf ((3, r) :: (2, o) :: caps) (i + 1) := by
      intro caps u
      rw [greedy_split chars!"\nrand:" some
        (fun o r => (List.range 3).map fun i => groupOf ((3, r) :: (2, o) :: caps) (i + 1)) caps _ u [] ?_]
      · rfl
      · intro v
        dsimp only
        have : ∀ v : Str, v.take (v.length - (v.dropWhile fun _ => true).length) = v := by
          intro v
          rw [rx_take_dropWhile]
          induction v with
          | nil => rfl
          | cons x v ih => rw [List.takeWhile_cons, if_pos rfl, ih]
        rw [this]
        rfl
    cases t with
    | nil => rfl
    | cons x u =>
      unfold greedy1
      dsimp only
      rw [if_pos rfl, greedy_split chars!"\noutput:" (splitLast chars!"\nrand:" some)
        (fun i (b : Str × Str) => [i, b.1, b.2]) [] _ u [x] ?_]
      · cases hu : splitLast chars!"\noutput:" (splitLast chars!"\nrand:" some) u with
        | some q =>
          rw [show splitLast chars!"\noutput:" (splitLast chars!"\nrand:" some) (x :: u) = some (x :: q.1, q.2) by
            rw [splitLast, hu]]
          rfl
        | none =>
          rw [show splitLast chars!"\noutput:" (splitLast chars!"\nrand:" some) (x :: u) =
              if chars!"\noutput:".isPrefixOf (x :: u) then
                (splitLast chars!"\nrand:" some ((x :: u).drop 8)).map (fun a => (([] : Str), a)) else none by
            rw [splitLast, hu]; rfl]
          by_cases hx : chars!"\noutput:".isPrefixOf (x :: u) = true
          · rw [if_pos hx]
            cases splitLast chars!"\nrand:" some ((x :: u).drop 8) with
            | none => rfl
            | some q => rfl
          · rw [if_neg hx]
            rfl
      · intro v
        dsimp only
        by_cases hv : chars!"\noutput:".isPrefixOf v = true
        · rw [if_pos hv, if_pos hv]
          refine (inner _ _).trans ?_
          rfl
        · rw [if_neg hv, if_neg hv]
  · rw [if_neg hp, if_neg hp]
    rfl


theorem name_has (x : Char) : (RuneClass.mk false [('-', '-'), ('a', 'z')]).has x = isNameChar x := by
  have := single_has '-' x
  unfold RuneClass.has at this ⊢
  simp only [List.any_cons, List.any_nil, Bool.or_false, Bool.bne_false] at this ⊢
  rw [this]
  rfl

theorem rounds_ne_nil (one : RxState α → List (RxState α)) (n : Nat) (st : RxState α) : rxRounds one n st ≠ [] := by
  cases n <;> simp [rxRounds]

/-- A round that takes something is followed by more rounds. -/
theorem rounds_head_step {one : RxState α → List (RxState α)} {n : Nat} {st st1 : RxState α}
    (h : (one st).head? = some st1) (hlt : st1.rest.length < st.rest.length) :
    (rxRounds one (n + 1) st).head? = (rxRounds one n st1).head? := by
  show (((one st).filter fun st' => decide (st'.rest.length < st.rest.length)).flatMap (rxRounds one n) ++ [st]).head? = _
  cases ho : one st with
  | nil => rw [ho] at h; cases h
  | cons a l =>
    rw [ho] at h
    cases h
    rw [List.filter_cons, if_pos (by simpa using hlt), List.flatMap_cons]
    cases hr : rxRounds one n st1 with
    | nil => exact absurd hr (rounds_ne_nil _ _ _)
    | cons b l' => rfl

theorem rounds_head_stop {one : RxState α → List (RxState α)} {n : Nat} {st : RxState α}
    (h : (one st).head? = none) : (rxRounds one n st).head? = some st := by
  cases n with
  | zero => rfl
  | succ n =>
    unfold rxRounds
    rw [List.head?_eq_none_iff.1 h]
    rfl

/-- One round of `\s+(.+)`. -/
def argRx : Rx := .seq (.plus (.rune ⟨false, spaceRanges⟩)) (.seq (.cap 2 (.seq (.plus (.rune (reDot false))) .empty)) .empty)

theorem rx_space_newline : isReSpace '\n' = true := by decide

theorem rx_getLast?_append_of_ne {a b : Str} (h : b ≠ []) : (a ++ b).getLast? = b.getLast? := by
  rw [List.getLast?_append]
  cases hb : b.getLast? with
  | none => exact absurd (List.getLast?_eq_none_iff.1 hb) h
  | some c => rfl

theorem arg_round {total : Nat} {s : Str} {caps : List (Nat × Str)} (hs : s ≠ [])
    (hh : ∀ c ∈ s.head?, isReSpace c = true) (hl : ∀ c ∈ s.getLast?, isReSpace c = false) :
    (argRx.ways id total ⟨s, caps⟩).head? = some ⟨((s.dropWhile isReSpace).dropWhile fun x => decide (x ≠ '\n')),
      (2, (s.dropWhile isReSpace).takeWhile fun x => decide (x ≠ '\n')) :: caps⟩ ∧
    s.dropWhile isReSpace ≠ [] := by
  have hne : s.dropWhile isReSpace ≠ [] := by
    intro h
    have h' := (rx_all_iff_dropWhile (p := isReSpace) s).1 (by rw [h]; rfl)
    obtain ⟨c, hc⟩ : ∃ c, s.getLast? = some c := by
      cases hb : s.getLast? with
      | none => exact absurd (List.getLast?_eq_none_iff.1 hb) hs
      | some c => exact ⟨c, rfl⟩
    have := hl c hc
    rw [List.all_eq_true.1 h' c (List.mem_of_getLast? hc)] at this
    cases this
  refine ⟨?_, hne⟩
  rw [rx_head?_eq_findSome?]
  show argRx.first id total ⟨s, caps⟩ some = _
  unfold argRx
  simp only [first_seq, first_cap, first_empty, first_plus_rune, reSpace_has, dot_has, id]
  apply greedy1_longest
  · cases s with
    | nil => exact absurd rfl hs
    | cons x s => rw [List.takeWhile_cons, if_pos (hh x rfl)]; simp
  · apply greedy1_longest
    · cases hd : s.dropWhile isReSpace with
      | nil => exact absurd hd hne
      | cons x t =>
        have hx := rx_dropWhile_head hd
        rw [List.takeWhile_cons, if_pos]
        · simp
        · simp only [decide_eq_true_eq]
          rintro rfl
          rw [rx_space_newline] at hx
          cases hx
    · rw [rx_take_dropWhile]

theorem rx_takeWhile_all {p : Char → Bool} {s : Str} (h : ∀ x ∈ s, p x = true) : s.takeWhile p = s := by
  have := List.takeWhile_append_of_pos (l₁ := s) (l₂ := []) h
  rwa [List.append_nil, List.takeWhile_nil, List.append_nil] at this

theorem rx_takeWhile_imp {p : Char → Bool} {s : Str} {x : Char} (h : x ∈ s.takeWhile p) : p x = true := by
  induction s with
  | nil => cases h
  | cons y s ih =>
    rw [List.takeWhile_cons] at h
    split at h
    · rename_i hy
      rcases List.mem_cons.1 h with h | h
      · rw [h]; exact hy
      · exact ih h
    · cases h

theorem rx_lastLine_append {a b : Str} (h : '\n' ∈ b) : lastLine (a ++ b) = lastLine b := by
  unfold lastLine
  rw [List.reverse_append]
  have key : ∀ (u v : Str), '\n' ∈ u → (u ++ v).takeWhile (fun x => decide (x ≠ '\n')) = u.takeWhile (fun x => decide (x ≠ '\n')) := by
    intro u v hu
    induction u with
    | nil => cases hu
    | cons x u ih =>
      rw [List.cons_append, List.takeWhile_cons, List.takeWhile_cons]
      by_cases hx : x = '\n'
      · simp [hx]
      · rw [ih (by
          rcases List.mem_cons.1 hu with h | h
          · exact absurd h.symm hx
          · exact h)]
  rw [key _ _ (List.mem_reverse.2 h)]

theorem rx_lastLine_no {s : Str} (h : '\n' ∉ s) : lastLine s = s := by
  unfold lastLine
  have : s.reverse.takeWhile (fun x => decide (x ≠ '\n')) = s.reverse := by
    apply rx_takeWhile_all
    intro x hx
    simp only [decide_eq_true_eq]
    rintro rfl
    exact h (List.mem_reverse.1 hx)
  rw [this, List.reverse_reverse]

theorem lastLine_drop_spaces : ∀ (s : Str), s.dropWhile isReSpace ≠ [] → '\n' ∉ s.dropWhile isReSpace →
    (lastLine s).dropWhile isReSpace = s.dropWhile isReSpace
  | [], h, _ => absurd rfl h
  | x :: s, h, hn => by
    by_cases hm : '\n' ∈ x :: s
    · have hx : isReSpace x = true := by
        cases hc : isReSpace x
        · rw [List.dropWhile_cons, hc] at hn
          exact absurd hm hn
        · rfl
      rw [List.dropWhile_cons, if_pos hx] at h hn
      rw [List.dropWhile_cons, if_pos hx]
      by_cases hm' : '\n' ∈ s
      · rw [show x :: s = [x] ++ s from rfl, rx_lastLine_append hm']
        exact lastLine_drop_spaces s h hn
      · have hx' : x = '\n' := by
          rcases List.mem_cons.1 hm with h | h
          · exact h.symm
          · exact absurd h hm'
        subst hx'
        have : lastLine ('\n' :: s) = s := by
          unfold lastLine
          rw [List.reverse_cons]
          have := rx_lastLine_no hm'
          unfold lastLine at this
          rw [List.takeWhile_append_of_pos (l₁ := s.reverse)]
          · simp
          · intro y hy
            simp only [decide_eq_true_eq]
            rintro rfl
            exact hm' (List.mem_reverse.1 hy)
        rw [this]
    · rw [rx_lastLine_no hm]

/-- All rounds of `(?:\s+(.+))*`. -/
theorem arg_rounds {total : Nat} : ∀ (n : Nat) (s : Str) (caps : List (Nat × Str)), s.length ≤ n → s ≠ [] →
    (∀ c ∈ s.head?, isReSpace c = true) → (∀ c ∈ s.getLast?, isReSpace c = false) →
    ∃ more, (∀ c ∈ more, c.1 = 2) ∧ (rxRounds (argRx.ways id total) n ⟨s, caps⟩).head? =
      some ⟨[], (2, (lastLine s).dropWhile isReSpace) :: (more ++ caps)⟩
  | 0, s, _, hn, hs, _, _ => absurd (List.length_eq_zero_iff.1 (Nat.le_zero.1 hn)) hs
  | n + 1, s, caps, hn, hs, hh, hl => by
    obtain ⟨h1, hne⟩ := arg_round (total := total) (caps := caps) hs hh hl
    have e1 : s.takeWhile isReSpace ++ s.dropWhile isReSpace = s := List.takeWhile_append_dropWhile
    generalize hu : s.dropWhile isReSpace = u at h1 hne e1
    have e2 : u.takeWhile (fun x => decide (x ≠ '\n')) ++ u.dropWhile (fun x => decide (x ≠ '\n')) = u :=
      List.takeWhile_append_dropWhile
    have hlt : (u.dropWhile fun x => decide (x ≠ '\n')).length < s.length := by
      have a := length_dropWhile_le' (fun x => decide (x ≠ '\n')) u
      have b := congrArg List.length e1
      rw [List.length_append] at b
      have : s.takeWhile isReSpace ≠ [] := by
        cases s with
        | nil => exact absurd rfl hs
        | cons x s => rw [List.takeWhile_cons, if_pos (hh x rfl)]; simp
      have := List.length_pos_iff.2 this
      omega
    rw [rounds_head_step h1 hlt]
    cases hd : u.dropWhile (fun x => decide (x ≠ '\n')) with
    | nil =>
      rw [hd, List.append_nil] at e2
      have hnn : '\n' ∉ u := by
        intro hm
        rw [← e2] at hm
        have := rx_takeWhile_imp hm
        simp at this
      refine ⟨[], by simp, ?_⟩
      rw [rounds_head_stop, e2, lastLine_drop_spaces s (by rw [hu]; exact hne) (by rw [hu]; exact hnn), hu]
      · rfl
      · rw [rx_head?_eq_findSome?]
        show argRx.first id total _ some = none
        unfold argRx
        rw [first_seq, first_plus_rune]
        rfl
    | cons x t =>
      have hx : x = '\n' := by simpa using rx_dropWhile_head hd
      subst hx
      rw [hd] at e2 hlt
      obtain ⟨more, hm, he⟩ := arg_rounds n ('\n' :: t) ((2, u.takeWhile (fun x => decide (x ≠ '\n'))) :: caps)
        (by omega) (by simp) (by rintro c hc; cases hc; exact rx_space_newline) (by
          intro c hc
          apply hl c
          rw [← e1, ← e2, ← List.append_assoc, rx_getLast?_append_of_ne (by simp)]
          exact hc)
      refine ⟨more ++ [(2, u.takeWhile (fun x => decide (x ≠ '\n')))], ?_, ?_⟩
      · intro c hc
        rcases List.mem_append.1 hc with h | h
        · exact hm c h
        · rw [List.mem_singleton.1 h]
      · rw [he, List.append_assoc]
        have : lastLine s = lastLine ('\n' :: t) := by
          rw [← e1, ← e2, ← List.append_assoc, rx_lastLine_append (by simp)]
        rw [this]
        rfl

theorem first_total {β : Type} {total : Nat} (r : Rx) (st : RxState α) (f : RxState α → β) :
    r.first rn total st (fun st' => some (f st')) = ((r.ways rn total st).head?).map f := by
  unfold Rx.first
  cases r.ways rn total st <;> rfl

theorem groups_command {s : Str} (hl : ∀ c ∈ s.getLast?, isReSpace c = false) :
    groupsIn id commandRe s = (matchCommand s).map fun (n, a) => [n, a] := by
  rw [groups_bot compile_command]
  simp only [first_seq, first_cap, first_empty, first_plus_rune, first_rune, name_has, single_has, id]
  unfold matchCommand
  cases s with
  | nil => rfl
  | cons x t =>
    dsimp only
    by_cases hx : x ≠ '.'
    · rw [if_neg (by simpa using hx)]
      split
      · rename_i h; cases h; exact absurd rfl hx
      · rfl
    have hx := Decidable.not_not.1 hx
    subst hx
    rw [if_pos (by decide)]
    show _ = Option.map _ (if t.takeWhile isNameChar = [] then none else match t.dropWhile isNameChar with
      | [] => some (t.takeWhile isNameChar, [])
      | c :: rest => if isReSpace c then some (t.takeWhile isNameChar, (lastLine (c :: rest)).dropWhile isReSpace)
        else some (t.takeWhile isNameChar, []))
    by_cases hn : t.takeWhile isNameChar = []
    · rw [if_pos hn]
      cases t with
      | nil => rfl
      | cons y t =>
        unfold greedy1
        dsimp only
        rw [if_neg]
        · rfl
        · intro hy
          rw [List.takeWhile_cons, if_pos hy] at hn
          cases hn
    rw [if_neg hn]
    have e : t.takeWhile isNameChar ++ t.dropWhile isNameChar = t := List.takeWhile_append_dropWhile
    cases hd : t.dropWhile isNameChar with
    | nil =>
      apply greedy1_longest hn
      dsimp only
      rw [rx_take_dropWhile, first_total, hd]
      rfl
    | cons c rest =>
      dsimp only
      by_cases hc : isReSpace c = true
      · rw [if_pos hc]
        apply greedy1_longest hn
        dsimp only
        rw [rx_take_dropWhile, first_total, hd]
        obtain ⟨more, hm, he⟩ := arg_rounds (total := ('.' :: t).length) (c :: rest).length (c :: rest)
          [(1, t.takeWhile isNameChar)] (Nat.le_refl _) (by simp) (by rintro _ h; cases h; exact hc) (by
            intro d hd'
            apply hl d
            rw [show '.' :: t = ('.' :: t.takeWhile isNameChar) ++ c :: rest by rw [← hd, List.cons_append, e],
              rx_getLast?_append_of_ne (by simp)]
            exact hd')
        change Option.map _ ((Rx.star argRx).ways id _ _).head? = _
        rw [show ((Rx.star argRx).ways id ('.' :: t).length ⟨c :: rest, [(1, t.takeWhile isNameChar)]⟩).head? = _ from he]
        show some [groupOf _ 1, groupOf _ 2] = _
        have g2 : groupOf ((2, (lastLine (c :: rest)).dropWhile isReSpace) :: (more ++ [(1, t.takeWhile isNameChar)])) 2 =
            (lastLine (c :: rest)).dropWhile isReSpace := rfl
        have g1 : groupOf ((2, (lastLine (c :: rest)).dropWhile isReSpace) :: (more ++ [(1, t.takeWhile isNameChar)])) 1 =
            t.takeWhile isNameChar := by
          unfold groupOf
          rw [List.find?_cons_of_neg (by simp), List.find?_append]
          have : more.find? (fun c => decide (c.1 = 1)) = none := by
            rw [List.find?_eq_none]
            intro c hc
            rw [hm c hc]
            decide
          rw [this]
          rfl
        rw [g1, g2]
      · rw [if_neg hc]
        apply greedy1_longest hn
        dsimp only
        rw [rx_take_dropWhile, first_total, hd]
        change Option.map _ ((Rx.star argRx).ways id _ _).head? = _
        rw [show ((Rx.star argRx).ways id ('.' :: t).length ⟨c :: rest, [(1, t.takeWhile isNameChar)]⟩).head? =
          some ⟨c :: rest, [(1, t.takeWhile isNameChar)]⟩ from by
            apply rounds_head_stop
            rw [rx_head?_eq_findSome?]
            show argRx.first id _ _ some = none
            unfold argRx
            rw [first_seq, first_plus_rune]
            unfold greedy1
            dsimp only
            exact if_neg (fun h => hc ((reSpace_has c).symm.trans h))]
        rfl

/-! ## `\s+\z` -/

theorem rx_trimRight_all {s : Str} (h : s.all isReSpace = true) : trimRightSpaces s = [] := by
  unfold trimRightSpaces
  rw [List.length_eq_zero_iff.1 ((rx_all_iff_dropWhile s.reverse).2 (by rw [List.all_reverse]; exact h))]
  rfl

theorem rx_trimRight_cons {x : Char} {s : Str} (h : (x :: s).all isReSpace ≠ true) :
    trimRightSpaces (x :: s) = x :: trimRightSpaces s := by
  unfold trimRightSpaces
  rw [List.reverse_cons]
  by_cases hs : s.all isReSpace = true
  · have hx : isReSpace x = false := by
      cases hx : isReSpace x
      · rfl
      · exact absurd (by rw [List.all_cons, hx, hs]; rfl) h
    rw [List.length_eq_zero_iff.1 ((rx_all_iff_dropWhile s.reverse).2 (by rw [List.all_reverse]; exact hs))]
    rw [List.dropWhile_append, List.length_eq_zero_iff.1 ((rx_all_iff_dropWhile s.reverse).2 (by rw [List.all_reverse]; exact hs))]
    simp [hx]
  · have : s.reverse.dropWhile isReSpace ≠ [] := by
      intro e
      apply hs
      rw [← List.all_reverse]
      exact (rx_all_iff_dropWhile _).1 (by rw [e]; rfl)
    rw [List.dropWhile_append]
    cases hd : s.reverse.dropWhile isReSpace with
    | nil => exact absurd hd this
    | cons y t => simp

def tailRx : Rx := .seq (.plus (.rune ⟨false, spaceRanges⟩)) (.seq .eot .empty)

theorem tail_head (total : Nat) (s : Str) : (tailRx.ways id total ⟨s, []⟩).head? =
    if s ≠ [] ∧ s.all isReSpace = true then some ⟨[], []⟩ else none := by
  rw [rx_head?_eq_findSome?]
  show tailRx.first id total ⟨s, []⟩ some = _
  unfold tailRx
  simp only [first_seq, first_empty, first_plus_rune, first_eot, reSpace_has, id]
  rw [greedy1_only (by intro x rest _; rfl)]
  cases s with
  | nil => rfl
  | cons x s =>
    by_cases ha : (x :: s).all isReSpace = true
    · rw [if_pos (c := _ ∧ _) ⟨by simp, ha⟩, if_neg, List.length_eq_zero_iff.1 ((rx_all_iff_dropWhile (p := isReSpace) _).2 ha)]
      · rfl
      · rw [List.all_cons, Bool.and_eq_true] at ha
        rw [List.takeWhile_cons, if_pos ha.1]
        simp
    · rw [if_neg (c := _ ∧ _) (fun h => ha h.2)]
      split
      · rfl
      · dsimp only
        rw [if_neg (fun h => ha ((rx_all_iff_dropWhile _).1 h))]

theorem tail_search (total : Nat) : ∀ s : Str, tailRx.search id total s =
    if (∀ c ∈ s.getLast?, isReSpace c = false) then none else some (trimRightSpaces s, ⟨[], []⟩)
  | [] => by
    unfold Rx.search
    rw [tail_head, if_neg (by simp), if_pos (by simp)]
    rfl
  | x :: s => by
    unfold Rx.search
    rw [tail_head]
    by_cases ha : (x :: s).all isReSpace = true
    · rw [if_pos (c := _ ∧ _) ⟨by simp, ha⟩, if_neg, rx_trimRight_all ha]
      intro h
      have hm := List.getLast?_eq_some_getLast (l := x :: s) (by simp)
      have := h _ hm
      rw [List.all_eq_true.1 ha _ (List.getLast_mem _)] at this
      cases this
    · rw [if_neg (c := _ ∧ _) (fun h => ha h.2)]
      dsimp only
      rw [tail_search total s, rx_trimRight_cons ha]
      cases s with
      | nil =>
        rw [if_pos (by simp), if_pos]
        · rfl
        · intro c hc
          cases hc
          simpa using ha
      | cons y t =>
        rw [List.getLast?_cons_cons]
        split <;> rfl

/-- `ReplaceAllString` of `tailSpacesRe` by nothing. -/
theorem delete_tail (s : Str) : deleteIn id tailSpacesRe s = some (trimRightSpaces s) := by
  unfold deleteIn
  rw [compile_tail]
  show some (deleteAll id (tailRx, 0) s) = _
  unfold deleteAll Rx.deleteFrom
  dsimp only
  rw [tail_search]
  by_cases h : ∀ c ∈ s.getLast?, isReSpace c = false
  · rw [if_pos h]
    congr 1
    unfold trimRightSpaces
    cases hr : s.reverse with
    | nil => rw [List.reverse_eq_nil_iff.1 hr]; rfl
    | cons x t =>
      have : s.getLast? = some x := by rw [List.getLast?_eq_head?_reverse, hr]; rfl
      rw [List.dropWhile_cons, if_neg (by rw [h x this]; decide), ← hr, List.reverse_reverse]
  · rw [if_neg h]
    dsimp only
    split
    · simp
    · rfl
end GoBCDice
