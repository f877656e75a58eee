import Verif.Props.TestcaseFile

/-!
# C77: which texts are test cases
-/

namespace GoBCDice

theorem prefix_or_of_append_eq {α : Type} {a b c d : List α} (h : a ++ b = c ++ d) (hl : a.length ≤ c.length) :
    ∃ m, c = a ++ m ∧ b = m ++ d := by
  rcases List.append_eq_append_iff.1 h with ⟨m, h1, h2⟩ | ⟨m, h1, h2⟩
  · exact ⟨m, h1, h2⟩
  · have : m = [] := by
      have := congrArg List.length h1
      simp only [List.length_append] at this
      exact List.eq_nil_of_length_eq_zero (by omega)
    subst this
    exact ⟨[], by simpa using h1.symm, by simpa using h2.symm⟩

/-- What `splitLast` finds. -/
theorem splitLast_iff {α : Type} {sep : Str} {f : Str → Option α} (hsep : sep ≠ []) :
    ∀ {s p : Str} {a : α}, splitLast sep f s = some (p, a) ↔
      ∃ r, s = p ++ sep ++ r ∧ f r = some a ∧
        ∀ p' r', s = p' ++ sep ++ r' → f r' ≠ none → p'.length ≤ p.length := by
  intro s
  induction s with
  | nil =>
    intro p a
    simp only [splitLast, hsep, if_false]
    constructor
    · intro h; cases h
    · rintro ⟨r, h, -⟩
      have := congrArg List.length h
      simp only [List.length_nil, List.length_append] at this
      exact absurd (List.eq_nil_of_length_eq_zero (by omega)) hsep
  | cons x xs ih =>
    intro p a
    simp only [splitLast]
    cases hx : splitLast sep f xs with
    | some pa =>
      obtain ⟨p1, a1⟩ := pa
      obtain ⟨r1, h1, h2, h3⟩ := ih.1 hx
      simp only [Option.some.injEq, Prod.mk.injEq]
      constructor
      · rintro ⟨rfl, rfl⟩
        refine ⟨r1, by rw [h1]; rfl, h2, ?_⟩
        intro p' r' h hn
        cases p' with
        | nil => simp
        | cons y p' =>
          simp only [List.cons_append, List.cons.injEq] at h
          have := h3 p' r' h.2 hn
          simp only [List.length_cons]
          omega
      · rintro ⟨r, h, h4, h5⟩
        cases p with
        | nil =>
          have := h5 (x :: p1) r1 (by rw [h1]; rfl) (by rw [h2]; simp)
          simp at this
        | cons y p =>
          simp only [List.cons_append, List.cons.injEq] at h
          obtain ⟨rfl, h⟩ := h
          have k := ih.2 ⟨r, h, h4, fun p' r' h6 h7 => by
            have := h5 (x :: p') r' (by rw [h6]; rfl) h7
            simp only [List.length_cons] at this
            omega⟩
          rw [hx] at k
          cases k
          exact ⟨rfl, rfl⟩
    | none =>
      have hnone : ∀ p' r', xs = p' ++ sep ++ r' → f r' = none := by
        intro p' r' h
        -- the longest accepted division would have been found
        have aux : ∀ n p r, xs = p ++ sep ++ r → xs.length - p.length ≤ n → f r = none := by
          intro n
          induction n with
          | zero =>
            intro p r hp hn
            have := congrArg List.length hp
            simp only [List.length_append] at this
            exact absurd (List.eq_nil_of_length_eq_zero (by omega)) hsep
          | succ n ihn =>
            intro p r hp hn
            cases hr : f r with
            | none => rfl
            | some b =>
              exfalso
              have := ih (p := p) (a := b)
              rw [hx] at this
              have h8 := mt this.2 (by simp)
              apply h8
              refine ⟨r, hp, hr, ?_⟩
              intro p' r' h6 h7
              by_cases hlt : p'.length ≤ p.length
              · exact hlt
              · exact absurd (ihn p' r' h6 (by omega)) h7
        exact aux _ p' r' h (Nat.le_refl _)
      simp only
      split
      · next hpre =>
        obtain ⟨t, ht⟩ := List.isPrefixOf_iff_prefix.1 hpre
        have hdrop : (x :: xs).drop sep.length = t := by rw [← ht]; simp
        rw [hdrop]
        constructor
        · intro h
          cases hf : f t with
          | none => rw [hf] at h; cases h
          | some b =>
            rw [hf] at h
            cases h
            refine ⟨t, by simpa using ht.symm, hf, ?_⟩
            intro p' r' h1 h2
            cases p' with
            | nil => simp
            | cons y p' =>
              simp only [List.cons_append, List.cons.injEq] at h1
              exact absurd (hnone p' r' h1.2) h2
        · rintro ⟨r, h1, h2, h3⟩
          cases p with
          | nil =>
            have : r = t := by
              rw [← ht] at h1
              simpa using h1.symm
            subst this
            rw [h2]; rfl
          | cons y p =>
            simp only [List.cons_append, List.cons.injEq] at h1
            rw [hnone p r h1.2] at h2
            cases h2
      · next hpre =>
        constructor
        · intro h; cases h
        · rintro ⟨r, h1, h2, h3⟩
          cases p with
          | nil =>
            exact absurd (List.isPrefixOf_iff_prefix.2 ⟨r, by simpa using h1.symm⟩) hpre
          | cons y p =>
            simp only [List.cons_append, List.cons.injEq] at h1
            rw [hnone p r h1.2] at h2
            cases h2

theorem splitLast_exists {α : Type} {sep : Str} {f : Str → Option α} (hsep : sep ≠ []) {s p r : Str}
    (h : s = p ++ sep ++ r) (hf : f r ≠ none) : ∃ x, splitLast sep f s = some x := by
  cases hs : splitLast sep f s with
  | some x => exact ⟨x, rfl⟩
  | none =>
    exfalso
    have aux : ∀ n p r, s = p ++ sep ++ r → s.length - p.length ≤ n → f r = none := by
      intro n
      induction n with
      | zero =>
        intro p r hp hn
        have := congrArg List.length hp
        simp only [List.length_append] at this
        exact absurd (List.eq_nil_of_length_eq_zero (by omega)) hsep
      | succ n ihn =>
        intro p r hp hn
        cases hr : f r with
        | none => rfl
        | some b =>
          exfalso
          have h8 := mt (splitLast_iff (f := f) hsep (s := s) (p := p) (a := b)).2 (by rw [hs]; simp)
          apply h8
          refine ⟨r, hp, hr, ?_⟩
          intro p' r' h6 h7
          by_cases hlt : p'.length ≤ p.length
          · exact hlt
          · exact absurd (ihn p' r' h6 (by omega)) h7
    exact hf (aux _ p r h (Nat.le_refl _))

theorem matchSource_iff (s i o d : Str) : matchSource s = some (i, o, d) ↔ CaseDivision s i o d := by
  unfold matchSource
  have h1 : (chars!"\noutput:") ≠ [] := by decide
  have h2 : (chars!"\nrand:") ≠ [] := by decide
  -- sections of the text behind the head
  have sect : ∀ t i o d, CaseSections (chars!"input:\n" ++ t) i o d ↔
      (t = i ++ chars!"\noutput:" ++ (o ++ chars!"\nrand:" ++ d) ∧ i ≠ []) := by
    intro t i o d
    simp only [CaseSections, List.append_assoc, List.append_cancel_left_eq]
  split
  · next hpre =>
    obtain ⟨t, ht⟩ := List.isPrefixOf_iff_prefix.1 hpre
    subst ht
    have hd : (chars!"input:\n" ++ t).drop 7 = t := rfl
    rw [hd]
    cases hm : splitLast chars!"\noutput:" (splitLast chars!"\nrand:" some) t with
    | none =>
      simp only
      refine ⟨fun h => (by cases h), ?_⟩
      rintro ⟨h3, -⟩
      obtain ⟨h4, -⟩ := (sect _ _ _ _).1 h3
      exfalso
      obtain ⟨x, hx⟩ := splitLast_exists (f := some) h2 (s := o ++ chars!"\nrand:" ++ d) rfl (by simp)
      obtain ⟨y, hy⟩ := splitLast_exists h1 (f := splitLast chars!"\nrand:" some) h4 (by rw [hx]; simp)
      rw [hm] at hy; cases hy
    | some x =>
      obtain ⟨i1, o1, d1⟩ := x
      obtain ⟨r, h3, h4, h5⟩ := (splitLast_iff h1).1 hm
      obtain ⟨r', h6, h7, h8⟩ := (splitLast_iff h2).1 h4
      cases h7
      simp only
      -- the division found is maximal
      have max : ∀ i o d, t = i ++ chars!"\noutput:" ++ (o ++ chars!"\nrand:" ++ d) →
          i.length < i1.length ∨ i = i1 ∧ o.length ≤ o1.length := by
        intro i o d h9
        obtain ⟨x, hx⟩ := splitLast_exists (f := some) h2 (s := o ++ chars!"\nrand:" ++ d) rfl (by simp)
        have h10 := h5 _ _ h9 (by rw [hx]; simp)
        by_cases hlt : i.length < i1.length
        · exact .inl hlt
        · right
          have hlen : i.length = i1.length := by omega
          have e := h9.symm.trans h3
          simp only [List.append_assoc] at e
          obtain ⟨e1, e2⟩ := List.append_inj e hlen
          refine ⟨e1, ?_⟩
          have e3 := List.append_cancel_left e2
          refine h8 o d ?_ (by simp)
          rw [← e3]; simp
      by_cases hi : i1 = []
      · rw [if_pos hi]
        refine ⟨fun h => (by cases h), ?_⟩
        rintro ⟨h9, -⟩
        obtain ⟨h10, h11⟩ := (sect _ _ _ _).1 h9
        rcases max i o d h10 with h12 | ⟨h12, -⟩
        · rw [hi] at h12; simp at h12
        · exact absurd (h12.trans hi) h11
      · rw [if_neg hi]
        have hsec : CaseSections (chars!"input:\n" ++ t) i1 o1 d1 := (sect _ _ _ _).2 ⟨by rw [h3, h6], hi⟩
        constructor
        · intro h
          cases h
          refine ⟨hsec, ?_⟩
          intro i' o' d' h9
          exact max i' o' d' ((sect _ _ _ _).1 h9).1
        · rintro ⟨h9, h10⟩
          have k1 := max i o d ((sect _ _ _ _).1 h9).1
          have k2 := h10 _ _ _ hsec
          have e1 : i = i1 := by
            rcases k1 with k1 | ⟨k1, -⟩
            · rcases k2 with k2 | ⟨k2, -⟩
              · omega
              · exact k2.symm
            · exact k1
          have e2 : o.length = o1.length := by
            subst e1
            rcases k1 with k1 | ⟨-, k1⟩
            · omega
            · rcases k2 with k2 | ⟨-, k2⟩
              · omega
              · omega
          have e := h9.1.symm.trans hsec.1
          subst e1
          simp only [List.append_assoc, List.append_cancel_left_eq] at e
          obtain ⟨e3, e4⟩ := List.append_inj e e2
          have e5 := List.append_cancel_left e4
          rw [e3, e5]
  · next hpre =>
    refine ⟨fun h => (by cases h), ?_⟩
    rintro ⟨⟨h3, -⟩, -⟩
    exfalso
    apply hpre
    rw [List.isPrefixOf_iff_prefix]
    refine ⟨i ++ chars!"\noutput:" ++ o ++ chars!"\nrand:" ++ d, ?_⟩
    rw [h3]
    simp

theorem matchSource_none (s : Str) (h : matchSource s = none) : ∀ i o d, ¬ CaseSections s i o d := by
  intro i o d hs
  unfold matchSource at h
  have h1 : (chars!"\noutput:") ≠ [] := by decide
  have h2 : (chars!"\nrand:") ≠ [] := by decide
  obtain ⟨e, hi⟩ := hs
  have e' : s = chars!"input:\n" ++ (i ++ chars!"\noutput:" ++ (o ++ chars!"\nrand:" ++ d)) := by
    rw [e]; simp
  generalize ht : i ++ chars!"\noutput:" ++ (o ++ chars!"\nrand:" ++ d) = t at e'
  subst e'
  have hpre : (chars!"input:\n").isPrefixOf (chars!"input:\n" ++ t) = true :=
    List.isPrefixOf_iff_prefix.2 ⟨t, rfl⟩
  rw [if_pos hpre] at h
  have hd : (chars!"input:\n" ++ t).drop 7 = t := rfl
  rw [hd] at h
  obtain ⟨x, hx⟩ := splitLast_exists (f := some) h2 (s := o ++ chars!"\nrand:" ++ d) rfl (by simp)
  obtain ⟨y, hy⟩ := splitLast_exists h1 (f := splitLast chars!"\nrand:" some) ht.symm (by rw [hx]; simp)
  rw [hy] at h
  obtain ⟨i1, o1, d1⟩ := y
  simp only at h
  split at h
  · next h0 =>
    subst h0
    obtain ⟨r, h3, h4, h5⟩ := (splitLast_iff h1).1 hy
    have := h5 _ _ ht.symm (by rw [hx]; simp)
    simp only [List.length_nil, Nat.le_zero] at this
    exact hi (List.eq_nil_of_length_eq_zero this)
  · cases h

theorem dropNewlines (s : Str) : WithoutLeadingNewlines s (s.dropWhile (· = '\n')) := by
  induction s with
  | nil => exact ⟨0, by simp⟩
  | cons x xs ih =>
    by_cases hx : x = '\n'
    · subst hx
      obtain ⟨n, h1, h2⟩ := ih
      refine ⟨n + 1, ?_, ?_⟩
      · simp only [List.dropWhile_cons, decide_true, if_true, List.replicate_succ, List.cons_append]
        rw [← h1]
      · simpa [List.dropWhile_cons] using h2
    · refine ⟨0, ?_, ?_⟩
      · simp [hx]
      · simp [hx]

theorem splitLines (s : Str) : LinesOf s (splitChar '\n' s) := by
  obtain ⟨h1, h2⟩ := splitChar_join '\n' s
  exact ⟨splitChar_ne_nil _ _, h2, h1.symm⟩

/-- C77: every text either has no division into the three sections, and is refused with an error
that names the game and the number of the test case; or it is read by its division with the longest
input, then the longest output: the input by lines, the output without the newlines it starts with,
and the dice by the notation of C48, whose error is returned if they are malformed. -/
theorem C77_case (isPrint : Char → Bool) (source gameID : Str) (index : Int64) :
    (∀ i o d, ¬ CaseSections source i o d) ∧
      parseCase isPrint source gameID index =
        .err (chars!"Parse: " ++ gameID ++ chars!"#" ++ intStr index ++ chars!": テストケース構文エラー") ∨
    ∃ i o d, CaseDivision source i o d ∧
      ((∃ lines out ds, LinesOf i lines ∧ WithoutLeadingNewlines o out ∧ DiceText d ds ∧
          parseCase isPrint source gameID index = .ok ⟨gameID, index, lines, out, ds⟩) ∨
        (∀ ds, ¬ DiceText d ds) ∧ ∃ e, parseDice isPrint d = .err e ∧
          parseCase isPrint source gameID index = .err e) := by
  cases hm : matchSource source with
  | none =>
    left
    refine ⟨matchSource_none source hm, ?_⟩
    simp only [parseCase, hm]
    rfl
  | some x =>
    obtain ⟨i, o, d⟩ := x
    right
    refine ⟨i, o, d, (matchSource_iff _ _ _ _).1 hm, ?_⟩
    cases hd : parseDice isPrint d with
    | ok ds =>
      left
      exact ⟨_, _, ds, splitLines i, dropNewlines o, (C48_language isPrint d ds).1 hd, by
        simp only [parseCase, hm, hd]⟩
    | err e =>
      right
      refine ⟨?_, e, rfl, by simp only [parseCase, hm, hd]⟩
      intro ds h
      rw [← C48_language isPrint] at h
      rw [h] at hd; cases hd
    | panic m =>
      exfalso
      rcases C48_error isPrint d with ⟨ds, h⟩ | ⟨_, _, _, _, _, _, h⟩ <;> rw [h] at hd <;> cases hd


theorem splitSeq_divided {sep : Str} (hsep : sep ≠ []) : ∀ (n : Nat) (s : Str), s.length ≤ n →
    Divided sep s (splitSeq sep s) := by
  intro n
  induction n with
  | zero =>
    intro s h
    have : s = [] := List.eq_nil_of_length_eq_zero (by omega)
    subst this
    refine .last ?_
    rintro ⟨a, b, h⟩
    simp at h
    exact hsep h.2.1
  | succ n ih =>
    intro s h
    cases s with
    | nil => exact ih [] (by simp)
    | cons x xs =>
      have hlen : xs.length ≤ n := by simpa using h
      unfold splitSeq
      simp only [splitSeqAux]
      split
      · next hpre =>
        obtain ⟨t, ht⟩ := List.isPrefixOf_iff_prefix.1 hpre
        obtain ⟨y, ys, hy⟩ := List.exists_cons_of_ne_nil hsep
        have e : xs = ys ++ t := by
          rw [hy] at ht
          simp only [List.cons_append, List.cons.injEq] at ht
          exact ht.2.symm
        have hl : sep.length - 1 = ys.length := by rw [hy]; simp
        rw [hl, e, splitSeqAux_skip]
        have ht' : Divided sep t (splitSeq sep t) := by
          refine ih t ?_
          have := congrArg List.length e
          simp only [List.length_append] at this
          omega
        rw [← e, ← ht]
        have := Divided.cut (a := []) (sep := sep) (b := t) (by simp) ht'
        exact this
      · next hpre =>
        have hd := ih xs hlen
        unfold splitSeq at hd
        generalize splitSeqAux sep 0 xs = ps at hd
        cases hd with
        | last hno =>
          simp only
          refine .last ?_
          rintro ⟨a, b, hab⟩
          cases a with
          | nil =>
            exact hpre (List.isPrefixOf_iff_prefix.2 ⟨b, by simpa using hab⟩)
          | cons z a =>
            simp only [List.cons_append, List.cons.injEq] at hab
            exact hno ⟨a, b, hab.2⟩
        | cut hfirst hrest =>
          rename_i a b parts
          simp only
          have := Divided.cut (sep := sep) (a := x :: a) (b := b) (parts := parts) ?_ hrest
          · simpa using this
          · intro p r hp
            cases p with
            | nil =>
              exfalso
              apply hpre
              refine List.isPrefixOf_iff_prefix.2 ⟨r, ?_⟩
              simpa using hp.symm
            | cons z p =>
              simp only [List.cons_append, List.cons.injEq] at hp
              have := hfirst p r hp.2
              simp only [List.length_cons]
              omega

theorem Divided.unique {sep : Str} {s : Str} {ps : List Str} (h : Divided sep s ps) :
    ∀ {qs : List Str}, Divided sep s qs → ps = qs := by
  induction h with
  | last hno =>
    intro qs hq
    cases hq with
    | last _ => rfl
    | cut _ _ => exact absurd ⟨_, _, rfl⟩ hno
  | cut hf hr ih =>
    rename_i a b parts
    intro qs hq
    generalize hs : a ++ sep ++ b = s at hq
    cases hq with
    | last hno => exact absurd ⟨a, b, hs⟩ hno
    | cut hf' hr' =>
      rename_i a' b' parts'
      have h1 := hf _ _ hs
      have h2 := hf' _ _ hs.symm
      simp only [List.append_assoc] at hs
      obtain ⟨e1, e2⟩ := List.append_inj hs (by omega)
      have e3 := List.append_cancel_left e2
      subst e1; subst e3
      rw [ih hr']

theorem parseCases_iff (isPrint : Char → Bool) (gameID : Str) : ∀ (ss : List Str) (i : Nat),
    (∃ cs, parseCases isPrint gameID (Int64.ofNat (i + 1)) ss = .ok cs ∧ cs.length = ss.length ∧
      ∀ k (h1 : k < ss.length) (h2 : k < cs.length),
        parseCase isPrint ss[k] gameID (Int64.ofNat (i + k + 1)) = .ok cs[k]) ∨
    ∃ k, ∃ (hk : k < ss.length), ∃ e,
      (∀ j (hj : j < k), ∃ c, parseCase isPrint (ss[j]'(by omega)) gameID (Int64.ofNat (i + j + 1)) = .ok c) ∧
      parseCase isPrint ss[k] gameID (Int64.ofNat (i + k + 1)) = .err e ∧
      parseCases isPrint gameID (Int64.ofNat (i + 1)) ss = .err e := by
  intro ss
  induction ss with
  | nil => intro i; left; exact ⟨[], rfl, rfl, fun k h => absurd h (by simp)⟩
  | cons s ss ih =>
    intro i
    have e1 : Int64.ofNat (i + 1) + 1 = Int64.ofNat (i + 1 + 1) := by
      rw [Int64.ofNat_add (i + 1) 1]; rfl
    have hcase := C77_case isPrint s gameID (Int64.ofNat (i + 1))
    have hno : ∀ m, parseCase isPrint s gameID (Int64.ofNat (i + 1)) ≠ .panic m := by
      intro m hm
      rcases hcase with ⟨-, h⟩ | ⟨_, _, _, -, ⟨_, _, _, -, -, -, h⟩ | ⟨-, _, -, h⟩⟩ <;>
        rw [h] at hm <;> cases hm
    cases hc : parseCase isPrint s gameID (Int64.ofNat (i + 1)) with
    | panic m => exact absurd hc (hno m)
    | err e =>
      right
      refine ⟨0, by simp, e, fun j hj => absurd hj (by omega), by simpa using hc, ?_⟩
      simp only [parseCases, hc]
    | ok c =>
      rcases ih (i + 1) with ⟨cs, h1, h2, h3⟩ | ⟨k, hk, e, h1, h2, h3⟩
      · left
        refine ⟨c :: cs, by simp only [parseCases, hc, e1, h1], by simp [h2], ?_⟩
        intro k k1 k2
        cases k with
        | zero => simpa using hc
        | succ k =>
          have := h3 k (by simpa using k1) (by simpa using k2)
          simp only [List.getElem_cons_succ]
          rw [← this]
          congr 2
          omega
      · right
        refine ⟨k + 1, by simpa using hk, e, ?_, ?_, by simp only [parseCases, hc, e1, h3]⟩
        · intro j hj
          cases j with
          | zero => exact ⟨c, by simpa using hc⟩
          | succ j =>
            obtain ⟨c', h'⟩ := h1 j (by omega)
            refine ⟨c', ?_⟩
            simp only [List.getElem_cons_succ]
            rw [← h']
            congr 2
            omega
        · simp only [List.getElem_cons_succ]
          rw [← h2]
          congr 2
          omega

theorem trimRight_spec (s : Str) : ∃ n, s = trimRightNewlines s ++ List.replicate n '\n' ∧
    (trimRightNewlines s).getLast? ≠ some '\n' := by
  obtain ⟨n, h1, h2⟩ := dropNewlines s.reverse
  refine ⟨n, ?_, ?_⟩
  · have := congrArg List.reverse h1
    rw [List.reverse_reverse, List.reverse_append, List.reverse_replicate] at this
    exact this
  · unfold trimRightNewlines
    rw [List.getLast?_reverse]
    exact h2

/-- C77: the contents of a file, without the newlines at its end, are divided at the lines of 28
equals signs, from the left; the parts are read as test cases number 1, 2, …; the first part that
cannot be read decides the error, otherwise all are returned in order. -/
theorem C77_file (isPrint : Char → Bool) (content gameID : Str) :
    ∃ body n parts, content = body ++ List.replicate n '\n' ∧ body.getLast? ≠ some '\n' ∧
      Divided (chars!"\n" ++ caseBar ++ chars!"\n") body parts ∧
      ((∃ cs, parseFile isPrint content gameID = .ok cs ∧ cs.length = parts.length ∧
          ∀ k (h1 : k < parts.length) (h2 : k < cs.length),
            parseCase isPrint parts[k] gameID (Int64.ofNat (k + 1)) = .ok cs[k]) ∨
        ∃ k, ∃ (hk : k < parts.length), ∃ e,
          (∀ j (hj : j < k), ∃ c,
            parseCase isPrint (parts[j]'(by omega)) gameID (Int64.ofNat (j + 1)) = .ok c) ∧
          parseCase isPrint parts[k] gameID (Int64.ofNat (k + 1)) = .err e ∧
          parseFile isPrint content gameID = .err e) := by
  obtain ⟨n, h1, h2⟩ := trimRight_spec content
  have e : chars!"\n" ++ caseBar ++ chars!"\n" = caseSeparator := caseSeparator_eq.symm
  refine ⟨_, n, splitSeq caseSeparator (trimRightNewlines content), h1, h2, ?_, ?_⟩
  · rw [e]; exact splitSeq_divided (by decide) _ _ (Nat.le_refl _)
  · have := parseCases_iff isPrint gameID (splitSeq caseSeparator (trimRightNewlines content)) 0
    simp only [Nat.zero_add] at this
    exact this

/-- C77: this division is unique. -/
theorem C77_division_unique (s : Str) (ps qs : List Str)
    (h : Divided (chars!"\n" ++ caseBar ++ chars!"\n") s ps)
    (h' : Divided (chars!"\n" ++ caseBar ++ chars!"\n") s qs) : ps = qs :=
  Divided.unique h h'

theorem parseFile_no_panic (isPrint : Char → Bool) (content gameID m : Str) :
    parseFile isPrint content gameID ≠ .panic m := by
  obtain ⟨_, _, _, -, -, -, ⟨_, h, -⟩ | ⟨_, _, _, -, -, h⟩⟩ := C77_file isPrint content gameID <;>
    rw [h] <;> intro h <;> cases h

theorem parseFilesLoop_err (isPrint : Char → Bool) (gameID : Str) : ∀ (files : List (Str × Str))
    (acc : List TestCase) (e : Str), parseFilesLoop isPrint gameID files acc = .err e ↔
    ∃ pre name content post e', files = pre ++ (name, content) :: post ∧
      (∀ f ∈ pre, ∃ cs, parseFile isPrint f.2 gameID = .ok cs) ∧
      parseFile isPrint content gameID = .err e' ∧ e = name ++ chars!": " ++ e' := by
  intro files
  induction files with
  | nil =>
    intro acc e
    refine ⟨fun h => (by cases h), ?_⟩
    rintro ⟨pre, name, content, post, e', h, -⟩
    simp at h
  | cons f files ih =>
    intro acc e
    obtain ⟨name, content⟩ := f
    simp only [parseFilesLoop]
    cases hf : parseFile isPrint content gameID with
    | panic m => exact absurd hf (parseFile_no_panic isPrint content gameID m)
    | err e1 =>
      simp only [Out.err.injEq]
      constructor
      · intro h
        exact ⟨[], name, content, files, e1, rfl, by simp, hf, h.symm⟩
      · rintro ⟨pre, name', content', post, e', h1, h2, h3, h4⟩
        cases pre with
        | nil =>
          simp only [List.nil_append, List.cons.injEq, Prod.mk.injEq] at h1
          obtain ⟨⟨rfl, rfl⟩, -⟩ := h1
          rw [hf] at h3; cases h3
          exact h4.symm
        | cons g pre =>
          simp only [List.cons_append, List.cons.injEq] at h1
          obtain ⟨rfl, -⟩ := h1
          obtain ⟨cs, h5⟩ := h2 (name, content) (by simp)
          rw [hf] at h5; cases h5
    | ok cs =>
      simp only
      rw [ih]
      constructor
      · rintro ⟨pre, name', content', post, e', h1, h2, h3, h4⟩
        refine ⟨(name, content) :: pre, name', content', post, e', by rw [h1]; rfl, ?_, h3, h4⟩
        intro g hg
        rcases List.mem_cons.1 hg with rfl | hg
        · exact ⟨cs, hf⟩
        · exact h2 g hg
      · rintro ⟨pre, name', content', post, e', h1, h2, h3, h4⟩
        cases pre with
        | nil =>
          simp only [List.nil_append, List.cons.injEq, Prod.mk.injEq] at h1
          obtain ⟨⟨rfl, rfl⟩, -⟩ := h1
          rw [hf] at h3; cases h3
        | cons g pre =>
          simp only [List.cons_append, List.cons.injEq] at h1
          exact ⟨pre, name', content', post, e', h1.2, fun x hx => h2 x (by simp [hx]), h3, h4⟩

/-- C77: several files fail exactly if one of them does, and then the error is that of the first
one that does, after its name. -/
theorem C77_files_error (isPrint : Char → Bool) (files : List (Str × Str)) (gameID e : Str) :
    parseFiles isPrint files gameID = .err e ↔
    ∃ pre name content post e', files = pre ++ (name, content) :: post ∧
      (∀ f ∈ pre, ∃ cs, parseFile isPrint f.2 gameID = .ok cs) ∧
      parseFile isPrint content gameID = .err e' ∧ e = name ++ chars!": " ++ e' :=
  parseFilesLoop_err isPrint gameID files [] e

/-- C77: otherwise the test cases of all files are returned in order, the same as read from the
single files except for their numbers, which count through (C56_files_numbered). -/
theorem C77_files (isPrint : Char → Bool) (files : List (Str × Str)) (gameID : Str)
    (css : List (List TestCase)) (hl : css.length = files.length)
    (h : ∀ k (h1 : k < files.length) (h2 : k < css.length),
      parseFile isPrint files[k].2 gameID = .ok css[k]) :
    ∃ cs, parseFiles isPrint files gameID = .ok cs ∧
      cs.map (fun c => (c.gameID, c.input, c.output, c.dice)) =
        css.flatten.map (fun c => (c.gameID, c.input, c.output, c.dice)) := by
  have main : ∀ (files : List (Str × Str)) (css : List (List TestCase)) (acc : List TestCase),
      css.length = files.length →
      (∀ k (h1 : k < files.length) (h2 : k < css.length),
        parseFile isPrint files[k].2 gameID = .ok css[k]) →
      ∃ cs, parseFilesLoop isPrint gameID files acc = .ok cs ∧
        cs.map (fun c => (c.gameID, c.input, c.output, c.dice)) =
          (acc ++ css.flatten).map (fun c => (c.gameID, c.input, c.output, c.dice)) := by
    intro files
    induction files with
    | nil =>
      intro css acc hl _
      have : css = [] := List.eq_nil_of_length_eq_zero hl
      subst this
      exact ⟨acc, rfl, by simp⟩
    | cons f files ih =>
      intro css acc hl h
      cases css with
      | nil => cases hl
      | cons c css =>
        have h0 := h 0 (by simp) (by simp)
        simp only [List.getElem_cons_zero] at h0
        obtain ⟨name, content⟩ := f
        simp only [parseFilesLoop, h0]
        obtain ⟨cs, h1, h2⟩ := ih css
          (acc ++ c.map (fun x => { x with index := x.index + Int64.ofNat acc.length }))
          (by simpa using hl) (fun k k1 k2 => by
            have := h (k + 1) (by simpa using k1) (by simpa using k2)
            simpa using this)
        refine ⟨cs, h1, ?_⟩
        rw [h2]
        simp only [List.map_append, List.flatten_cons, List.map_map, List.append_assoc]
        rfl
  obtain ⟨cs, h1, h2⟩ := main files css [] hl h
  exact ⟨cs, h1, by rw [h2, List.nil_append]⟩

/-- Non-vacuity: a division is greedy — the last line that starts with `output:` and is followed by
a line that starts with `rand:` begins the output. -/
example : parseCase (fun _ => true) chars!"input:\na\noutput:\nb\noutput:\nc\nrand:1/6" chars!"X" 3 =
    .ok ⟨chars!"X", 3, [chars!"a", chars!"output:", chars!"b"], chars!"c", [⟨1, 6⟩]⟩ := by decide

/-- Non-vacuity: malformed texts. -/
example : parseCase (fun _ => true) chars!"input:\n\noutput:\nrand:" chars!"X" 3 =
      .err chars!"Parse: X#3: テストケース構文エラー" ∧
    parseCase (fun _ => true) chars!"input:\na\noutput:\nrand:6" chars!"X" 3 =
      .err chars!"ParseDice: #1: \"6\": ダイス構文エラー" ∧
    parseFiles (fun _ => true) [(chars!"f.txt", chars!"input:\na\noutput:\nrand:\n"),
      (chars!"g.txt", chars!"x")] chars!"X" = .err chars!"g.txt: Parse: X#1: テストケース構文エラー" := by
  refine ⟨by decide, by decide, by decide⟩

end GoBCDice
