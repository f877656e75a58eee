import Verif.Lemmas.Testcase

/-! # Splitting test case files -/

namespace GoBCDice

theorem splitLast_none {α : Type} {sep : Str} {f : Str → Option α} (hsep : sep ≠ []) {s : Str} :
    (∀ p r, s = p ++ sep ++ r → f r = none) → splitLast sep f s = none := by
  induction s with
  | nil => intro _; simp [splitLast, hsep]
  | cons x xs ih =>
    intro h
    simp only [splitLast]
    rw [ih (fun p r e => h (x :: p) r (by rw [e]; rfl))]
    simp only
    split
    · rename_i hp
      rw [List.isPrefixOf_iff_prefix] at hp
      obtain ⟨r, hr⟩ := hp
      have := h [] r (by simpa using hr.symm)
      rw [← hr, List.drop_left, this]; rfl
    · rfl

/-- `splitLast` finds the split after which no accepted occurrence starts later. -/
theorem splitLast_some {α : Type} {sep : Str} {f : Str → Option α} (hsep : sep ≠ []) {p r : Str}
    {a : α} (hr : f r = some a)
    (h : ∀ q t, (p ++ sep ++ r) = q ++ sep ++ t → p.length < q.length → f t = none) :
    splitLast sep f (p ++ sep ++ r) = some (p, a) := by
  induction p with
  | nil =>
    cases sep with
    | nil => exact absurd rfl hsep
    | cons x sep' =>
      simp only [List.nil_append, List.cons_append, splitLast]
      rw [splitLast_none hsep]
      · simp only
        rw [if_pos]
        · have : (x :: (sep' ++ r)).drop (x :: sep').length = r := by
            rw [← List.cons_append, List.drop_left]
          rw [this, hr]; rfl
        · rw [List.isPrefixOf_iff_prefix]; exact ⟨r, rfl⟩
      · intro q t e
        apply h (x :: q) t
        · simp only [List.nil_append, List.cons_append, e]
        · simp
  | cons x p ih =>
    simp only [List.cons_append, splitLast]
    rw [ih (fun q t e hl => h (x :: q) t (by simp only [List.cons_append, e]) (by simpa using hl))]

theorem splitChar_append_gen (c : Char) (s t : Str) :
    splitChar c (s ++ [c] ++ t) = splitChar c s ++ splitChar c t := by
  induction s with
  | nil => simp [splitChar]
  | cons x xs ih =>
    simp only [List.cons_append, splitChar]
    split
    · rw [ih, List.cons_append]
    · rw [ih]
      cases hs : splitChar c xs with
      | nil => exact absurd hs (splitChar_ne_nil c xs)
      | cons p ps => simp

theorem splitChar_free_append {c : Char} {w s : Str} (h : c ∉ w) :
    ∃ p ps, splitChar c s = p :: ps ∧ splitChar c (w ++ s) = (w ++ p) :: ps := by
  induction w with
  | nil =>
    cases hs : splitChar c s with
    | nil => exact absurd hs (splitChar_ne_nil c s)
    | cons p ps => exact ⟨p, ps, rfl, by simpa using hs⟩
  | cons x w ih =>
    simp only [List.mem_cons, not_or] at h
    obtain ⟨p, ps, h1, h2⟩ := ih h.2
    refine ⟨p, ps, h1, ?_⟩
    simp only [List.cons_append, splitChar, if_neg (Ne.symm h.1), h2]

/-- A keyword after a newline starts a line other than the first. -/
theorem line_of_infix {kw q t s : Str} (hk : '\n' ∉ kw) (h : s = q ++ ('\n' :: kw) ++ t) :
    ∃ l ∈ (splitChar '\n' s).tail, kw <+: l := by
  have e : s = q ++ ['\n'] ++ (kw ++ t) := by rw [h]; simp
  obtain ⟨p, ps, h1, h2⟩ := splitChar_free_append (s := t) hk
  rw [e, splitChar_append_gen, h2]
  cases hq : splitChar '\n' q with
  | nil => exact absurd hq (splitChar_ne_nil _ _)
  | cons y ys =>
    refine ⟨kw ++ p, by simp, List.prefix_append _ _⟩

theorem splitChar_replicate (k : Nat) (s : Str) :
    splitChar '\n' (List.replicate k '\n' ++ s) = List.replicate k [] ++ splitChar '\n' s := by
  induction k with
  | zero => rfl
  | succ k ih => simp only [List.replicate_succ, List.cons_append, splitChar, if_true, ih]

theorem LinesOf.split {s : Str} {ls : List Str} (h : LinesOf s ls) : splitChar '\n' s = ls := by
  rw [h.2.2]; exact splitChar_of_join h.1 h.2.1

/-- Splitting a longer prefix off an append. -/
theorem longer_split {a b q t sep : Str} (h : a ++ b = q ++ sep ++ t) (hl : a.length ≤ q.length) :
    ∃ q', q = a ++ q' ∧ b = q' ++ sep ++ t := by
  rw [List.append_assoc] at h
  rcases List.append_eq_append_iff.mp h with ⟨c, h1, h2⟩ | ⟨c, h1, h2⟩
  · exact ⟨c, h1, by rw [h2, List.append_assoc]⟩
  · have : c = [] := by
      have := congrArg List.length h1
      rw [List.length_append] at this
      exact List.length_eq_zero_iff.mp (by omega)
    subst this
    exact ⟨[], by simpa using h1.symm, by simpa using h2.symm⟩

theorem matchSource_caseText {input : List Str} {k : Nat} {output dice : Str}
    (hin : LinesOf (join chars!"\n" input) input) (hne : input ≠ [[]]) {ols : List Str}
    (hout : LinesOf output ols) (hkw : ∀ l ∈ ols, ¬ chars!"output:" <+: l)
    (hd : '\n' ∉ dice) :
    matchSource (caseText input k output dice) =
      some (join chars!"\n" input, List.replicate k '\n' ++ output, dice) := by
  unfold matchSource caseText
  have e : chars!"input:\n" ++ join chars!"\n" input ++ chars!"\noutput:" ++
      List.replicate k '\n' ++ output ++ chars!"\nrand:" ++ dice =
      chars!"input:\n" ++ (join chars!"\n" input ++ chars!"\noutput:" ++
      (List.replicate k '\n' ++ output ++ chars!"\nrand:" ++ dice)) := by
    simp only [List.append_assoc]
  rw [e, if_pos (by rw [List.isPrefixOf_iff_prefix]; exact List.prefix_append _ _)]
  have e7 : (7 : Nat) = chars!"input:\n".length := rfl
  rw [e7, List.drop_left]
  have inner : splitLast chars!"\nrand:" some
      (List.replicate k '\n' ++ output ++ chars!"\nrand:" ++ dice) =
      some (List.replicate k '\n' ++ output, dice) := by
    apply splitLast_some (by simp) rfl
    intro q t he hl
    exfalso
    have he' : (List.replicate k '\n' ++ output ++ ['\n']) ++ (chars!"rand:" ++ dice) =
        q ++ chars!"\nrand:" ++ t := by rw [← he]; simp
    obtain ⟨q', -, hb⟩ := longer_split he' (by rw [List.length_append]; exact hl)
    have : '\n' ∈ chars!"rand:" ++ dice := by rw [hb]; simp
    rw [List.mem_append] at this
    rcases this with h | h
    · exact absurd h (by decide)
    · exact hd h
  rw [splitLast_some (by simp) inner]
  · simp only
    rw [if_neg]
    intro h0
    obtain ⟨hi1, hi2, hi3⟩ := hin
    apply hne
    have := splitChar_of_join hi1 hi2
    rw [h0] at this
    rw [← this]; rfl
  · intro q t he hl
    exfalso
    have he' : (join chars!"\n" input ++ ['\n']) ++
        (chars!"output:" ++ (List.replicate k '\n' ++ output ++ chars!"\nrand:" ++ dice)) =
        q ++ chars!"\noutput:" ++ t := by rw [← he]; simp
    obtain ⟨q', -, hb⟩ := longer_split he' (by rw [List.length_append]; exact hl)
    obtain ⟨l, hl, hpre⟩ := line_of_infix (kw := chars!"output:") (by decide) hb
    obtain ⟨p, ps, h1, h2⟩ := splitChar_free_append (c := '\n') (w := chars!"output:")
      (s := List.replicate k '\n' ++ output ++ chars!"\nrand:" ++ dice) (by decide)
    rw [h2] at hl
    have e2 : List.replicate k '\n' ++ output ++ chars!"\nrand:" ++ dice =
        List.replicate k '\n' ++ output ++ ['\n'] ++ (chars!"rand:" ++ dice) := by simp
    rw [e2, splitChar_append_gen, splitChar_replicate, hout.split, splitChar_free (by
      intro h; rw [List.mem_append] at h
      rcases h with h | h
      · exact absurd h (by decide)
      · exact hd h)] at h1
    have hmem : l ∈ List.replicate k [] ++ ols ++ [chars!"rand:" ++ dice] := by
      rw [h1]; exact List.mem_cons_of_mem _ hl
    simp only [List.mem_append, List.mem_replicate, List.mem_singleton] at hmem
    rcases hmem with (⟨-, rfl⟩ | h) | rfl
    · simp at hpre
    · exact hkw l h hpre
    · rw [List.prefix_iff_eq_take] at hpre
      simp at hpre

theorem splitSeqAux_skip (sep : Str) (w s : Str) :
    splitSeqAux sep w.length (w ++ s) = splitSeqAux sep 0 s := by
  induction w with
  | nil => rfl
  | cons x w ih =>
    simp only [List.length_cons, List.cons_append, splitSeqAux]
    exact ih

theorem splitSeq_free {sep s : Str} (h : ¬ sep <:+: s) (hsep : sep ≠ []) :
    splitSeq sep s = [s] := by
  unfold splitSeq
  induction s with
  | nil => rfl
  | cons x xs ih =>
    simp only [splitSeqAux]
    rw [if_neg, ih]
    · intro ⟨p, t, e⟩
      exact h ⟨x :: p, t, by simp [← e]⟩
    · rw [List.isPrefixOf_iff_prefix]
      rintro ⟨t, e⟩
      exact h ⟨[], t, by simpa using e⟩

theorem splitSeq_append {sep a b : Str} (hsep : sep ≠ [])
    (h : ∀ q t, a ++ sep ++ b = q ++ sep ++ t → a.length ≤ q.length) :
    splitSeq sep (a ++ sep ++ b) = a :: splitSeq sep b := by
  unfold splitSeq
  induction a with
  | nil =>
    cases sep with
    | nil => exact absurd rfl hsep
    | cons x sep' =>
      simp only [List.nil_append, List.cons_append, splitSeqAux]
      rw [if_pos (by rw [List.isPrefixOf_iff_prefix]; exact ⟨b, rfl⟩)]
      simp only [List.length_cons, Nat.add_one_sub_one]
      rw [splitSeqAux_skip]
  | cons x a ih =>
    simp only [List.cons_append, splitSeqAux]
    rw [if_neg, ih]
    · intro q t e
      have := h (x :: q) t (by simp only [List.cons_append, e])
      simpa using this
    · rw [List.isPrefixOf_iff_prefix]
      rintro ⟨t, e⟩
      have := h [] t (by simp only [List.cons_append, List.nil_append, e])
      simp at this

theorem splitChar_length (c : Char) (s : Str) : (splitChar c s).length = s.count c + 1 := by
  induction s with
  | nil => rfl
  | cons x xs ih =>
    simp only [splitChar]
    split
    · rename_i h; subst h; simp [ih]
    · rename_i h
      cases hs : splitChar c xs with
      | nil => exact absurd hs (splitChar_ne_nil c xs)
      | cons p ps =>
        rw [hs] at ih
        rw [List.count_cons_of_ne h, ← ih]
        simp

theorem caseText_lines {c : CaseSpec} (h : c.Ok) : caseBar ∉ splitChar '\n' c.text := by
  obtain ⟨h1, h2, h3, ⟨ols, h4, h5⟩, h6, h7⟩ := h
  have e : c.text = chars!"input:" ++ ['\n'] ++ (join chars!"\n" c.input ++ ['\n'] ++
      ((chars!"output:" ++ (List.replicate c.newlines '\n' ++ c.output)) ++ ['\n'] ++
        (chars!"rand:" ++ c.diceText))) := by
    simp [CaseSpec.text, caseText]
  rw [e, splitChar_append_gen, splitChar_append_gen, splitChar_append_gen,
    splitChar_of_join h1.1 (fun l hl => (h2 l hl).1), splitChar_free (s := chars!"input:") (by decide),
    splitChar_free (s := chars!"rand:" ++ c.diceText) (by
      intro h; rw [List.mem_append] at h
      rcases h with h | h
      · exact absurd h (by decide)
      · exact h7 h)]
  obtain ⟨p, ps, hp, hq⟩ := splitChar_free_append (c := '\n') (w := chars!"output:")
    (s := List.replicate c.newlines '\n' ++ c.output) (by decide)
  rw [hq]
  have hps : ∀ l ∈ ps, l = [] ∨ l ∈ ols := by
    intro l hl
    have : l ∈ List.replicate c.newlines [] ++ ols := by
      rw [← h4.split, ← splitChar_replicate, hp]; exact List.mem_cons_of_mem _ hl
    simp only [List.mem_append, List.mem_replicate] at this
    rcases this with ⟨-, h⟩ | h
    · exact .inl h
    · exact .inr h
  intro hm
  simp only [List.mem_append, List.mem_cons, List.not_mem_nil, or_false] at hm
  rcases hm with hm | hm | (hm | hm) | hm
  · exact absurd hm (by decide)
  · exact (h2 _ hm).2 rfl
  · have := congrArg List.head? hm
    simp [caseBar] at this
  · rcases hps _ hm with h | h
    · exact absurd h (by decide)
    · exact (h5 _ h).2 rfl
  · have := congrArg List.head? hm
    simp [caseBar] at this

theorem caseSeparator_eq : caseSeparator = ['\n'] ++ caseBar ++ ['\n'] := by decide

/-- No separator starts inside the text of a test case. -/
theorem no_early_separator {a b q t : Str} (ha : caseBar ∉ splitChar '\n' a)
    (h : a ++ caseSeparator ++ b = q ++ caseSeparator ++ t) : a.length ≤ q.length := by
  have bar : '\n' ∉ caseBar := by decide
  have lines : ∀ x y : Str, splitChar '\n' (x ++ caseSeparator ++ y) =
      splitChar '\n' x ++ caseBar :: splitChar '\n' y := by
    intro x y
    have : x ++ caseSeparator ++ y = x ++ ['\n'] ++ (caseBar ++ ['\n'] ++ y) := by
      rw [caseSeparator_eq]; simp
    rw [this, splitChar_append_gen, splitChar_append bar]
  have hl := lines a b
  rw [h, lines q t] at hl
  apply Nat.le_of_not_lt
  intro hlt
  -- `q` is a strict prefix of `a`
  have hpre : q <+: a := by
    rw [List.append_assoc, List.append_assoc] at h
    rcases List.append_eq_append_iff.mp h with ⟨c, h1, h2⟩ | ⟨c, h1, h2⟩
    · rw [h1, List.length_append] at hlt; omega
    · exact ⟨c, h1.symm⟩
  obtain ⟨c, rfl⟩ := hpre
  have hlen : (splitChar '\n' q).length ≤ (splitChar '\n' (q ++ c)).length := by
    rw [splitChar_length, splitChar_length, List.count_append]; omega
  rcases List.append_eq_append_iff.mp hl with ⟨d, h1, h2⟩ | ⟨d, h1, h2⟩
  · cases d with
    | nil =>
      rw [List.append_nil] at h1
      have e1 := (splitChar_join '\n' q).1
      rw [← h1, (splitChar_join '\n' (q ++ c)).1] at e1
      rw [e1] at hlt; omega
    | cons y d =>
      simp only [List.cons_append, List.cons.injEq] at h2
      apply ha
      rw [h1, h2.1]; simp
  · rw [h1, List.length_append] at hlen
    have : d = [] := List.length_eq_zero_iff.mp (by omega)
    subst this
    rw [List.append_nil] at h1
    have e1 := (splitChar_join '\n' q).1
    rw [h1, (splitChar_join '\n' (q ++ c)).1] at e1
    rw [e1] at hlt; omega

theorem splitSeq_cases {cs : List CaseSpec} (hne : cs ≠ []) (h : ∀ c ∈ cs, c.Ok) :
    splitSeq caseSeparator (join caseSeparator (cs.map CaseSpec.text)) = cs.map CaseSpec.text := by
  have sep : caseSeparator ≠ [] := by decide
  induction cs with
  | nil => exact absurd rfl hne
  | cons c cs ih =>
    have hc := caseText_lines (h c (by simp))
    cases cs with
    | nil =>
      simp only [List.map_cons, List.map_nil, join]
      refine splitSeq_free ?_ sep
      rintro ⟨q, t, e⟩
      have e' : c.text = q ++ ['\n'] ++ (caseBar ++ ['\n'] ++ t) := by
        rw [← e, caseSeparator_eq]; simp
      apply hc
      rw [e', splitChar_append_gen, splitChar_append (by decide)]
      simp
    | cons c' cs =>
      simp only [List.map_cons, join]
      rw [splitSeq_append sep (fun q t e => no_early_separator hc e)]
      have := ih (by simp) (fun x hx => h x (by simp [hx]))
      simp only [List.map_cons] at this
      rw [this]

end GoBCDice
