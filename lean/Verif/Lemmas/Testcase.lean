import Verif.Spec.Testcase
import Verif.Props.Parser
import Verif.Lemmas.Str

/-! # Splitting and reading dice lists -/

namespace GoBCDice

theorem splitChar_ne_nil (c : Char) (s : Str) : splitChar c s ≠ [] := by
  cases s with
  | nil => simp [splitChar]
  | cons x xs =>
    simp only [splitChar]
    split
    · simp
    · split <;> simp

theorem splitChar_free {c : Char} {s : Str} (h : c ∉ s) : splitChar c s = [s] := by
  induction s with
  | nil => rfl
  | cons x xs ih =>
    simp only [List.mem_cons, not_or] at h
    simp only [splitChar, if_neg (Ne.symm h.1), ih h.2]

theorem splitChar_append {c : Char} {s t : Str} (h : c ∉ s) :
    splitChar c (s ++ [c] ++ t) = s :: splitChar c t := by
  induction s with
  | nil => simp [splitChar]
  | cons x xs ih =>
    simp only [List.mem_cons, not_or] at h
    simp only [List.cons_append, splitChar, if_neg (Ne.symm h.1)]
    rw [ih h.2]

/-- The pieces contain no separator and put together give the text. -/
theorem splitChar_join (c : Char) (s : Str) :
    join [c] (splitChar c s) = s ∧ ∀ p ∈ splitChar c s, c ∉ p := by
  induction s with
  | nil => simp [splitChar, join]
  | cons x xs ih =>
    obtain ⟨ih1, ih2⟩ := ih
    have hne := splitChar_ne_nil c xs
    simp only [splitChar]
    split
    · rename_i hx
      subst hx
      cases hs : splitChar x xs with
      | nil => exact absurd hs hne
      | cons p ps =>
        rw [hs] at ih1 ih2
        refine ⟨?_, ?_⟩
        · simp only [join, List.nil_append, ih1, List.cons_append]
        · intro q hq
          rcases List.mem_cons.mp hq with rfl | hq
          · simp
          · exact ih2 q hq
    · rename_i hx
      cases hs : splitChar c xs with
      | nil => exact absurd hs hne
      | cons p ps =>
        rw [hs] at ih1 ih2
        refine ⟨?_, ?_⟩
        · cases ps with
          | nil => simpa [join] using ih1
          | cons q qs => simpa [join] using ih1
        · intro q hq
          rcases List.mem_cons.mp hq with rfl | hq
          · simp only [List.mem_cons, not_or]
            exact ⟨fun h => hx h.symm, ih2 p (by simp)⟩
          · exact ih2 q (by simp [hq])

theorem splitChar_of_join {c : Char} {ps : List Str} (hne : ps ≠ []) (h : ∀ p ∈ ps, c ∉ p) :
    splitChar c (join [c] ps) = ps := by
  induction ps with
  | nil => exact absurd rfl hne
  | cons p ps ih =>
    cases ps with
    | nil => simpa [join] using splitChar_free (h p (by simp))
    | cons q qs =>
      simp only [join]
      rw [splitChar_append (h p (by simp)), ih (by simp) (fun r hr => h r (by simp [hr]))]

theorem isReSpace_iff (c : Char) : isReSpace c = true ↔ c ∈ reSpaces := by
  simp [isReSpace, reSpaces, or_assoc]

theorem isDigit_range (c : Char) : isDigit c = true ↔ '0' ≤ c ∧ c ≤ '9' := by
  simp [isDigit]

theorem numeralOf_iff {s : Str} {v : Int64} :
    NumeralOf s v ↔ s ≠ [] ∧ (∀ c ∈ s, isDigit c = true) ∧ v = atoiSat s := by
  simp only [NumeralOf, isDigit_range]
  refine and_congr Iff.rfl (and_congr Iff.rfl ?_)
  have h : (s.foldl (fun n c => 10 * n + (c.toNat - 48)) 0 : Nat) = digitsVal s := rfl
  rw [h, ← Int64.toInt_inj, atoiSat_toInt, digitsVal_decimal]

theorem space_not_digit {c : Char} (h : isReSpace c = true) : isDigit c = false := by
  rw [isReSpace_iff] at h
  simp only [reSpaces, List.mem_cons, List.not_mem_nil, or_false] at h
  rcases h with rfl | rfl | rfl | rfl | rfl <;> rfl

theorem stops_of_all {f g : Char → Bool} {s : Str} (h : ∀ c ∈ s, g c = true)
    (hf : ∀ c, g c = true → f c = false) : Stops f s := by
  intro c hc
  exact hf c (h c (List.mem_of_mem_head? hc))

theorem mem_takeWhile_sat {f : Char → Bool} {s : Str} {c : Char} (h : c ∈ s.takeWhile f) :
    f c = true := by
  have := List.all_takeWhile (p := f) (l := s)
  rw [List.all_eq_true] at this
  exact this c h

theorem matchDie_iff (s : Str) (d : Die) :
    (∃ v w, matchDie s = some (v, w) ∧ d = ⟨atoiSat v, atoiSat w⟩) ↔ DieText s d := by
  constructor
  · rintro ⟨v, w, hm, rfl⟩
    unfold matchDie at hm
    have h1 := List.takeWhile_append_dropWhile (p := isReSpace) (l := s)
    generalize ha : s.takeWhile isReSpace = a at h1
    have hall : ∀ c ∈ a, c ∈ reSpaces := by
      intro c hc
      rw [← ha] at hc
      exact (isReSpace_iff c).mp (mem_takeWhile_sat hc)
    generalize hs1 : s.dropWhile isReSpace = s1 at h1 hm
    simp only at hm
    have h2 := List.takeWhile_append_dropWhile (p := isDigit) (l := s1)
    have hv : ∀ c ∈ s1.takeWhile isDigit, isDigit c = true := fun c hc => mem_takeWhile_sat hc
    split at hm
    · exact absurd hm (by simp)
    · rename_i _ _ s2 hs2 hne
      have h3 := List.takeWhile_append_dropWhile (p := isDigit) (l := s2)
      have hw : ∀ c ∈ s2.takeWhile isDigit, isDigit c = true := fun c hc => mem_takeWhile_sat hc
      split at hm
      · exact absurd hm (by simp)
      · rename_i hne2
        split at hm
        · rename_i hb
          simp only [Option.some.injEq, Prod.mk.injEq] at hm
          obtain ⟨rfl, rfl⟩ := hm
          have es : s = a ++ s1.takeWhile isDigit ++ chars!"/" ++ s2.takeWhile isDigit ++
              s2.dropWhile isDigit := by
            rw [← h1]
            conv => lhs; rw [← h2, hs2, ← h3]
            simp
          rw [es]
          rw [List.all_eq_true] at hb
          have := DieText.mk (a := a) (v := s1.takeWhile isDigit) (w := s2.takeWhile isDigit)
            (b := s2.dropWhile isDigit) hall (fun c hc => (isReSpace_iff c).mp (hb c hc))
            (numeralOf_iff.mpr ⟨fun h => hne h, hv, rfl⟩)
            (numeralOf_iff.mpr ⟨hne2, hw, rfl⟩)
          exact this
        · exact absurd hm (by simp)
    · exact absurd hm (by simp)
  · rintro ⟨ha, hb, hv, hw⟩
    rename_i a v w b x y
    rw [numeralOf_iff] at hv hw
    obtain ⟨hv0, hv, rfl⟩ := hv
    obtain ⟨hw0, hw, rfl⟩ := hw
    refine ⟨v, w, ?_, rfl⟩
    unfold matchDie
    have e1 : (a ++ v ++ chars!"/" ++ w ++ b).dropWhile isReSpace = v ++ ('/' :: (w ++ b)) := by
      have hstop : Stops isReSpace (v ++ ('/' :: (w ++ b))) := by
        cases v with
        | nil => exact absurd rfl hv0
        | cons c v =>
          intro x hx
          simp only [List.cons_append, List.head?_cons, Option.mem_def, Option.some.injEq] at hx
          subst hx
          have := hv c (by simp)
          cases hsp : isReSpace c with
          | false => rfl
          | true => exact absurd (space_not_digit hsp) (by simp [this])
      have := (takeWhile_append_stop isReSpace a _
        (fun c hc => (isReSpace_iff c).mpr (ha c hc)) hstop).2
      simpa using this
    rw [e1]
    obtain ⟨e2, e3⟩ := takeWhile_append_stop isDigit v ('/' :: (w ++ b)) hv
      (by intro x hx; simp at hx; subst hx; rfl)
    obtain ⟨e4, e5⟩ := takeWhile_append_stop isDigit w b hw
      (stops_of_all (fun c hc => (isReSpace_iff c).mpr (hb c hc)) (fun c hc => space_not_digit hc))
    simp only [e2, e3]
    cases v with
    | nil => exact absurd rfl hv0
    | cons c v =>
      simp only [e4, e5]
      cases w with
      | nil => exact absurd rfl hw0
      | cons c' w =>
        rw [if_pos]
        rw [List.all_eq_true]
        exact fun c hc => (isReSpace_iff c).mpr (hb c hc)

theorem DieText.no_comma {s : Str} {d : Die} (h : DieText s d) : ',' ∉ s ∧ s ≠ [] := by
  cases h with
  | mk ha hb hv hw =>
    rename_i a v w b x y
    refine ⟨?_, by simp⟩
    intro hc
    simp only [List.mem_append, List.mem_cons, List.not_mem_nil, or_false] at hc
    rcases hc with (((hc | hc) | hc) | hc) | hc
    · exact absurd (ha _ hc) (by decide)
    · exact absurd (hv.2.1 _ hc) (by decide)
    · exact absurd hc (by decide)
    · exact absurd (hw.2.1 _ hc) (by decide)
    · exact absurd (hb _ hc) (by decide)

theorem DieText.det {s : Str} {d d' : Die} (h : DieText s d) (h' : DieText s d') : d = d' := by
  obtain ⟨v, w, h1, rfl⟩ := (matchDie_iff s d).mpr h
  obtain ⟨v', w', h2, rfl⟩ := (matchDie_iff s d').mpr h'
  rw [h1] at h2
  simp only [Option.some.injEq, Prod.mk.injEq] at h2
  rw [h2.1, h2.2]

theorem matchDie_none (s : Str) : matchDie s = none ↔ ∀ d, ¬ DieText s d := by
  constructor
  · intro h d hd
    obtain ⟨v, w, h1, -⟩ := (matchDie_iff s d).mpr hd
    rw [h] at h1; exact absurd h1 (by simp)
  · intro h
    cases hm : matchDie s with
    | none => rfl
    | some p => exact absurd ((matchDie_iff s ⟨atoiSat p.1, atoiSat p.2⟩).mp ⟨p.1, p.2, hm, rfl⟩) (h _)

/-- Texts of dice, one by one. -/
inductive DieTexts : List Str → List Die → Prop where
  | nil : DieTexts [] []
  | cons {s : Str} {d : Die} {ss : List Str} {ds : List Die} : DieText s d → DieTexts ss ds →
      DieTexts (s :: ss) (d :: ds)

theorem parseDiceItems_ok (isPrint : Char → Bool) (items : List Str) : ∀ (i : Nat) (acc r : List Die),
    parseDiceItems isPrint i items acc = .ok r ↔
      ∃ ds, DieTexts items ds ∧ r = acc ++ ds := by
  induction items with
  | nil =>
    intro i acc r
    simp only [parseDiceItems, Out.ok.injEq]
    constructor
    · rintro rfl; exact ⟨[], .nil, by simp⟩
    · rintro ⟨ds, h, rfl⟩
      cases h; simp
  | cons s rest ih =>
    intro i acc r
    simp only [parseDiceItems]
    split
    · rename_i hm
      rw [matchDie_none] at hm
      constructor
      · intro h; exact absurd h (by simp)
      · rintro ⟨ds, h, -⟩
        cases h with | cons h _ => exact absurd h (hm _)
    · rename_i v w hm
      have hd := (matchDie_iff s ⟨atoiSat v, atoiSat w⟩).mp ⟨v, w, hm, rfl⟩
      rw [ih]
      constructor
      · rintro ⟨ds, h, rfl⟩
        exact ⟨_ :: ds, .cons hd h, by simp⟩
      · rintro ⟨ds, h, rfl⟩
        cases h with
        | cons h1 h2 => exact ⟨_, h2, by rw [hd.det h1]; simp⟩

theorem DiceText.iff_items (s : Str) (ds : List Die) :
    DiceText s ds ↔ (s = [] ∧ ds = []) ∨
      ∃ items, items ≠ [] ∧ DieTexts items ds ∧ s = join chars!"," items := by
  constructor
  · intro h
    induction h with
    | empty => exact .inl ⟨rfl, rfl⟩
    | one h => exact .inr ⟨[_], by simp, .cons h .nil, rfl⟩
    | more h hne _ ih =>
      right
      rcases ih with ⟨-, h0⟩ | ⟨items, h0, h1, rfl⟩
      · exact absurd h0 hne
      · refine ⟨_ :: items, by simp, .cons h h1, ?_⟩
        cases items with
        | nil => exact absurd rfl h0
        | cons i is => rfl
  · rintro (⟨rfl, rfl⟩ | ⟨items, h0, h1, rfl⟩)
    · exact .empty
    · induction h1 with
      | nil => exact absurd rfl h0
      | @cons i d is ds hd hds ih =>
        cases hds with
        | nil => exact .one hd
        | cons hd' hds' =>
          exact .more hd (by simp) (ih (by simp))

theorem parseDice_ok_iff (isPrint : Char → Bool) (s : Str) (ds : List Die) :
    parseDice isPrint s = .ok ds ↔ DiceText s ds := by
  rw [DiceText.iff_items]
  unfold parseDice
  split
  · rename_i hs
    subst hs
    constructor
    · intro h; left; simpa [eq_comm] using h
    · rintro (⟨-, rfl⟩ | ⟨items, h0, h1, h2⟩)
      · rfl
      · exfalso
        cases h1 with
        | nil => exact h0 rfl
        | cons hd hds =>
          have := hd.no_comma.2
          cases hds with
          | nil => exact this h2.symm
          | cons _ _ => simp [join] at h2
  · rename_i hs
    rw [parseDiceItems_ok]
    obtain ⟨hj, hfree⟩ := splitChar_join ',' s
    constructor
    · rintro ⟨ds', h, rfl⟩
      exact .inr ⟨_, splitChar_ne_nil _ _, by simpa using h, hj.symm⟩
    · rintro (⟨h, -⟩ | ⟨items, h0, h1, rfl⟩)
      · exact absurd h hs
      · refine ⟨ds, ?_, by simp⟩
        rw [splitChar_of_join h0]
        · exact h1
        · intro p hp
          clear hs hj hfree
          induction h1 with
          | nil => simp at hp
          | cons hd hds ih =>
            rcases List.mem_cons.mp hp with rfl | hp
            · exact hd.no_comma.1
            · exact ih (List.ne_nil_of_mem hp) hp

end GoBCDice
