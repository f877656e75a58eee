import Verif.Lemmas.Testcase
import Verif.Lemmas.Inspect

/-!
# Dice texts and test case files (C48, C56)
-/

namespace GoBCDice

/-! ### C48 -/

/-- **C48, the language.** `ParseDice` accepts exactly the texts of `DiceText` and returns the dice
they denote. -/
theorem C48_language (isPrint : Char → Bool) (s : Str) (ds : List Die) :
    parseDice isPrint s = .ok ds ↔ DiceText s ds := parseDice_ok_iff isPrint s ds

theorem numeralOf_intStr {v : Int64} (h : 0 ≤ v) : NumeralOf (intStr v) v := by
  have h0 : 0 ≤ v.toInt := by
    rw [Int64.le_iff_toInt_le] at h; simpa using h
  have e : intStr v = natStr v.toInt.natAbs := by
    unfold intStr; rw [if_neg (by omega)]
  refine numeralOf_iff.mpr ⟨?_, ?_, (atoiSat_intStr v h).symm⟩
  · rw [e]; exact natStr_ne_nil _
  · rw [e]; exact natStr_isDigit _

theorem dieText_slash {d : Die} (h : 0 ≤ d.value ∧ 0 ≤ d.sides) (sp : Str)
    (hsp : ∀ c ∈ sp, c ∈ reSpaces) : DieText (sp ++ d.slash) d := by
  have := DieText.mk (a := sp) (b := []) hsp (by simp) (numeralOf_intStr h.1) (numeralOf_intStr h.2)
  simpa [Die.slash] using this

theorem diceText_join {ds : List Die} (h : ∀ d ∈ ds, 0 ≤ d.value ∧ 0 ≤ d.sides) (sp : Str)
    (hsp : ∀ c ∈ sp, c ∈ reSpaces) : DiceText (join (chars!"," ++ sp) (ds.map Die.slash)) ds ∧
      (ds ≠ [] → DiceText (sp ++ join (chars!"," ++ sp) (ds.map Die.slash)) ds) := by
  induction ds with
  | nil => exact ⟨.empty, fun h => absurd rfl h⟩
  | cons d ds ih =>
    have hd := h d (by simp)
    have ih := ih (fun x hx => h x (by simp [hx]))
    cases ds with
    | nil =>
      simp only [List.map_cons, List.map_nil, join]
      exact ⟨.one (by simpa using dieText_slash hd [] (by simp)),
        fun _ => .one (dieText_slash hd sp hsp)⟩
    | cons d' ds =>
      have ih2 := ih.2 (by simp)
      refine ⟨?_, fun _ => ?_⟩
      · have := DiceText.more (dieText_slash hd [] (by simp)) (by simp) ih2
        simpa [join] using this
      · have := DiceText.more (dieText_slash hd sp hsp) (by simp) ih2
        simpa [join] using this

/-- **C48.** Both renderings of a list of dice with non-negative values and sides are read back as
that list. -/
theorem C48_round_trip (isPrint : Char → Bool) (ds : List Die)
    (h : ∀ d ∈ ds, 0 ≤ d.value ∧ 0 ≤ d.sides) :
    parseDice isPrint (formatDice ds) = .ok ds ∧
    parseDice isPrint (formatDiceWithoutSpaces ds) = .ok ds := by
  constructor
  · rw [C48_language]
    exact (diceText_join h chars!" " (by decide)).1
  · rw [C48_language]
    exact (diceText_join h [] (by simp)).1

/-- **C48, injectivity.** Different lists of such dice are rendered differently, in both formats. -/
theorem C48_injective (ds es : List Die) (hd : ∀ d ∈ ds, 0 ≤ d.value ∧ 0 ≤ d.sides)
    (he : ∀ d ∈ es, 0 ≤ d.value ∧ 0 ≤ d.sides)
    (h : formatDice ds = formatDice es ∨
      formatDiceWithoutSpaces ds = formatDiceWithoutSpaces es) : ds = es := by
  have h1 := C48_round_trip (fun _ => true) ds hd
  have h2 := C48_round_trip (fun _ => true) es he
  rcases h with h | h
  · rw [h, h2.1] at h1
    exact (Out.ok.inj h1.1).symm
  · rw [h, h2.2] at h1
    exact (Out.ok.inj h1.2).symm

/-- **C48, the text of a die.** `String()` puts what is read back as the die between `<Die ` and `>`. -/
theorem C48_string (isPrint : Char → Bool) (d : Die) (h : 0 ≤ d.value ∧ 0 ≤ d.sides) :
    ∃ inside, d.str = chars!"<Die " ++ inside ++ chars!">" ∧ parseDice isPrint inside = .ok [d] := by
  refine ⟨formatDice [d], ?_, (C48_round_trip isPrint [d] (by simpa using h)).1⟩
  simp [Die.str, formatDice, join, Die.slash]

/-- **C48.** Different dice, of whatever values and sides, have different texts. -/
theorem C48_string_injective (d e : Die) (h : d.str = e.str) : d = e := by
  have hn : ∀ t : Str, NoDigit (chars!"/" ++ t) := by intro t; simp [NoDigit]; decide
  simp only [Die.str, List.append_assoc] at h
  obtain ⟨h1, h2⟩ := intStr_split (hn _) (hn _) (List.append_cancel_left h)
  obtain ⟨h3, _⟩ := intStr_split (by simp [NoDigit]; decide) (by simp [NoDigit]; decide) (List.append_cancel_left h2)
  cases d; cases e; simp_all

/-- The bound is needed: a negative value is rendered but not read back. -/
theorem C48_bound_needed (isPrint : Char → Bool) :
    ∀ ds, parseDice isPrint (formatDice [⟨-1, 6⟩]) ≠ .ok ds := by
  intro ds h
  rw [C48_language] at h
  have hf : formatDice [⟨-1, 6⟩] = chars!"-1/6" := by decide
  rw [hf] at h
  have : matchDie chars!"-1/6" = none := by decide
  rw [matchDie_none] at this
  generalize hs : chars!"-1/6" = s at *
  cases h with
  | empty => simp at hs
  | one h => exact this _ h
  | @more s t d ds h1 h2 h3 =>
    have : ',' ∈ chars!"-1/6" := by rw [hs]; simp
    exact absurd this (by decide)

-- non-vacuity
example : parseDice (fun _ => true) chars!" 6/6,\t2/6 , 10/10" = .ok [⟨6, 6⟩, ⟨2, 6⟩, ⟨10, 10⟩] := by
  decide
example : (Die.mk 3 6).str = chars!"<Die 3/6>" := by decide
example : formatDice [⟨6, 6⟩, ⟨10, 100⟩] = chars!"6/6, 10/100" := by decide

/-- Texts separated by commas. -/
def CommaList (s : Str) (items : List Str) : Prop :=
  items ≠ [] ∧ (∀ p ∈ items, ',' ∉ p) ∧ s = join chars!"," items

theorem parseDiceItems_err (isPrint : Char → Bool) (m : Str) (items : List Str) :
    ∀ (i : Nat) (acc : List Die), parseDiceItems isPrint i items acc = .err m ↔
      ∃ good bad rest, items = good ++ bad :: rest ∧ (∀ p ∈ good, ∃ d, DieText p d) ∧
        (∀ d, ¬ DieText bad d) ∧ m = parseDiceMsg isPrint (i + good.length) bad := by
  induction items with
  | nil => intro i acc; simp [parseDiceItems]
  | cons s rest ih =>
    intro i acc
    simp only [parseDiceItems]
    split
    · rename_i hm
      rw [matchDie_none] at hm
      constructor
      · intro h
        exact ⟨[], s, rest, rfl, by simp, hm, (Out.err.inj h).symm⟩
      · rintro ⟨good, bad, rest', he, hg, hb, rfl⟩
        cases good with
        | nil => simp only [List.nil_append, List.cons.injEq] at he; simp [he.1]
        | cons g good =>
          simp only [List.cons_append, List.cons.injEq] at he
          obtain ⟨d, hd⟩ := hg g (by simp)
          exact absurd (he.1 ▸ hd) (hm d)
    · rename_i v w hm
      have hd := (matchDie_iff s ⟨atoiSat v, atoiSat w⟩).mp ⟨v, w, hm, rfl⟩
      rw [ih]
      constructor
      · rintro ⟨good, bad, rest', rfl, hg, hb, rfl⟩
        refine ⟨s :: good, bad, rest', rfl, ?_, hb, ?_⟩
        · intro p hp
          rcases List.mem_cons.mp hp with rfl | hp
          · exact ⟨_, hd⟩
          · exact hg p hp
        · simp only [List.length_cons]; congr 1; omega
      · rintro ⟨good, bad, rest', he, hg, hb, rfl⟩
        cases good with
        | nil =>
          simp only [List.nil_append, List.cons.injEq] at he
          exact absurd hd (he.1 ▸ hb _)
        | cons g good =>
          simp only [List.cons_append, List.cons.injEq] at he
          refine ⟨good, bad, rest', he.2, fun p hp => hg p (by simp [hp]), hb, ?_⟩
          simp only [List.length_cons]; congr 1; omega

theorem parseDiceItems_no_panic (isPrint : Char → Bool) (m : Str) (items : List Str) :
    ∀ (i : Nat) (acc : List Die), parseDiceItems isPrint i items acc ≠ .panic m := by
  induction items with
  | nil => intro i acc; simp [parseDiceItems]
  | cons s rest ih =>
    intro i acc
    simp only [parseDiceItems]
    split
    · simp
    · exact ih _ _

/-- **C48, errors.** Any other text is refused, and the error shows the first item that is not a
die together with its position, counted from 1. -/
theorem C48_error (isPrint : Char → Bool) (s : Str) :
    (∃ ds, parseDice isPrint s = .ok ds) ∨
    ∃ good bad rest, CommaList s (good ++ bad :: rest) ∧ (∀ p ∈ good, ∃ d, DieText p d) ∧
      (∀ d, ¬ DieText bad d) ∧
      parseDice isPrint s = .err (chars!"ParseDice: #" ++ natStr (good.length + 1) ++ chars!": " ++
        quote isPrint bad ++ chars!": ダイス構文エラー") := by
  cases h : parseDice isPrint s with
  | ok ds => exact .inl ⟨ds, rfl⟩
  | err m =>
    right
    unfold parseDice at h
    split at h
    · exact absurd h (by simp)
    · obtain ⟨good, bad, rest, he, hg, hb, rfl⟩ := (parseDiceItems_err _ _ _ _ _).mp h
      obtain ⟨hj, hfree⟩ := splitChar_join ',' s
      rw [he] at hj hfree
      refine ⟨good, bad, rest, ⟨by simp, hfree, hj.symm⟩, hg, hb, ?_⟩
      rw [Nat.add_comm]; rfl
  | panic m =>
    exfalso
    unfold parseDice at h
    split at h
    · exact absurd h (by simp)
    · exact parseDiceItems_no_panic _ _ _ _ _ h

example : parseDice (fun _ => true) chars!"1/6,2d6,x" =
    .err chars!"ParseDice: #2: \"2d6\": ダイス構文エラー" := by decide

end GoBCDice
