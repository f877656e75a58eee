import Verif.Lemmas.ParserCommand

/-! # The choice command -/

namespace GoBCDice

theorem char_le_iff (a b : Char) : a ≤ b ↔ a.toNat ≤ b.toNat := by
  rw [Char.le_def]; exact UInt32.le_iff_toNat_le

theorem char_eq_iff (a b : Char) : a = b ↔ a.toNat = b.toNat :=
  ⟨fun h => by rw [h], fun h => Char.ext (UInt32.toNat_inj.mp h)⟩

theorem isSeparator_iff (c : Char) : isSeparator c = true ↔ Separator c := by
  unfold isSeparator Separator
  simp only [Bool.or_eq_true, Bool.and_eq_true, decide_eq_true_eq, List.mem_cons, List.not_mem_nil,
    or_false, char_le_iff, char_eq_iff]
  simp only [show ' '.toNat = 32 from rfl, show '\u00a0'.toNat = 160 from rfl,
    show '\u1680'.toNat = 5760 from rfl, show '\u2000'.toNat = 8192 from rfl,
    show '\u2001'.toNat = 8193 from rfl, show '\u2002'.toNat = 8194 from rfl,
    show '\u2003'.toNat = 8195 from rfl, show '\u2004'.toNat = 8196 from rfl,
    show '\u2005'.toNat = 8197 from rfl, show '\u2006'.toNat = 8198 from rfl,
    show '\u2007'.toNat = 8199 from rfl, show '\u2008'.toNat = 8200 from rfl,
    show '\u2009'.toNat = 8201 from rfl, show '\u200a'.toNat = 8202 from rfl,
    show '\u2028'.toNat = 8232 from rfl, show '\u2029'.toNat = 8233 from rfl,
    show '\u202f'.toNat = 8239 from rfl, show '\u205f'.toNat = 8287 from rfl,
    show '\u3000'.toNat = 12288 from rfl]
  omega

theorem isSpace_iff (c : Char) : isSpace c = true ↔ WhiteSpace c := by
  unfold isSpace WhiteSpace
  rw [Bool.or_eq_true, isSeparator_iff]
  refine or_congr ?_ Iff.rfl
  simp only [Bool.or_eq_true, Bool.and_eq_true, decide_eq_true_eq, List.mem_cons, List.not_mem_nil,
    or_false, char_le_iff, char_eq_iff]
  simp only [show '\t'.toNat = 9 from rfl, show '\n'.toNat = 10 from rfl,
    show '\x0b'.toNat = 11 from rfl, show '\x0c'.toNat = 12 from rfl,
    show '\r'.toNat = 13 from rfl, show '\u0085'.toNat = 133 from rfl]
  omega

theorem dropWhile_all {f : Char → Bool} {a s : Str} (h : ∀ c ∈ a, f c = true) :
    (a ++ s).dropWhile f = s.dropWhile f := by
  induction a with
  | nil => rfl
  | cons x a ih =>
    simp only [List.cons_append, List.dropWhile_cons, h x (by simp), if_true]
    exact ih (fun c hc => h c (by simp [hc]))

theorem dropWhile_head (f : Char → Bool) (s : Str) : ∀ c ∈ (s.dropWhile f).head?, f c = false := by
  induction s with
  | nil => simp
  | cons x s ih =>
    rw [List.dropWhile_cons]
    split
    · exact ih
    · rename_i h
      intro c hc
      simp only [List.head?_cons, Option.mem_def, Option.some.injEq] at hc
      subst hc
      simpa using h

theorem dropWhile_stop {f : Char → Bool} {s : Str} (h : Stops f s) : s.dropWhile f = s := by
  simpa using (takeWhile_append_stop f [] s (by simp) h).2

theorem trimSpace_trimmed (s : Str) : Trimmed s (trimSpace s) := by
  unfold trimSpace
  have h1 := List.takeWhile_append_dropWhile (p := isSpace) (l := s)
  have h2 := List.takeWhile_append_dropWhile (p := isSpace) (l := (s.dropWhile isSpace).reverse)
  have hh := dropWhile_head isSpace s
  have hd : s.dropWhile isSpace =
      (((s.dropWhile isSpace).reverse).dropWhile isSpace).reverse ++
        (((s.dropWhile isSpace).reverse).takeWhile isSpace).reverse := by
    rw [← List.reverse_append, h2, List.reverse_reverse]
  refine ⟨s.takeWhile isSpace, (((s.dropWhile isSpace).reverse).takeWhile isSpace).reverse, ?_, ?_, ?_,
    ?_, ?_⟩
  · rw [List.append_assoc, ← hd, h1]
  · intro c hc
    exact (isSpace_iff c).mp (takeWhile_all _ _ c hc)
  · intro c hc
    exact (isSpace_iff c).mp (takeWhile_all _ _ c (by simpa using hc))
  · intro c hc
    rw [← isSpace_iff, Bool.not_eq_true]
    refine hh c ?_
    rw [hd]
    cases hr : ((s.dropWhile isSpace).reverse.dropWhile isSpace).reverse with
    | nil => rw [hr] at hc; simp at hc
    | cons x t => rw [hr] at hc; simpa using hc
  · intro c hc
    rw [← isSpace_iff, Bool.not_eq_true]
    refine dropWhile_head isSpace (s.dropWhile isSpace).reverse c ?_
    simpa [List.getLast?_reverse] using hc

theorem trimSpace_unique {s t : Str} (h : Trimmed s t) : trimSpace s = t := by
  obtain ⟨a, b, rfl, ha, hb, h1, h2⟩ := h
  unfold trimSpace
  have ha' : ∀ c ∈ a, isSpace c = true := fun c hc => (isSpace_iff c).mpr (ha c hc)
  have hb' : ∀ c ∈ b, isSpace c = true := fun c hc => (isSpace_iff c).mpr (hb c hc)
  rw [List.append_assoc, dropWhile_all ha']
  cases t with
  | nil =>
    have : ([] ++ b).dropWhile isSpace = [] := by
      have := dropWhile_all (s := []) hb'
      simpa using this
    rw [this]; rfl
  | cons x t =>
    have hx : isSpace x = false := by
      rw [← Bool.not_eq_true, isSpace_iff]; exact h1 x (by simp)
    have hd : (x :: t ++ b).dropWhile isSpace = x :: t ++ b := dropWhile_stop (Stops.cons hx)
    rw [hd, List.reverse_append,
      dropWhile_all (by simpa using hb'), dropWhile_stop, List.reverse_reverse]
    intro c hc
    rw [← Bool.not_eq_true, isSpace_iff]
    rw [List.head?_reverse] at hc
    exact h2 c hc

theorem sep_space {c : Char} (h : isSeparator c = true) : isSpace c = true := by
  unfold isSpace; simp [h]

theorem trimSpace_dropSep (s : Str) : trimSpace (s.dropWhile isSeparator) = trimSpace s := by
  unfold trimSpace
  have : (s.dropWhile isSeparator).dropWhile isSpace = s.dropWhile isSpace := by
    conv => rhs; rw [← List.takeWhile_append_dropWhile (p := isSeparator) (l := s)]
    rw [dropWhile_all]
    intro c hc
    exact sep_space (takeWhile_all _ _ c hc)
  rw [this]

/-- What can follow an item. -/
def fItem (c : Char) : Bool := isItemChar c

theorem dropWhile_append_of_exists {f : Char → Bool} {s rest : Str} (h : ∃ c ∈ s, f c = false) :
    (s ++ rest).dropWhile f = s.dropWhile f ++ rest := by
  induction s with
  | nil => simp at h
  | cons x s ih =>
    simp only [List.cons_append, List.dropWhile_cons]
    split
    · rename_i hx
      refine ih ?_
      obtain ⟨c, hc, hf⟩ := h
      rcases List.mem_cons.mp hc with rfl | hc
      · rw [hx] at hf; simp at hf
      · exact ⟨c, hc, hf⟩
    · rfl

theorem isItemChar_iff (c : Char) : isItemChar c = true ↔ c ≠ ',' ∧ c ≠ ']' := by
  unfold isItemChar
  simp only [Bool.not_eq_true', Bool.or_eq_false_iff, beq_eq_false_iff_ne]
  exact and_comm

theorem dropWhile_ne_nil {f : Char → Bool} {s : Str} (h : ∃ c ∈ s, f c = false) :
    s.dropWhile f ≠ [] := by
  induction s with
  | nil => simp at h
  | cons x s ih =>
    rw [List.dropWhile_cons]
    split
    · rename_i hx
      refine ih ?_
      obtain ⟨c, hc, hf⟩ := h
      rcases List.mem_cons.mp hc with rfl | hc
      · rw [hx] at hf; simp at hf
      · exact ⟨c, hc, hf⟩
    · simp

theorem choiceItem_accepts {raw item rest : Str} (h : ItemText raw item) (hr : Stops isItemChar rest)
    (c : Nat) : choiceItem (raw ++ rest) c = some (item, rest, c) := by
  obtain ⟨h1, ⟨x, hx, hxs⟩, h3⟩ := h
  have hns : ∃ c ∈ raw, isSeparator c = false :=
    ⟨x, hx, by rw [← Bool.not_eq_true, isSeparator_iff]; exact hxs⟩
  unfold choiceItem
  rw [P.bind_some (a := ()) (s' := raw.dropWhile isSeparator ++ rest) (c' := c)
    (by simp only [separators]; rw [dropWhile_append_of_exists hns])]
  have hall : ∀ c ∈ raw.dropWhile isSeparator, isItemChar c = true := by
    intro c hc
    exact (isItemChar_iff c).mpr (h1 c ((List.dropWhile_suffix _).subset hc))
  obtain ⟨e1, e2⟩ := takeWhile_append_stop isItemChar _ rest hall hr
  unfold choiceItemChars
  rw [e1, e2]
  split
  · rename_i heq
    exact absurd heq (dropWhile_ne_nil hns)
  · rw [trimSpace_dropSep, trimSpace_unique h3]

theorem choiceItem_ok {s rest item : Str} {c c' : Nat} (h : choiceItem s c = some (item, rest, c')) :
    c' = c ∧ ∃ raw, s = raw ++ rest ∧ ItemText raw item := by
  unfold choiceItem at h
  rw [P.bind_ok] at h
  obtain ⟨_, s1, c1, h1, h⟩ := h
  simp only [separators, Option.some.injEq, Prod.mk.injEq, true_and] at h1
  obtain ⟨rfl, rfl⟩ := h1
  unfold choiceItemChars at h
  split at h
  · simp at h
  · rename_i hne
    simp only [Option.some.injEq, Prod.mk.injEq] at h
    obtain ⟨rfl, rfl, rfl⟩ := h
    have e1 := List.takeWhile_append_dropWhile (p := isSeparator) (l := s)
    have e2 := List.takeWhile_append_dropWhile (p := isItemChar) (l := s.dropWhile isSeparator)
    refine ⟨rfl, s.takeWhile isSeparator ++ (s.dropWhile isSeparator).takeWhile isItemChar, ?_, ?_, ?_,
      ?_⟩
    · rw [List.append_assoc, e2, e1]
    · intro c hc
      rcases List.mem_append.mp hc with hc | hc
      · have := takeWhile_all _ _ c hc
        constructor <;> rintro rfl <;> exact absurd this (by decide)
      · exact (isItemChar_iff c).mp (takeWhile_all _ _ c hc)
    · cases hd : (s.dropWhile isSeparator).takeWhile isItemChar with
      | nil => exact absurd hd (fun h => hne h)
      | cons x t =>
        refine ⟨x, by simp, ?_⟩
        rw [← isSeparator_iff, Bool.not_eq_true]
        refine dropWhile_head isSeparator s x ?_
        rw [← e2, hd]; simp
    · have := trimSpace_trimmed (s.takeWhile isSeparator ++
        (s.dropWhile isSeparator).takeWhile isItemChar)
      have e3 : trimSpace (s.takeWhile isSeparator ++
          (s.dropWhile isSeparator).takeWhile isItemChar) =
          trimSpace ((s.dropWhile isSeparator).takeWhile isItemChar) := by
        unfold trimSpace
        rw [dropWhile_all]
        intro c hc
        exact sep_space (takeWhile_all _ _ c hc)
      rw [e3] at this
      exact this

theorem commaItem_shorter (s : Str) (c : Nat) (a s' : Str) (c' : Nat)
    (h : commaItem s c = some (a, s', c')) : s'.length < s.length := by
  unfold commaItem at h
  rw [P.bind_ok] at h
  obtain ⟨_, s1, c1, h1, h⟩ := h
  obtain ⟨rfl, rfl⟩ := chr_ok h1
  obtain ⟨rfl, t, rfl, -⟩ := choiceItem_ok h
  simp; omega

theorem items_many_ok (K : Nat) :
    ∀ (s rest : Str) (c c' : Nat) (items : List Str) (raw item : Str),
      ItemText raw item → P.manyAux commaItem K s c = (items, rest, c') →
      c' = c ∧ ∃ t, s = t ++ rest ∧ ItemsText (raw ++ t) (item :: items) := by
  induction K with
  | zero =>
    intro s rest c c' items raw item h0 h
    simp only [P.manyAux, Prod.mk.injEq] at h
    obtain ⟨rfl, rfl, rfl⟩ := h
    exact ⟨rfl, [], rfl, by simpa using ItemsText.one h0⟩
  | succ K ih =>
    intro s rest c c' items raw item h0 h
    simp only [P.manyAux] at h
    split at h
    · simp only [Prod.mk.injEq] at h
      obtain ⟨rfl, rfl, rfl⟩ := h
      exact ⟨rfl, [], rfl, by simpa using ItemsText.one h0⟩
    · rename_i a s1 c1 h1
      rcases hm : P.manyAux commaItem K s1 c1 with ⟨as, s2, c2⟩
      rw [hm] at h
      simp only [Prod.mk.injEq] at h
      obtain ⟨rfl, rfl, rfl⟩ := h
      unfold commaItem at h1
      rw [P.bind_ok] at h1
      obtain ⟨_, s3, c3, h3, h1⟩ := h1
      obtain ⟨rfl, rfl⟩ := chr_ok h3
      obtain ⟨rfl, t, rfl, ht⟩ := choiceItem_ok h1
      obtain ⟨rfl, t2, rfl, h2⟩ := ih _ _ _ _ _ t a ht hm
      exact ⟨rfl, chars!"," ++ (t ++ t2), by simp, by simpa using ItemsText.cons h0 h2⟩

theorem items_many_accepts {s rest : Str} {items : List Str} (h : ItemsText s items)
    (hr : Stops isItemChar rest) (hp : ∀ c, commaItem rest c = none) (c : Nat) :
    P.manyAux commaItem (chars!"," ++ s ++ rest).length (chars!"," ++ s ++ rest) c =
      (items, rest, c) := by
  induction h generalizing c with
  | @one raw item h0 =>
    have h2 : commaItem (chars!"," ++ raw ++ rest) c = some (item, rest, c) :=
      (P.bind_some (chr_cons _ _ _)).trans (choiceItem_accepts h0 hr c)
    rw [many_cons commaItem_shorter h2, many_nil (hp c)]
  | @cons raw item s items h0 _ ih =>
    have h2 : commaItem (chars!"," ++ (raw ++ chars!"," ++ s) ++ rest) c =
        some (item, chars!"," ++ s ++ rest, c) := by
      refine (P.bind_some (chr_cons _ _ _)).trans ?_
      have := choiceItem_accepts (rest := chars!"," ++ s ++ rest) h0 (Stops.cons (by decide)) c
      simpa using this
    rw [many_cons commaItem_shorter h2, ih c]

theorem choiceItems_accepts {s rest : Str} {items : List Str} (h : ItemsText s items)
    (hr : Stops isItemChar rest) (hp : ∀ c, commaItem rest c = none) (c : Nat) :
    choiceItems (s ++ rest) c = some (items, rest, c) := by
  unfold choiceItems
  cases h with
  | @one raw item h0 =>
    rw [P.bind_some (choiceItem_accepts h0 hr c),
      P.bind_some (a := ([] : List Str)) (s' := rest) (c' := c)]
    · rfl
    · simp only [P.many]; rw [many_nil (hp c)]
  | @cons raw item s items h0 h' =>
    have e1 := choiceItem_accepts (rest := chars!"," ++ s ++ rest) h0 (Stops.cons (by decide)) c
    have : raw ++ chars!"," ++ s ++ rest = raw ++ (chars!"," ++ s ++ rest) := by simp
    rw [this, P.bind_some e1, P.bind_some (a := items) (s' := rest) (c' := c)]
    · rfl
    · simp only [P.many]; rw [items_many_accepts h' hr hp c]

theorem toLowerRune_bracket (y : Char) : toLowerRune y = '[' ↔ y = '[' := by
  unfold toLowerRune
  split
  · rename_i h
    rw [char_le_iff, char_le_iff] at h
    have h1 : 'A'.toNat = 65 := rfl
    have h2 : 'Z'.toNat = 90 := rfl
    have h3 : '['.toNat = 91 := rfl
    have key : (Char.ofNat (y.toNat + 32)).toNat = y.toNat + 32 := by
      have : ∀ n, n < 128 → (Char.ofNat n).toNat = n := by decide
      exact this _ (by omega)
    rw [char_eq_iff, char_eq_iff, key]
    omega
  · split
    · subst y; decide
    · split
      · subst y; decide
      · rfl

/-- The keyword `choice`. -/
theorem litI_word_accepts {w kw rest : Str} (hw : ∀ c ∈ w, 'a' ≤ c ∧ c ≤ 'z' ∧ c ≠ 'k')
    (h : SameWord w kw) (t : Str) (c : Nat) (ht : litI t rest c = some ((), rest.drop t.length, c)) :
    litI (w ++ t) (kw ++ rest) c = some ((), rest.drop t.length, c) := by
  induction w generalizing kw with
  | nil =>
    cases kw with
    | nil => simpa using ht
    | cons => simp [SameWord] at h
  | cons x w ih =>
    cases kw with
    | nil => simp [SameWord] at h
    | cons y kw =>
      simp only [SameWord] at h
      obtain ⟨h1, h2, h3⟩ := hw x (by simp)
      simp only [List.cons_append, litI]
      rw [P.bind_some (chrI_cons x y _ c ((toLowerRune_sameLetter y x h1 h2 h3).mpr h.1))]
      exact ih (fun c hc => hw c (by simp [hc])) h.2

theorem litI_word_ok {w t s rest : Str} {c c' : Nat} {u : Unit}
    (hw : ∀ c ∈ w, 'a' ≤ c ∧ c ≤ 'z' ∧ c ≠ 'k')
    (h : litI (w ++ t) s c = some (u, rest, c')) :
    ∃ kw s1 c1, s = kw ++ s1 ∧ SameWord w kw ∧ litI t s1 c1 = some (u, rest, c') := by
  induction w generalizing s c with
  | nil => exact ⟨[], s, c, rfl, trivial, h⟩
  | cons x w ih =>
    simp only [List.cons_append, litI] at h
    rw [P.bind_ok] at h
    obtain ⟨_, s1, c1, h1, h⟩ := h
    obtain ⟨y, rfl, hy, rfl⟩ := chrI_ok h1
    obtain ⟨kw, s2, c2, rfl, h3, h4⟩ := ih (fun c hc => hw c (by simp [hc])) h
    obtain ⟨g1, g2, g3⟩ := hw x (by simp)
    exact ⟨y :: kw, s2, c2, rfl, ⟨(toLowerRune_sameLetter y x g1 g2 g3).mp hy, h3⟩, h4⟩

theorem choiceCmd_parts {s rest : Str} {c c' : Nat} {node : Node}
    (h : choiceCmd s c = some (node, rest, c')) : ∃ kw body seps items, node = .choice items ∧
      s = kw ++ chars!"[" ++ body ++ seps ++ chars!"]" ++ rest ∧ SameWord chars!"choice" kw ∧
      ItemsText body items ∧ (seps = [] ∨ ∃ t, seps = chars!"," ++ t ∧ ∀ c ∈ t, Separator c) := by
  unfold choiceCmd at h
  rw [P.bind_ok] at h
  obtain ⟨_, s1, c1, h1, h⟩ := h
  rw [P.bind_ok] at h
  obtain ⟨items, s2, c2, h2, h⟩ := h
  rw [P.bind_ok] at h
  obtain ⟨o, s3, c3, h3, h⟩ := h
  rw [P.bind_ok] at h
  obtain ⟨_, s4, c4, h4, h⟩ := h
  simp only [P.pure_def, Option.some.injEq, Prod.mk.injEq] at h
  obtain ⟨rfl, rfl, rfl⟩ := h
  obtain ⟨kw, s5, c5, rfl, hkw, h5⟩ := litI_word_ok (w := chars!"choice") (t := chars!"[")
    (by decide) h1
  simp only [litI] at h5
  rw [P.bind_ok] at h5
  obtain ⟨_, s6, c6, h6, h5⟩ := h5
  obtain ⟨y, rfl, hy, rfl⟩ := chrI_ok h6
  rw [toLowerRune_bracket] at hy
  subst hy
  simp only [P.pure_def, Option.some.injEq, Prod.mk.injEq, true_and] at h5
  obtain ⟨rfl, rfl⟩ := h5
  unfold choiceItems at h2
  rw [P.bind_ok] at h2
  obtain ⟨item, s7, c7, h7, h2⟩ := h2
  rw [P.bind_ok] at h2
  obtain ⟨items', s8, c8, h8, h2⟩ := h2
  simp only [P.pure_def, Option.some.injEq, Prod.mk.injEq] at h2
  obtain ⟨rfl, rfl, rfl⟩ := h2
  obtain ⟨rfl, raw, rfl, hraw⟩ := choiceItem_ok h7
  simp only [P.many, Option.some.injEq] at h8
  obtain ⟨rfl, t, rfl, hit⟩ := items_many_ok _ _ _ _ _ _ _ _ hraw h8
  obtain ⟨rfl, rfl⟩ := chr_ok h4
  have hsep : ∃ seps, s8 = seps ++ ']' :: s4 ∧
      (seps = [] ∨ ∃ t, seps = chars!"," ++ t ∧ ∀ c ∈ t, Separator c) := by
    unfold P.opt at h3
    split at h3
    · simp only [Option.some.injEq, Prod.mk.injEq] at h3
      obtain ⟨-, rfl, -⟩ := h3
      exact ⟨[], rfl, .inl rfl⟩
    · rename_i h9
      simp only [Option.some.injEq, Prod.mk.injEq] at h3
      obtain ⟨-, rfl, -⟩ := h3
      unfold trailingComma at h9
      rw [P.bind_ok] at h9
      obtain ⟨_, s10, c10, h10, h9⟩ := h9
      obtain ⟨rfl, rfl⟩ := chr_ok h10
      simp only [separators, Option.some.injEq, Prod.mk.injEq, true_and] at h9
      refine ⟨chars!"," ++ s10.takeWhile isSeparator, ?_, .inr ⟨_, rfl, ?_⟩⟩
      · rw [← h9.1]; simp [List.takeWhile_append_dropWhile]
      · intro c hc
        exact (isSeparator_iff c).mp (takeWhile_all _ _ c hc)
  obtain ⟨seps, rfl, hs⟩ := hsep
  exact ⟨kw, _, seps, _, rfl, by simp, hkw, hit, hs⟩

theorem choiceCmd_ok {s rest : Str} {c c' : Nat} {node : Node}
    (h : choiceCmd s c = some (node, rest, c')) : CommandText s node := by
  obtain ⟨kw, body, seps, items, rfl, rfl, h1, h2, h3⟩ := choiceCmd_parts h
  exact .choice h1 h2 h3

theorem choiceCmd_accepts {kw body seps rest : Str} {items : List Str}
    (hkw : SameWord chars!"choice" kw) (hit : ItemsText body items)
    (hs : seps = [] ∨ ∃ t, seps = chars!"," ++ t ∧ ∀ c ∈ t, Separator c) (c : Nat) :
    choiceCmd (kw ++ chars!"[" ++ body ++ seps ++ chars!"]" ++ rest) c =
      some (.choice items, rest, c) := by
  have e0 : kw ++ chars!"[" ++ body ++ seps ++ chars!"]" ++ rest =
      kw ++ ('[' :: (body ++ (seps ++ ']' :: rest))) := by simp
  rw [e0]
  have e1 := litI_word_accepts (w := chars!"choice") (t := chars!"[")
    (rest := '[' :: (body ++ (seps ++ ']' :: rest))) (by decide) hkw c (by
      simp only [litI]
      rw [P.bind_some (chrI_cons _ _ _ _ ((toLowerRune_bracket '[').mpr rfl))]
      rfl)
  simp only [List.length_cons, List.length_nil, List.drop_succ_cons, List.drop_zero] at e1
  have hsepno : ∀ t : Str, (∀ c ∈ t, Separator c) → (t ++ ']' :: rest).dropWhile isSeparator = ']' :: rest := by
    intro t ht
    rw [dropWhile_all (fun c hc => (isSeparator_iff c).mpr (ht c hc))]
    exact dropWhile_stop (Stops.cons (by decide))
  have e2 := choiceItems_accepts (rest := seps ++ ']' :: rest) hit (by
      rcases hs with rfl | ⟨t, rfl, -⟩
      · exact Stops.cons (by decide)
      · exact Stops.cons (by decide)) (by
      intro c
      rcases hs with rfl | ⟨t, rfl, ht⟩
      · exact P.bind_none (chr_none _ _ _ (by simp))
      · refine (P.bind_some (chr_cons _ _ _)).trans ?_
        unfold choiceItem
        rw [P.bind_some (a := ()) (s' := ']' :: rest) (c' := c)]
        · rfl
        · simp only [separators]
          exact congrArg _ (by rw [show ([].append t).append (']' :: rest) = t ++ ']' :: rest from rfl,
            hsepno t ht])) c
  have e3 : ∃ o, P.opt trailingComma (seps ++ ']' :: rest) c = some (o, ']' :: rest, c) := by
    unfold P.opt
    rcases hs with rfl | ⟨t, rfl, ht⟩
    · rw [show trailingComma ([] ++ ']' :: rest) c = none from P.bind_none (chr_none _ _ _ (by simp))]
      exact ⟨_, rfl⟩
    · rw [show trailingComma (chars!"," ++ t ++ ']' :: rest) c = some ((), ']' :: rest, c) from ?_]
      · exact ⟨_, rfl⟩
      · refine (P.bind_some (chr_cons _ _ _)).trans ?_
        simp only [separators]
        exact congrArg _ (by rw [show ([].append t).append (']' :: rest) = t ++ ']' :: rest from rfl,
            hsepno t ht])
  obtain ⟨o, e3⟩ := e3
  unfold choiceCmd
  rw [P.bind_some (show litI chars!"choice[" _ c = _ from e1), P.bind_some e2, P.bind_some e3,
    P.bind_some (chr_cons _ _ _)]
  rfl

end GoBCDice
