import Verif.Parser
import Verif.Spec.Grammar

/-! # Basic facts about the parser combinators -/

namespace GoBCDice
namespace P
variable {α β : Type}

theorem bind_def (p : P α) (f : α → P β) (s : Str) (c : Nat) :
    (p >>= f) s c = (match p s c with | none => none | some (a, s', c') => f a s' c') := rfl

theorem pure_def (a : α) (s : Str) (c : Nat) : (pure a : P α) s c = some (a, s, c) := rfl

theorem bind_some {p : P α} {f : α → P β} {s s' : Str} {c c' : Nat} {a : α}
    (h : p s c = some (a, s', c')) : (p >>= f) s c = f a s' c' := by
  rw [bind_def, h]

theorem bind_none {p : P α} {f : α → P β} {s : Str} {c : Nat} (h : p s c = none) :
    (p >>= f) s c = none := by
  rw [bind_def, h]

theorem bind_ok {p : P α} {f : α → P β} {s s'' : Str} {c c'' : Nat} {b : β} :
    (p >>= f) s c = some (b, s'', c'') ↔
      ∃ a s' c', p s c = some (a, s', c') ∧ f a s' c' = some (b, s'', c'') := by
  rw [bind_def]
  cases h : p s c with
  | none => simp
  | some x =>
    obtain ⟨a, s', c'⟩ := x
    constructor
    · intro h'; exact ⟨a, s', c', rfl, h'⟩
    · rintro ⟨a1, s1, c1, h1, h2⟩
      cases h1
      exact h2

theorem alt_def (p q : P α) (s : Str) (c : Nat) :
    (p <|> q) s c = (match p s c with | none => q s c | some r => some r) := rfl

theorem alt_left {p q : P α} {s : Str} {c : Nat} {r : α × Str × Nat} (h : p s c = some r) :
    (p <|> q) s c = some r := by
  rw [alt_def, h]

theorem alt_right {p q : P α} {s : Str} {c : Nat} (h : p s c = none) :
    (p <|> q) s c = q s c := by
  rw [alt_def, h]

theorem alt_ok {p q : P α} {s : Str} {c : Nat} {r : α × Str × Nat} (h : (p <|> q) s c = some r) :
    p s c = some r ∨ (p s c = none ∧ q s c = some r) := by
  rw [alt_def] at h
  cases hp : p s c with
  | none => rw [hp] at h; exact .inr ⟨rfl, h⟩
  | some x => rw [hp] at h; exact .inl h

theorem sat_cons (f : Char → Bool) (x : Char) (s : Str) (c : Nat) (h : f x = true) :
    sat f (x :: s) c = some (x, s, c) := by
  simp [sat, h]

theorem sat_none (f : Char → Bool) (s : Str) (c : Nat) (h : ∀ x ∈ s.head?, f x = false) :
    sat f s c = none := by
  cases s with
  | nil => rfl
  | cons x s => simp [sat, h x (by simp)]

theorem sat_ok {f : Char → Bool} {s s' : Str} {c c' : Nat} {x : Char}
    (h : sat f s c = some (x, s', c')) : s = x :: s' ∧ f x = true ∧ c' = c := by
  cases s with
  | nil => simp [sat] at h
  | cons y s =>
    simp only [sat] at h
    split at h
    · simp_all
    · simp at h

end P

theorem chr_cons (x : Char) (s : Str) (c : Nat) : chr x (x :: s) c = some ((), s, c) := by
  unfold chr
  rw [P.bind_some (P.sat_cons _ x s c (by simp))]
  rfl

theorem chr_none (x : Char) (s : Str) (c : Nat) (h : ∀ y ∈ s.head?, y ≠ x) : chr x s c = none := by
  unfold chr
  rw [P.bind_none (P.sat_none _ s c (by simpa using h))]

theorem chr_ok {x : Char} {s s' : Str} {c c' : Nat} {u : Unit}
    (h : chr x s c = some (u, s', c')) : s = x :: s' ∧ c' = c := by
  unfold chr at h
  rw [P.bind_ok] at h
  obtain ⟨a, s1, c1, h1, h2⟩ := h
  obtain ⟨rfl, h3, rfl⟩ := P.sat_ok h1
  simp only [P.pure_def, Option.some.injEq, Prod.mk.injEq] at h2
  simp only [beq_iff_eq] at h3
  simp_all

theorem chrI_cons (x y : Char) (s : Str) (c : Nat) (h : toLowerRune y = x) :
    chrI x (y :: s) c = some ((), s, c) := by
  unfold chrI
  rw [P.bind_some (P.sat_cons _ y s c (by simpa using h))]
  rfl

theorem chrI_none (x : Char) (s : Str) (c : Nat) (h : ∀ y ∈ s.head?, toLowerRune y ≠ x) :
    chrI x s c = none := by
  unfold chrI
  rw [P.bind_none (P.sat_none _ s c (by simpa using h))]

theorem chrI_ok {x : Char} {s s' : Str} {c c' : Nat} {u : Unit}
    (h : chrI x s c = some (u, s', c')) : ∃ y, s = y :: s' ∧ toLowerRune y = x ∧ c' = c := by
  unfold chrI at h
  rw [P.bind_ok] at h
  obtain ⟨a, s1, c1, h1, h2⟩ := h
  obtain ⟨rfl, h3, rfl⟩ := P.sat_ok h1
  simp only [P.pure_def, Option.some.injEq, Prod.mk.injEq] at h2
  simp only [beq_iff_eq] at h3
  exact ⟨a, by simp_all, h3, by simp_all⟩

theorem lit_append (t s : Str) (c : Nat) : lit t (t ++ s) c = some ((), s, c) := by
  induction t with
  | nil => rfl
  | cons x t ih => simp only [lit, List.cons_append]; rw [P.bind_some (chr_cons x _ c), ih]

theorem lit_ok {t s s' : Str} {c c' : Nat} {u : Unit} (h : lit t s c = some (u, s', c')) :
    s = t ++ s' ∧ c' = c := by
  induction t generalizing s c with
  | nil =>
    simp only [lit, P.pure_def, Option.some.injEq, Prod.mk.injEq] at h
    simp_all
  | cons x t ih =>
    simp only [lit] at h
    rw [P.bind_ok] at h
    obtain ⟨_, s1, c1, h1, h2⟩ := h
    obtain ⟨rfl, rfl⟩ := chr_ok h1
    obtain ⟨rfl, rfl⟩ := ih h2
    exact ⟨rfl, rfl⟩

/-- The letters matched by `[x]i`. -/
theorem toLowerRune_sameLetter (y x : Char) (h1 : 'a' ≤ x) (h2 : x ≤ 'z') (hk : x ≠ 'k') :
    toLowerRune y = x ↔ SameLetter x y := by
  have hle : ∀ a b : Char, a ≤ b ↔ a.toNat ≤ b.toNat := fun a b => by
    rw [Char.le_def]; exact UInt32.le_iff_toNat_le
  have hinj : ∀ a b : Char, a.toNat = b.toNat → a = b := fun a b h =>
    Char.ext (UInt32.toNat_inj.mp h)
  have hA : 'A'.toNat = 65 := rfl
  have hZ : 'Z'.toNat = 90 := rfl
  have ha : 'a'.toNat = 97 := rfl
  have hI : '\u0130'.toNat = 304 := rfl
  unfold toLowerRune SameLetter
  split
  · rename_i h
    have hle' := h
    rw [hle, hle] at hle'
    rw [hle] at h1
    have key : (Char.ofNat (y.toNat + 32)).toNat = y.toNat + 32 := by
      have : ∀ n, n < 128 → (Char.ofNat n).toNat = n := by decide
      exact this _ (by omega)
    constructor
    · rintro rfl
      exact .inr (.inl ⟨key.symm, h⟩)
    · rintro (rfl | ⟨h3, -⟩ | ⟨-, rfl⟩)
      · omega
      · exact hinj _ _ (by omega)
      · omega
  · rename_i h
    split
    · subst y
      constructor
      · rintro rfl; simp
      · rintro (rfl | ⟨-, h3⟩ | ⟨rfl, -⟩)
        · exact absurd h2 (by decide)
        · exact absurd h3 h
        · rfl
    · rename_i hy
      split
      · subst y
        constructor
        · intro h3; exact absurd h3.symm hk
        · rintro (rfl | ⟨-, h3⟩ | ⟨-, h3⟩)
          · exact absurd h2 (by decide)
          · exact absurd h3 h
          · exact absurd h3 hy
      · constructor
        · intro h3; exact .inl h3
        · rintro (h3 | ⟨-, h3⟩ | ⟨-, h3⟩)
          · exact h3
          · exact absurd h3 h
          · exact absurd h3 hy

/-- The two forms of a letter of the grammar. -/
theorem sameLetter_two (lo up y : Char) (hlo : 'a' ≤ lo) (hlo' : lo ≤ 'z') (hi : lo ≠ 'i')
    (hup : up.toNat + 32 = lo.toNat) : SameLetter lo y ↔ y = up ∨ y = lo := by
  have hle : ∀ a b : Char, a ≤ b ↔ a.toNat ≤ b.toNat := fun a b => by
    rw [Char.le_def]; exact UInt32.le_iff_toNat_le
  have hinj : ∀ a b : Char, a.toNat = b.toNat → a = b := fun a b h =>
    Char.ext (UInt32.toNat_inj.mp h)
  have hA : 'A'.toNat = 65 := rfl
  have hZ : 'Z'.toNat = 90 := rfl
  have ha : 'a'.toNat = 97 := rfl
  have hz : 'z'.toNat = 122 := rfl
  rw [hle] at hlo hlo'
  unfold SameLetter
  constructor
  · rintro (rfl | ⟨h3, -⟩ | ⟨rfl, -⟩)
    · exact .inr rfl
    · exact .inl (hinj _ _ (by omega))
    · exact absurd rfl hi
  · rintro (rfl | rfl)
    · exact .inr (.inl ⟨hup, by rw [hle]; omega, by rw [hle]; omega⟩)
    · exact .inl rfl

theorem toLowerRune_d (y : Char) : toLowerRune y = 'd' ↔ y = 'D' ∨ y = 'd' := by
  rw [toLowerRune_sameLetter y 'd' (by decide) (by decide) (by decide),
    sameLetter_two 'd' 'D' y (by decide) (by decide) (by decide) (by decide)]

theorem toLowerRune_b (y : Char) : toLowerRune y = 'b' ↔ y = 'B' ∨ y = 'b' := by
  rw [toLowerRune_sameLetter y 'b' (by decide) (by decide) (by decide),
    sameLetter_two 'b' 'B' y (by decide) (by decide) (by decide) (by decide)]

theorem toLowerRune_r (y : Char) : toLowerRune y = 'r' ↔ y = 'R' ∨ y = 'r' := by
  rw [toLowerRune_sameLetter y 'r' (by decide) (by decide) (by decide),
    sameLetter_two 'r' 'R' y (by decide) (by decide) (by decide) (by decide)]

theorem toLowerRune_u (y : Char) : toLowerRune y = 'u' ↔ y = 'U' ∨ y = 'u' := by
  rw [toLowerRune_sameLetter y 'u' (by decide) (by decide) (by decide),
    sameLetter_two 'u' 'U' y (by decide) (by decide) (by decide) (by decide)]

theorem toLowerRune_c (y : Char) : toLowerRune y = 'c' ↔ y = 'C' ∨ y = 'c' := by
  rw [toLowerRune_sameLetter y 'c' (by decide) (by decide) (by decide),
    sameLetter_two 'c' 'C' y (by decide) (by decide) (by decide) (by decide)]

end GoBCDice
