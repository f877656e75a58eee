import Verif.SExp
import Verif.Lemmas.Str

/-!
# Unique readability of S-expressions

Trees are first turned into generic S-expressions, whose rendering is proved injective.
-/

namespace GoBCDice

/-- Characters that may not occur in an atom. -/
def sxSpecial : List Char := [' ', '(', ')', '"']

/-- Texts usable as atoms (the empty one included). -/
def AtomOk (s : Str) : Prop := ∀ c ∈ s, c ∉ sxSpecial

/-- Generic S-expressions. -/
inductive SX where
  | atom (a : {s : Str // AtomOk s})
  | str (s : Str)
  | node (head : SX) (tail : List SX)

mutual
/-- Text of an S-expression. -/
def SX.render (isPrint : Char → Bool) : SX → Str
  | .atom a => a.1
  | .str s => quote isPrint s
  | .node h ts => '(' :: (h.render isPrint ++ SX.renderTail isPrint ts)
/-- Text of the remaining elements of a node and of its closing parenthesis. -/
def SX.renderTail (isPrint : Char → Bool) : List SX → Str
  | [] => [')']
  | t :: ts => ' ' :: (t.render isPrint ++ SX.renderTail isPrint ts)
end

/-- The text is empty or starts with a space or a closing parenthesis. -/
def SxStop (s : Str) : Prop := ∀ c ∈ s.head?, c = ' ' ∨ c = ')'

theorem sxStop_tail (isPrint : Char → Bool) (ts : List SX) (x : Str) :
    SxStop (SX.renderTail isPrint ts ++ x) := by
  cases ts <;> (intro c hc; simp [SX.renderTail] at hc; simp [← hc])

theorem atom_split {a b x y : Str} (ha : AtomOk a) (hb : AtomOk b) (hx : SxStop x) (hy : SxStop y)
    (h : a ++ x = b ++ y) : a = b ∧ x = y := by
  induction a generalizing b with
  | nil =>
    cases b with
    | nil => exact ⟨rfl, h⟩
    | cons c b =>
      simp only [List.nil_append, List.cons_append] at h
      have := hx c (by simp [h])
      have hc := hb c (by simp)
      simp [sxSpecial] at hc
      grind
  | cons c a ih =>
    cases b with
    | nil =>
      simp only [List.nil_append, List.cons_append] at h
      have := hy c (by simp [← h])
      have hc := ha c (by simp)
      simp [sxSpecial] at hc
      grind
    | cons d b =>
      simp only [List.cons_append, List.cons.injEq] at h
      obtain ⟨rfl, h⟩ := h
      obtain ⟨h1, h2⟩ := ih (fun c hc => ha c (by simp [hc])) (fun c hc => hb c (by simp [hc])) h
      exact ⟨by rw [h1], h2⟩

/-! ## Quoted strings -/

/-- Value of a lower-case hexadecimal digit. -/
def hexVal (c : Char) : Nat := if c.toNat < 97 then c.toNat - 48 else c.toNat - 87

theorem hexVal_digit (n : Nat) : hexVal (hexDigit n) = n % 16 := by
  have h : n % 16 < 16 := Nat.mod_lt _ (by decide)
  unfold hexDigit
  generalize n % 16 = k at *
  have : ∀ k, k < 16 → hexVal (chars!"0123456789abcdef".getD (k % 16) '0') = k := by decide
  have h2 := this k h
  rw [Nat.mod_eq_of_lt h] at h2
  exact h2

theorem hexDigits_length (k n : Nat) : (hexDigits k n).length = k := by
  induction k generalizing n with
  | zero => rfl
  | succ k ih => simp [hexDigits, ih]

/-- Number denoted by hexadecimal digits. -/
def hexNum (s : Str) : Nat := s.foldl (fun n c => 16 * n + hexVal c) 0

theorem hexNum_digits (k : Nat) : ∀ n, n < 16 ^ k → hexNum (hexDigits k n) = n := by
  induction k with
  | zero => intro n hn; simp at hn; subst hn; rfl
  | succ k ih =>
    intro n hn
    have := ih (n / 16) (by rw [Nat.pow_succ] at hn; omega)
    unfold hexNum at this
    simp only [hexDigits, hexNum, List.foldl_append, List.foldl_cons, List.foldl_nil, this,
      hexVal_digit]
    omega

/-- Reads back one rendered character. -/
def unquoteRune : Str → Option (Char × Str)
  | '\\' :: k :: rest =>
    if k = 'a' then some ('\x07', rest)
    else if k = 'b' then some ('\x08', rest)
    else if k = 'f' then some ('\x0c', rest)
    else if k = 'n' then some ('\n', rest)
    else if k = 'r' then some ('\r', rest)
    else if k = 't' then some ('\t', rest)
    else if k = 'v' then some ('\x0b', rest)
    else if k = 'x' then some (Char.ofNat (hexNum (rest.take 2)), rest.drop 2)
    else if k = 'u' then some (Char.ofNat (hexNum (rest.take 4)), rest.drop 4)
    else if k = 'U' then some (Char.ofNat (hexNum (rest.take 8)), rest.drop 8)
    else some (k, rest)
  | c :: rest => some (c, rest)
  | [] => none

theorem take_drop_hex (k n : Nat) (rest : Str) :
    (hexDigits k n ++ rest).take k = hexDigits k n ∧ (hexDigits k n ++ rest).drop k = rest := by
  have h := hexDigits_length k n
  constructor
  · have := List.take_left (l₁ := hexDigits k n) (l₂ := rest); rwa [h] at this
  · have := List.drop_left (l₁ := hexDigits k n) (l₂ := rest); rwa [h] at this

theorem unquoteRune_plain {c : Char} (h : c ≠ '\\') (rest : Str) :
    unquoteRune (c :: rest) = some (c, rest) := by
  unfold unquoteRune
  split
  · rename_i k r e
    simp only [List.cons.injEq] at e
    exact absurd e.1 h
  · rename_i e; simp only [List.cons.injEq] at e; rw [← e.1, ← e.2]
  · rename_i e; simp at e

theorem unquote_quoteRune (isPrint : Char → Bool) (c : Char) (rest : Str) :
    unquoteRune (quoteRune isPrint c ++ rest) = some (c, rest) ∧
      (quoteRune isPrint c ++ rest).head? ≠ some '"' := by
  have valid : Char.ofNat c.toNat = c := Char.ofNat_toNat c
  have small : c.toNat < 16 ^ 8 := by
    have := c.valid
    have h2 : c.toNat < 0x110000 := by
      unfold Char.toNat
      have := c.valid
      simp only [UInt32.isValidChar, Nat.isValidChar] at this
      omega
    omega
  unfold quoteRune
  split
  · rename_i h
    rcases h with rfl | rfl <;> exact ⟨rfl, by simp⟩
  rename_i h
  simp only [not_or] at h
  split
  · refine ⟨unquoteRune_plain h.2 rest, ?_⟩
    simp only [List.cons_append, List.nil_append, List.head?_cons, ne_eq, Option.some.injEq]
    exact h.1
  split
  · rename_i h; subst h; exact ⟨rfl, by simp⟩
  split
  · rename_i h; subst h; exact ⟨rfl, by simp⟩
  split
  · rename_i h; subst h; exact ⟨rfl, by simp⟩
  split
  · rename_i h; subst h; exact ⟨rfl, by simp⟩
  split
  · rename_i h; subst h; exact ⟨rfl, by simp⟩
  split
  · rename_i h; subst h; exact ⟨rfl, by simp⟩
  split
  · rename_i h; subst h; exact ⟨rfl, by simp⟩
  split
  · rename_i h
    obtain ⟨h1, h2⟩ := take_drop_hex 2 c.toNat rest
    refine ⟨?_, by simp⟩
    show some (Char.ofNat (hexNum ((hexDigits 2 c.toNat ++ rest).take 2)),
      (hexDigits 2 c.toNat ++ rest).drop 2) = _
    rw [h1, h2, hexNum_digits 2 _ (by omega), valid]
  split
  · rename_i h
    obtain ⟨h1, h2⟩ := take_drop_hex 4 c.toNat rest
    refine ⟨?_, by simp⟩
    show some (Char.ofNat (hexNum ((hexDigits 4 c.toNat ++ rest).take 4)),
      (hexDigits 4 c.toNat ++ rest).drop 4) = _
    rw [h1, h2, hexNum_digits 4 _ (by omega), valid]
  · obtain ⟨h1, h2⟩ := take_drop_hex 8 c.toNat rest
    refine ⟨?_, by simp⟩
    show some (Char.ofNat (hexNum ((hexDigits 8 c.toNat ++ rest).take 8)),
      (hexDigits 8 c.toNat ++ rest).drop 8) = _
    rw [h1, h2, hexNum_digits 8 _ small, valid]

theorem quote_split (isPrint : Char → Bool) {s t x y : Str}
    (h : quote isPrint s ++ x = quote isPrint t ++ y) : s = t ∧ x = y := by
  have main : ∀ (s t : Str), s.flatMap (quoteRune isPrint) ++ '"' :: x =
      t.flatMap (quoteRune isPrint) ++ '"' :: y → s = t ∧ x = y := by
    intro s
    induction s with
    | nil =>
      intro t h
      cases t with
      | nil => simpa using h
      | cons c t =>
        exfalso
        rw [List.flatMap_cons, List.append_assoc] at h
        have := (unquote_quoteRune isPrint c (t.flatMap (quoteRune isPrint) ++ '"' :: y)).2
        rw [← h] at this
        simp at this
    | cons c s ih =>
      intro t h
      rw [List.flatMap_cons, List.append_assoc] at h
      have hc := unquote_quoteRune isPrint c (s.flatMap (quoteRune isPrint) ++ '"' :: x)
      cases t with
      | nil =>
        exfalso
        rw [h] at hc
        simp at hc
      | cons d t =>
        rw [List.flatMap_cons, List.append_assoc] at h
        have hd := unquote_quoteRune isPrint d (t.flatMap (quoteRune isPrint) ++ '"' :: y)
        rw [h, hd.1] at hc
        simp only [Option.some.injEq, Prod.mk.injEq] at hc
        obtain ⟨h1, h2⟩ := ih t hc.1.2.symm
        exact ⟨by rw [hc.1.1, h1], h2⟩
  apply main
  simpa [quote] using h

/-! ## Rendering is injective -/

mutual
theorem SX.render_inj (isPrint : Char → Bool) : (t t' : SX) → (x x' : Str) → SxStop x → SxStop x' →
    t.render isPrint ++ x = t'.render isPrint ++ x' → t = t' ∧ x = x'
  | .atom a, .atom b, x, x', hx, hx', h => by
    obtain ⟨h1, h2⟩ := atom_split a.2 b.2 hx hx' (by simpa [SX.render] using h)
    exact ⟨by rw [Subtype.ext h1], h2⟩
  | .atom a, .str s, x, x', hx, hx', h => by
    exfalso
    obtain ⟨a, ha⟩ := a
    simp only [SX.render, quote, List.cons_append, List.nil_append] at h
    cases a with
    | nil => have := hx '"' (by simp at h; simp [h]); simp at this
    | cons c a => simp at h; exact ha c (by simp) (by simp [h.1, sxSpecial])
  | .atom a, .node b ts, x, x', hx, hx', h => by
    exfalso
    obtain ⟨a, ha⟩ := a
    simp only [SX.render, List.cons_append] at h
    cases a with
    | nil => have := hx '(' (by simp at h; simp [h]); simp at this
    | cons c a => simp at h; exact ha c (by simp) (by simp [h.1, sxSpecial])
  | .str s, .atom a, x, x', hx, hx', h => by
    exfalso
    obtain ⟨a, ha⟩ := a
    simp only [SX.render, quote, List.cons_append, List.nil_append] at h
    cases a with
    | nil => have := hx' '"' (by simp at h; simp [← h]); simp at this
    | cons c a => simp at h; exact ha c (by simp) (by simp [← h.1, sxSpecial])
  | .str s, .str s', x, x', hx, hx', h => by
    obtain ⟨h1, h2⟩ := quote_split isPrint (by simpa [SX.render] using h)
    exact ⟨by rw [h1], h2⟩
  | .str s, .node b ts, x, x', hx, hx', h => by
    exfalso; simp [SX.render, quote] at h
  | .node b ts, .atom a, x, x', hx, hx', h => by
    exfalso
    obtain ⟨a, ha⟩ := a
    simp only [SX.render, List.cons_append] at h
    cases a with
    | nil => have := hx' '(' (by simp at h; simp [← h]); simp at this
    | cons c a => simp at h; exact ha c (by simp) (by simp [← h.1, sxSpecial])
  | .node b ts, .str s, x, x', hx, hx', h => by
    exfalso; simp [SX.render, quote] at h
  | .node b ts, .node b' ts', x, x', hx, hx', h => by
    simp only [SX.render, List.cons_append, List.cons.injEq, true_and, List.append_assoc] at h
    obtain ⟨rfl, h2⟩ := SX.render_inj isPrint b b' _ _ (sxStop_tail _ _ _) (sxStop_tail _ _ _) h
    obtain ⟨rfl, h3⟩ := SX.renderTail_inj isPrint ts ts' x x' h2
    exact ⟨rfl, h3⟩
theorem SX.renderTail_inj (isPrint : Char → Bool) : (ts ts' : List SX) → (x x' : Str) →
    SX.renderTail isPrint ts ++ x = SX.renderTail isPrint ts' ++ x' → ts = ts' ∧ x = x'
  | [], [], x, x', h => by simpa [SX.renderTail] using h
  | [], t :: ts, x, x', h => by simp [SX.renderTail] at h
  | t :: ts, [], x, x', h => by simp [SX.renderTail] at h
  | t :: ts, t' :: ts', x, x', h => by
    simp only [SX.renderTail, List.cons_append, List.cons.injEq, true_and, List.append_assoc] at h
    obtain ⟨rfl, h2⟩ := SX.render_inj isPrint t t' _ _ (sxStop_tail _ _ _) (sxStop_tail _ _ _) h
    obtain ⟨rfl, h3⟩ := SX.renderTail_inj isPrint ts ts' x x' h2
    exact ⟨rfl, h3⟩
end

end GoBCDice
