import Verif.Bytes
import Verif.Spec.Pigeon

/-!
# Decoding and encoding
-/

namespace GoBCDice

open Pigeon (Sym)

theorem char_range (c : Char) : c.toNat < 0xD800 ∨ (0xDFFF < c.toNat ∧ c.toNat < 0x110000) := c.valid

theorem utf8Size_toNat (c : Char) : c.utf8Size = if c.toNat ≤ 127 then 1 else if c.toNat ≤ 2047 then 2
    else if c.toNat ≤ 65535 then 3 else 4 := rfl

theorem toNat_ofNat_byte {n : Nat} (h : n < 256) : (UInt8.ofNat n).toNat = n := by
  simp [UInt8.toNat_ofNat', Nat.mod_eq_of_lt h]

theorem ofNat_eq {c : Char} {n : Nat} (h : n = c.toNat) : Char.ofNat n = c := by
  rw [h]; exact Char.ofNat_toNat c

theorem encodeChar_eq (c : Char) : String.utf8EncodeChar c =
    if c.toNat ≤ 127 then [UInt8.ofNat c.toNat]
    else if c.toNat ≤ 2047 then [UInt8.ofNat (c.toNat / 64 % 32 + 192), UInt8.ofNat (c.toNat % 64 + 128)]
    else if c.toNat ≤ 65535 then [UInt8.ofNat (c.toNat / 4096 % 16 + 224),
      UInt8.ofNat (c.toNat / 64 % 64 + 128), UInt8.ofNat (c.toNat % 64 + 128)]
    else [UInt8.ofNat (c.toNat / 262144 % 8 + 240), UInt8.ofNat (c.toNat / 4096 % 64 + 128),
      UInt8.ofNat (c.toNat / 64 % 64 + 128), UInt8.ofNat (c.toNat % 64 + 128)] := rfl

theorem decodeRune_ascii {b : UInt8} {more : Bytes} {c : Char} (h : b.toNat = c.toNat) (hb : b.toNat < 0x80) :
    decodeRune b more = ⟨c, 1⟩ := by
  unfold decodeRune
  rw [if_pos hb, ofNat_eq h]

theorem decodeRune_two {b b1 : UInt8} {more : Bytes} {c : Char} {lo hi : Nat}
    (hb : ¬ b.toNat < 0x80) (hl : leading b.toNat = some (2, lo, hi))
    (h1 : ¬ (b1.toNat < lo ∨ hi < b1.toNat)) (h : b.toNat % 32 * 64 + b1.toNat % 64 = c.toNat) :
    decodeRune b (b1 :: more) = ⟨c, 2⟩ := by
  unfold decodeRune decodeMore
  rw [if_neg hb, hl]
  dsimp only
  rw [if_neg h1, if_pos rfl, ofNat_eq h]
  rfl

theorem decodeRune_three {b b1 b2 : UInt8} {more : Bytes} {c : Char} {lo hi : Nat}
    (hb : ¬ b.toNat < 0x80) (hl : leading b.toNat = some (3, lo, hi))
    (h1 : ¬ (b1.toNat < lo ∨ hi < b1.toNat)) (h2 : ¬ (b2.toNat < 0x80 ∨ 0xBF < b2.toNat))
    (h : b.toNat % 16 * 4096 + b1.toNat % 64 * 64 + b2.toNat % 64 = c.toNat) :
    decodeRune b (b1 :: b2 :: more) = ⟨c, 3⟩ := by
  unfold decodeRune decodeMore
  rw [if_neg hb, hl]
  dsimp only
  rw [if_neg h1, if_neg (by decide), if_neg h2, if_pos rfl, ofNat_eq h]
  rfl

theorem decodeRune_four {b b1 b2 b3 : UInt8} {more : Bytes} {c : Char} {lo hi : Nat}
    (hb : ¬ b.toNat < 0x80) (hl : leading b.toNat = some (4, lo, hi))
    (h1 : ¬ (b1.toNat < lo ∨ hi < b1.toNat)) (h2 : ¬ (b2.toNat < 0x80 ∨ 0xBF < b2.toNat))
    (h3 : ¬ (b3.toNat < 0x80 ∨ 0xBF < b3.toNat))
    (h : b.toNat % 8 * 262144 + b1.toNat % 64 * 4096 + b2.toNat % 64 * 64 + b3.toNat % 64 = c.toNat) :
    decodeRune b (b1 :: b2 :: b3 :: more) = ⟨c, 4⟩ := by
  unfold decodeRune decodeMore
  rw [if_neg hb, hl]
  dsimp only
  rw [if_neg h1, if_neg (by decide), if_neg h2, if_neg (by decide), if_neg h3, ofNat_eq h]
  rfl

/-- The bytes of a character are read as this character, whatever follows. -/
theorem decodeRune_encode (c : Char) (rest : Bytes) : ∃ b more,
    String.utf8EncodeChar c ++ rest = b :: more ∧ decodeRune b more = Sym.ofChar c ∧
    (b :: more).drop c.utf8Size = rest := by
  have hv := char_range c
  rw [encodeChar_eq]
  unfold Sym.ofChar
  rw [utf8Size_toNat]
  generalize hn : c.toNat = n at hv
  by_cases h1 : n ≤ 127
  · simp only [if_pos h1]
    refine ⟨_, _, rfl, decodeRune_ascii ?_ ?_, rfl⟩
    · rw [toNat_ofNat_byte (n := n) (by omega), hn]
    · rw [toNat_ofNat_byte (n := n) (by omega)]; omega
  simp only [if_neg h1]
  by_cases h2 : n ≤ 2047
  · simp only [if_pos h2]
    have e0 : (UInt8.ofNat (n / 64 % 32 + 192)).toNat = n / 64 % 32 + 192 := toNat_ofNat_byte (by omega)
    have e1 : (UInt8.ofNat (n % 64 + 128)).toNat = n % 64 + 128 := toNat_ofNat_byte (by omega)
    refine ⟨_, _, rfl, ?_, rfl⟩
    refine decodeRune_two (lo := 0x80) (hi := 0xBF) ?_ ?_ ?_ ?_ <;> simp only [e0, e1]
    · omega
    · unfold leading
      rw [if_neg (by omega), if_pos (by omega)]
    · omega
    · omega
  simp only [if_neg h2]
  by_cases h3 : n ≤ 65535
  · simp only [if_pos h3]
    have e0 : (UInt8.ofNat (n / 4096 % 16 + 224)).toNat = n / 4096 % 16 + 224 := toNat_ofNat_byte (by omega)
    have e1 : (UInt8.ofNat (n / 64 % 64 + 128)).toNat = n / 64 % 64 + 128 := toNat_ofNat_byte (by omega)
    have e2 : (UInt8.ofNat (n % 64 + 128)).toNat = n % 64 + 128 := toNat_ofNat_byte (by omega)
    have hl : ∃ lo hi, leading (n / 4096 % 16 + 224) = some (3, lo, hi) ∧
        ¬ (n / 64 % 64 + 128 < lo ∨ hi < n / 64 % 64 + 128) := by
      unfold leading
      rw [if_neg (by omega), if_neg (by omega)]
      split
      · exact ⟨_, _, rfl, by omega⟩
      · split
        · exact ⟨_, _, rfl, by omega⟩
        · rw [if_pos (by omega)]
          exact ⟨_, _, rfl, by omega⟩
    obtain ⟨lo, hi, hl1, hl2⟩ := hl
    refine ⟨_, _, rfl, ?_, rfl⟩
    refine decodeRune_three (lo := lo) (hi := hi) ?_ ?_ ?_ ?_ ?_ <;> simp only [e0, e1, e2]
    · omega
    · exact hl1
    · exact hl2
    · omega
    · omega
  simp only [if_neg h3]
  have e0 : (UInt8.ofNat (n / 262144 % 8 + 240)).toNat = n / 262144 % 8 + 240 := toNat_ofNat_byte (by omega)
  have e1 : (UInt8.ofNat (n / 4096 % 64 + 128)).toNat = n / 4096 % 64 + 128 := toNat_ofNat_byte (by omega)
  have e2 : (UInt8.ofNat (n / 64 % 64 + 128)).toNat = n / 64 % 64 + 128 := toNat_ofNat_byte (by omega)
  have e3 : (UInt8.ofNat (n % 64 + 128)).toNat = n % 64 + 128 := toNat_ofNat_byte (by omega)
  have hl : ∃ lo hi, leading (n / 262144 % 8 + 240) = some (4, lo, hi) ∧
      ¬ (n / 4096 % 64 + 128 < lo ∨ hi < n / 4096 % 64 + 128) := by
    unfold leading
    rw [if_neg (by omega), if_neg (by omega), if_neg (by omega), if_neg (by omega), if_neg (by omega)]
    split
    · exact ⟨_, _, rfl, by omega⟩
    · split
      · exact ⟨_, _, rfl, by omega⟩
      · rw [if_pos (by omega)]
        exact ⟨_, _, rfl, by omega⟩
  obtain ⟨lo, hi, hl1, hl2⟩ := hl
  refine ⟨_, _, rfl, ?_, rfl⟩
  refine decodeRune_four (lo := lo) (hi := hi) ?_ ?_ ?_ ?_ ?_ ?_ <;> simp only [e0, e1, e2, e3]
  · omega
  · exact hl1
  · exact hl2
  · omega
  · omega
  · omega

theorem byte_eq {b : UInt8} {n : Nat} (h : b.toNat = n) : UInt8.ofNat n = b := by
  subst h; exact UInt8.ofNat_toNat

theorem toNat_ofNat_char {n : Nat} (h : n < 0xD800 ∨ (0xDFFF < n ∧ n < 0x110000)) :
    (Char.ofNat n).toNat = n := by
  have hv : n.isValidChar := h
  unfold Char.ofNat
  rw [dif_pos hv]
  rfl

theorem leading_two {x lo hi : Nat} (h : leading x = some (2, lo, hi)) : 0xC2 ≤ x ∧ x < 0xE0 ∧ lo = 0x80 ∧ hi = 0xBF := by
  unfold leading at h
  repeat' split at h
  all_goals first | cases h | skip
  all_goals omega

/-- What a first byte says about the rune. -/
theorem leading_cases {x n lo hi : Nat} (h : leading x = some (n, lo, hi)) :
    (n = 2 ∧ 0xC2 ≤ x ∧ x < 0xE0 ∧ lo = 0x80 ∧ hi = 0xBF) ∨
    (n = 3 ∧ 0xE0 ≤ x ∧ x < 0xF0 ∧ 0x80 ≤ lo ∧ hi ≤ 0xBF ∧ (x = 0xE0 → lo = 0xA0) ∧ (x = 0xED → hi = 0x9F)) ∨
    (n = 4 ∧ 0xF0 ≤ x ∧ x ≤ 0xF4 ∧ 0x80 ≤ lo ∧ hi ≤ 0xBF ∧ (x = 0xF0 → lo = 0x90) ∧ (x = 0xF4 → hi = 0x8F)) := by
  unfold leading at h
  repeat' split at h
  all_goals first | cases h | skip
  all_goals omega

/-- A rune that was read was written as Go writes it. -/
theorem decodeMore_encode {b : UInt8} {more : Bytes} {x : Sym} (h : decodeMore b.toNat more = some x) :
    x = Sym.ofChar x.rn ∧ ∃ rest, b :: more = String.utf8EncodeChar x.rn ++ rest := by
  have hlt := b.toNat_lt
  unfold decodeMore at h
  split at h
  · cases h
  rename_i n lo hi hl
  have hl := leading_cases hl
  split at h
  · cases h
  rename_i b1 more
  have hlt1 := b1.toNat_lt
  split at h
  · cases h
  rename_i h1
  split at h
  · rename_i hn
    subst hn
    have hc := toNat_ofNat_char (n := b.toNat % 32 * 64 + b1.toNat % 64) (by omega)
    cases h
    refine ⟨?_, more, ?_⟩
    · unfold Sym.ofChar
      rw [utf8Size_toNat]
      dsimp only
      rw [hc, if_neg (by omega), if_pos (by omega)]
    · dsimp only
      rw [encodeChar_eq, hc, if_neg (by omega), if_pos (by omega), byte_eq (b := b) (by omega),
        byte_eq (b := b1) (by omega)]
      rfl
  rename_i hn2
  split at h
  · cases h
  rename_i b2 more
  have hlt2 := b2.toNat_lt
  split at h
  · cases h
  rename_i h2
  split at h
  · rename_i hn
    subst hn
    have hc := toNat_ofNat_char (n := b.toNat % 16 * 4096 + b1.toNat % 64 * 64 + b2.toNat % 64) (by omega)
    cases h
    refine ⟨?_, more, ?_⟩
    · unfold Sym.ofChar
      rw [utf8Size_toNat]
      dsimp only
      rw [hc, if_neg (by omega), if_neg (by omega), if_pos (by omega)]
    · dsimp only
      rw [encodeChar_eq, hc, if_neg (by omega), if_neg (by omega), if_pos (by omega),
        byte_eq (b := b) (by omega), byte_eq (b := b1) (by omega), byte_eq (b := b2) (by omega)]
      rfl
  rename_i hn3
  split at h
  · cases h
  rename_i b3 more
  have hlt3 := b3.toNat_lt
  split at h
  · cases h
  rename_i h3
  have hc := toNat_ofNat_char (n := b.toNat % 8 * 262144 + b1.toNat % 64 * 4096 + b2.toNat % 64 * 64 +
    b3.toNat % 64) (by omega)
  cases h
  refine ⟨?_, more, ?_⟩
  · unfold Sym.ofChar
    rw [utf8Size_toNat]
    dsimp only
    rw [hc, if_neg (by omega), if_neg (by omega), if_neg (by omega)]
  · dsimp only
    rw [encodeChar_eq, hc, if_neg (by omega), if_neg (by omega), if_neg (by omega),
      byte_eq (b := b) (by omega), byte_eq (b := b1) (by omega), byte_eq (b := b2) (by omega),
      byte_eq (b := b3) (by omega)]
    rfl

theorem decodeRune_cases (b : UInt8) (more : Bytes) : decodeRune b more = ⟨Pigeon.runeError, 1⟩ ∨
    ∃ c rest, decodeRune b more = Sym.ofChar c ∧ b :: more = String.utf8EncodeChar c ++ rest := by
  unfold decodeRune
  split
  · rename_i hb
    right
    have hc := toNat_ofNat_char (n := b.toNat) (by omega)
    refine ⟨Char.ofNat b.toNat, more, ?_, ?_⟩
    · unfold Sym.ofChar
      rw [utf8Size_toNat, hc, if_pos (by omega)]
    · rw [encodeChar_eq, hc, if_pos (by omega), byte_eq (b := b) rfl]
      rfl
  · cases h : decodeMore b.toNat more with
    | none => left; rfl
    | some x =>
      right
      obtain ⟨h1, rest, h2⟩ := decodeMore_encode h
      exact ⟨x.rn, rest, h1, h2⟩

theorem ofChar_ne_invalid (c : Char) : Sym.ofChar c ≠ invalidByte := by
  intro h
  simp only [Sym.ofChar, invalidByte, Sym.mk.injEq] at h
  obtain ⟨rfl, h2⟩ := h
  revert h2
  decide

theorem decodeRune_pos (b : UInt8) (more : Bytes) : 0 < (decodeRune b more).w := by
  rcases decodeRune_cases b more with h | ⟨c, rest, h, -⟩ <;> rw [h]
  · exact Nat.one_pos
  · exact c.utf8Size_pos

theorem decodeN_enough : ∀ (n : Nat) (bs : Bytes), bs.length ≤ n → ∀ m, bs.length ≤ m → decodeN n bs = decodeN m bs
  | 0, [], _, m, _ => by cases m <;> rfl
  | n + 1, [], _, m, _ => by cases m <;> rfl
  | n + 1, b :: more, hn, 0, hm => by simp at hm
  | n + 1, b :: more, hn, m + 1, hm => by
    have hp := decodeRune_pos b more
    simp only [List.length_cons] at hn hm
    unfold decodeN
    dsimp only
    rw [decodeN_enough n _ (by rw [List.length_drop, List.length_cons]; omega) m
      (by rw [List.length_drop, List.length_cons]; omega)]

theorem decode_nil : decode [] = [] := rfl

theorem decode_cons (b : UInt8) (more : Bytes) :
    decode (b :: more) = decodeRune b more :: decode ((b :: more).drop (decodeRune b more).w) := by
  have hp := decodeRune_pos b more
  unfold decode
  rw [List.length_cons, decodeN]
  rw [decodeN_enough more.length _ _ _ (Nat.le_refl _)]
  rw [List.length_drop, List.length_cons]
  omega

theorem encode_nil : encode [] = [] := rfl

theorem encode_cons (c : Char) (s : Str) : encode (c :: s) = String.utf8EncodeChar c ++ encode s := rfl

theorem encode_append (s t : Str) : encode (s ++ t) = encode s ++ encode t := by
  simp [encode]

/-- The bytes of a text are read as this text, whatever follows. -/
theorem decode_append : ∀ (s : Str) (rest : Bytes), decode (encode s ++ rest) = utf8 s ++ decode rest
  | [], rest => rfl
  | c :: s, rest => by
    obtain ⟨b, more, h1, h2, h3⟩ := decodeRune_encode c (encode s ++ rest)
    rw [encode_cons, List.append_assoc, h1, decode_cons, h2]
    show Sym.ofChar c :: decode ((b :: more).drop c.utf8Size) = _
    rw [h3, decode_append s rest]
    rfl

theorem decode_encode (s : Str) : decode (encode s) = utf8 s := by
  have := decode_append s []
  rw [List.append_nil, decode_nil, List.append_nil] at this
  exact this

/-- Bytes that are read as a text, and more, are the bytes of this text, and more. -/
theorem decode_split : ∀ (s : Str) (d : List Sym) (bs : Bytes), decode bs = utf8 s ++ d →
    ∃ rest, bs = encode s ++ rest ∧ decode rest = d
  | [], d, bs, h => ⟨bs, rfl, h⟩
  | c :: s, d, [], h => by cases h
  | c :: s, d, b :: more, h => by
    rw [decode_cons] at h
    have h' : decodeRune b more :: decode ((b :: more).drop (decodeRune b more).w) =
      Sym.ofChar c :: (utf8 s ++ d) := h
    injection h' with h1 h2
    rw [h1] at h2
    rcases decodeRune_cases b more with hb | ⟨c', rest, hc, he⟩
    · exact absurd (h1.symm.trans hb) (ofChar_ne_invalid c)
    · have : c' = c := congrArg Sym.rn (hc.symm.trans h1)
      subst this
      have hd : (b :: more).drop (Sym.ofChar c').w = rest := by
        rw [he]
        show (String.utf8EncodeChar c' ++ rest).drop c'.utf8Size = rest
        rw [← String.length_utf8EncodeChar c', List.drop_left]
      rw [hd] at h2
      obtain ⟨rest', h3, h4⟩ := decode_split s d rest h2
      exact ⟨rest', by rw [he, h3, encode_cons, List.append_assoc], h4⟩

/-- Valid bytes are those of a text. -/
theorem decode_valid {bs : Bytes} (h : ∀ x ∈ decode bs, x ≠ invalidByte) : ∃ s, bs = encode s := by
  suffices ∀ n (bs : Bytes), bs.length ≤ n → (∀ x ∈ decode bs, x ≠ invalidByte) → ∃ s, bs = encode s from
    this _ bs (Nat.le_refl _) h
  intro n
  induction n with
  | zero =>
    intro bs hb _
    cases bs with
    | nil => exact ⟨[], rfl⟩
    | cons b more => simp at hb
  | succ n ih =>
    intro bs hb h
    cases bs with
    | nil => exact ⟨[], rfl⟩
    | cons b more =>
      rw [decode_cons] at h
      have hp := decodeRune_pos b more
      rcases decodeRune_cases b more with hbad | ⟨c, rest, hc, he⟩
      · exact absurd hbad (h _ (List.mem_cons_self ..))
      · have hd : (b :: more).drop (decodeRune b more).w = rest := by
          rw [hc, he]
          show (String.utf8EncodeChar c ++ rest).drop c.utf8Size = rest
          rw [← String.length_utf8EncodeChar c, List.drop_left]
        have hlen : rest.length ≤ n := by
          rw [← hd, List.length_drop]; omega
        obtain ⟨s, hs⟩ := ih rest hlen (by
          intro x hx
          exact h x (List.mem_cons_of_mem _ (by rw [hd]; exact hx)))
        exact ⟨c :: s, by rw [he, hs, encode_cons]⟩

theorem decoded_decode (bs : Bytes) : Decoded (decode bs) := by
  suffices ∀ n (bs : Bytes), Decoded (decodeN n bs) from this _ bs
  intro n
  induction n with
  | zero => intro bs x hx; cases hx
  | succ n ih =>
    intro bs
    cases bs with
    | nil => intro x hx; cases hx
    | cons b more =>
      intro x hx
      rcases List.mem_cons.1 hx with rfl | hx
      · exact decodeRune_pos b more
      · exact ih _ x hx

/-- Cutting behind a rune does not change how it is read. -/
theorem decodeRune_take (b : UInt8) (more : Bytes) (m : Nat) (h : (decodeRune b more).w ≤ m + 1) :
    decodeRune b (more.take m) = decodeRune b more := by
  rcases decodeRune_cases b more with hb | ⟨c, rest, hc, he⟩
  · rcases decodeRune_cases b (more.take m) with hb' | ⟨c, rest, hc, he⟩
    · rw [hb, hb']
    · obtain ⟨b', more', h1, h2, -⟩ := decodeRune_encode c (rest ++ more.drop m)
      have h3 : b :: more = String.utf8EncodeChar c ++ (rest ++ more.drop m) := by
        rw [← List.append_assoc, ← he, List.cons_append, List.take_append_drop]
      rw [← h3] at h1
      cases h1
      exact absurd (h2.symm.trans hb) (ofChar_ne_invalid c)
  · rw [hc] at h
    have h4 : c.utf8Size ≤ m + 1 := h
    obtain ⟨b', more', h1, h2, -⟩ := decodeRune_encode c (rest.take (m + 1 - c.utf8Size))
    have h3 : b :: more.take m = String.utf8EncodeChar c ++ rest.take (m + 1 - c.utf8Size) := by
      have : (b :: more).take (m + 1) = (String.utf8EncodeChar c ++ rest).take (m + 1) := by rw [he]
      rw [List.take_succ_cons, List.take_append, String.length_utf8EncodeChar,
        List.take_of_length_le (l := String.utf8EncodeChar c) (by rw [String.length_utf8EncodeChar]; exact h4)] at this
      exact this
    rw [← h3] at h1
    cases h1
    rw [h2, hc]

theorem decode_take : ∀ (k : Nat) (bs : Bytes),
    decode (bs.take (((decode bs).take k).map Sym.w).sum) = (decode bs).take k
  | 0, bs => by simp [decode_nil]
  | k + 1, [] => rfl
  | k + 1, b :: more => by
    rw [decode_cons, List.take_succ_cons, List.map_cons, List.sum_cons]
    have hp := decodeRune_pos b more
    have ih := decode_take k ((b :: more).drop (decodeRune b more).w)
    generalize hS : (((decode ((b :: more).drop (decodeRune b more).w)).take k).map Sym.w).sum = S at ih
    obtain ⟨m, hm⟩ : ∃ m, (decodeRune b more).w + S = m + 1 := ⟨(decodeRune b more).w + S - 1, by omega⟩
    rw [hm, List.take_succ_cons, decode_cons, decodeRune_take b more m (by omega)]
    congr 1
    rw [← ih]
    congr 1
    rw [← List.take_succ_cons, ← hm, List.drop_take]
    congr 1
    omega

theorem decode_firstPart (bs : Bytes) :
    decode (firstPartBytes bs) = (decode bs).takeWhile (fun x => !isReSpace x.rn) := by
  unfold firstPartBytes
  have h : (decode bs).takeWhile (fun x => !isReSpace x.rn) =
      (decode bs).take ((decode bs).takeWhile (fun x => !isReSpace x.rn)).length := by
    have := List.takeWhile_prefix (l := decode bs) (fun x => !isReSpace x.rn)
    exact List.prefix_iff_eq_take.1 this
  rw [h, decode_take]

/-- Two strings that are read alike and are valid are the same. -/
theorem eq_encode_of_decode {bs : Bytes} {s : Str} (h : decode bs = utf8 s) : bs = encode s := by
  obtain ⟨rest, h1, h2⟩ := decode_split s [] bs (by rw [h, List.append_nil])
  cases rest with
  | nil => rw [h1, List.append_nil]
  | cons b more => rw [decode_cons] at h2; cases h2

theorem takeWhile_utf8 (p : Char → Bool) (s : Str) :
    (utf8 s).takeWhile (fun x => p x.rn) = utf8 (s.takeWhile p) := by
  induction s with
  | nil => rfl
  | cons c s ih =>
    show (Sym.ofChar c :: utf8 s).takeWhile _ = _
    rw [List.takeWhile_cons, List.takeWhile_cons]
    show (if p c = true then _ else _) = _
    cases p c
    · rfl
    · rw [if_pos rfl, if_pos rfl, ih]; rfl

theorem firstPart_encode (s : Str) : firstPartBytes (encode s) = encode (firstPart s) := by
  refine eq_encode_of_decode ?_
  rw [decode_firstPart, decode_encode, takeWhile_utf8 (fun c => !isReSpace c)]
  rfl

theorem checkSecret_encode (s : Str) :
    checkSecretBytes (encode s) = (encode (checkSecret s).1, (checkSecret s).2) := by
  unfold checkSecretBytes
  rw [decode_encode]
  have : (utf8 s).map Sym.rn = s := by
    rw [utf8, List.map_map]; exact List.map_id' s
  rw [this]
  cases s with
  | nil => rfl
  | cons c s =>
    dsimp only [checkSecret]
    split <;> rfl

end GoBCDice
