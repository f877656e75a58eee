import Verif.Spec.Bytes
import Verif.Lemmas.Bytes
import Verif.Lemmas.PigeonClosed
import Verif.Props.PigeonCost
import Verif.Props.Outcome
import Verif.Props.Peg

/-!
# Commands given as arbitrary bytes (C81)
-/

namespace GoBCDice

open Pigeon (Sym)

/-! ### What the bytes say -/

theorem Repaired.unique {bs : Bytes} {s t : Str} (h : Repaired bs s) (h' : Repaired bs t) : s = t := by
  induction h generalizing t with
  | nil =>
    generalize hb : ([] : Bytes) = bs at h'
    cases h' with
    | nil => rfl
    | char c _ =>
      obtain ⟨b, more, h1, -⟩ := decodeRune_encode c []
      have := congrArg List.length hb
      rw [encode_cons] at this
      rw [List.append_nil] at h1
      simp [h1] at this
    | bad => cases hb
  | @char bs s c h ih =>
    generalize hb : encode [c] ++ bs = bs' at h'
    have he : ∀ c, encode [c] = String.utf8EncodeChar c := fun c => by
      rw [encode_cons, encode_nil, List.append_nil]
    obtain ⟨b, more, h1, h2, h3⟩ := decodeRune_encode c bs
    cases h' with
    | nil => rw [he, h1] at hb; cases hb
    | @char bs2 s2 c2 h' =>
      obtain ⟨b', more', h1', h2', h3'⟩ := decodeRune_encode c2 bs2
      rw [he, he, h1, h1'] at hb
      cases hb
      have hc : Sym.ofChar c = Sym.ofChar c2 := h2.symm.trans h2'
      have hc' : c = c2 := congrArg Sym.rn hc
      subst hc'
      rw [h3] at h3'
      subst h3'
      rw [ih h']
    | bad hno _ => exact absurd hb.symm (hno c bs)
  | @bad b bs s hno h ih =>
    generalize hb : b :: bs = bs' at h'
    cases h' with
    | nil => cases hb
    | char c _ => exact absurd hb (hno c _)
    | bad _ h' => cases hb; rw [ih h']

theorem Repaired.decode (bs : Bytes) : Repaired bs (runesOf (decode bs)) := by
  suffices ∀ n (bs : Bytes), bs.length ≤ n → Repaired bs (runesOf (GoBCDice.decode bs)) from
    this _ bs (Nat.le_refl _)
  intro n
  induction n with
  | zero =>
    intro bs h
    cases bs with
    | nil => exact .nil
    | cons b bs => simp at h
  | succ n ih =>
    intro bs h
    cases bs with
    | nil => exact .nil
    | cons b more =>
      rw [decode_cons]
      rcases decodeRune_cases b more with hb | ⟨c, rest, hc, he⟩
      · rw [hb]
        refine .bad ?_ (ih more (by simp only [List.length_cons] at h; omega))
        intro c rest hr
        obtain ⟨b', more', h1, h2, -⟩ := decodeRune_encode c rest
        rw [encode_cons, encode_nil, List.append_nil, h1] at hr
        cases hr
        rw [h2] at hb
        exact ofChar_ne_invalid c hb
      · rw [hc]
        obtain ⟨b', more', h1, h2, h3⟩ := decodeRune_encode c rest
        rw [← he] at h1
        cases h1
        show Repaired _ (c :: runesOf (GoBCDice.decode ((b :: more).drop c.utf8Size)))
        rw [h3]
        have hlen : rest.length < (b :: more).length := by
          have := congrArg List.length h3
          rw [List.length_drop] at this
          have := c.utf8Size_pos
          simp only [List.length_cons] at *
          omega
        rw [he]
        have := Repaired.char c (ih rest (by simp only [List.length_cons] at h hlen; omega))
        rw [encode_cons, encode_nil, List.append_nil] at this
        exact this

theorem Repaired.encode (s : Str) : Repaired (encode s) s := by
  induction s with
  | nil => exact .nil
  | cons c s ih =>
    have := ih.char c
    rw [← encode_append] at this
    exact this

theorem blank_char (c : Char) : ∀ b ∈ String.utf8EncodeChar c, BlankByte b = isReSpace c := by
  have hv := char_range c
  have key : ∀ b : UInt8, BlankByte b = decide (b.toNat = 9 ∨ b.toNat = 10 ∨ b.toNat = 12 ∨ b.toNat = 13 ∨ b.toNat = 32) := by
    intro b
    have : ∀ n : UInt8, (b == n) = decide (b.toNat = n.toNat) := by
      intro n
      rw [Bool.eq_iff_iff]
      simp [UInt8.toNat_inj]
    unfold BlankByte
    rw [this, this, this, this, this, Bool.eq_iff_iff]
    simp [or_assoc]
  have keyc : isReSpace c = decide (c.toNat = 9 ∨ c.toNat = 10 ∨ c.toNat = 12 ∨ c.toNat = 13 ∨ c.toNat = 32) := by
    have : ∀ d : Char, (c = d) ↔ (c.toNat = d.toNat) := fun d => char_eq_iff c d
    unfold isReSpace
    rw [Bool.eq_iff_iff]
    simp only [this, Bool.or_eq_true, decide_eq_true_eq, or_assoc]
    exact Iff.rfl
  intro b hb
  rw [key, keyc]
  rw [encodeChar_eq] at hb
  have hn : ∀ n, n < 256 → (UInt8.ofNat n).toNat = n := fun n h => toNat_ofNat_byte h
  congr 1
  apply propext
  split at hb
  · rw [List.mem_singleton] at hb
    rw [hb, hn _ (by omega)]
  split at hb
  · simp only [List.mem_cons, List.not_mem_nil, or_false] at hb
    rcases hb with rfl | rfl <;> rw [hn _ (by omega)] <;> constructor <;> omega
  split at hb
  · simp only [List.mem_cons, List.not_mem_nil, or_false] at hb
    rcases hb with rfl | rfl | rfl <;> rw [hn _ (by omega)] <;> constructor <;> omega
  · simp only [List.mem_cons, List.not_mem_nil, or_false] at hb
    rcases hb with rfl | rfl | rfl | rfl <;> rw [hn _ (by omega)] <;> constructor <;> omega

/-- What the regular expression matches are the bytes before the first blank. -/
theorem firstPartBytes_eq (bs : Bytes) : firstPartBytes bs = firstWordBytes bs := by
  suffices ∀ n (bs : Bytes), bs.length ≤ n → firstPartBytes bs = firstWordBytes bs from this _ bs (Nat.le_refl _)
  intro n
  induction n with
  | zero =>
    intro bs h
    cases bs with
    | nil => rfl
    | cons b bs => simp at h
  | succ n ih =>
    intro bs h
    cases bs with
    | nil => rfl
    | cons b more =>
      have hl : more.length ≤ n := by simp only [List.length_cons] at h; omega
      rcases decodeRune_cases b more with hb | ⟨c, rest, hc, he⟩
      · have hnb : BlankByte b = false := by
          cases hbl : BlankByte b with
          | false => rfl
          | true =>
            exfalso
            have hlt : b.toNat < 0x80 := by
              unfold BlankByte at hbl
              simp only [Bool.or_eq_true, beq_iff_eq] at hbl
              rcases hbl with (((rfl | rfl) | rfl) | rfl) | rfl <;> decide
            unfold decodeRune at hb
            rw [if_pos hlt] at hb
            have := congrArg (fun x => x.rn.toNat) hb
            simp only at this
            rw [toNat_ofNat_char (by omega)] at this
            have h2 : Pigeon.runeError.toNat = 65533 := by decide
            omega
        have hih := ih more hl
        unfold firstPartBytes firstWordBytes at *
        rw [decode_cons, hb, List.takeWhile_cons, if_pos (by decide), List.takeWhile_cons, if_pos (by rw [hnb]; rfl)]
        rw [List.map_cons, List.sum_cons]
        show List.take (1 + _) (b :: more) = _
        rw [Nat.add_comm 1, List.take_succ_cons]
        exact congrArg _ hih
      · have hbc := blank_char c
        obtain ⟨b', more', h1, h2, h3⟩ := decodeRune_encode c rest
        rw [← he] at h1
        cases h1
        have hlen : (String.utf8EncodeChar c).length = c.utf8Size := String.length_utf8EncodeChar c
        have hlen' : rest.length ≤ n := by
          have := congrArg List.length he
          rw [List.length_append, hlen] at this
          have := c.utf8Size_pos
          simp only [List.length_cons] at *
          omega
        unfold firstPartBytes firstWordBytes
        rw [decode_cons, hc]
        show List.take (((Sym.ofChar c :: decode ((b :: more).drop c.utf8Size)).takeWhile _).map Sym.w).sum (b :: more) = _
        rw [h3, List.takeWhile_cons]
        by_cases hs : isReSpace c = true
        · rw [if_neg (by show ¬ (!isReSpace c) = true; rw [hs]; decide)]
          have hbb : b ∈ String.utf8EncodeChar c := by
            have hpos := c.utf8Size_pos
            cases hq : String.utf8EncodeChar c with
            | nil => rw [hq] at hlen; simp at hlen; omega
            | cons y ys => rw [hq] at he; cases he; exact List.mem_cons_self ..
          rw [List.takeWhile_cons, if_neg (by rw [hbc b hbb, hs]; decide)]
          rfl
        · have hs' : isReSpace c = false := by simpa using hs
          rw [if_pos (by show (!isReSpace c) = true; rw [hs']; rfl), List.map_cons, List.sum_cons, he]
          show List.take (c.utf8Size + _) _ = _
          rw [← hlen, List.take_append, List.take_of_length_le (Nat.le_add_right _ _),
            Nat.add_sub_cancel_left, List.takeWhile_append_of_pos (fun y hy => by rw [hbc y hy, hs']; rfl)]
          exact congrArg _ (ih rest hlen')

/-! ### The parser -/

theorem decode_char (bs : Bytes) : ∀ x ∈ decode bs, x = invalidByte ∨ x = Sym.ofChar x.rn := by
  suffices ∀ n (bs : Bytes), ∀ x ∈ decodeN n bs, x = invalidByte ∨ x = Sym.ofChar x.rn from this _ bs
  intro n
  induction n with
  | zero => intro bs x hx; cases hx
  | succ n ih =>
    intro bs x hx
    cases bs with
    | nil => cases hx
    | cons b more =>
      rcases List.mem_cons.1 hx with rfl | hx
      · rcases decodeRune_cases b more with h | ⟨c, rest, h, -⟩
        · exact .inl h
        · rw [h]; exact .inr rfl
      · exact ih _ x hx

/-- Runes without an invalid byte are characters. -/
theorem eq_utf8 {l : List Sym} (h : ∀ x ∈ l, x = invalidByte ∨ x = Sym.ofChar x.rn)
    (hb : ∀ x ∈ l, x ≠ invalidByte) : l = utf8 (runesOf l) := by
  induction l with
  | nil => rfl
  | cons x l ih =>
    have h1 := (h x (List.mem_cons_self ..)).resolve_left (hb x (List.mem_cons_self ..))
    have h2 := ih (fun y hy => h y (List.mem_cons_of_mem _ hy)) (fun y hy => hb y (List.mem_cons_of_mem _ hy))
    show x :: l = Sym.ofChar x.rn :: utf8 (runesOf l)
    rw [← h1, ← h2]

theorem runesOf_append (a b : List Sym) : runesOf (a ++ b) = runesOf a ++ runesOf b := List.map_append

/-- The bytes up to a position with no invalid byte up to it, and at it. -/
theorem bytes_before {bs : Bytes} {W s' : Str} {k : Nat} (hk : k ≤ (decode bs).length)
    (hs : runesOf (decode bs) = W ++ s') (hs' : runesOf ((decode bs).drop k) = s')
    (hv : ∀ i, i ≤ k → (decode bs)[i]? ≠ some invalidByte) :
    bs = encode W ∨ ∃ x more, bs = encode (W ++ [x]) ++ more := by
  have hsplit := List.take_append_drop k (decode bs)
  have hW : runesOf ((decode bs).take k) = W := by
    have := hs
    rw [← hsplit, runesOf_append, hs'] at this
    exact List.append_cancel_right this
  have hu : (decode bs).take k = utf8 W := by
    rw [← hW]
    refine eq_utf8 (fun x hx => decode_char bs x (List.mem_of_mem_take hx)) (fun x hx => ?_)
    obtain ⟨i, hi, rfl⟩ := List.getElem_of_mem hx
    rw [List.length_take] at hi
    intro hbad
    rw [List.getElem_take] at hbad
    exact hv i (by omega) (by rw [List.getElem?_eq_getElem (by omega), hbad])
  cases hd : (decode bs).drop k with
  | nil =>
    left
    refine eq_encode_of_decode ?_
    rw [← hsplit, hd, List.append_nil, hu]
  | cons x d =>
    right
    have hx : (decode bs)[k]? = some x := by
      rw [← List.head?_drop, hd]; rfl
    have hne : x ≠ invalidByte := by
      rintro rfl
      exact hv k (Nat.le_refl _) hx
    have hxc := (decode_char bs x (List.mem_of_getElem? hx)).resolve_left hne
    obtain ⟨rest, h1, -⟩ := decode_split (W ++ [x.rn]) d bs (by
      rw [← hsplit, hd, hu]
      show utf8 W ++ x :: d = (W ++ [x.rn]).map Sym.ofChar ++ d
      rw [List.map_append]
      show utf8 W ++ x :: d = (utf8 W ++ [Sym.ofChar x.rn]) ++ d
      rw [← hxc]
      simp)
    exact ⟨_, _, h1⟩

/-- **C81.** The parser accepts exactly the bytes that spell a command, and returns its tree. -/
theorem C81_parser (filename : Str) (bs : Bytes) (node : Node) :
    (∃ v, Parses filename (decode bs) (.ok v) ∧ v.toNode = some node) ↔ ByteCommand bs node := by
  constructor
  · rintro ⟨v, h, hv⟩
    obtain ⟨node', s', c', st', h1, h2, h3, h4, h5⟩ := Pigeon.ok_command (decoded_decode bs) h
    rw [hv] at h2
    cases h2
    obtain ⟨k, hk1, hk2, hk3⟩ := h5.pt
    rw [(Pigeon.initState_fields _).1] at hk1 hk3
    rw [hk2, Pigeon.walk_rest, (Pigeon.initState_fields _).1] at h3
    have hv' : ∀ i, i ≤ k → (decode bs)[i]? ≠ some invalidByte := fun i hi hb => hk3 i hi hb rfl h4
    unfold command at h1
    rcases P.alt_ok h1 with h | ⟨-, h⟩
    · obtain ⟨x, hx, h⟩ := noErr_ok h
      cases hx
      obtain ⟨kw, body, seps, items, rfl, hs, g1, g2, g3⟩ := choiceCmd_parts h
      have ht : CommandText (kw ++ chars!"[" ++ body ++ seps ++ chars!"]") (.choice items) := by
        have := CommandText.choice (rest := []) g1 g2 g3
        rwa [List.append_nil] at this
      rcases bytes_before hk1 hs h3 hv' with rfl | ⟨x, more, rfl⟩
      · exact .whole ht
      · exact .choice ht
    rcases P.alt_ok h with h | ⟨-, h⟩
    · obtain ⟨x, hx, h⟩ := noErr_ok h
      cases hx
      obtain ⟨y, t, e, rfl, hs, g1, g2⟩ := calcCmd_parts h
      have ht : CommandText ([y] ++ chars!"(" ++ t ++ chars!")") (.calc e) := by
        have := CommandText.calc (rest := []) g1 g2
        rwa [List.append_nil] at this
      rcases bytes_before hk1 hs h3 hv' with rfl | ⟨x, more, rfl⟩
      · exact .whole ht
      · exact .calc ht
    have hs' : s' = [] := by
      unfold commandWithExpression at h
      rw [P.bind_ok] at h
      obtain ⟨x, s1, c1, h, h2⟩ := h
      rw [P.bind_ok] at h2
      obtain ⟨_, s2, c2, h2, h3⟩ := h2
      simp only [P.pure_def, Option.some.injEq, Prod.mk.injEq] at h3
      rw [← h3.2.1]
      cases s1 with
      | nil => cases h2; rfl
      | cons x s => simp [eot] at h2
    subst hs'
    have ht := command_ok h1
    have hlen : (decode bs).length ≤ k := by
      have := congrArg List.length h3
      simp only [Pigeon.runes, List.length_map, List.length_drop, List.length_nil] at this
      omega
    have hu := eq_utf8 (decode_char bs) (fun x hx hbad => by
      obtain ⟨i, hi, rfl⟩ := List.getElem_of_mem hx
      exact hv' i (by omega) (by rw [List.getElem?_eq_getElem hi, hbad]))
    rw [eq_encode_of_decode hu]
    exact .whole ht
  · intro h
    cases h with
    | whole h => rw [decode_encode]; exact (C64_language filename _ _).2 h
    | @choice s x more items h =>
      have hd := decoded_decode (encode (s ++ [x]) ++ more)
      rw [decode_append] at hd ⊢
      cases h with
      | @choice kw body seps rest items hkw hit hs =>
        have e : utf8 (kw ++ chars!"[" ++ body ++ seps ++ chars!"]" ++ rest ++ [x]) ++ decode more =
            utf8 (kw ++ chars!"[" ++ body ++ seps ++ chars!"]") ++ (utf8 (rest ++ [x]) ++ decode more) := by
          simp only [utf8, List.map_append, List.append_assoc]
        rw [e] at hd ⊢
        refine Pigeon.parses_choice filename hkw hit hs hd ?_
        cases rest with
        | nil => exact fun h => Pigeon.ofChar_bad _ (Option.some.inj h)
        | cons y ys => exact fun h => Pigeon.ofChar_bad _ (Option.some.inj h)
    | @«calc» s x more e h =>
      have hd := decoded_decode (encode (s ++ [x]) ++ more)
      rw [decode_append] at hd ⊢
      cases h with
      | @«calc» t rest e c hc ht =>
        have e : utf8 ([c] ++ chars!"(" ++ t ++ chars!")" ++ rest ++ [x]) ++ decode more =
            utf8 ([c] ++ chars!"(" ++ t ++ chars!")") ++ (utf8 (rest ++ [x]) ++ decode more) := by
          simp only [utf8, List.map_append, List.append_assoc]
        rw [e] at hd ⊢
        refine Pigeon.parses_calc filename hc ht hd ?_
        cases rest with
        | nil => exact fun h => Pigeon.ofChar_bad _ (Option.some.inj h)
        | cons y ys => exact fun h => Pigeon.ofChar_bad _ (Option.some.inj h)

/-! ### Execution -/

/-- **C81.** `ExecuteBasicCommand` on any bytes: a command is executed, and of other bytes the syntax
error is reported, with no die thrown. -/
theorem C81_basic {σ : Type} (F : DieFeeder σ) (gameID : Str) (bs : Bytes) (f : σ) :
    (∃ node, ByteCommand bs node ∧
      executeBasicBytes F gameID bs f = runFresh ((newEvaluator F).execute gameID node) f) ∨
    (∃ msg, (∀ node, ¬ ByteCommand bs node) ∧ Parses chars!"input" (decode bs) (.error msg) ∧
      executeBasicBytes F gameID bs f = (.err msg, f)) := by
  have hp := (goParse_iff chars!"input" (decode bs) _).2 rfl
  unfold executeBasicBytes
  cases hg : goParse chars!"input" (decode bs) with
  | ok v =>
    rw [hg] at hp
    obtain ⟨node, hn, -⟩ := C64_sound _ _ (decoded_decode bs) v hp
    left
    refine ⟨node, (C81_parser _ bs node).1 ⟨v, hp, hn⟩, ?_⟩
    dsimp only
    rw [hn]
  | error m =>
    rw [hg] at hp
    right
    refine ⟨m, ?_, hp, rfl⟩
    intro node h
    obtain ⟨v, h1, -⟩ := (C81_parser chars!"input" bs node).2 h
    obtain ⟨r, -, hu⟩ := C64_total chars!"input" (decode bs) (decoded_decode bs)
    have := (hu _ hp).trans (hu _ h1).symm
    cases this

theorem ByteCommand.unique {bs : Bytes} {n n' : Node} (h : ByteCommand bs n) (h' : ByteCommand bs n') : n = n' := by
  obtain ⟨v, h1, h2⟩ := (C81_parser [] bs n).2 h
  obtain ⟨v', h1', h2'⟩ := (C81_parser [] bs n').2 h'
  obtain ⟨r, -, hu⟩ := C64_total [] (decode bs) (decoded_decode bs)
  have := (hu _ h1).trans (hu _ h1').symm
  cases this
  rw [h2] at h2'
  exact Option.some.inj h2'

/-- On the bytes of a text. -/
theorem basic_encode {σ : Type} (F : DieFeeder σ) (gameID : Str) (s : Str) (f : σ) :
    executeBasicBytes F gameID (encode s) f = executeBasicCommand F gameID s f := by
  unfold executeBasicBytes executeBasicCommand parseErrorText
  rw [decode_encode]
  show (match goParse chars!"input" (utf8 s) with
    | .error m => (Out.err m, f)
    | .ok v => match v.toNode with
      | none => (Out.panic chars!"interface conversion", f)
      | some node => runFresh ((newEvaluator F).execute gameID node) f) =
    match parse s with
    | none => (.err (match goParse chars!"input" (utf8 s) with | .error m => m | .ok _ => []), f)
    | some node => runFresh ((newEvaluator F).execute gameID node) f
  have hp := (goParse_iff chars!"input" (utf8 s) _).2 rfl
  cases hg : goParse chars!"input" (utf8 s) with
  | ok v =>
    rw [hg] at hp
    obtain ⟨node, hn, ht⟩ := C64_sound _ _ (Pigeon.decoded_utf8 s) v hp
    rw [Pigeon.runesOf_utf8] at ht
    rw [(parse_iff s node).2 ht]
    dsimp only
    rw [hn]
  | error m =>
    rw [hg] at hp
    cases hq : parse s with
    | none => rfl
    | some node =>
      obtain ⟨v, h1, -⟩ := (C64_rule_functions chars!"input" s node).2 hq
      obtain ⟨r, -, hu⟩ := C64_total chars!"input" (utf8 s) (Pigeon.decoded_utf8 s)
      have := (hu _ hp).trans (hu _ h1).symm
      cases this

/-- **C81.** On the UTF-8 of a text, `ExecuteCommand` does what the other properties say of the text,
with any dice bot. -/
theorem C81_text {σ : Type} (F : DieFeeder σ) (bot : DiceBot σ) (bb : ByteBot σ) (hi : bb.info = bot.info)
    (hc : ∀ w ev, bb.executeCommand (encode w) ev = bot.executeCommand w ev) (s : Str) (f : σ) :
    executeBytes F bb (encode s) f = executeCommand F bot s f := by
  unfold executeBytes executeCommand executeDiceBotCommand
  rw [checkSecret_encode]
  obtain ⟨cmd, b⟩ := checkSecret s
  dsimp only
  rw [firstPart_encode, hc, hi]
  simp only [basic_encode]
  rfl

/-- **C81.** Behind the mark of a secret roll, a byte that is not part of the UTF-8 of a character
counts as U+FFFD. -/
theorem C81_secret {σ : Type} (F : DieFeeder σ) (bot : DiceBot σ) (bb : ByteBot σ) (hi : bb.info = bot.info)
    (hc : ∀ w ev, bb.executeCommand (encode w) ev = bot.executeCommand w ev) (b : UInt8) (hb : SecretByte b)
    (more : Bytes) (s : Str) (hs : Repaired more s) (f : σ) :
    executeBytes F bb (b :: more) f = executeCommand F bot ('S' :: s) f := by
  have hs' : s = runesOf (decode more) := hs.unique (Repaired.decode more)
  have hbs : ∃ c : Char, (c = 'S' ∨ c = 's') ∧ b :: more = encode [c] ++ more := by
    rcases hb with rfl | rfl
    · exact ⟨'S', .inl rfl, rfl⟩
    · exact ⟨'s', .inr rfl, rfl⟩
  obtain ⟨c, hcs, hcb⟩ := hbs
  have hsec : checkSecretBytes (b :: more) = (encode s, true) := by
    unfold checkSecretBytes
    rw [hcb, decode_append]
    show (if c = 'S' ∨ c = 's' then (encode ((decode more).map Sym.rn), true) else (_, false)) = _
    rw [if_pos hcs, hs']
    rfl
  have hsec' : checkSecret ('S' :: s) = (s, true) := rfl
  unfold executeBytes executeCommand executeDiceBotCommand
  rw [hsec, hsec']
  dsimp only
  rw [firstPart_encode, hc, hi]
  simp only [basic_encode]
  rfl

theorem marked_bytes {input body : Bytes} {secret : Bool} :
    MarkedBytes input body secret ↔ checkSecretBytes input = (body, secret) := by
  have hsec : ∀ b more, SecretByte b → checkSecretBytes (b :: more) = (encode (runesOf (decode more)), true) := by
    intro b more hb
    have hbs : ∃ c : Char, (c = 'S' ∨ c = 's') ∧ b :: more = encode [c] ++ more := by
      rcases hb with rfl | rfl
      · exact ⟨'S', .inl rfl, rfl⟩
      · exact ⟨'s', .inr rfl, rfl⟩
    obtain ⟨c, hcs, hcb⟩ := hbs
    unfold checkSecretBytes
    rw [hcb, decode_append]
    show (if c = 'S' ∨ c = 's' then (encode ((decode more).map Sym.rn), true) else (_, false)) = _
    rw [if_pos hcs]
    rfl
  have hpl : ∀ bs : Bytes, (∀ b ∈ bs.head?, ¬ SecretByte b) → checkSecretBytes bs = (bs, false) := by
    intro bs hb
    unfold checkSecretBytes
    cases bs with
    | nil => rfl
    | cons b more =>
      have hb' := hb b rfl
      rw [decode_cons]
      show (if (decodeRune b more).rn = 'S' ∨ (decodeRune b more).rn = 's' then _ else _) = _
      rw [if_neg]
      intro hcs
      apply hb'
      rcases decodeRune_cases b more with h | ⟨c, rest, h, he⟩
      · rw [h] at hcs
        rcases hcs with h | h <;> cases h
      · rw [h] at hcs
        have hcs' : c = 'S' ∨ c = 's' := hcs
        rcases hcs' with rfl | rfl
        · cases he; exact .inl rfl
        · cases he; exact .inr rfl
  constructor
  · intro h
    cases h with
    | secret hb hs => rw [hsec _ _ hb, hs.unique (Repaired.decode _)]
    | plain h => exact hpl _ h
  · intro h
    cases input with
    | nil =>
      rw [hpl [] (by intro b hb; cases hb)] at h
      cases h
      exact .plain (by intro b hb; cases hb)
    | cons b more =>
      by_cases hb : SecretByte b
      · rw [hsec _ _ hb] at h
        cases h
        exact .secret hb (Repaired.decode _)
      · have hb' : ∀ x ∈ (b :: more).head?, ¬ SecretByte x := by
          intro x hx
          cases hx
          exact hb
        rw [hpl _ hb'] at h
        cases h
        exact .plain hb'

theorem basicBytes_succeeds {σ : Type} (F : DieFeeder σ) (g : Str) (bs : Bytes) (f f' : σ) (r : Result) :
    executeBasicBytes F g bs f = (.ok r, f') ↔ ByteSucceeds F g bs f r f' := by
  rcases C81_basic F g bs f with ⟨node, hn, he⟩ | ⟨msg, hno, -, he⟩
  · rw [he]
    unfold runFresh
    constructor
    · intro h
      generalize hx : (newEvaluator F).execute g node ⟨f, []⟩ = x at h
      obtain ⟨o, ⟨f2, log⟩⟩ := x
      simp only [Prod.mk.injEq] at h
      obtain ⟨rfl, rfl⟩ := h
      obtain ⟨ds, ho, hd⟩ := (C78_execute (newEvaluator F) g node f _ r).mp ⟨log, hx⟩
      rw [limit_eq] at ho
      exact ⟨node, ds, hn, ho, hd⟩
    · rintro ⟨node', ds, hn', ho, hd⟩
      cases hn.unique hn'
      obtain ⟨log, hx⟩ := (C78_execute (newEvaluator F) g node f f' r).mpr ⟨ds, by rw [limit_eq]; exact ho, hd⟩
      rw [hx]
  · rw [he]
    constructor
    · intro h; cases h
    · rintro ⟨node, -, hn, -⟩; exact absurd hn (hno node)

theorem basicBytes_endsWith {σ : Type} (F : DieFeeder σ) (g : Str) (bs : Bytes) (f f' : σ) (e : Ending) :
    ByteEndsWith F bs f e f' ↔ (∃ node, ByteCommand bs node) ∧
      ((∃ msg, e = .error msg ∧ executeBasicBytes F g bs f = (.err msg, f')) ∨
       (∃ msg, e = .panic ∧ executeBasicBytes F g bs f = (.panic msg, f'))) := by
  rcases C81_basic F g bs f with ⟨node, hn, he⟩ | ⟨msg, hno, -, he⟩
  · rw [he, ← runFresh_ended, execute_ended, limit_eq]
    constructor
    · rintro ⟨node', ds, f1, c, hn', h⟩
      cases hn.unique hn'
      exact ⟨⟨node, hn⟩, ds, f1, c, h⟩
    · rintro ⟨-, ds, f1, c, h⟩
      exact ⟨node, ds, f1, c, hn, h⟩
  · constructor
    · rintro ⟨node, _, _, _, hn, -⟩; exact absurd hn (hno node)
    · rintro ⟨⟨node, hn⟩, -⟩; exact absurd hn (hno node)

theorem basicBytes_fails {σ : Type} (F : DieFeeder σ) (g : Str) (bs : Bytes) (f f' : σ) (msg : Str) :
    executeBasicBytes F g bs f = (.err msg, f') ↔ ByteFails F bs f msg f' := by
  unfold ByteFails
  rw [basicBytes_endsWith F g]
  rcases C81_basic F g bs f with ⟨node, hn, he⟩ | ⟨m, hno, hp, he⟩
  · constructor
    · intro h
      exact .inr ⟨⟨node, hn⟩, .inl ⟨msg, rfl, h⟩⟩
    · rintro (⟨h, -⟩ | ⟨-, ⟨m, hm, h⟩ | ⟨m, hm, -⟩⟩)
      · obtain ⟨v, hv, -⟩ := (C81_parser chars!"input" bs node).2 hn
        cases h.unique hv
      · cases hm; exact h
      · cases hm
  · rw [he]
    constructor
    · intro h
      cases h
      exact .inl ⟨hp, rfl⟩
    · rintro (⟨h, rfl⟩ | ⟨⟨node, hn⟩, -⟩)
      · cases h.unique hp; rfl
      · exact absurd hn (hno node)

theorem basicBytes_panics {σ : Type} (F : DieFeeder σ) (g : Str) (bs : Bytes) (f f' : σ) :
    (∃ m, executeBasicBytes F g bs f = (.panic m, f')) ↔ ByteEndsWith F bs f .panic f' := by
  rw [basicBytes_endsWith F g]
  constructor
  · rintro ⟨m, h⟩
    rcases C81_basic F g bs f with ⟨node, hn, he⟩ | ⟨msg, -, -, he⟩
    · exact ⟨⟨node, hn⟩, .inr ⟨m, rfl, h⟩⟩
    · rw [he] at h; cases h
  · rintro ⟨-, ⟨m, hm, -⟩ | ⟨m, -, h⟩⟩
    · cases hm
    · exact ⟨m, h⟩

theorem executeBytes_basic {σ : Type} (F : DieFeeder σ) (usage : Str) (bs : Bytes) (f : σ) :
    executeBytes F (basicByteBot usage) bs f =
      match executeBasicBytes F chars!"DiceBot" (checkSecretBytes bs).1 f with
      | (.ok r, f2) => (.ok (r.withSecret (checkSecretBytes bs).2), f2)
      | (.panic m, f2) => (.panic m, f2)
      | (.err _, f2) =>
        match executeBasicBytes F chars!"DiceBot" (firstWordBytes (checkSecretBytes bs).1) f2 with
        | (.ok r, f3) => (.ok (r.withSecret (checkSecretBytes bs).2), f3)
        | (.panic m, f3) => (.panic m, f3)
        | (.err e, f3) => (.err e, f3) := by
  rw [← firstPartBytes_eq]
  have hb : ∀ w, runFresh ((basicByteBot usage).executeCommand w (newEvaluator F)) f =
      (.err chars!"no game-system-specific command", f) := fun _ => rfl
  have hg : (basicByteBot (σ := σ) usage).info.gameID = chars!"DiceBot" := rfl
  unfold executeBytes
  generalize checkSecretBytes bs = x
  obtain ⟨cmd, sec⟩ := x
  dsimp only
  rw [hb, hg]
  dsimp only
  cases executeBasicBytes F chars!"DiceBot" cmd f with
  | mk o f2 =>
    cases o with
    | ok r => rfl
    | panic m => rfl
    | err m =>
      dsimp only
      cases executeBasicBytes F chars!"DiceBot" (firstPartBytes cmd) f2 with
      | mk o f3 => cases o <;> rfl

/-- **C81.** The answer to any bytes: `ExecuteCommand` returns the result `r` exactly when, without
the mark of a secret roll, all the bytes are a command that gives `r`, or they fail and those before
the first blank are a command that gives `r` with the dice that are left. -/
theorem C81_answer {σ : Type} (F : DieFeeder σ) (usage : Str) (input : Bytes) (f f' : σ) (r : Result) :
    executeBytes F (basicByteBot usage) input f = (.ok r, f') ↔
      ∃ body secret r0, MarkedBytes input body secret ∧ r = { r0 with isSecret := secret } ∧
        (ByteSucceeds F chars!"DiceBot" body f r0 f' ∨
          ∃ msg f1, ByteFails F body f msg f1 ∧
            ByteSucceeds F chars!"DiceBot" (firstWordBytes body) f1 r0 f') := by
  rw [executeBytes_basic]
  constructor
  · intro h
    refine ⟨(checkSecretBytes input).1, (checkSecretBytes input).2, ?_⟩
    cases hx : executeBasicBytes F chars!"DiceBot" (checkSecretBytes input).1 f with
    | mk o f2 =>
      rw [hx] at h
      cases o with
      | ok r0 =>
        simp only [Prod.mk.injEq, Out.ok.injEq] at h
        obtain ⟨rfl, rfl⟩ := h
        exact ⟨r0, marked_bytes.mpr rfl, rfl, .inl ((basicBytes_succeeds ..).mp hx)⟩
      | panic m => cases h
      | err m =>
        dsimp only at h
        cases hy : executeBasicBytes F chars!"DiceBot" (firstWordBytes (checkSecretBytes input).1) f2 with
        | mk o3 f3 =>
          rw [hy] at h
          cases o3 with
          | ok r0 =>
            simp only [Prod.mk.injEq, Out.ok.injEq] at h
            obtain ⟨rfl, rfl⟩ := h
            exact ⟨r0, marked_bytes.mpr rfl, rfl,
              .inr ⟨m, f2, (basicBytes_fails F chars!"DiceBot" ..).mp hx, (basicBytes_succeeds ..).mp hy⟩⟩
          | err m => cases h
          | panic m => cases h
  · rintro ⟨body, secret, r0, hm, rfl, h⟩
    rw [marked_bytes] at hm
    rw [hm]
    rcases h with h | ⟨msg, f1, h1, h2⟩
    · rw [(basicBytes_succeeds ..).mpr h]; rfl
    · rw [(basicBytes_fails F chars!"DiceBot" ..).mpr h1]
      dsimp only
      rw [(basicBytes_succeeds ..).mpr h2]
      rfl

/-- **C81.** It returns the error `msg` exactly when the bytes fail and then those before the first
blank fail with `msg`. -/
theorem C81_answer_error {σ : Type} (F : DieFeeder σ) (usage : Str) (input : Bytes) (f f' : σ) (msg : Str) :
    executeBytes F (basicByteBot usage) input f = (.err msg, f') ↔
      ∃ body secret msg1 f1, MarkedBytes input body secret ∧ ByteFails F body f msg1 f1 ∧
        ByteFails F (firstWordBytes body) f1 msg f' := by
  rw [executeBytes_basic]
  constructor
  · intro h
    refine ⟨(checkSecretBytes input).1, (checkSecretBytes input).2, ?_⟩
    cases hx : executeBasicBytes F chars!"DiceBot" (checkSecretBytes input).1 f with
    | mk o f2 =>
      rw [hx] at h
      cases o with
      | ok r0 => cases h
      | panic m => cases h
      | err m =>
        dsimp only at h
        cases hy : executeBasicBytes F chars!"DiceBot" (firstWordBytes (checkSecretBytes input).1) f2 with
        | mk o3 f3 =>
          rw [hy] at h
          cases o3 with
          | ok r0 => cases h
          | err m3 =>
            simp only [Prod.mk.injEq, Out.err.injEq] at h
            obtain ⟨rfl, rfl⟩ := h
            exact ⟨m, f2, marked_bytes.mpr rfl,
              (basicBytes_fails F chars!"DiceBot" ..).mp hx, (basicBytes_fails F chars!"DiceBot" ..).mp hy⟩
          | panic m => cases h
  · rintro ⟨body, secret, msg1, f1, hm, h1, h2⟩
    rw [marked_bytes] at hm
    rw [hm]
    rw [(basicBytes_fails F chars!"DiceBot" ..).mpr h1]
    dsimp only
    rw [(basicBytes_fails F chars!"DiceBot" ..).mpr h2]

/-- **C81.** It panics exactly when all the bytes do, or they fail and those before the first blank
do. -/
theorem C81_answer_panic {σ : Type} (F : DieFeeder σ) (usage : Str) (input : Bytes) (f f' : σ) :
    (∃ m, executeBytes F (basicByteBot usage) input f = (.panic m, f')) ↔
      ∃ body secret, MarkedBytes input body secret ∧ (ByteEndsWith F body f .panic f' ∨
        ∃ msg f1, ByteFails F body f msg f1 ∧ ByteEndsWith F (firstWordBytes body) f1 .panic f') := by
  simp only [executeBytes_basic]
  constructor
  · rintro ⟨m0, h⟩
    refine ⟨(checkSecretBytes input).1, (checkSecretBytes input).2, marked_bytes.mpr rfl, ?_⟩
    cases hx : executeBasicBytes F chars!"DiceBot" (checkSecretBytes input).1 f with
    | mk o f2 =>
      rw [hx] at h
      cases o with
      | ok r0 => cases h
      | panic m =>
        cases h
        exact .inl ((basicBytes_panics F chars!"DiceBot" ..).mp ⟨m0, hx⟩)
      | err m =>
        dsimp only at h
        cases hy : executeBasicBytes F chars!"DiceBot" (firstWordBytes (checkSecretBytes input).1) f2 with
        | mk o3 f3 =>
          rw [hy] at h
          cases o3 with
          | ok r0 => cases h
          | err m3 => cases h
          | panic m3 =>
            cases h
            exact .inr ⟨m, f2, (basicBytes_fails F chars!"DiceBot" ..).mp hx,
              (basicBytes_panics F chars!"DiceBot" ..).mp ⟨_, hy⟩⟩
  · rintro ⟨body, secret, hm, h⟩
    rw [marked_bytes] at hm
    rw [hm]
    rcases h with h | ⟨msg, f1, h1, h2⟩
    · obtain ⟨m, hm⟩ := (basicBytes_panics F chars!"DiceBot" ..).mpr h
      exact ⟨m, by rw [hm]⟩
    · obtain ⟨m, hm⟩ := (basicBytes_panics F chars!"DiceBot" ..).mpr h2
      refine ⟨m, ?_⟩
      rw [(basicBytes_fails F chars!"DiceBot" ..).mpr h1]
      dsimp only
      rw [hm]

/-! ### Order -/

theorem byte_cons_lt {m n : Nat} (hm : m < 256) (hn : n < 256) (x y : Bytes)
    (h : m < n ∨ (m = n ∧ x < y)) : UInt8.ofNat m :: x < UInt8.ofNat n :: y := by
  rw [List.cons_lt_cons_iff]
  rcases h with h | ⟨rfl, h⟩
  · left; rw [UInt8.lt_iff_toNat_lt, toNat_ofNat_byte hm, toNat_ofNat_byte hn]; exact h
  · exact .inr ⟨rfl, h⟩

theorem char_bytes_lt {c d : Char} (h : c.toNat < d.toNat) (x y : Bytes) :
    String.utf8EncodeChar c ++ x < String.utf8EncodeChar d ++ y := by
  have hc := char_range c
  have hd := char_range d
  have key : ∀ {m n : Nat} (_ : m < 256) (_ : n < 256) {x y : Bytes} (_ : m = n → x < y) (_ : m ≤ n),
      UInt8.ofNat m :: x < UInt8.ofNat n :: y := by
    intro m n hm hn x y h1 h2
    refine byte_cons_lt hm hn x y ?_
    rcases Nat.lt_or_eq_of_le h2 with h | h
    · exact .inl h
    · exact .inr ⟨h, h1 h⟩
  rw [encodeChar_eq, encodeChar_eq]
  split
  · split
    · exact key (by omega) (by omega) (by omega) (by omega)
    split
    · exact key (by omega) (by omega) (by omega) (by omega)
    split
    · exact key (by omega) (by omega) (by omega) (by omega)
    · exact key (by omega) (by omega) (by omega) (by omega)
  split
  · rw [if_neg (by omega)]
    split
    · refine key (by omega) (by omega) (fun h1 => ?_) (by omega)
      exact key (by omega) (by omega) (by omega) (by omega)
    split
    · exact key (by omega) (by omega) (by omega) (by omega)
    · exact key (by omega) (by omega) (by omega) (by omega)
  split
  · rw [if_neg (by omega), if_neg (by omega)]
    split
    · refine key (by omega) (by omega) (fun h1 => ?_) (by omega)
      refine key (by omega) (by omega) (fun h2 => ?_) (by omega)
      exact key (by omega) (by omega) (by omega) (by omega)
    · exact key (by omega) (by omega) (by omega) (by omega)
  · rw [if_neg (by omega), if_neg (by omega), if_neg (by omega)]
    refine key (by omega) (by omega) (fun h1 => ?_) (by omega)
    refine key (by omega) (by omega) (fun h2 => ?_) (by omega)
    refine key (by omega) (by omega) (fun h3 => ?_) (by omega)
    exact key (by omega) (by omega) (by omega) (by omega)

theorem byte_irrefl (b : UInt8) : ¬ b < b := by
  rw [UInt8.lt_iff_toNat_lt]; omega

theorem append_lt (p x y : Bytes) : p ++ x < p ++ y ↔ x < y := by
  induction p with
  | nil => rfl
  | cons b p ih =>
    rw [List.cons_append, List.cons_append, List.cons_lt_cons_iff]
    constructor
    · rintro (h | ⟨-, h⟩)
      · exact absurd h (byte_irrefl b)
      · exact ih.1 h
    · intro h; exact .inr ⟨rfl, ih.2 h⟩

theorem bytes_asymm : ∀ {x y : Bytes}, x < y → ¬ y < x
  | [], [], h, _ => by cases h
  | [], _ :: _, _, h => by cases h
  | _ :: _, [], h, _ => by cases h
  | a :: x, b :: y, h, h' => by
    rw [List.cons_lt_cons_iff, UInt8.lt_iff_toNat_lt] at h h'
    rcases h with h | ⟨rfl, h⟩
    · rcases h' with h' | ⟨rfl, h'⟩ <;> omega
    · rcases h' with h' | ⟨-, h'⟩
      · omega
      · exact bytes_asymm h h'

/-- **C81.** UTF-8 keeps the order: the bytes of one text come before those of another exactly if its
characters, compared by code point, do. -/
theorem C81_order (s t : Str) : encode s < encode t ↔ s < t := by
  have fwd : ∀ s t : Str, s < t → encode s < encode t := by
    intro s
    induction s with
    | nil =>
      intro t h
      cases t with
      | nil => cases h
      | cons d t =>
        obtain ⟨b, more, h1, -⟩ := decodeRune_encode d (encode t)
        rw [encode_cons, h1]
        exact List.nil_lt_cons _ _
    | cons c s ih =>
      intro t h
      cases t with
      | nil => cases h
      | cons d t =>
        rw [List.cons_lt_cons_iff] at h
        rw [encode_cons, encode_cons]
        rcases h with h | ⟨rfl, h⟩
        · exact char_bytes_lt h _ _
        · rw [append_lt]; exact ih t h
  refine ⟨fun h => ?_, fwd s t⟩
  by_cases h1 : s < t
  · exact h1
  · exfalso
    have h2 : t ≤ s := List.not_lt.1 h1
    by_cases h3 : t < s
    · exact bytes_asymm h (fwd t s h3)
    · have : s = t := List.le_antisymm (List.not_lt.1 h3) h2
      subst this
      exact bytes_asymm h h

-- the order of `sort.Strings` in the model
example (s t : Str) : Pigeon.strLe s t = true ↔ encode s = encode t ∨ encode s < encode t := by
  rw [Pigeon.strLe_iff, C81_order]
  constructor
  · rintro (rfl | h)
    · exact .inl rfl
    · exact .inr h
  · rintro (h | h)
    · exact .inl ((Repaired.encode s).unique (h ▸ Repaired.encode t))
    · exact .inr h

/-! ### Cases -/

-- a choice with any bytes behind, the first of which are a character
example : ByteCommand ([99, 104, 111, 105, 99, 101, 91, 97, 93] ++ [32, 0xFF, 0xC0]) (.choice [chars!"a"]) := by
  refine ByteCommand.choice (s := chars!"choice[a]") (x := ' ') (more := [0xFF, 0xC0]) ?_
  exact (parse_iff _ _).1 (by decide)

-- U+FFFD for each invalid byte
example : Repaired [0x32, 0xFF, 0xE3, 0x81, 0x82, 0xE3, 0x81] ['2', '\ufffd', 'あ', '\ufffd', '\ufffd'] := by
  have : runesOf (decode [0x32, 0xFF, 0xE3, 0x81, 0x82, 0xE3, 0x81]) = ['2', '\ufffd', 'あ', '\ufffd', '\ufffd'] := by
    decide +kernel
  rw [← this]
  exact Repaired.decode _

/-- The bytes `choice[` 0xFF `]`. -/
def badChoice : Bytes := [99, 104, 111, 105, 99, 101, 91, 0xFF, 93]

theorem badChoice_fails : executeBasicBytes queueFeeder chars!"DiceBot" badChoice [⟨1, 1⟩] =
    (.err chars!"input:1:8 (7): rule Choice: invalid encoding", [⟨1, 1⟩]) := by
  have h : goParse chars!"input" (decode badChoice) = .error chars!"input:1:8 (7): rule Choice: invalid encoding" :=
    (goParse_iff _ _ _).1 ⟨120, Pigeon.of_errorOf (by decide +kernel)⟩
  unfold executeBasicBytes
  rw [h]

/-- **C81** (finding 20). An invalid byte in a choice is a syntax error, but in a secret choice it is
an element. -/
theorem C81_secret_choice (usage : Str) :
    executeBytes queueFeeder (basicByteBot usage) badChoice [⟨1, 1⟩] =
      (.err chars!"input:1:8 (7): rule Choice: invalid encoding", [⟨1, 1⟩]) ∧
    ∃ r, executeBytes queueFeeder (basicByteBot usage) (0x53 :: badChoice) [⟨1, 1⟩] = (.ok r, []) ∧
      r.message = chars!"DiceBot : (CHOICE[\ufffd]) ＞ \ufffd" ∧ r.isSecret = true := by
  constructor
  · have h1 : checkSecretBytes badChoice = (badChoice, false) := by decide
    have h2 : firstWordBytes badChoice = badChoice := by decide
    rw [executeBytes_basic, h1, h2, badChoice_fails]
    dsimp only
    rw [badChoice_fails]
  · have hs : Repaired badChoice chars!"choice[\ufffd]" := by
      have : runesOf (decode badChoice) = chars!"choice[\ufffd]" := by decide
      rw [← this]
      exact Repaired.decode _
    rw [C81_secret queueFeeder (basicBot usage) (basicByteBot usage) rfl (fun _ _ => rfl) 0x53 (.inl rfl) _ _ hs]
    rw [executeCommand_basic]
    refine ⟨_, by rfl, ?_, rfl⟩
    decide

end GoBCDice
