import Verif.Spec.Chat
import Verif.Props.Outcome

/-!
# Ordinary chat is not taken for a command (C105)
-/

namespace GoBCDice

variable {σ : Type}

theorem isDigit_mem {c : Char} (h : isDigit c = true) : c ∈ chars!"0123456789" := by
  simp only [isDigit, Bool.and_eq_true, decide_eq_true_eq, char_le_iff] at h
  have h1' : 48 ≤ c.toNat := h.1
  have h2' : c.toNat ≤ 57 := h.2
  have : ∀ n, 48 ≤ n → n ≤ 57 → Char.ofNat n ∈ chars!"0123456789" := by
    intro n h1 h2
    have : n = 48 ∨ n = 49 ∨ n = 50 ∨ n = 51 ∨ n = 52 ∨ n = 53 ∨ n = 54 ∨ n = 55 ∨ n = 56 ∨ n = 57 := by
      omega
    rcases this with rfl | rfl | rfl | rfl | rfl | rfl | rfl | rfl | rfl | rfl <;> decide
  have h2 := this c.toNat h1' h2'
  rwa [Char.ofNat_toNat] at h2

/-- What is written without dice and random numbers. -/
def NT.plain : NT → Bool
  | .number | .randOperand => true
  | .prim k => decide (k = .int)
  | .mul k => decide (k = .int)
  | .add k => decide (k = .int)
  | _ => false

/-- Every character belongs to arithmetic. -/
def AllArith (s : Str) : Prop := ∀ c ∈ s, c ∈ arithmeticChars

theorem AllArith.append {s t : Str} (hs : AllArith s) (ht : AllArith t) : AllArith (s ++ t) := by
  intro c hc
  rcases List.mem_append.mp hc with h | h
  · exact hs c h
  · exact ht c h

theorem AllArith.one {c : Char} (h : c ∈ arithmeticChars) : AllArith [c] := by
  intro d hd
  simp only [List.mem_singleton] at hd
  subst hd; exact h

theorem Der.arithmetic {nt : NT} {s : Str} {e : Expr} (h : Der nt s e) : nt.plain = true → AllArith s := by
  induction h with
  | number _ hd =>
    intro _ c hc
    have : ∀ x ∈ chars!"0123456789", x ∈ arithmeticChars := by decide
    exact this c (isDigit_mem (hd c hc))
  | randOperandNum _ ih => exact ih
  | randOperandParen _ ih => exact fun h => ((AllArith.one (by decide)).append (ih h)).append (.one (by decide))
  | randNum _ _ _ _ => exact fun h => (by cases h)
  | rollOperandNum _ _ => exact fun h => (by cases h)
  | rollOperandRand _ _ => exact fun h => (by cases h)
  | rollOperandParen _ _ => exact fun h => (by cases h)
  | dRoll _ _ _ _ _ => exact fun h => (by cases h)
  | primNum _ ih => exact fun _ => ih rfl
  | primRand hk _ _ => exact fun h => absurd (of_decide_eq_true h) hk
  | primDice _ _ => exact fun h => (by cases h)
  | plus _ ih => exact fun h => (AllArith.one (by decide)).append (ih h)
  | minus _ ih => exact fun h => (AllArith.one (by decide)).append (ih h)
  | paren _ ih => exact fun h => ((AllArith.one (by decide)).append (ih h)).append (.one (by decide))
  | mulPrim _ ih => exact ih
  | mulMul _ _ ih1 ih2 => exact fun h => ((ih1 h).append (.one (by decide))).append (ih2 h)
  | mulDiv _ _ ih1 ih2 => exact fun h => ((ih1 h).append (.one (by decide))).append (ih2 h)
  | mulDivUp hu _ _ ih1 ih2 =>
    exact fun h => (((ih1 h).append (.one (by decide))).append (ih2 h)).append
      (.one (by rcases hu with rfl | rfl <;> decide))
  | mulDivRound hu _ _ ih1 ih2 =>
    exact fun h => (((ih1 h).append (.one (by decide))).append (ih2 h)).append
      (.one (by rcases hu with rfl | rfl <;> decide))
  | addMul _ ih => exact ih
  | addAdd _ _ ih1 ih2 => exact fun h => ((ih1 h).append (.one (by decide))).append (ih2 h)
  | addSub _ _ ih1 ih2 => exact fun h => ((ih1 h).append (.one (by decide))).append (ih2 h)

/-- Every text of the grammar has a digit. -/
theorem Der.digit {nt : NT} {s : Str} {e : Expr} (h : Der nt s e) : ∃ c ∈ s, isDigit c = true := by
  induction h with
  | number hne hd =>
    rename_i ds
    cases ds with
    | nil => exact absurd rfl hne
    | cons c ds => exact ⟨c, by simp, hd c (by simp)⟩
  | randNum _ _ ih _ => obtain ⟨c, hc, hd⟩ := ih; exact ⟨c, by simp [hc], hd⟩
  | dRoll _ _ _ ih _ => obtain ⟨c, hc, hd⟩ := ih; exact ⟨c, by simp [hc], hd⟩
  | mulMul _ _ ih _ => obtain ⟨c, hc, hd⟩ := ih; exact ⟨c, by simp [hc], hd⟩
  | mulDiv _ _ ih _ => obtain ⟨c, hc, hd⟩ := ih; exact ⟨c, by simp [hc], hd⟩
  | mulDivUp _ _ _ ih _ => obtain ⟨c, hc, hd⟩ := ih; exact ⟨c, by simp [hc], hd⟩
  | mulDivRound _ _ _ ih _ => obtain ⟨c, hc, hd⟩ := ih; exact ⟨c, by simp [hc], hd⟩
  | addAdd _ _ ih _ => obtain ⟨c, hc, hd⟩ := ih; exact ⟨c, by simp [hc], hd⟩
  | addSub _ _ ih _ => obtain ⟨c, hc, hd⟩ := ih; exact ⟨c, by simp [hc], hd⟩
  | randOperandParen _ ih => obtain ⟨c, hc, hd⟩ := ih; exact ⟨c, by simp [hc], hd⟩
  | rollOperandParen _ ih => obtain ⟨c, hc, hd⟩ := ih; exact ⟨c, by simp [hc], hd⟩
  | plus _ ih => obtain ⟨c, hc, hd⟩ := ih; exact ⟨c, by simp [hc], hd⟩
  | minus _ ih => obtain ⟨c, hc, hd⟩ := ih; exact ⟨c, by simp [hc], hd⟩
  | paren _ ih => obtain ⟨c, hc, hd⟩ := ih; exact ⟨c, by simp [hc], hd⟩
  | randOperandNum _ ih => exact ih
  | rollOperandNum _ ih => exact ih
  | rollOperandRand _ ih => exact ih
  | primNum _ ih => exact ih
  | primRand _ _ ih => exact ih
  | primDice _ ih => exact ih
  | mulPrim _ ih => exact ih
  | addMul _ ih => exact ih

/-- The first character. -/
def Starts (s : Str) : Prop := ∃ c ∈ s.head?, c ∈ rollStarts

theorem Starts.append {s : Str} (h : Starts s) (t : Str) : Starts (s ++ t) := by
  obtain ⟨c, hc, hs⟩ := h
  cases s with
  | nil => simp at hc
  | cons x s => exact ⟨c, by simpa using hc, hs⟩

theorem Starts.cons {c : Char} (h : c ∈ rollStarts) (t : Str) : Starts (c :: t) := ⟨c, by simp, h⟩

theorem Der.starts {nt : NT} {s : Str} {e : Expr} (h : Der nt s e) : Starts s := by
  induction h with
  | number hne hd =>
    rename_i ds
    cases ds with
    | nil => exact absurd rfl hne
    | cons c ds =>
      have := isDigit_mem (hd c (by simp))
      have h' : ∀ x ∈ chars!"0123456789", x ∈ rollStarts := by decide
      exact .cons (h' c this) _
  | randOperandNum _ ih => exact ih
  | rollOperandNum _ ih => exact ih
  | rollOperandRand _ ih => exact ih
  | primNum _ ih => exact ih
  | primRand _ _ ih => exact ih
  | primDice _ ih => exact ih
  | mulPrim _ ih => exact ih
  | addMul _ ih => exact ih
  | randOperandParen _ _ => exact .cons (by decide) _
  | rollOperandParen _ _ => exact .cons (by decide) _
  | randNum _ _ _ _ => exact .cons (by decide) _
  | paren _ _ => exact .cons (by decide) _
  | plus _ _ => exact .cons (by decide) _
  | minus _ _ => exact .cons (by decide) _
  | dRoll _ _ _ ih _ => exact (ih.append _).append _
  | mulMul _ _ ih _ => exact (ih.append _).append _
  | mulDiv _ _ ih _ => exact (ih.append _).append _
  | mulDivUp _ _ _ ih _ => exact ((ih.append _).append _).append _
  | mulDivRound _ _ _ ih _ => exact ((ih.append _).append _).append _
  | addAdd _ _ ih _ => exact (ih.append _).append _
  | addSub _ _ ih _ => exact (ih.append _).append _

/-! ## Brackets -/

/-- The text leaves the stack as it is. -/
def Closed (s : Str) : Prop := ∀ t due, nest (s ++ t) due = nest t due

theorem Closed.nested {s : Str} (h : Closed s) : Nested s := by
  have := h [] []
  simpa [Nested, nest] using this

theorem Closed.nil : Closed [] := fun _ _ => rfl

theorem Closed.append {s t : Str} (hs : Closed s) (ht : Closed t) : Closed (s ++ t) := by
  intro u due
  rw [List.append_assoc, hs, ht]

theorem Closed.one {c : Char} (h : c ∉ chars!"()[]") : Closed [c] := by
  intro t due
  simp only [List.mem_cons, List.not_mem_nil, or_false, not_or] at h
  simp [nest, h]

theorem Closed.all {s : Str} (h : ∀ c ∈ s, c ∉ chars!"()[]") : Closed s := by
  induction s with
  | nil => exact .nil
  | cons c s ih => exact (Closed.one (h c (by simp))).append (t := s) (ih fun x hx => h x (by simp [hx]))

theorem Closed.paren {s : Str} (h : Closed s) : Closed (chars!"(" ++ s ++ chars!")") := by
  intro t due
  show nest (chars!"(" ++ s ++ chars!")" ++ t) due = _
  simp only [List.append_assoc, List.cons_append, List.nil_append, nest, if_true]
  rw [h]
  simp [nest]

theorem Closed.bracket {s : Str} (h : Closed s) : Closed (chars!"[" ++ s ++ chars!"]") := by
  intro t due
  show nest (chars!"[" ++ s ++ chars!"]" ++ t) due = _
  simp only [List.append_assoc, List.cons_append, List.nil_append, nest, if_true]
  rw [if_neg (by decide), h]
  simp [nest]

theorem Der.closed {nt : NT} {s : Str} {e : Expr} (h : Der nt s e) : Closed s := by
  induction h with
  | number _ hd =>
    refine .all fun c hc hx => ?_
    have := isDigit_mem (hd c hc)
    have h' : ∀ x ∈ chars!"0123456789", x ∉ chars!"()[]" := by decide
    exact h' c this hx
  | randOperandNum _ ih => exact ih
  | rollOperandNum _ ih => exact ih
  | rollOperandRand _ ih => exact ih
  | primNum _ ih => exact ih
  | primRand _ _ ih => exact ih
  | primDice _ ih => exact ih
  | mulPrim _ ih => exact ih
  | addMul _ ih => exact ih
  | randOperandParen _ ih => exact ih.paren
  | rollOperandParen _ ih => exact ih.paren
  | paren _ ih => exact ih.paren
  | randNum _ _ ih1 ih2 =>
    have := ((ih1.append (.all (s := chars!"...") (by decide))).append ih2).bracket
    simpa using this
  | plus _ ih => exact (Closed.one (by decide)).append ih
  | minus _ ih => exact (Closed.one (by decide)).append ih
  | dRoll hd _ _ ih1 ih2 => exact (ih1.append (.one (by rcases hd with rfl | rfl <;> decide))).append ih2
  | mulMul _ _ ih1 ih2 => exact (ih1.append (.one (by decide))).append ih2
  | mulDiv _ _ ih1 ih2 => exact (ih1.append (.one (by decide))).append ih2
  | mulDivUp hu _ _ ih1 ih2 =>
    exact ((ih1.append (.one (by decide))).append ih2).append (.one (by rcases hu with rfl | rfl <;> decide))
  | mulDivRound hu _ _ ih1 ih2 =>
    exact ((ih1.append (.one (by decide))).append ih2).append (.one (by rcases hu with rfl | rfl <;> decide))
  | addAdd _ _ ih1 ih2 => exact (ih1.append (.one (by decide))).append ih2
  | addSub _ _ ih1 ih2 => exact (ih1.append (.one (by decide))).append ih2

/-! ## Something to roll -/

theorem Rolls.left {s : Str} (h : Rolls s) (t : Str) : Rolls (s ++ t) := by
  rcases h with ⟨c, hc, hr⟩ | ⟨a, b, rfl⟩
  · exact .inl ⟨c, by simp [hc], hr⟩
  · exact .inr ⟨a, b ++ t, by simp⟩

theorem Rolls.right {t : Str} (h : Rolls t) (s : Str) : Rolls (s ++ t) := by
  rcases h with ⟨c, hc, hr⟩ | ⟨a, b, rfl⟩
  · exact .inl ⟨c, by simp [hc], hr⟩
  · exact .inr ⟨s ++ a, b, by simp⟩

theorem Der.rolls {nt : NT} {s : Str} {e : Expr} (h : Der nt s e) : 1 ≤ e.rands → Rolls s := by
  induction h with
  | number _ _ => intro h; simp [Expr.rands] at h
  | randOperandNum _ ih => exact ih
  | rollOperandNum _ ih => exact ih
  | rollOperandRand _ ih => exact ih
  | primNum _ ih => exact ih
  | primRand _ _ ih => exact ih
  | primDice _ ih => exact ih
  | mulPrim _ ih => exact ih
  | addMul _ ih => exact ih
  | randOperandParen _ ih => exact fun h => ((ih h).right _).left _
  | rollOperandParen _ ih => exact fun h => ((ih h).right _).left _
  | paren _ ih => exact fun h => ((ih h).right _).left _
  | @randNum a b _ _ _ _ _ _ => exact fun _ => .inr ⟨chars!"[" ++ a, b ++ chars!"]", by simp⟩
  | plus _ ih => exact fun h => (ih h).right _
  | minus _ ih => exact fun h => (ih h).right _
  | @dRoll _ _ _ _ d hd _ _ _ _ =>
    exact fun _ => .inl ⟨d, by simp, by rcases hd with rfl | rfl <;> decide⟩
  | mulMul _ _ ih1 ih2 =>
    intro h
    simp only [Expr.rands] at h
    rcases Nat.lt_or_ge 0 (Expr.rands _) with h' | h'
    · exact ((ih1 h').left _).left _
    · exact (ih2 (by omega)).right _
  | mulDiv _ _ ih1 ih2 =>
    intro h
    simp only [Expr.rands] at h
    rcases Nat.lt_or_ge 0 (Expr.rands _) with h' | h'
    · exact ((ih1 h').left _).left _
    · exact (ih2 (by omega)).right _
  | mulDivUp _ _ _ ih1 ih2 =>
    intro h
    simp only [Expr.rands] at h
    rcases Nat.lt_or_ge 0 (Expr.rands _) with h' | h'
    · exact (((ih1 h').left _).left _).left _
    · exact ((ih2 (by omega)).right _).left _
  | mulDivRound _ _ _ ih1 ih2 =>
    intro h
    simp only [Expr.rands] at h
    rcases Nat.lt_or_ge 0 (Expr.rands _) with h' | h'
    · exact (((ih1 h').left _).left _).left _
    · exact ((ih2 (by omega)).right _).left _
  | addAdd _ _ ih1 ih2 =>
    intro h
    simp only [Expr.rands] at h
    rcases Nat.lt_or_ge 0 (Expr.rands _) with h' | h'
    · exact ((ih1 h').left _).left _
    · exact (ih2 (by omega)).right _
  | addSub _ _ ih1 ih2 =>
    intro h
    simp only [Expr.rands] at h
    rcases Nat.lt_or_ge 0 (Expr.rands _) with h' | h'
    · exact ((ih1 h').left _).left _
    · exact (ih2 (by omega)).right _

/-! ## Commands -/

/-- What the parts of roll commands have in common. -/
structure RollLike (s : Str) : Prop where
  starts : Starts s
  digit : ∃ c ∈ s, isDigit c = true
  rolls : Rolls s
  closed : Closed s

theorem RollLike.append {s t : Str} (h : RollLike s) (ht : Closed t) : RollLike (s ++ t) :=
  ⟨h.starts.append t, by obtain ⟨c, hc, hd⟩ := h.digit; exact ⟨c, by simp [hc], hd⟩, h.rolls.left t, h.closed.append ht⟩

theorem RollText.like {up lo : Char} (hL : RollLetter up lo) {s : Str} {r : Roll} (h : RollText (up, lo) s r) :
    RollLike s := by
  obtain ⟨a, b, l, rfl, hl, ha, hb⟩ := h
  simp only at hl
  have h1 : l ∈ chars!"DdBbRrUu" := by cases hL <;> rcases hl with rfl | rfl <;> decide
  have h2 : ∀ x ∈ chars!"DdBbRrUu", x ∉ chars!"()[]" := by decide
  refine ⟨(ha.starts.append _).append _, ?_, .inl ⟨l, by simp, h1⟩,
    (ha.closed.append (.one (h2 l h1))).append hb.closed⟩
  obtain ⟨c, hc, hd⟩ := ha.digit
  exact ⟨c, by simp [hc], hd⟩

theorem RollsText.like {up lo : Char} (hL : RollLetter up lo) {s : Str} {rs : List Roll}
    (h : RollsText (up, lo) s rs) : RollLike s := by
  induction h with
  | one h => exact RollText.like hL h
  | cons h _ ih => exact ((RollText.like hL h).append (.one (by decide))).append ih.closed

theorem RRollsText.like {up lo : Char} (hL : RollLetter up lo) {s : Str} {rl : RRollList}
    (h : RRollsText (up, lo) s rl) : RollLike s := by
  obtain ⟨rolls, th⟩ := rl
  obtain ⟨a, b, rfl, ha, hb⟩ := h
  refine (RollsText.like hL ha).append ?_
  cases hb with
  | absent => exact .nil
  | given h => exact h.closed.bracket

theorem URollText.like {s : Str} {u : URollExpr} (h : URollText s u) : RollLike s := by
  obtain ⟨list, bon⟩ := u
  obtain ⟨a, b, rfl, ha, hb⟩ := h
  refine (RRollsText.like .u ha).append ?_
  cases hb with
  | absent => exact .nil
  | plus h => exact (Closed.one (by decide)).append h.closed
  | minus h => exact (Closed.one (by decide)).append h.closed

theorem CompareText.closed {s : Str} {op : CmpOp} {e : Expr} (h : CompareText s op e) : Closed s := by
  cases h with
  | mk h =>
    refine Closed.append (.all ?_) h.closed
    cases op <;> decide

/-- **C105.** Every command is one of three things: a choice, a calculation, or a roll, which starts with a digit, a
sign or a bracket, is written in these characters, has a digit, has a letter of a roll or the dots of a random
number, and has matching brackets. -/
theorem C105_shape (s : Str) (node : Node) (h : CommandText s node) :
    LooksLikeChoice s ∨ LooksLikeCalc s ∨ LooksLikeRoll s := by
  have fin : ∀ {s : Str} {node : Node}, CommandText s node → node.isRollCommand = true → RollLike s →
      LooksLikeRoll s := by
    intro s node h hn hl
    have hc := C32_roll_chars s node hn ((parse_iff s node).mpr h)
    have h' : ∀ x ∈ rollChars, x ∈ commandChars := by decide
    exact ⟨hl.starts, fun c hx => h' c (hc c hx), hl.digit, hl.rolls, hl.closed.nested⟩
  have h0 := h
  cases h with
  | @choice kw body seps rest _ h1 _ _ => exact .inl ⟨kw, body ++ seps ++ chars!"]" ++ rest, h1, by simp⟩
  | «calc» h1 h2 => exact .inr (.inl ⟨_, _, _, h1, h2.arithmetic rfl, h2.digit, rfl⟩)
  | bRollList h1 => exact .inr (.inr (fin h0 rfl (RollsText.like .b h1)))
  | bRollComp h1 h2 => exact .inr (.inr (fin h0 rfl ((RollsText.like .b h1).append h2.closed)))
  | rRollList h1 => exact .inr (.inr (fin h0 rfl (RRollsText.like .r h1)))
  | rRollComp h1 h2 => exact .inr (.inr (fin h0 rfl ((RRollsText.like .r h1).append h2.closed)))
  | uRollExpr h1 => exact .inr (.inr (fin h0 rfl h1.like))
  | uRollComp h1 h2 => exact .inr (.inr (fin h0 rfl (h1.like.append h2.closed)))
  | dRollExpr h1 h2 => exact .inr (.inr (fin h0 rfl ⟨h1.starts, h1.digit, h1.rolls h2, h1.closed⟩))
  | dRollComp h1 h2 h3 =>
    exact .inr (.inr (fin h0 rfl (RollLike.append ⟨h1.starts, h1.digit, h1.rolls h2, h1.closed⟩ h3.closed)))

/-! ## Chat -/

theorem LooksLikeChoice.append {s : Str} (h : LooksLikeChoice s) (t : Str) : LooksLikeChoice (s ++ t) := by
  obtain ⟨kw, rest, h1, rfl⟩ := h
  exact ⟨kw, rest ++ t, h1, by simp⟩

theorem LooksLikeCalc.append {s : Str} (h : LooksLikeCalc s) (t : Str) : LooksLikeCalc (s ++ t) := by
  obtain ⟨c, body, rest, h1, h2, h3, rfl⟩ := h
  exact ⟨c, body, rest ++ t, h1, h2, h3, by simp⟩

theorem firstPart_self {s : Str} (h : ∀ c ∈ s, c ∈ commandChars) : firstPart s = s := by
  have h' : ∀ x ∈ commandChars, isReSpace x = false := by decide
  unfold firstPart
  induction s with
  | nil => rfl
  | cons c s ih =>
    rw [List.takeWhile_cons_of_pos (by simp [h' c (h c (by simp))]), ih fun x hx => h x (by simp [hx])]

/-- **C105.** The bot stays quiet in conversation: unless the text, after an optional `S`, begins like a choice or a
calculation, or its first word looks like a roll, the answer is an error and no die is rolled. -/
theorem C105_chat (F : DieFeeder σ) (usage input body word : Str) (secret : Bool) (f : σ)
    (hb : Marked input body secret) (hw : FirstWord body word)
    (h : ¬ (LooksLikeChoice body ∨ LooksLikeCalc body ∨ LooksLikeRoll word)) :
    ∃ msg, executeCommand F (basicBot usage) input f = (.err msg, f) := by
  have hb' : checkSecret input = (body, secret) := marked_iff.mp hb
  have hw' : word = firstPart body := (firstWord_iff.mp hw).symm
  obtain ⟨more, hm⟩ : ∃ more, body = firstPart body ++ more :=
    ⟨body.dropWhile (fun c => !isReSpace c), (List.takeWhile_append_dropWhile).symm⟩
  refine C25_malformed F usage input f ?_ ?_
  · intro node hn
    rw [hb'] at hn
    rcases C105_shape _ _ hn with h1 | h1 | h1
    · exact h (.inl h1)
    · exact h (.inr (.inl h1))
    · refine h (.inr (.inr ?_))
      rw [hw', firstPart_self h1.2.1]
      exact h1
  · intro node hn
    rw [hb'] at hn
    rcases C105_shape _ _ hn with h1 | h1 | h1
    · exact h (.inl (by rw [hm]; exact h1.append more))
    · exact h (.inr (.inl (by rw [hm]; exact h1.append more)))
    · exact h (.inr (.inr (by rw [hw']; exact h1)))

/-- **C105.** In particular if the text, after an optional `S`, begins with anything but a digit, a sign, an opening
bracket and `C`. -/
theorem C105_first (F : DieFeeder σ) (usage input body : Str) (secret : Bool) (f : σ) (hb : Marked input body secret)
    (h : ∀ c ∈ body.head?, c ∉ rollStarts ++ chars!"Cc") :
    ∃ msg, executeCommand F (basicBot usage) input f = (.err msg, f) := by
  refine C105_chat F usage input body (firstPart body) secret f hb (firstWord_iff.mpr rfl) ?_
  rintro (⟨kw, rest, h1, rfl⟩ | ⟨c, b, rest, h1, _, _, rfl⟩ | ⟨⟨c, hc, hs⟩, _⟩)
  · cases kw with
    | nil => exact h1
    | cons x kw =>
      have hx := h x (by simp)
      rcases h1.1 with rfl | ⟨h2, h3, h4⟩ | ⟨h2, _⟩
      · exact hx (by decide)
      · have : x = 'C' := by
          have h5 : x.toNat = 67 := by
            have : ('c' : Char).toNat = 99 := rfl
            omega
          rw [← Char.ofNat_toNat x, h5]
        exact hx (by rw [this]; decide)
      · revert h2; decide
  · exact h c (by simp) (by rcases h1 with rfl | rfl <;> decide)
  · refine h c ?_ (List.mem_append_left _ hs)
    cases body with
    | nil => simp [firstPart] at hc
    | cons x body =>
      simp only [firstPart, List.takeWhile_cons] at hc
      split at hc
      · simpa using hc
      · simp at hc

/-! ## Cases -/

/-- `D66` and full-width commands, both in the usage text, are no commands, whatever follows. -/
example (F : DieFeeder σ) (usage rest : Str) (f : σ) :
    (∃ msg, executeCommand F (basicBot usage) (chars!"D66" ++ rest) f = (.err msg, f)) ∧
    (∃ msg, executeCommand F (basicBot usage) (chars!"２ｄ６＋１" ++ rest) f = (.err msg, f)) :=
  ⟨C105_first F usage _ (chars!"D66" ++ rest) false f (marked_iff.mpr rfl) (by
      intro c hc; simp only [List.cons_append, List.head?_cons, Option.mem_def, Option.some.injEq] at hc
      subst hc; decide),
    C105_first F usage _ (chars!"２ｄ６＋１" ++ rest) false f (marked_iff.mpr rfl) (by
      intro c hc; simp only [List.cons_append, List.head?_cons, Option.mem_def, Option.some.injEq] at hc
      subst hc; decide)⟩

/-- A roll looks like one. -/
example : LooksLikeRoll chars!"(1+1)D6+[1...3]>=7" := by
  rcases C105_shape chars!"(1+1)D6+[1...3]>=7" _ ((parse_iff _ (.dRollComp (.bin .add (.var .d (.bin .add (.int 1) (.int 1)) (.int 6)) (.var .rand (.int 1) (.int 3)))
      .ge (.int 7))).mp (by decide)) with h | h | h
  · obtain ⟨kw, rest, h1, h2⟩ := h
    cases kw with
    | nil => exact absurd h1 (by simp [SameWord])
    | cons x kw =>
      simp only [List.cons_append, List.cons.injEq] at h2
      obtain ⟨rfl, _⟩ := h2
      exact absurd h1.1 (by unfold SameLetter; decide)
  · obtain ⟨c, b, rest, h1, _, _, h2⟩ := h
    simp only [List.cons_append, List.cons.injEq] at h2
    obtain ⟨rfl, _⟩ := h2
    exact absurd h1 (by decide)
  · exact h

/-- Matching is not counting. -/
example : ¬ Nested chars!")2D6(" ∧ ¬ Nested chars!"([)]" ∧ Nested chars!"(1)D[1...3]" := by
  unfold Nested; decide

end GoBCDice
