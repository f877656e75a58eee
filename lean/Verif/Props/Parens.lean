import Verif.Props.Writing

/-!
# C98: doubled parentheses
-/

namespace GoBCDice

theorem Balanced.nil : Balanced [] := ⟨rfl, fun p hp => by simp [List.prefix_nil.mp hp]⟩

theorem Balanced.plain {s : Str} (h : ∀ c ∈ s, c ≠ '(' ∧ c ≠ ')') : Balanced s := by
  have h1 : ∀ p : Str, (∀ c ∈ p, c ≠ '(' ∧ c ≠ ')') → p.count '(' = 0 ∧ p.count ')' = 0 := fun p hp =>
    ⟨List.count_eq_zero.mpr fun hc => (hp _ hc).1 rfl, List.count_eq_zero.mpr fun hc => (hp _ hc).2 rfl⟩
  refine ⟨by rw [(h1 s h).1, (h1 s h).2], fun p hp => ?_⟩
  rw [(h1 p fun c hc => h c (hp.subset hc)).2]
  exact Nat.zero_le _

theorem prefix_append_cases {p s t : Str} (h : p <+: s ++ t) : p <+: s ∨ ∃ q, p = s ++ q ∧ q <+: t := by
  obtain ⟨r, hr⟩ := h
  rw [List.append_eq_append_iff] at hr
  rcases hr with ⟨x, h1, -⟩ | ⟨x, h1, h2⟩
  · exact .inl ⟨x, h1.symm⟩
  · exact .inr ⟨x, h1, r, h2.symm⟩

theorem Balanced.append {s t : Str} (hs : Balanced s) (ht : Balanced t) : Balanced (s ++ t) := by
  refine ⟨by rw [List.count_append, List.count_append, hs.1, ht.1], fun p hp => ?_⟩
  rcases prefix_append_cases hp with h | ⟨q, rfl, h⟩
  · exact hs.2 p h
  · rw [List.count_append, List.count_append]
    have := hs.1
    have := ht.2 q h
    omega

theorem Balanced.wrap {s : Str} (hs : Balanced s) : Balanced (chars!"(" ++ s ++ chars!")") := by
  have h1 := hs.1
  refine ⟨by simp [h1], fun p hp => ?_⟩
  rcases prefix_append_cases hp with h | ⟨q, rfl, h⟩
  · rcases prefix_append_cases h with h | ⟨q, rfl, h'⟩
    · obtain ⟨r, hr⟩ := h
      cases p with
      | nil => simp
      | cons c p =>
        injection hr with hc hr
        have : p = [] := (List.append_eq_nil_iff.mp hr).1
        subst hc this
        decide
    · have := hs.2 q h'
      simp
      omega
  · obtain ⟨r, hr⟩ := h
    cases q with
    | nil => simp [h1]
    | cons c q =>
      injection hr with hc hr
      have : q = [] := (List.append_eq_nil_iff.mp hr).1
      subst hc this
      simp [h1]

/-- Where a balanced text ends. -/
theorem Balanced.closed {s x : Str} (hs : Balanced (s ++ '(' :: x)) {y : Str} (hp : x <+: y) (hy : Balanced y) : False := by
  have h1 := hs.1
  have h2 := hs.2 s (List.prefix_append ..)
  have h3 := hy.2 x hp
  simp at h1
  omega

/-- A pair of parentheses in `s ++ sep ++ t` lies in `s` or in `t`. -/
theorem split_block {s sep t a m b : Str} (hs : Balanced s) (hm : Balanced m) (hsep : '(' ∉ sep)
    (he : s ++ sep ++ t = a ++ chars!"(" ++ m ++ chars!")" ++ b) :
    (∃ b', s = a ++ chars!"(" ++ m ++ chars!")" ++ b' ∧ b = b' ++ sep ++ t) ∨
      (∃ a', t = a' ++ chars!"(" ++ m ++ chars!")" ++ b ∧ a = s ++ sep ++ a') := by
  rw [List.append_assoc s, List.append_assoc a, List.append_assoc a, List.append_assoc a, List.append_eq_append_iff] at he
  rcases he with ⟨x, h1, h2⟩ | ⟨x, h1, h2⟩
  · -- the parenthesis opens after `s`
    rw [List.append_eq_append_iff] at h2
    rcases h2 with ⟨y, h3, h4⟩ | ⟨y, h3, h4⟩
    · exact .inr ⟨y, by rw [h4]; simp, by rw [h1, h3]; simp⟩
    · cases y with
      | nil => exact .inr ⟨[], by simpa using h4.symm, by rw [h1]; simp [h3]⟩
      | cons c y =>
        simp only [List.cons_append, List.nil_append] at h4
        injection h4 with h5 h6
        exact absurd (by rw [h3, ← h5]; simp) hsep
  · -- it opens in `s`
    cases x with
    | nil =>
      cases sep with
      | nil => exact .inr ⟨[], by simpa using h2.symm, by simpa using h1.symm⟩
      | cons c sep =>
        simp only [List.cons_append, List.nil_append] at h2
        injection h2 with h5 h6
        exact absurd (by rw [h5]; simp) hsep
    | cons c x =>
      simp only [List.cons_append, List.nil_append] at h2
      injection h2 with h5 h6
      subst h5
      subst h1
      rw [List.append_assoc m, List.append_eq_append_iff] at h6
      rcases h6 with ⟨y, h7, h8⟩ | ⟨y, h7, h8⟩
      · cases y with
        | nil => exact (hs.closed (y := m) ⟨[], by simpa using h7⟩ hm).elim
        | cons d y =>
          simp only [List.cons_append, List.nil_append] at h8
          injection h8 with h9 h10
          exact .inl ⟨y, by rw [h7, ← h9]; simp, by rw [h10]; simp⟩
      · exact (hs.closed (y := m) ⟨y, h7.symm⟩ hm).elim

theorem letter_plain {d : Char} {s : Str} (h : d ≠ '(' ∧ d ≠ ')') : Balanced s → Balanced ([d] ++ s) :=
  (Balanced.plain (by simpa using h)).append

theorem Der.balanced {nt : NT} {s : Str} {e : Expr} (h : Der nt s e) : Balanced s := by
  induction h with
  | number _ hd =>
    refine .plain fun c hc => ?_
    have := isDigit_iff'.mp (hd c hc)
    constructor <;> (rintro rfl; revert this; decide)
  | randOperandNum _ ih => exact ih
  | rollOperandNum _ ih => exact ih
  | primNum _ ih => exact ih
  | rollOperandRand _ ih => exact ih
  | primRand _ _ ih => exact ih
  | primDice _ ih => exact ih
  | mulPrim _ ih => exact ih
  | addMul _ ih => exact ih
  | paren _ ih => exact ih.wrap
  | randOperandParen _ ih => exact ih.wrap
  | rollOperandParen _ ih => exact ih.wrap
  | plus _ ih => exact (Balanced.plain (by decide)).append ih
  | minus _ ih => exact (Balanced.plain (by decide)).append ih
  | mulMul _ _ i j => exact (i.append (.plain (by decide))).append j
  | mulDiv _ _ i j => exact (i.append (.plain (by decide))).append j
  | addAdd _ _ i j => exact (i.append (.plain (by decide))).append j
  | addSub _ _ i j => exact (i.append (.plain (by decide))).append j
  | mulDivUp hu _ _ i j =>
    exact ((i.append (.plain (by decide))).append j).append (.plain (by rcases hu with rfl | rfl <;> decide))
  | mulDivRound hu _ _ i j =>
    exact ((i.append (.plain (by decide))).append j).append (.plain (by rcases hu with rfl | rfl <;> decide))
  | dRoll hd _ _ i j => exact (i.append (.plain (by rcases hd with rfl | rfl <;> decide))).append j
  | randNum _ _ i j =>
    exact ((((Balanced.plain (by decide)).append i).append (.plain (by decide))).append j).append (.plain (by decide))

/-- The outermost pair of a text in parentheses, or one inside. -/
theorem split_outer {s a m b : Str} (hs : Balanced s) (hm : Balanced m)
    (he : chars!"(" ++ s ++ chars!")" = a ++ chars!"(" ++ m ++ chars!")" ++ b) :
    (a = [] ∧ b = [] ∧ s = m) ∨
      ∃ a' b', s = a' ++ chars!"(" ++ m ++ chars!")" ++ b' ∧ a = chars!"(" ++ a' ∧ b = b' ++ chars!")" := by
  cases a with
  | nil =>
    left
    simp only [List.nil_append, List.cons_append, List.cons.injEq, true_and] at he
    rw [List.append_assoc m, List.append_eq_append_iff] at he
    rcases he with ⟨x, h1, h2⟩ | ⟨x, h1, h2⟩
    · cases x with
      | nil =>
        simp only [List.nil_append, List.cons_append, List.cons.injEq, true_and] at h2
        exact ⟨rfl, h2.symm, by simpa using h1.symm⟩
      | cons c x =>
        simp only [List.nil_append, List.cons_append, List.cons.injEq] at h2
        have h3 := hm.2 (s ++ chars!")") ⟨x, by rw [h1, ← h2.1]; simp⟩
        have := hs.1
        simp at h3
        omega
    · cases x with
      | nil =>
        simp only [List.nil_append, List.cons_append, List.cons.injEq, true_and] at h2
        exact ⟨rfl, h2, by simpa using h1⟩
      | cons c x =>
        simp only [List.nil_append, List.cons_append, List.cons.injEq] at h2
        have h3 := hs.2 (m ++ chars!")") ⟨x, by rw [h1, h2.1]; simp⟩
        have := hm.1
        simp at h3
        omega
  | cons c a =>
    right
    simp only [List.nil_append, List.cons_append, List.cons.injEq] at he
    obtain ⟨rfl, he⟩ := he
    rcases split_block (t := []) (sep := chars!")") hs hm (by decide) (by simpa using he) with ⟨b', h1, h2⟩ | ⟨a', h1, -⟩
    · exact ⟨a, b', h1, rfl, by simpa using h2⟩
    · simp at h1

/-- `w` can stand for `m` between parentheses. -/
def Replaces (w m : Str) : Prop := ∀ k e, Der (.add k) m e → Der (.add k) w e

section
variable {m w : Str}

theorem der_block {nt : NT} {s : Str} {e : Expr} (h : Der nt s e) (hm : Balanced m) (hr : Replaces w m) : ∀ {a b : Str},
    s = a ++ chars!"(" ++ m ++ chars!")" ++ b → Der nt (a ++ chars!"(" ++ w ++ chars!")" ++ b) e := by
  induction h with
  | number _ hd =>
    intro a b hs
    exact absurd (hd '(' (by rw [hs]; simp)) (by decide)
  | randOperandNum _ ih => intro a b hs; exact .randOperandNum (ih hs)
  | rollOperandNum _ ih => intro a b hs; exact .rollOperandNum (ih hs)
  | primNum _ ih => intro a b hs; exact .primNum (ih hs)
  | rollOperandRand _ ih => intro a b hs; exact .rollOperandRand (ih hs)
  | primRand hk _ ih => intro a b hs; exact .primRand hk (ih hs)
  | primDice _ ih => intro a b hs; exact .primDice (ih hs)
  | mulPrim _ ih => intro a b hs; exact .mulPrim (ih hs)
  | addMul _ ih => intro a b hs; exact .addMul (ih hs)
  | paren h ih =>
    intro a b hs
    rcases split_outer h.balanced hm hs with ⟨rfl, rfl, rfl⟩ | ⟨a', b', h1, rfl, rfl⟩
    · simpa using Der.paren (hr _ _ h)
    · simpa using Der.paren (ih h1)
  | randOperandParen h ih =>
    intro a b hs
    rcases split_outer h.balanced hm hs with ⟨rfl, rfl, rfl⟩ | ⟨a', b', h1, rfl, rfl⟩
    · simpa using Der.randOperandParen (hr _ _ h)
    · simpa using Der.randOperandParen (ih h1)
  | rollOperandParen h ih =>
    intro a b hs
    rcases split_outer h.balanced hm hs with ⟨rfl, rfl, rfl⟩ | ⟨a', b', h1, rfl, rfl⟩
    · simpa using Der.rollOperandParen (hr _ _ h)
    · simpa using Der.rollOperandParen (ih h1)
  | plus _ ih =>
    intro a b hs
    rcases split_block (s := []) (sep := chars!"+") .nil hm (by decide) (by simpa using hs) with ⟨b', h1, -⟩ | ⟨a', h1, rfl⟩
    · simp at h1
    · simpa using Der.plus (ih h1)
  | minus _ ih =>
    intro a b hs
    rcases split_block (s := []) (sep := chars!"-") .nil hm (by decide) (by simpa using hs) with ⟨b', h1, -⟩ | ⟨a', h1, rfl⟩
    · simp at h1
    · simpa using Der.minus (ih h1)
  | mulMul hl hr' ihl ihr =>
    intro a b hs
    rcases split_block hl.balanced hm (by decide) hs with ⟨b', h1, rfl⟩ | ⟨a', h1, rfl⟩
    · simpa using Der.mulMul (ihl h1) hr'
    · simpa using Der.mulMul hl (ihr h1)
  | mulDiv hl hr' ihl ihr =>
    intro a b hs
    rcases split_block hl.balanced hm (by decide) hs with ⟨b', h1, rfl⟩ | ⟨a', h1, rfl⟩
    · simpa using Der.mulDiv (ihl h1) hr'
    · simpa using Der.mulDiv hl (ihr h1)
  | addAdd hl hr' ihl ihr =>
    intro a b hs
    rcases split_block hl.balanced hm (by decide) hs with ⟨b', h1, rfl⟩ | ⟨a', h1, rfl⟩
    · simpa using Der.addAdd (ihl h1) hr'
    · simpa using Der.addAdd hl (ihr h1)
  | addSub hl hr' ihl ihr =>
    intro a b hs
    rcases split_block hl.balanced hm (by decide) hs with ⟨b', h1, rfl⟩ | ⟨a', h1, rfl⟩
    · simpa using Der.addSub (ihl h1) hr'
    · simpa using Der.addSub hl (ihr h1)
  | @mulDivUp k s t l r u hu hl hr' ihl ihr =>
    intro a b hs
    have hu' : '(' ∉ [u] := by rcases hu with rfl | rfl <;> decide
    rcases split_block (sep := chars!"/") (t := t ++ [u]) hl.balanced hm (by decide) (by simpa using hs) with
      ⟨b', h1, rfl⟩ | ⟨a', h1, rfl⟩
    · simpa using Der.mulDivUp hu (ihl h1) hr'
    · rcases split_block (t := []) hr'.balanced hm hu' (by simpa using h1) with ⟨b', h2, rfl⟩ | ⟨a', h2, -⟩
      · simpa using Der.mulDivUp hu hl (ihr h2)
      · simp at h2
  | @mulDivRound k s t l r u hu hl hr' ihl ihr =>
    intro a b hs
    have hu' : '(' ∉ [u] := by rcases hu with rfl | rfl <;> decide
    rcases split_block (sep := chars!"/") (t := t ++ [u]) hl.balanced hm (by decide) (by simpa using hs) with
      ⟨b', h1, rfl⟩ | ⟨a', h1, rfl⟩
    · simpa using Der.mulDivRound hu (ihl h1) hr'
    · rcases split_block (t := []) hr'.balanced hm hu' (by simpa using h1) with ⟨b', h2, rfl⟩ | ⟨a', h2, -⟩
      · simpa using Der.mulDivRound hu hl (ihr h2)
      · simp at h2
  | @dRoll a0 b0 x y d hd hl hr' ihl ihr =>
    intro a b hs
    rcases split_block (sep := [d]) hl.balanced hm (by rcases hd with rfl | rfl <;> decide) hs with ⟨b', h1, rfl⟩ | ⟨a', h1, rfl⟩
    · simpa using Der.dRoll hd (ihl h1) hr'
    · simpa using Der.dRoll hd hl (ihr h1)
  | @randNum a0 b0 x y hl hr' ihl ihr =>
    intro a b hs
    rcases split_block (s := []) (sep := chars!"[") (t := a0 ++ chars!"..." ++ b0 ++ chars!"]") .nil hm (by decide)
      (by simpa using hs) with ⟨b', h1, -⟩ | ⟨a', h1, rfl⟩
    · simp at h1
    · rcases split_block (sep := chars!"...") (t := b0 ++ chars!"]") hl.balanced hm (by decide) (by simpa using h1) with
        ⟨b', h2, rfl⟩ | ⟨a2, h2, rfl⟩
      · simpa using Der.randNum (ihl h2) hr'
      · rcases split_block (t := []) (sep := chars!"]") hr'.balanced hm (by decide) (by simpa using h2) with ⟨b', h3, rfl⟩ | ⟨a3, h3, -⟩
        · simpa using Der.randNum hl (ihr h3)
        · simp at h3

theorem roll_block {letters : Char × Char} (hl : '(' ≠ letters.1 ∧ '(' ≠ letters.2) {s : Str} {r : Roll}
    (h : RollText letters s r) (hm : Balanced m) (hr : Replaces w m) {a b : Str}
    (hs : s = a ++ chars!"(" ++ m ++ chars!")" ++ b) : RollText letters (a ++ chars!"(" ++ w ++ chars!")" ++ b) r := by
  obtain ⟨x, y, l, rfl, hl', hx, hy⟩ := h
  rcases split_block (sep := [l]) hx.balanced hm (by
    rw [List.mem_singleton]
    rcases hl' with rfl | rfl
    · exact hl.1
    · exact hl.2) hs with ⟨b', h1, rfl⟩ | ⟨a', h1, rfl⟩
  · exact ⟨a ++ chars!"(" ++ w ++ chars!")" ++ b', y, l, by simp, hl', der_block hx hm hr h1, hy⟩
  · exact ⟨x, a' ++ chars!"(" ++ w ++ chars!")" ++ b, l, by simp, hl', hx, der_block hy hm hr h1⟩

/-- Letters are no parentheses. -/
abbrev Plain2 (letters : Char × Char) : Prop := (letters.1 ≠ '(' ∧ letters.1 ≠ ')') ∧ letters.2 ≠ '(' ∧ letters.2 ≠ ')'

theorem RollText.balanced {letters : Char × Char} (hl : Plain2 letters) {s : Str} {r : Roll}
    (h : RollText letters s r) : Balanced s := by
  obtain ⟨x, y, l, rfl, hl', hx, hy⟩ := h
  exact (hx.balanced.append (.plain fun c hc => by
    rw [List.mem_singleton] at hc
    subst hc
    rcases hl' with rfl | rfl
    · exact hl.1
    · exact hl.2)).append hy.balanced

theorem RollsText.balanced {letters : Char × Char} (hl : Plain2 letters) {s : Str}
    {rs : List Roll} (h : RollsText letters s rs) : Balanced s := by
  induction h with
  | one h => exact h.balanced hl
  | cons h _ ih => exact ((h.balanced hl).append (.plain (by decide))).append ih

theorem RRollsText.balanced {letters : Char × Char} (hl : Plain2 letters) {s : Str}
    {rl : RRollList} (h : RRollsText letters s rl) : Balanced s := by
  obtain ⟨x, y, rfl, hx, hy⟩ := h
  refine (hx.balanced hl).append ?_
  generalize rl.threshold = th at hy
  cases hy with
  | absent => exact .nil
  | given he => exact ((Balanced.plain (by decide)).append he.balanced).append (.plain (by decide))

theorem URollText.balanced {s : Str} {u : URollExpr} (h : URollText s u) : Balanced s := by
  obtain ⟨x, y, rfl, hx, hy⟩ := h
  refine (RRollsText.balanced (by decide) hx).append ?_
  generalize u.bonus = bo at hy
  cases hy with
  | absent => exact .nil
  | plus he => exact (Balanced.plain (by decide)).append he.balanced
  | minus he => exact (Balanced.plain (by decide)).append he.balanced

theorem rolls_block {letters : Char × Char} (hl : Plain2 letters) {s : Str}
    {rs : List Roll} (h : RollsText letters s rs) (hm : Balanced m) (hr : Replaces w m) : ∀ {a b : Str},
    s = a ++ chars!"(" ++ m ++ chars!")" ++ b → RollsText letters (a ++ chars!"(" ++ w ++ chars!")" ++ b) rs := by
  have hl' : '(' ≠ letters.1 ∧ '(' ≠ letters.2 := ⟨hl.1.1.symm, hl.2.1.symm⟩
  induction h with
  | one h => intro a b hs; exact .one (roll_block hl' h hm hr hs)
  | cons h1 h2 ih =>
    intro a b hs
    rcases split_block (sep := chars!"+") (h1.balanced hl) hm (by decide) hs with ⟨b', h3, rfl⟩ | ⟨a', h3, rfl⟩
    · simpa using RollsText.cons (roll_block hl' h1 hm hr h3) h2
    · simpa using RollsText.cons h1 (ih h3)

theorem rRolls_block {letters : Char × Char} (hl : Plain2 letters) {s : Str}
    {rl : RRollList} (h : RRollsText letters s rl) (hm : Balanced m) (hr : Replaces w m) {a b : Str}
    (hs : s = a ++ chars!"(" ++ m ++ chars!")" ++ b) : RRollsText letters (a ++ chars!"(" ++ w ++ chars!")" ++ b) rl := by
  obtain ⟨x, y, rfl, hx, hy⟩ := h
  generalize ht : rl.threshold = th at hy
  cases hy with
  | absent =>
    exact ⟨a ++ chars!"(" ++ w ++ chars!")" ++ b, [], by simp, rolls_block hl hx hm hr (by simpa using hs), ht ▸ .absent⟩
  | @given t e he =>
    rcases split_block (sep := chars!"[") (t := t ++ chars!"]") (hx.balanced hl) hm (by decide) (by simpa using hs) with
      ⟨b', h1, rfl⟩ | ⟨a', h1, rfl⟩
    · exact ⟨a ++ chars!"(" ++ w ++ chars!")" ++ b', chars!"[" ++ t ++ chars!"]", by simp, rolls_block hl hx hm hr h1, ht ▸ .given he⟩
    · rcases split_block (t := []) (sep := chars!"]") he.balanced hm (by decide) (by simpa using h1) with ⟨b', h2, rfl⟩ | ⟨a2, h2, -⟩
      · exact ⟨x, chars!"[" ++ (a' ++ chars!"(" ++ w ++ chars!")" ++ b') ++ chars!"]", by simp, hx, ht ▸ .given (der_block he hm hr h2)⟩
      · simp at h2

theorem uRoll_block {s : Str} {u : URollExpr} (h : URollText s u) (hm : Balanced m) (hr : Replaces w m) {a b : Str}
    (hs : s = a ++ chars!"(" ++ m ++ chars!")" ++ b) : URollText (a ++ chars!"(" ++ w ++ chars!")" ++ b) u := by
  obtain ⟨x, y, rfl, hx, hy⟩ := h
  generalize ht : u.bonus = bo at hy
  cases hy with
  | absent => exact ⟨a ++ chars!"(" ++ w ++ chars!")" ++ b, [], by simp, rRolls_block (by decide) hx hm hr (by simpa using hs), ht ▸ .absent⟩
  | @plus t e he =>
    rcases split_block (sep := chars!"+") (t := t) (RRollsText.balanced (by decide) hx) hm (by decide) (by simpa using hs) with
      ⟨b', h1, rfl⟩ | ⟨a', h1, rfl⟩
    · exact ⟨a ++ chars!"(" ++ w ++ chars!")" ++ b', chars!"+" ++ t, by simp, rRolls_block (by decide) hx hm hr h1, ht ▸ .plus he⟩
    · exact ⟨x, chars!"+" ++ (a' ++ chars!"(" ++ w ++ chars!")" ++ b), by simp, hx, ht ▸ .plus (der_block he hm hr h1)⟩
  | @minus t e he =>
    rcases split_block (sep := chars!"-") (t := t) (RRollsText.balanced (by decide) hx) hm (by decide) (by simpa using hs) with
      ⟨b', h1, rfl⟩ | ⟨a', h1, rfl⟩
    · exact ⟨a ++ chars!"(" ++ w ++ chars!")" ++ b', chars!"-" ++ t, by simp, rRolls_block (by decide) hx hm hr h1, ht ▸ .minus he⟩
    · exact ⟨x, chars!"-" ++ (a' ++ chars!"(" ++ w ++ chars!")" ++ b), by simp, hx, ht ▸ .minus (der_block he hm hr h1)⟩

theorem compare_block {P : Str → Prop} {s t : Str} {op : CmpOp} {e : Expr} {a b : Str}
    (hP : ∀ {b' : Str}, s = a ++ chars!"(" ++ m ++ chars!")" ++ b' → P (a ++ chars!"(" ++ w ++ chars!")" ++ b')) (h0 : P s)
    (hb : Balanced s) (ht : CompareText t op e) (hm : Balanced m) (hr : Replaces w m)
    (hs : s ++ t = a ++ chars!"(" ++ m ++ chars!")" ++ b) :
    ∃ s' t', a ++ chars!"(" ++ w ++ chars!")" ++ b = s' ++ t' ∧ P s' ∧ CompareText t' op e := by
  cases ht with
  | @mk t _ _ he =>
    rcases split_block (sep := op.str) (t := t) hb hm (by cases op <;> decide) (by simpa using hs) with
      ⟨b', h1, rfl⟩ | ⟨a', h1, rfl⟩
    · exact ⟨a ++ chars!"(" ++ w ++ chars!")" ++ b', op.str ++ t, by simp, hP h1, .mk he⟩
    · exact ⟨s, op.str ++ (a' ++ chars!"(" ++ w ++ chars!")" ++ b), by simp, h0, .mk (der_block he hm hr h1)⟩

theorem command_block {s : Str} {n : Node} (h : CommandText s n) (hc : n.isChoice = false) (hm : Balanced m)
    (hr : Replaces w m) {a b : Str} (hs : s = a ++ chars!"(" ++ m ++ chars!")" ++ b) :
    CommandText (a ++ chars!"(" ++ w ++ chars!")" ++ b) n := by
  cases h with
  | choice => simp [Node.isChoice] at hc
  | @«calc» t rest e c hc' he =>
    have hcd : '(' ∉ [c] := by rcases hc' with rfl | rfl <;> decide
    rcases split_block (s := []) (sep := [c]) (t := chars!"(" ++ t ++ chars!")" ++ rest) .nil hm hcd (by simpa using hs) with
      ⟨b', h1, -⟩ | ⟨a1, h1, rfl⟩
    · simp at h1
    rcases split_block (s := chars!"(" ++ t ++ chars!")") (sep := []) (t := rest) he.balanced.wrap hm (by decide)
      (by simpa using h1) with ⟨b', h2, rfl⟩ | ⟨a', h2, rfl⟩
    · rcases split_outer he.balanced hm h2 with ⟨rfl, rfl, rfl⟩ | ⟨a', b2, h3, rfl, rfl⟩
      · simpa using CommandText.calc (rest := rest) hc' (hr _ _ he)
      · simpa using CommandText.calc (rest := rest) hc' (der_block he hm hr h3)
    · simpa using CommandText.calc (rest := a' ++ chars!"(" ++ w ++ chars!")" ++ b) hc' he
  | bRollList h => exact .bRollList (rolls_block (by decide) h hm hr hs)
  | rRollList h => exact .rRollList (rRolls_block (by decide) h hm hr hs)
  | uRollExpr h => exact .uRollExpr (uRoll_block h hm hr hs)
  | dRollExpr h hx => exact .dRollExpr (der_block h hm hr hs) hx
  | bRollComp h ht =>
    obtain ⟨s', t', h1, h2, h3⟩ := compare_block (P := fun s => RollsText ('B', 'b') s _)
      (rolls_block (by decide) h hm hr) h (RollsText.balanced (by decide) h) ht hm hr hs
    exact h1 ▸ .bRollComp h2 h3
  | rRollComp h ht =>
    obtain ⟨s', t', h1, h2, h3⟩ := compare_block (P := fun s => RRollsText ('R', 'r') s _)
      (rRolls_block (by decide) h hm hr) h (RRollsText.balanced (by decide) h) ht hm hr hs
    exact h1 ▸ .rRollComp h2 h3
  | uRollComp h ht =>
    obtain ⟨s', t', h1, h2, h3⟩ := compare_block (P := fun s => URollText s _)
      (uRoll_block h hm hr) h h.balanced ht hm hr hs
    exact h1 ▸ .uRollComp h2 h3
  | dRollComp h hx ht =>
    obtain ⟨s', t', h1, h2, h3⟩ := compare_block (P := fun s => Der (.add .dice) s _)
      (der_block h hm hr) h h.balanced ht hm hr hs
    exact h1 ▸ .dRollComp h2 hx h3

end

/-! ## Parentheses around parentheses -/

theorem Der.ne_nil {nt : NT} {s : Str} {e : Expr} (h : Der nt s e) : s ≠ [] := by
  induction h with
  | number h _ => exact h
  | _ => simp_all

/-- Nothing but a part of the opened parentheses stands before the last closing one. -/
theorem not_before {s m t : Str} (hs : Balanced s) (h0 : s ≠ []) (hm : Balanced m) (ht : t ≠ [])
    (he : chars!"(" ++ m ++ chars!")" = s ++ t) : False := by
  cases s with
  | nil => exact h0 rfl
  | cons c s =>
    simp only [List.nil_append, List.cons_append, List.cons.injEq] at he
    obtain ⟨rfl, he⟩ := he
    rw [List.append_eq_append_iff] at he
    have h1 := hs.1
    rcases he with ⟨x, h2, h3⟩ | ⟨x, h2, h3⟩
    · cases x with
      | nil =>
        have := hm.1
        simp only [List.append_nil] at h2
        subst h2
        simp at h1
        omega
      | cons d x =>
        simp only [List.cons_append, List.cons.injEq] at h3
        exact ht (List.append_eq_nil_iff.mp h3.2.symm).2
    · have := hm.2 s ⟨x, h2.symm⟩
      simp at h1
      omega

theorem not_apart {s m sep t : Str} (hs : Balanced s) (h0 : s ≠ []) (hm : Balanced m) (ht : sep ≠ [])
    (he : chars!"(" ++ m ++ chars!")" = s ++ sep ++ t) : False :=
  not_before (t := sep ++ t) hs h0 hm (by simp [ht]) (by rw [he, List.append_assoc])

theorem Replaces.unwrap {m : Str} (hm : Balanced m) : Replaces m (chars!"(" ++ m ++ chars!")") := by
  have prim : ∀ {k : Kind} {e : Expr}, Der (.prim k) (chars!"(" ++ m ++ chars!")") e → Der (.add k) m e := by
    intro k e h
    generalize hs : chars!"(" ++ m ++ chars!")" = s at h
    cases h with
    | primNum h =>
      cases h with
      | number _ hd => exact absurd (hd '(' (by rw [← hs]; simp)) (by decide)
    | primRand _ h => cases h with | randNum => simp at hs
    | primDice h =>
      cases h with
      | dRoll hd ha hb =>
        exact (not_apart ha.balanced ha.ne_nil hm (by simp) hs).elim
    | plus _ => simp at hs
    | minus _ => simp at hs
    | @paren _ s' _ h =>
      have : m = s' := by simpa using hs
      exact this ▸ h
  have mul : ∀ {k : Kind} {e : Expr}, Der (.mul k) (chars!"(" ++ m ++ chars!")") e → Der (.add k) m e := by
    intro k e h
    generalize hs : chars!"(" ++ m ++ chars!")" = s at h
    cases h with
    | mulPrim h => exact prim (hs ▸ h)
    | mulMul hl _ => exact (not_apart hl.balanced hl.ne_nil hm (by simp) hs).elim
    | mulDiv hl _ => exact (not_apart hl.balanced hl.ne_nil hm (by simp) hs).elim
    | mulDivUp _ hl _ =>
      exact (not_apart (sep := chars!"/") hl.balanced hl.ne_nil hm (by simp) (by rw [hs, List.append_assoc (_ ++ _)])).elim
    | mulDivRound _ hl _ =>
      exact (not_apart (sep := chars!"/") hl.balanced hl.ne_nil hm (by simp) (by rw [hs, List.append_assoc (_ ++ _)])).elim
  intro k e h
  generalize hs : chars!"(" ++ m ++ chars!")" = s at h
  cases h with
  | addMul h => exact mul (hs ▸ h)
  | addAdd hl _ => exact (not_apart hl.balanced hl.ne_nil hm (by simp) hs).elim
  | addSub hl _ => exact (not_apart hl.balanced hl.ne_nil hm (by simp) hs).elim

/-- **C98.** Any pair of parentheses may be doubled, and any doubled pair may be made a single one. -/
theorem C98_parentheses (a m b : Str) (n : Node) (hm : Balanced m) (hc : n.isChoice = false) :
    parse (a ++ chars!"((" ++ m ++ chars!"))" ++ b) = some n ↔ parse (a ++ chars!"(" ++ m ++ chars!")" ++ b) = some n := by
  rw [parse_iff, parse_iff]
  constructor
  · intro h
    exact command_block h hc hm.wrap (.unwrap hm) (by simp)
  · intro h
    have := command_block (w := chars!"(" ++ m ++ chars!")") h hc hm (fun _ _ h => .addMul (.mulPrim (.paren h))) rfl
    simpa using this

/-- **C98.** So the answer is the same. -/
theorem C98_parentheses_answer {σ : Type} (F : DieFeeder σ) (gameID a m b : Str) (n : Node) (hm : Balanced m)
    (hc : n.isChoice = false) (hn : parse (a ++ chars!"(" ++ m ++ chars!")" ++ b) = some n) (f : σ) :
    executeBasicCommand F gameID (a ++ chars!"((" ++ m ++ chars!"))" ++ b) f =
      executeBasicCommand F gameID (a ++ chars!"(" ++ m ++ chars!")" ++ b) f := by
  rw [executeBasicCommand, executeBasicCommand, (C98_parentheses a m b n hm hc).mpr hn, hn]

/-- `2*(1D6+(3-1))>=9`, the outer pair doubled. -/
example : ∃ n, parse (chars!"2*" ++ chars!"(" ++ chars!"1D6+(3-1)" ++ chars!")" ++ chars!">=9") = some n ∧
    parse (chars!"2*" ++ chars!"((" ++ chars!"1D6+(3-1)" ++ chars!"))" ++ chars!">=9") = some n := by
  have hn : parse (chars!"2*" ++ chars!"(" ++ chars!"1D6+(3-1)" ++ chars!")" ++ chars!">=9") =
      some (.dRollComp (.bin .mul (.int 2) (.bin .add (.var .d (.int 1) (.int 6)) (.bin .sub (.int 3) (.int 1)))) .ge (.int 9)) := by
    decide +kernel
  have hb : Balanced chars!"1D6+(3-1)" :=
    (Balanced.plain (s := chars!"1D6+") (by decide)).append (Balanced.wrap (s := chars!"3-1") (.plain (by decide)))
  exact ⟨_, hn, (C98_parentheses _ _ _ _ hb rfl).mpr hn⟩

/-- What stands between the parentheses must be balanced: in `(1)+(2)` doubling the first and the last is no writing of the same. -/
theorem C98_balanced_needed : (parse chars!"1D6+(1)+(2)").isSome = true ∧ parse chars!"1D6+((1)+(2))" ≠ parse chars!"1D6+(1)+(2)" := by
  decide +kernel

end GoBCDice
