import Verif.Lemmas.ParserComplete

/-! # The command parser accepts exactly the command language -/

namespace GoBCDice

/-! ## Facts about the expression language -/

theorem Der.int_rands {nt : NT} {s : Str} {e : Expr} (h : Der nt s e) :
    (nt = .number ∨ nt = .randOperand ∨ nt = .prim .int ∨ nt = .mul .int ∨ nt = .add .int) →
      e.rands = 0 := by
  induction h <;> simp_all [Expr.rands]

/-- A text has a random element exactly when its tree is variable. -/
theorem Der.rands_pos {nt : NT} {s : Str} {e : Expr} (h : Der nt s e) :
    1 ≤ e.rands ↔ e.isVariable = true := by
  induction h with
  | number => simp [Expr.rands, Expr.isVariable]
  | randNum | dRoll => simp [Expr.rands, Expr.isVariable]
  | mulMul _ _ ih1 ih2 | mulDiv _ _ ih1 ih2 | mulDivUp _ _ _ ih1 ih2 | mulDivRound _ _ _ ih1 ih2
  | addAdd _ _ ih1 ih2 | addSub _ _ ih1 ih2 =>
    simp only [Expr.rands, Expr.isVariable, Bool.or_eq_true, ← ih1, ← ih2]
    omega
  | minus _ ih => simpa [Expr.rands, Expr.isVariable] using ih
  | _ => assumption

/-- First characters of expressions. -/
def isStart (x : Char) : Bool := isDigit x || x == '(' || x == '[' || x == '+' || x == '-'

theorem Der.start {nt : NT} {s : Str} {e : Expr} (h : Der nt s e) :
    ∃ x s', s = x :: s' ∧ isStart x = true := by
  induction h with
  | @number ds h1 h2 =>
    cases ds with
    | nil => exact absurd rfl h1
    | cons x s' => exact ⟨x, s', rfl, by simp [isStart, h2 x (by simp)]⟩
  | randOperandParen | rollOperandParen | paren => exact ⟨'(', _, rfl, by decide⟩
  | randNum => exact ⟨'[', _, rfl, by decide⟩
  | plus => exact ⟨'+', _, rfl, by decide⟩
  | minus => exact ⟨'-', _, rfl, by decide⟩
  | dRoll _ _ _ ih => obtain ⟨x, s', rfl, h⟩ := ih; exact ⟨x, _, rfl, h⟩
  | mulMul _ _ ih | mulDiv _ _ ih | mulDivUp _ _ _ ih | mulDivRound _ _ _ ih | addAdd _ _ ih
  | addSub _ _ ih => obtain ⟨x, s', rfl, h⟩ := ih; exact ⟨x, _, rfl, h⟩
  | _ => assumption

/-- The first primary of a sum. -/
theorem Der.first {nt : NT} {s : Str} {e : Expr} (h : Der nt s e) (k : Kind)
    (hn : nt = .mul k ∨ nt = .add k) :
    ∃ p tail e', s = p ++ tail ∧ Der (.prim k) p e' ∧
      (tail = [] ∨ ∃ x t, tail = x :: t ∧ (x = '+' ∨ x = '-' ∨ x = '*' ∨ x = '/')) := by
  have ext : ∀ {s t : Str} {x : Char},
      (∃ p tail e', s = p ++ tail ∧ Der (.prim k) p e' ∧
        (tail = [] ∨ ∃ x t, tail = x :: t ∧ (x = '+' ∨ x = '-' ∨ x = '*' ∨ x = '/'))) →
      (x = '+' ∨ x = '-' ∨ x = '*' ∨ x = '/') →
      (∃ p tail e', s ++ x :: t = p ++ tail ∧ Der (.prim k) p e' ∧
        (tail = [] ∨ ∃ x t, tail = x :: t ∧ (x = '+' ∨ x = '-' ∨ x = '*' ∨ x = '/'))) := by
    rintro s t x ⟨p, tail, e', rfl, hp, ht⟩ hx
    refine ⟨p, tail ++ x :: t, e', by simp, hp, .inr ?_⟩
    rcases ht with rfl | ⟨y, t', rfl, hy⟩
    · exact ⟨x, t, rfl, hx⟩
    · exact ⟨y, _, rfl, hy⟩
  induction h with
  | mulPrim hp =>
    rcases hn with h | h
    · cases h; exact ⟨_, [], _, by simp, hp, .inl rfl⟩
    · exact absurd h (by simp)
  | @mulMul k s t l r _ _ ih =>
    rcases hn with h | h
    · cases h; simpa using ext (x := '*') (t := t) (ih (.inl rfl)) (by simp)
    · exact absurd h (by simp)
  | @mulDiv k s t l r _ _ ih =>
    rcases hn with h | h
    · cases h; simpa using ext (x := '/') (t := t) (ih (.inl rfl)) (by simp)
    · exact absurd h (by simp)
  | @mulDivUp k s t l r u _ _ _ ih =>
    rcases hn with h | h
    · cases h; simpa using ext (x := '/') (t := t ++ [u]) (ih (.inl rfl)) (by simp)
    · exact absurd h (by simp)
  | @mulDivRound k s t l r u _ _ _ ih =>
    rcases hn with h | h
    · cases h; simpa using ext (x := '/') (t := t ++ [u]) (ih (.inl rfl)) (by simp)
    · exact absurd h (by simp)
  | addMul _ ih =>
    rcases hn with h | h
    · exact absurd h (by simp)
    · cases h; exact ih (.inl rfl)
  | @addAdd k s t l r _ _ ih =>
    rcases hn with h | h
    · exact absurd h (by simp)
    · cases h; simpa using ext (x := '+') (t := t) (ih (.inr rfl)) (by simp)
  | @addSub k s t l r _ _ ih =>
    rcases hn with h | h
    · exact absurd h (by simp)
    · cases h; simpa using ext (x := '-') (t := t) (ih (.inr rfl)) (by simp)
  | _ => rcases hn with h | h <;> exact absurd h (by simp)

/-! ## Rolls -/

/-- Digits and the letters B, R, U. -/
def fLetter (x : Char) : Bool :=
  isDigit x || x == 'b' || x == 'B' || x == 'r' || x == 'R' || x == 'u' || x == 'U'

/-- The letters of the roll lists. -/
inductive RollLetter : Char → Char → Prop where
  | b : RollLetter 'B' 'b'
  | r : RollLetter 'R' 'r'
  | u : RollLetter 'U' 'u'

theorem RollLetter.lower {up lo : Char} (h : RollLetter up lo) (y : Char) :
    toLowerRune y = lo ↔ y = up ∨ y = lo := by
  cases h
  · exact toLowerRune_b y
  · exact toLowerRune_r y
  · exact toLowerRune_u y

theorem chrI_letter_none {up lo : Char} (hL : RollLetter up lo) {s : Str} {c : Nat}
    (h : Stops fLetter s) : chrI lo s c = none := by
  refine chrI_none _ _ _ ?_
  intro y hy
  have := h y hy
  rw [Ne, hL.lower]
  simp only [fLetter, Bool.or_eq_false_iff, beq_eq_false_iff_ne] at this
  cases hL <;> grind

theorem chrI_letter_other {up lo up' lo' : Char} (hL : RollLetter up lo) (hL' : RollLetter up' lo')
    (hne : lo ≠ lo') {y : Char} (hy : y = up' ∨ y = lo') {s : Str} {c : Nat} :
    chrI lo (y :: s) c = none := by
  refine chrI_none _ _ _ ?_
  intro z hz
  simp only [List.head?_cons, Option.mem_def, Option.some.injEq] at hz
  subst hz
  rw [Ne, hL.lower]
  cases hL <;> cases hL' <;> simp_all <;> rcases hy with rfl | rfl <;> decide

theorem letterRoll_ok {up lo : Char} (hL : RollLetter up lo) {n : Nat} {s rest : Str} {c c' : Nat}
    {r : Roll} (h : letterRoll lo n s c = some (r, rest, c')) :
    ∃ t, s = t ++ rest ∧ RollText (up, lo) t r := by
  unfold letterRoll at h
  rw [P.bind_ok] at h
  obtain ⟨x, s1, c1, h1, h⟩ := h
  rw [P.bind_ok] at h
  obtain ⟨_, s2, c2, h2, h⟩ := h
  rw [P.bind_ok] at h
  obtain ⟨y, s3, c3, h3, h⟩ := h
  rw [P.bind_ok] at h
  obtain ⟨_, s4, c4, h4, h⟩ := h
  obtain ⟨t, rfl, hL1, rfl⟩ := sound_rollOperand n _ _ _ _ _ h1
  obtain ⟨d, rfl, hd, rfl⟩ := chrI_ok h2
  obtain ⟨t2, rfl, hL2, rfl⟩ := sound_rollOperand n _ _ _ _ _ h3
  obtain ⟨rfl, rfl⟩ := incRandCount_ok h4
  simp only [P.pure_def, Option.some.injEq, Prod.mk.injEq] at h
  obtain ⟨rfl, rfl, rfl⟩ := h
  exact ⟨t ++ [d] ++ t2, by simp, t, t2, d, rfl, (hL.lower d).mp hd, hL1, hL2⟩

theorem letterRoll_accepts {up lo : Char} (hL : RollLetter up lo) {n : Nat} {s rest : Str} (c : Nat)
    {r : Roll} (h : RollText (up, lo) s r) (hn : s.length ≤ n) (hr : Stops isDigit rest) :
    ∃ c', letterRoll lo n (s ++ rest) c = some (r, rest, c') := by
  obtain ⟨a, b, l, rfl, hl, ha, hb⟩ := h
  simp only [List.length_append, List.length_cons, List.length_nil] at hn
  have hl' : isDigit l = false := by cases hL <;> rcases hl with rfl | rfl <;> decide
  have e1 := ha.accepts n (l :: (b ++ rest)) c (by omega) (Stops.cons hl')
  have e2 := hb.accepts n rest (c + r.num.rands) (by omega) hr
  have : a ++ [l] ++ b ++ rest = a ++ l :: (b ++ rest) := by simp
  rw [this]
  unfold letterRoll
  rw [P.bind_some e1, P.bind_some (chrI_cons _ _ _ _ ((hL.lower l).mpr hl)), P.bind_some e2]
  exact ⟨_, rfl⟩

/-- A roll with another letter is refused. -/
theorem letterRoll_other {up lo up' lo' : Char} (hL : RollLetter up lo) (hL' : RollLetter up' lo')
    (hne : lo ≠ lo') {n : Nat} {s rest : Str} (c : Nat) {r : Roll} (h : RollText (up', lo') s r)
    (hn : s.length ≤ n) : letterRoll lo n (s ++ rest) c = none := by
  obtain ⟨a, b, l, rfl, hl, ha, hb⟩ := h
  simp only [List.length_append, List.length_cons, List.length_nil] at hn
  have hl' : isDigit l = false := by cases hL' <;> rcases hl with rfl | rfl <;> decide
  have e1 := ha.accepts n (l :: (b ++ rest)) c (by omega) (Stops.cons hl')
  have : a ++ [l] ++ b ++ rest = a ++ l :: (b ++ rest) := by simp
  rw [this]
  unfold letterRoll
  rw [P.bind_some e1]
  exact P.bind_none (chrI_letter_other hL hL' hne hl)

/-- No roll can be read off an expression. -/
theorem letterRoll_expr {up lo : Char} (hL : RollLetter up lo) {n : Nat} {s rest : Str} (c : Nat)
    {k : Kind} {e : Expr} (h : Der (.add k) s e) (hn : s.length ≤ n) (hr : Stops fLetter rest) :
    letterRoll lo n (s ++ rest) c = none := by
  obtain ⟨p, tail, e', rfl, hp, ht⟩ := h.first k (.inr rfl)
  simp only [List.length_append] at hn
  have hr' : Stops fLetter (tail ++ rest) := by
    rcases ht with rfl | ⟨x, t, rfl, hx⟩
    · exact hr
    · refine Stops.cons ?_
      rcases hx with rfl | rfl | rfl | rfl <;> decide
  have hd' : Stops isDigit (tail ++ rest) := hr'.mono (by intro x hx; simp [fLetter, hx])
  rw [List.append_assoc]
  have done : ∀ (e1 : Expr) (c1 : Nat),
      rollOperand n (p ++ (tail ++ rest)) c = some (e1, tail ++ rest, c1) →
      letterRoll lo n (p ++ (tail ++ rest)) c = none := by
    intro e1 c1 h1
    unfold letterRoll
    rw [P.bind_some h1]
    exact P.bind_none (chrI_letter_none hL hr')
  cases hp with
  | primNum hd => exact done _ _ ((Der.rollOperandNum hd).accepts n _ c (by omega) hd')
  | primRand _ hd => exact done _ _ ((Der.rollOperandRand hd).accepts n _ c (by omega) hd')
  | primDice hd =>
    cases hd with
    | @dRoll a b x y d hdd ha hb =>
      simp only [List.length_append, List.length_cons, List.length_nil] at hn
      have hdig : isDigit d = false := by rcases hdd with rfl | rfl <;> decide
      have e1 := ha.accepts n (d :: (b ++ (tail ++ rest))) c (by omega) (Stops.cons hdig)
      have : a ++ [d] ++ b ++ (tail ++ rest) = a ++ d :: (b ++ (tail ++ rest)) := by simp
      rw [this]
      unfold letterRoll
      rw [P.bind_some e1]
      refine P.bind_none (chrI_letter_none hL (Stops.cons ?_))
      rcases hdd with rfl | rfl <;> decide
  | plus _ => exact P.bind_none (rollOperand_none _ _ _ (Stops.cons (by decide)))
  | minus _ => exact P.bind_none (rollOperand_none _ _ _ (Stops.cons (by decide)))
  | paren hd =>
    rcases rollOperand_paren n _ (tail ++ rest) c hd with h1 | ⟨e1, c1, h1⟩
    · exact P.bind_none h1
    · exact done _ _ h1

/-! ## Roll lists -/

theorem RollText.nonempty {L : Char × Char} {s : Str} {r : Roll} (h : RollText L s r) : s ≠ [] := by
  obtain ⟨a, b, l, rfl, -⟩ := h
  simp

theorem plusRoll_shorter {up lo : Char} (hL : RollLetter up lo) (n : Nat) (s : Str) (c : Nat)
    (a : Roll) (s' : Str) (c' : Nat) (h : plusRoll (letterRoll lo n) s c = some (a, s', c')) :
    s'.length < s.length := by
  unfold plusRoll at h
  rw [P.bind_ok] at h
  obtain ⟨_, s1, c1, h1, h⟩ := h
  obtain ⟨rfl, rfl⟩ := chr_ok h1
  obtain ⟨t, rfl, -⟩ := letterRoll_ok hL h
  simp; omega

theorem rolls_many_ok {up lo : Char} (hL : RollLetter up lo) (n K : Nat) :
    ∀ (s rest : Str) (c c' : Nat) (rs : List Roll) (t0 : Str) (r : Roll),
      RollText (up, lo) t0 r → P.manyAux (plusRoll (letterRoll lo n)) K s c = (rs, rest, c') →
      ∃ t, s = t ++ rest ∧ RollsText (up, lo) (t0 ++ t) (r :: rs) := by
  induction K with
  | zero =>
    intro s rest c c' rs t0 r h0 h
    simp only [P.manyAux, Prod.mk.injEq] at h
    obtain ⟨rfl, rfl, rfl⟩ := h
    exact ⟨[], rfl, by simpa using RollsText.one h0⟩
  | succ K ih =>
    intro s rest c c' rs t0 r h0 h
    simp only [P.manyAux] at h
    split at h
    · simp only [Prod.mk.injEq] at h
      obtain ⟨rfl, rfl, rfl⟩ := h
      exact ⟨[], rfl, by simpa using RollsText.one h0⟩
    · rename_i a s1 c1 h1
      rcases hm : P.manyAux (plusRoll (letterRoll lo n)) K s1 c1 with ⟨as, s2, c2⟩
      rw [hm] at h
      simp only [Prod.mk.injEq] at h
      obtain ⟨rfl, rfl, rfl⟩ := h
      unfold plusRoll at h1
      rw [P.bind_ok] at h1
      obtain ⟨_, s3, c3, h3, h1⟩ := h1
      obtain ⟨rfl, rfl⟩ := chr_ok h3
      obtain ⟨t, rfl, ht⟩ := letterRoll_ok hL h1
      obtain ⟨t2, rfl, h2⟩ := ih _ _ _ _ _ t a ht hm
      exact ⟨chars!"+" ++ (t ++ t2), by simp, by simpa using RollsText.cons h0 h2⟩

theorem rollList_ok {up lo : Char} (hL : RollLetter up lo) {n : Nat} {s rest : Str} {c c' : Nat}
    {rs : List Roll} (h : rollList (letterRoll lo n) s c = some (rs, rest, c')) :
    ∃ t, s = t ++ rest ∧ RollsText (up, lo) t rs := by
  unfold rollList at h
  rw [P.bind_ok] at h
  obtain ⟨r, s1, c1, h1, h⟩ := h
  rw [P.bind_ok] at h
  obtain ⟨rs', s2, c2, h2, h⟩ := h
  obtain ⟨t, rfl, ht⟩ := letterRoll_ok hL h1
  simp only [P.many, Option.some.injEq] at h2
  obtain ⟨t2, rfl, h3⟩ := rolls_many_ok hL n _ _ _ _ _ _ _ _ ht h2
  simp only [P.pure_def, Option.some.injEq, Prod.mk.injEq] at h
  obtain ⟨rfl, rfl, rfl⟩ := h
  exact ⟨t ++ t2, by simp, h3⟩

theorem rolls_many_accepts {up lo : Char} (hL : RollLetter up lo) {n : Nat} {s rest : Str}
    {rs : List Roll} (h : RollsText (up, lo) s rs) (hn : s.length ≤ n) (hr : Stops isDigit rest)
    (hp : ∀ c, plusRoll (letterRoll lo n) rest c = none) (c : Nat) :
    ∃ c', P.manyAux (plusRoll (letterRoll lo n)) (chars!"+" ++ s ++ rest).length
      (chars!"+" ++ s ++ rest) c = (rs, rest, c') := by
  induction h generalizing c with
  | @one s r h0 =>
    obtain ⟨c1, h1⟩ := letterRoll_accepts hL c h0 hn hr
    have h2 : plusRoll (letterRoll lo n) (chars!"+" ++ s ++ rest) c = some (r, rest, c1) :=
      (P.bind_some (chr_cons _ _ _)).trans h1
    rw [many_cons (plusRoll_shorter hL n) h2, many_nil (hp c1)]
    exact ⟨_, rfl⟩
  | @cons s t r rs h0 _ ih =>
    simp only [List.length_append, List.length_cons, List.length_nil] at hn
    obtain ⟨c1, h1⟩ := letterRoll_accepts (n := n) (rest := chars!"+" ++ t ++ rest) hL c h0 (by omega)
      (Stops.cons (by decide))
    have h2 : plusRoll (letterRoll lo n) (chars!"+" ++ (s ++ chars!"+" ++ t) ++ rest) c =
        some (r, chars!"+" ++ t ++ rest, c1) := by
      refine (P.bind_some (chr_cons _ _ _)).trans ?_
      simpa using h1
    obtain ⟨c2, h3⟩ := ih (by omega) c1
    rw [many_cons (plusRoll_shorter hL n) h2, h3]
    exact ⟨_, rfl⟩

theorem rollList_accepts {up lo : Char} (hL : RollLetter up lo) {n : Nat} {s rest : Str} (c : Nat)
    {rs : List Roll} (h : RollsText (up, lo) s rs) (hn : s.length ≤ n) (hr : Stops isDigit rest)
    (hp : ∀ c, plusRoll (letterRoll lo n) rest c = none) :
    ∃ c', rollList (letterRoll lo n) (s ++ rest) c = some (rs, rest, c') := by
  unfold rollList
  cases h with
  | @one s r h0 =>
    obtain ⟨c1, h1⟩ := letterRoll_accepts hL c h0 hn hr
    rw [P.bind_some h1, P.bind_some (a := ([] : List Roll)) (s' := rest) (c' := c1)]
    · exact ⟨_, rfl⟩
    · simp only [P.many]; rw [many_nil (hp c1)]
  | @cons s t r rs h0 h' =>
    simp only [List.length_append, List.length_cons, List.length_nil] at hn
    obtain ⟨c1, h1⟩ := letterRoll_accepts (n := n) (rest := chars!"+" ++ t ++ rest) hL c h0 (by omega)
      (Stops.cons (by decide))
    obtain ⟨c2, h2⟩ := rolls_many_accepts hL h' (by omega) hr hp c1
    have : s ++ chars!"+" ++ t ++ rest = s ++ (chars!"+" ++ t ++ rest) := by simp
    rw [this, P.bind_some h1, P.bind_some (a := rs) (s' := rest) (c' := c2)]
    · exact ⟨_, rfl⟩
    · simp only [P.many]; rw [h2]

theorem rollList_other {up lo up' lo' : Char} (hL : RollLetter up lo) (hL' : RollLetter up' lo')
    (hne : lo ≠ lo') {n : Nat} {s rest : Str} (c : Nat) {rs : List Roll}
    (h : RollsText (up', lo') s rs) (hn : s.length ≤ n) :
    rollList (letterRoll lo n) (s ++ rest) c = none := by
  cases h with
  | one h0 => exact P.bind_none (letterRoll_other hL hL' hne c h0 hn)
  | @cons s t r rs h0 _ =>
    simp only [List.length_append, List.length_cons, List.length_nil] at hn
    rw [List.append_assoc, List.append_assoc]
    exact P.bind_none (letterRoll_other hL hL' hne c h0 (by omega))

theorem rollList_expr {up lo : Char} (hL : RollLetter up lo) {n : Nat} {s rest : Str} (c : Nat)
    {k : Kind} {e : Expr} (h : Der (.add k) s e) (hn : s.length ≤ n) (hr : Stops fLetter rest) :
    rollList (letterRoll lo n) (s ++ rest) c = none :=
  P.bind_none (letterRoll_expr hL c h hn hr)

theorem RollsText.start {L : Char × Char} {s : Str} {rs : List Roll} (h : RollsText L s rs) :
    ∃ x s', s = x :: s' ∧ isStart x = true := by
  cases h with
  | one h0 =>
    obtain ⟨a, b, l, rfl, -, ha, -⟩ := h0
    obtain ⟨x, s', rfl, h⟩ := ha.start
    exact ⟨x, _, rfl, h⟩
  | cons h0 _ =>
    obtain ⟨a, b, l, rfl, -, ha, -⟩ := h0
    obtain ⟨x, s', rfl, h⟩ := ha.start
    exact ⟨x, _, rfl, h⟩

/-! ## Comparisons, thresholds and bonuses -/

/-- First characters of comparison operators. -/
def isCmp (x : Char) : Bool := x == '=' || x == '<' || x == '>'

theorem compareOp_ok {s rest : Str} {c c' : Nat} {op : CmpOp}
    (h : compareOp s c = some (op, rest, c')) : s = op.str ++ rest ∧ c' = c := by
  unfold compareOp at h
  split at h <;>
    first
    | (simp only [Option.some.injEq, Prod.mk.injEq] at h; obtain ⟨rfl, rfl, rfl⟩ := h; exact ⟨rfl, rfl⟩)
    | simp at h

theorem compareOp_accepts (op : CmpOp) (s : Str) (c : Nat) (h : ∃ x s', s = x :: s' ∧ isStart x = true) :
    compareOp (op.str ++ s) c = some (op, s, c) := by
  obtain ⟨x, s', rfl, hx⟩ := h
  have h1 : x ≠ '>' := by rintro rfl; exact absurd hx (by decide)
  have h2 : x ≠ '=' := by rintro rfl; exact absurd hx (by decide)
  cases op <;> simp [compareOp, CmpOp.str] <;> split <;> simp_all

theorem compareOp_nil (c : Nat) : compareOp [] c = none := rfl

theorem intExpr_accepts {s rest : Str} {e : Expr} (h : Der (.add .int) s e) (n c : Nat)
    (hn : s.length ≤ n) (hr : Stops fSum rest) : intExpr n (s ++ rest) c = some (e, rest, c) := by
  have := h.accepts.sum n rest c hn hr
  rw [h.int_rands (by simp)] at this
  exact this

theorem dRollExpr_accepts {s rest : Str} {e : Expr} (h : Der (.add .dice) s e) (n c : Nat)
    (hn : s.length ≤ n) (hr : Stops fSum rest) :
    dRollExpr n (s ++ rest) c = some (e, rest, c + e.rands) :=
  h.accepts.sum n rest c hn hr

theorem intExpr_end {s : Str} {e : Expr} (h : Der (.add .int) s e) (n c : Nat)
    (hn : s.length ≤ n) : intExpr n s c = some (e, [], c) := by
  simpa using intExpr_accepts h n c hn (Stops.nil fSum)

theorem threshold_ok {n : Nat} {s rest : Str} {c c' : Nat} {e : Expr}
    (h : threshold n s c = some (e, rest, c')) :
    ∃ t, s = chars!"[" ++ t ++ chars!"]" ++ rest ∧ Der (.add .int) t e := by
  unfold threshold at h
  rw [P.bind_ok] at h
  obtain ⟨_, s1, c1, h1, h⟩ := h
  rw [P.bind_ok] at h
  obtain ⟨x, s2, c2, h2, h⟩ := h
  rw [P.bind_ok] at h
  obtain ⟨_, s3, c3, h3, h⟩ := h
  obtain ⟨rfl, rfl⟩ := chr_ok h1
  obtain ⟨t, rfl, hL, rfl⟩ := sound_intExpr n _ _ _ _ _ h2
  obtain ⟨rfl, rfl⟩ := chr_ok h3
  simp only [P.pure_def, Option.some.injEq, Prod.mk.injEq] at h
  obtain ⟨rfl, rfl, rfl⟩ := h
  exact ⟨t, by simp, hL⟩

theorem optThreshold_ok {n : Nat} {s rest : Str} {c c' : Nat} {t : Option Expr}
    (h : P.opt (threshold n) s c = some (t, rest, c')) :
    ∃ a, s = a ++ rest ∧ ThresholdText a t := by
  unfold P.opt at h
  split at h
  · simp only [Option.some.injEq, Prod.mk.injEq] at h
    obtain ⟨rfl, rfl, rfl⟩ := h
    exact ⟨[], rfl, .absent⟩
  · rename_i e s1 c1 h1
    simp only [Option.some.injEq, Prod.mk.injEq] at h
    obtain ⟨rfl, rfl, rfl⟩ := h
    obtain ⟨t, rfl, hd⟩ := threshold_ok h1
    exact ⟨_, rfl, .given hd⟩

theorem optThreshold_accepts {n : Nat} {a rest : Str} {t : Option Expr} (h : ThresholdText a t)
    (hn : a.length ≤ n) (hr : Stops (· == '[') rest) (c : Nat) :
    P.opt (threshold n) (a ++ rest) c = some (t, rest, c) := by
  unfold P.opt
  cases h with
  | absent =>
    have : threshold n ([] ++ rest) c = none :=
      P.bind_none (chr_none _ _ _ (by intro y hy; simpa using hr y hy))
    rw [this]; rfl
  | @given s e hd =>
    simp only [List.length_append, List.length_cons, List.length_nil] at hn
    have : threshold n (chars!"[" ++ s ++ chars!"]" ++ rest) c = some (e, rest, c) := by
      have e1 : chars!"[" ++ s ++ chars!"]" ++ rest = '[' :: (s ++ ']' :: rest) := by simp
      rw [e1]
      unfold threshold
      rw [P.bind_some (chr_cons _ _ _),
        P.bind_some (intExpr_accepts (rest := ']' :: rest) hd n c (by omega) (Stops.cons (by decide))),
        P.bind_some (chr_cons _ _ _)]
      rfl
    rw [this]

theorem bonus_ok {n : Nat} {s rest : Str} {c c' : Nat} {b : Sign × Expr}
    (h : bonus n s c = some (b, rest, c')) : ∃ t, s = t ++ rest ∧ BonusText t (some b) := by
  unfold bonus at h
  rw [P.bind_ok] at h
  obtain ⟨op, s1, c1, h1, h⟩ := h
  rw [P.bind_ok] at h
  obtain ⟨x, s2, c2, h2, h⟩ := h
  obtain ⟨t, rfl, hL, rfl⟩ := sound_intExpr n _ _ _ _ _ h2
  simp only [P.pure_def, Option.some.injEq, Prod.mk.injEq] at h
  obtain ⟨rfl, rfl, rfl⟩ := h
  obtain ⟨rfl, ⟨rfl, rfl⟩ | ⟨rfl, rfl⟩⟩ := addOp_ok h1
  · exact ⟨chars!"+" ++ t, rfl, .plus hL⟩
  · exact ⟨chars!"-" ++ t, rfl, .minus hL⟩

theorem optBonus_ok {n : Nat} {s rest : Str} {c c' : Nat} {b : Option (Sign × Expr)}
    (h : P.opt (bonus n) s c = some (b, rest, c')) : ∃ a, s = a ++ rest ∧ BonusText a b := by
  unfold P.opt at h
  split at h
  · simp only [Option.some.injEq, Prod.mk.injEq] at h
    obtain ⟨rfl, rfl, rfl⟩ := h
    exact ⟨[], rfl, .absent⟩
  · rename_i e s1 c1 h1
    simp only [Option.some.injEq, Prod.mk.injEq] at h
    obtain ⟨rfl, rfl, rfl⟩ := h
    exact bonus_ok h1

theorem optBonus_accepts {n : Nat} {a rest : Str} {b : Option (Sign × Expr)} (h : BonusText a b)
    (hn : a.length ≤ n) (hr : Stops fSum rest) (c : Nat) :
    P.opt (bonus n) (a ++ rest) c = some (b, rest, c) := by
  unfold P.opt
  cases h with
  | absent =>
    have : bonus n ([] ++ rest) c = none := by
      refine P.bind_none ?_
      have h1 : Stops (fun x => x == '+' || x == '-') rest :=
        hr.mono (by intro x hx; simp only [fSum, Bool.or_eq_true] at hx ⊢; grind)
      simp only [List.nil_append]
      unfold addOp
      split
      · have := h1 '+' (by simp); simp at this
      · have := h1 '-' (by simp); simp at this
      · rfl
    rw [this]; rfl
  | @plus s e hd =>
    simp only [List.length_append, List.length_cons, List.length_nil] at hn
    have : bonus n (chars!"+" ++ s ++ rest) c = some ((.plus, e), rest, c) := by
      unfold bonus
      rw [P.bind_some (a := BinOp.add) (s' := s ++ rest) (c' := c) rfl,
        P.bind_some (intExpr_accepts hd n c (by omega) hr)]
      rfl
    rw [this]
  | @minus s e hd =>
    simp only [List.length_append, List.length_cons, List.length_nil] at hn
    have : bonus n (chars!"-" ++ s ++ rest) c = some ((.minus, e), rest, c) := by
      unfold bonus
      rw [P.bind_some (a := BinOp.sub) (s' := s ++ rest) (c' := c) rfl,
        P.bind_some (intExpr_accepts hd n c (by omega) hr)]
      rfl
    rw [this]

/-! ## R and U rolls -/

theorem rRollList_ok {up lo : Char} (hL : RollLetter up lo) {n : Nat} {s rest : Str} {c c' : Nat}
    {rl : RRollList} (h : rRollList lo n s c = some (rl, rest, c')) :
    ∃ t, s = t ++ rest ∧ RRollsText (up, lo) t rl := by
  unfold rRollList at h
  rw [P.bind_ok] at h
  obtain ⟨rs, s1, c1, h1, h⟩ := h
  rw [P.bind_ok] at h
  obtain ⟨th, s2, c2, h2, h⟩ := h
  obtain ⟨t, rfl, ht⟩ := rollList_ok hL h1
  obtain ⟨a, rfl, ha⟩ := optThreshold_ok h2
  simp only [P.pure_def, Option.some.injEq, Prod.mk.injEq] at h
  obtain ⟨rfl, rfl, rfl⟩ := h
  exact ⟨t ++ a, by simp, t, a, rfl, ht, ha⟩

theorem plusRoll_none {p : P Roll} {s : Str} {c : Nat} (h : Stops (· == '+') s) :
    plusRoll p s c = none :=
  P.bind_none (chr_none _ _ _ (by intro y hy; simpa using h y hy))

/-- Accepting rolls with threshold; what follows does not start a further roll. -/
theorem rRollList_accepts {up lo : Char} (hL : RollLetter up lo) {n : Nat} {s rest : Str} (c : Nat)
    {rl : RRollList} (h : RRollsText (up, lo) s rl) (hn : s.length ≤ n)
    (hr : Stops (fun x => isDigit x || x == '[') rest)
    (hp : ∀ c, plusRoll (letterRoll lo n) rest c = none) :
    ∃ c', rRollList lo n (s ++ rest) c = some (rl, rest, c') := by
  obtain ⟨rolls, th⟩ := rl
  obtain ⟨a, b, rfl, ha, hb⟩ := h
  simp only [List.length_append] at hn ha hb
  have hd : Stops isDigit (b ++ rest) := by
    cases hb with
    | absent => exact hr.mono (by intro x hx; simp [hx])
    | given => exact Stops.cons (by decide)
  have hpl : ∀ c, plusRoll (letterRoll lo n) (b ++ rest) c = none := by
    cases hb with
    | absent => exact hp
    | given => intro c; exact plusRoll_none (Stops.cons (by decide))
  obtain ⟨c1, h1⟩ := rollList_accepts hL c ha (by omega) hd hpl
  have h2 := optThreshold_accepts (n := n) hb (by omega) (rest := rest)
    (hr.mono (by intro x hx; simp_all)) c1
  unfold rRollList
  rw [List.append_assoc, P.bind_some h1, P.bind_some h2]
  exact ⟨_, rfl⟩

theorem rRollList_other {up lo up' lo' : Char} (hL : RollLetter up lo) (hL' : RollLetter up' lo')
    (hne : lo ≠ lo') {n : Nat} {s rest : Str} (c : Nat) {rl : RRollList}
    (h : RRollsText (up', lo') s rl) (hn : s.length ≤ n) :
    rollList (letterRoll lo n) (s ++ rest) c = none := by
  obtain ⟨a, b, rfl, ha, hb⟩ := h
  simp only [List.length_append] at hn
  rw [List.append_assoc]
  exact rollList_other hL hL' hne c ha (by omega)

theorem uRollExpr_ok {n : Nat} {s rest : Str} {c c' : Nat} {u : URollExpr}
    (h : uRollExpr n s c = some (u, rest, c')) : ∃ t, s = t ++ rest ∧ URollText t u := by
  unfold uRollExpr at h
  rw [P.bind_ok] at h
  obtain ⟨rl, s1, c1, h1, h⟩ := h
  rw [P.bind_ok] at h
  obtain ⟨b, s2, c2, h2, h⟩ := h
  obtain ⟨t, rfl, ht⟩ := rRollList_ok .u h1
  obtain ⟨a, rfl, ha⟩ := optBonus_ok h2
  simp only [P.pure_def, Option.some.injEq, Prod.mk.injEq] at h
  obtain ⟨rfl, rfl, rfl⟩ := h
  exact ⟨t ++ a, by simp, t, a, rfl, ht, ha⟩

theorem isCmp_stops {f : Char → Bool} {rest : Str} (h : rest = [] ∨ ∃ x t, rest = x :: t ∧ isCmp x = true)
    (hf : ∀ x, isCmp x = true → f x = false) : Stops f rest := by
  rcases h with rfl | ⟨x, t, rfl, hx⟩
  · exact Stops.nil f
  · exact Stops.cons (hf x hx)

/-- A condition on the three first characters of comparison operators. -/
theorem isCmp_cases {f : Char → Bool} (h1 : f '=' = false) (h2 : f '<' = false) (h3 : f '>' = false) :
    ∀ x, isCmp x = true → f x = false := by
  intro x hx
  simp only [isCmp, Bool.or_eq_true, beq_iff_eq] at hx
  rcases hx with (rfl | rfl) | rfl <;> assumption

theorem uRollExpr_accepts {n : Nat} {s rest : Str} (c : Nat) {u : URollExpr} (h : URollText s u)
    (hn : s.length ≤ n) (hr : rest = [] ∨ ∃ x t, rest = x :: t ∧ isCmp x = true) :
    ∃ c', uRollExpr n (s ++ rest) c = some (u, rest, c') := by
  obtain ⟨list, bon⟩ := u
  obtain ⟨a, b, rfl, ha, hb⟩ := h
  simp only [List.length_append] at hn ha hb
  have hs : Stops fSum rest := isCmp_stops hr (isCmp_cases (by decide) (by decide) (by decide))
  have hst : Stops (fun x => isDigit x || x == '[') (b ++ rest) := by
    cases hb with
    | absent => exact isCmp_stops hr (isCmp_cases (by decide) (by decide) (by decide))
    | plus => exact Stops.cons (by decide)
    | minus => exact Stops.cons (by decide)
  have hp : ∀ c, plusRoll (letterRoll 'u' n) (b ++ rest) c = none := by
    intro c
    cases hb with
    | absent => exact plusRoll_none (isCmp_stops hr (isCmp_cases (by decide) (by decide) (by decide)))
    | @plus t e hd =>
      simp only [List.length_append, List.length_cons, List.length_nil] at hn
      exact (P.bind_some (chr_cons _ _ _)).trans (letterRoll_expr (s := t) .u c hd (by omega)
        (isCmp_stops hr (isCmp_cases (by decide) (by decide) (by decide))))
    | minus => exact plusRoll_none (Stops.cons (by decide))
  obtain ⟨c1, h1⟩ := rRollList_accepts .u c ha (by omega) hst hp
  have h2 := optBonus_accepts (n := n) hb (by omega) hs c1
  unfold uRollExpr
  rw [List.append_assoc, P.bind_some h1, P.bind_some h2]
  exact ⟨_, rfl⟩

end GoBCDice
