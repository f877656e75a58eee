import Verif.Lemmas.ParserTop

/-!
# Properties of the command language (C27-C32)

`CommandText s node` (`Verif.Spec.Grammar`) is the context-free description of the language: no
ordered choice, no greediness, no fuel.
-/

namespace GoBCDice

/-! ### C27 -/

/-- **C27.** The parser accepts exactly the texts of the grammar, with the tree they denote. -/
theorem C27_language (s : Str) (node : Node) : parse s = some node ↔ CommandText s node :=
  parse_iff s node

/-- **C27.** The language is unambiguous: a text denotes at most one tree. -/
theorem C27_unambiguous (s : Str) (a b : Node) (ha : CommandText s a) (hb : CommandText s b) :
    a = b := by
  have h1 := (parse_iff s a).mpr ha
  rw [(parse_iff s b).mpr hb] at h1
  exact (Option.some.inj h1).symm

/-- One more operand of a sum: its sign, its text and what it denotes. -/
abbrev SumItem := Bool × Str × Expr

/-- The text of a sum: a first term, then signs and terms. -/
def sumText (t0 : Str) (items : List SumItem) : Str :=
  items.foldl (fun t i => t ++ (if i.1 then chars!"-" else chars!"+") ++ i.2.1) t0

/-- The tree of a sum: grouped to the left. -/
def sumTree (e0 : Expr) (items : List SumItem) : Expr :=
  items.foldl (fun e i => .bin (if i.1 then .sub else .add) e i.2.2) e0

/-- **C27.** A text denotes a sum exactly when it is a sequence of terms joined by `+` and `-`;
the tree groups them to the left. -/
theorem C27_sums (k : Kind) (s : Str) (e : Expr) :
    Der (.add k) s e ↔ ∃ t0 e0 items, Der (.mul k) t0 e0 ∧ (∀ i ∈ items, Der (.mul k) i.2.1 i.2.2) ∧
      s = sumText t0 items ∧ e = sumTree e0 items := by
  constructor
  · intro h
    generalize hn : NT.add k = nt at h
    induction h with
    | addMul h => cases hn; exact ⟨_, _, [], h, by simp, rfl, rfl⟩
    | @addAdd k' s t l r h1 h2 ih _ =>
      cases hn
      obtain ⟨t0, e0, items, g1, g2, rfl, rfl⟩ := ih rfl
      refine ⟨t0, e0, items ++ [(false, t, r)], g1, ?_, by simp [sumText], by simp [sumTree]⟩
      intro i hi
      rcases List.mem_append.mp hi with hi | hi
      · exact g2 i hi
      · simp at hi; subst hi; exact h2
    | @addSub k' s t l r h1 h2 ih _ =>
      cases hn
      obtain ⟨t0, e0, items, g1, g2, rfl, rfl⟩ := ih rfl
      refine ⟨t0, e0, items ++ [(true, t, r)], g1, ?_, by simp [sumText], by simp [sumTree]⟩
      intro i hi
      rcases List.mem_append.mp hi with hi | hi
      · exact g2 i hi
      · simp at hi; subst hi; exact h2
    | _ => cases hn
  · rintro ⟨t0, e0, items, h0, hi, rfl, rfl⟩
    have key : ∀ (items : List SumItem) t0 e0, Der (.add k) t0 e0 →
        (∀ i ∈ items, Der (.mul k) i.2.1 i.2.2) → Der (.add k) (sumText t0 items) (sumTree e0 items) := by
      intro items
      induction items with
      | nil => intro t0 e0 h _; exact h
      | cons i items ih =>
        intro t0 e0 h hi
        obtain ⟨b, t, r⟩ := i
        have ht := hi _ (List.mem_cons_self ..)
        refine ih _ _ ?_ (fun j hj => hi j (List.mem_cons_of_mem _ hj))
        cases b
        · exact .addAdd h ht
        · exact .addSub h ht
    exact key items t0 e0 (.addMul h0) hi

/-- One more factor of a product: operator, text, tree. -/
abbrev ProdItem := MulOp × Str × Expr

/-- How an operator and a factor are written. -/
inductive FactorText : MulOp → Str → Str → Prop where
  | mul (t : Str) : FactorText .mul t (chars!"*" ++ t)
  | div (t : Str) : FactorText (.div .down) t (chars!"/" ++ t)
  | divUp (t : Str) (u : Char) : u = 'U' ∨ u = 'u' → FactorText (.div .up) t (chars!"/" ++ t ++ [u])
  | divRound (t : Str) (u : Char) : u = 'R' ∨ u = 'r' →
      FactorText (.div .round) t (chars!"/" ++ t ++ [u])

/-- Products: primaries joined by `*`, `/`, `/…U`, `/…R`, grouped to the left. -/
inductive ProdText (k : Kind) : Str → Expr → Prop where
  | one {t : Str} {e : Expr} : Der (.prim k) t e → ProdText k t e
  | snoc {s t w : Str} {l r : Expr} {op : MulOp} : ProdText k s l → Der (.prim k) t r →
      FactorText op t w → ProdText k (s ++ w) (op.mk l r)

/-- **C27.** A text denotes a product exactly when it is a sequence of primaries joined by `*`, `/`,
`/…U`, `/…R`; the tree groups them to the left, before any sum. -/
theorem C27_products (k : Kind) (s : Str) (e : Expr) : Der (.mul k) s e ↔ ProdText k s e := by
  constructor
  · intro h
    generalize hn : NT.mul k = nt at h
    induction h with
    | mulPrim h => cases hn; exact .one h
    | mulMul _ h2 ih _ =>
      cases hn
      rw [List.append_assoc]
      exact .snoc (op := .mul) (ih rfl) h2 (.mul _)
    | mulDiv _ h2 ih _ =>
      cases hn
      rw [List.append_assoc]
      exact .snoc (op := .div .down) (ih rfl) h2 (.div _)
    | mulDivUp hu _ h2 ih _ =>
      cases hn
      rw [List.append_assoc, List.append_assoc]
      exact .snoc (op := .div .up) (ih rfl) h2 (by rw [← List.append_assoc]; exact .divUp _ _ hu)
    | mulDivRound hu _ h2 ih _ =>
      cases hn
      rw [List.append_assoc, List.append_assoc]
      exact .snoc (op := .div .round) (ih rfl) h2 (by rw [← List.append_assoc]; exact .divRound _ _ hu)
    | _ => cases hn
  · intro h
    induction h with
    | one h => exact .mulPrim h
    | snoc _ h2 hw ih =>
      cases hw with
      | mul => rw [← List.append_assoc]; exact .mulMul ih h2
      | div => rw [← List.append_assoc]; exact .mulDiv ih h2
      | divUp _ _ hu => rw [← List.append_assoc, ← List.append_assoc]; exact .mulDivUp hu ih h2
      | divRound _ _ hu => rw [← List.append_assoc, ← List.append_assoc]; exact .mulDivRound hu ih h2

-- non-vacuity: products before sums, left to right, parentheses override
example : parse chars!"c(1-2-3*4/5u/-(6+7))" = some (.calc
    (.bin .sub (.bin .sub (.int 1) (.int 2))
      (.div .down (.div .up (.bin .mul (.int 3) (.int 4)) (.int 5))
        (.neg (.bin .add (.int 6) (.int 7)))))) := by decide

example : parse chars!"[1...3]d(2*[4...6])+1>=10" = some (.dRollComp
    (.bin .add (.var .d (.var .rand (.int 1) (.int 3))
      (.bin .mul (.int 2) (.var .rand (.int 4) (.int 6)))) (.int 1)) .ge (.int 10)) := by decide

/-! ### C28 -/

/-- **C28.** The nesting of primaries never exceeds the length of the text: with any bound on the
recursion depth that is at least this length the parser gives the same answer, i.e. the recursion
of the (unbounded) Go parser ends by itself. -/
theorem C28_depth (n : Nat) (s : Str) (hn : s.length ≤ n) : parseFuel n s = parse s :=
  parseFuel_eq n s hn

/-- **C28.** The repetitions of the grammar consume input at every turn, so they stop after at most
as many turns as there are characters left: allowing more turns changes nothing. -/
theorem C28_repetitions (n : Nat) (k : Kind) (up lo : Char) (hL : RollLetter up lo) (K : Nat)
    (s : Str) (c : Nat) (hK : s.length ≤ K) :
    P.manyAux (mulItem (pPrim k n)) K s c = P.manyAux (mulItem (pPrim k n)) s.length s c ∧
    P.manyAux (addItem (multitive (pPrim k n))) K s c =
      P.manyAux (addItem (multitive (pPrim k n))) s.length s c ∧
    P.manyAux (plusRoll (letterRoll lo n)) K s c =
      P.manyAux (plusRoll (letterRoll lo n)) s.length s c ∧
    P.manyAux commaItem K s c = P.manyAux commaItem s.length s c :=
  ⟨manyAux_fuel (fun s c a s' c' h => mulItem_shorter (sound_pPrim k n) s c a s' c' h) K _ s c hK
      (Nat.le_refl _),
    manyAux_fuel (fun s c a s' c' h => addItem_shorter (sound_pPrim k n) s c a s' c' h) K _ s c hK
      (Nat.le_refl _),
    manyAux_fuel (fun s c a s' c' h => plusRoll_shorter hL n s c a s' c' h) K _ s c hK
      (Nat.le_refl _),
    manyAux_fuel commaItem_shorter K _ s c hK (Nat.le_refl _)⟩

-- non-vacuity: a bound that is too small does change the answer
example : parseFuel 2 chars!"C((((1))))" = none ∧ (parse chars!"C((((1))))").isSome = true := by
  decide

/-! ### C30: integer literals -/

/-- Positional value of a digit string. -/
def decimal : Str → Nat
  | [] => 0
  | c :: cs => (c.toNat - 48) * 10 ^ cs.length + decimal cs

theorem digitsVal_foldl (ds : Str) : ∀ n,
    ds.foldl (fun n c => 10 * n + digitVal c) n = n * 10 ^ ds.length + decimal ds := by
  induction ds with
  | nil => intro n; simp [decimal]
  | cons c cs ih =>
    intro n
    simp only [List.foldl_cons, List.length_cons, decimal, Nat.pow_succ]
    rw [ih]
    have : digitVal c = c.toNat - 48 := rfl
    rw [this, Nat.add_mul]
    generalize hg : 10 ^ cs.length = p
    have e1 : 10 * n * p = n * (p * 10) := by
      rw [Nat.mul_comm 10 n, Nat.mul_assoc, Nat.mul_comm 10 p]
    rw [e1]; omega

theorem digitsVal_decimal (ds : Str) : digitsVal ds = decimal ds := by
  unfold digitsVal
  rw [digitsVal_foldl]; simp

theorem atoiSat_toInt (ds : Str) : (atoiSat ds).toInt = min (decimal ds) (2 ^ 63 - 1 : Nat) := by
  unfold atoiSat
  rw [digitsVal_decimal]
  have h0 := Int.natCast_nonneg (decimal ds)
  rw [Int64.toInt_ofInt_of_le] <;> simp <;> omega

/-- **C30.** A literal denotes its decimal value; from 2^63 on it denotes 2^63-1. -/
theorem C30_literals (ds : Str) (h0 : ds ≠ []) (hd : ∀ c ∈ ds, '0' ≤ c ∧ c ≤ '9') :
    ∃ v, parse (chars!"C(" ++ ds ++ chars!")") = some (.calc (.int v)) ∧
      v.toInt = min (decimal ds) (2 ^ 63 - 1 : Nat) := by
  refine ⟨atoiSat ds, (parse_iff _ _).mpr ?_, atoiSat_toInt ds⟩
  have h1 : Der (.add .int) ds (.int (atoiSat ds)) :=
    .addMul (.mulPrim (.primNum (.number h0 (by
      intro c hc
      have := hd c hc
      simp [isDigit, this.1, this.2]))))
  have := CommandText.calc (rest := []) (.inl rfl : 'C' = 'C' ∨ 'C' = 'c') h1
  simpa using this

/-- **C30.** The same everywhere in the language: what a number denotes is this value. -/
theorem C30_numbers (s : Str) (e : Expr) (h : Der .number s e) :
    s ≠ [] ∧ (∀ c ∈ s, '0' ≤ c ∧ c ≤ '9') ∧
      ∃ v, e = .int v ∧ v.toInt = min (decimal s) (2 ^ 63 - 1 : Nat) := by
  cases h with
  | number h0 hd =>
    refine ⟨h0, ?_, _, rfl, atoiSat_toInt _⟩
    intro c hc
    have := hd c hc
    simpa [isDigit] using this

/-- **C30.** Leading zeros do not matter. -/
theorem C30_leading_zeros (ds : Str) (n : Nat) : decimal (List.replicate n '0' ++ ds) = decimal ds := by
  induction n with
  | zero => rfl
  | succ n ih =>
    rw [List.replicate_succ, List.cons_append, decimal, ih]
    simp

example : decimal chars!"0042" = 42 := by decide
example : parse chars!"C(99999999999999999999)" = some (.calc (.int 9223372036854775807)) := by decide

/-! ### C31 -/

/-- The expression contains a roll or a random number. -/
inductive HasRandom : Expr → Prop where
  | var (k : VarKind) (l r : Expr) : HasRandom (.var k l r)
  | neg {e : Expr} : HasRandom e → HasRandom (.neg e)
  | binL {op : BinOp} {l : Expr} (r : Expr) : HasRandom l → HasRandom (.bin op l r)
  | binR {op : BinOp} (l : Expr) {r : Expr} : HasRandom r → HasRandom (.bin op l r)
  | divL {m : Rounding} {l : Expr} (r : Expr) : HasRandom l → HasRandom (.div m l r)
  | divR {m : Rounding} (l : Expr) {r : Expr} : HasRandom r → HasRandom (.div m l r)

theorem hasRandom_iff (e : Expr) : HasRandom e ↔ 1 ≤ e.rands := by
  constructor
  · intro h
    induction h with
    | var => simp [Expr.rands]
    | _ => simp only [Expr.rands] at *; omega
  · intro h
    induction e with
    | int => simp [Expr.rands] at h
    | sumRoll => simp [Expr.rands] at h
    | neg r ih => exact .neg (ih h)
    | bin op l r ihl ihr =>
      simp only [Expr.rands] at h
      rcases Nat.lt_or_ge 0 l.rands with hl | hl
      · exact .binL _ (ihl hl)
      · exact .binR _ (ihr (by omega))
    | div op l r ihl ihr =>
      simp only [Expr.rands] at h
      rcases Nat.lt_or_ge 0 l.rands with hl | hl
      · exact .divL _ (ihl hl)
      · exact .divR _ (ihr (by omega))
    | var => exact .var _ _ _

/-- **C31.** An accepted D-roll command, or the left side of an accepted D-roll comparison, contains
a roll or a random number. -/
theorem C31_random_element (s : Str) :
    (∀ e, parse s = some (.dRollExpr e) → HasRandom e) ∧
    (∀ l op r, parse s = some (.dRollComp l op r) → HasRandom l) := by
  constructor
  · intro e h
    cases (parse_iff s _).mp h with
    | dRollExpr _ h => exact (hasRandom_iff e).mpr h
  · intro l op r h
    cases (parse_iff s _).mp h with
    | dRollComp _ h => exact (hasRandom_iff l).mpr h

/-- The same nonterminal with another kind of atoms. -/
def NT.setKind (k : Kind) : NT → NT
  | .prim _ => .prim k
  | .mul _ => .mul k
  | .add _ => .add k
  | nt => nt

/-- The nonterminal of integer expressions. -/
def NT.isInt : NT → Bool
  | .prim .int => true
  | .mul .int => true
  | .add .int => true
  | _ => false

theorem Der.widen {nt : NT} {s : Str} {e : Expr} (h : Der nt s e) (k : Kind) (hi : nt.isInt = true) :
    Der (nt.setKind k) s e := by
  induction h with
  | @primNum k' _ _ h => exact .primNum h
  | @primRand k' _ _ hk _ => cases k' <;> simp [NT.isInt] at hi hk
  | primDice => simp [NT.isInt] at hi
  | @plus k' _ _ _ ih => exact .plus (ih hi)
  | @minus k' _ _ _ ih => exact .minus (ih hi)
  | @paren k' _ _ _ ih => exact .paren (ih (by cases k' <;> simp_all [NT.isInt]))
  | @mulPrim k' _ _ _ ih => exact .mulPrim (ih (by cases k' <;> simp_all [NT.isInt]))
  | @mulMul k' _ _ _ _ _ _ ih1 ih2 => exact .mulMul (ih1 hi) (ih2 (by cases k' <;> simp_all [NT.isInt]))
  | @mulDiv k' _ _ _ _ _ _ ih1 ih2 => exact .mulDiv (ih1 hi) (ih2 (by cases k' <;> simp_all [NT.isInt]))
  | @mulDivUp k' _ _ _ _ _ hu _ _ ih1 ih2 =>
    exact .mulDivUp hu (ih1 hi) (ih2 (by cases k' <;> simp_all [NT.isInt]))
  | @mulDivRound k' _ _ _ _ _ hu _ _ ih1 ih2 =>
    exact .mulDivRound hu (ih1 hi) (ih2 (by cases k' <;> simp_all [NT.isInt]))
  | @addMul k' _ _ _ ih => exact .addMul (ih (by cases k' <;> simp_all [NT.isInt]))
  | @addAdd k' _ _ _ _ _ _ ih1 ih2 => exact .addAdd (ih1 hi) (ih2 (by cases k' <;> simp_all [NT.isInt]))
  | @addSub k' _ _ _ _ _ _ ih1 ih2 => exact .addSub (ih1 hi) (ih2 (by cases k' <;> simp_all [NT.isInt]))
  | _ => simp [NT.isInt] at hi

/-- **C31.** A purely arithmetic text is not a command. -/
theorem C31_arithmetic_rejected (s : Str) (e : Expr) (h : Der (.add .int) s e) : parse s = none := by
  cases hp : parse s with
  | none => rfl
  | some node =>
    exfalso
    have h0 := h.int_rands (by simp)
    have hb : ∀ {up lo}, RollLetter up lo → rollList (letterRoll lo s.length) s 0 = none := by
      intro up lo hL
      have := rollList_expr (rest := []) hL 0 h (Nat.le_refl _) (Stops.nil _)
      rwa [List.append_nil] at this
    have hd : dRollExpr s.length s 0 = some (e, [], 0) := by
      have := dRollExpr_accepts (h.widen .dice rfl) s.length 0 (Nat.le_refl _) (Stops.nil _)
      rw [List.append_nil, h0] at this
      exact this
    rw [← parseFuel_eq s.length s (Nat.le_refl _)] at hp
    unfold parseFuel at hp
    rw [command_expr h.start] at hp
    unfold commandWithExpression at hp
    rw [P.bind_some (a := none) (s' := []) (c' := 0)] at hp
    · rw [P.bind_some (eot_nil 0)] at hp
      simp [P.pure_def] at hp
    · rw [P.alt_right (b_fail (hb .b)).1, P.alt_right (b_fail (hb .b)).2,
        P.alt_right (r_fail (hb .r)).1, P.alt_right (r_fail (hb .r)).2,
        P.alt_right (u_fail (hb .u)).1, P.alt_right (u_fail (hb .u)).2, P.alt_right]
      · unfold dRollExprCommand
        rw [P.bind_some hd]
        rfl
      · exact (P.bind_some hd).trans (P.bind_none (compareOp_nil _))

-- non-vacuity
example : parse chars!"1+[1...2]" ≠ none ∧ parse chars!"1+2" = none := by decide

/-! ### C32 -/

/-- Roll commands: everything but Choice and Calc. -/
def Node.isRollCommand : Node → Bool
  | .choice _ => false
  | .calc _ => false
  | _ => true

/-- The text of a roll command: from its first to its last character it consists of the rolls and,
if there is one, the comparison. -/
def RollCommandText (s : Str) : Node → Prop
  | .choice _ => False
  | .calc _ => False
  | .bRollList rs => RollsText ('B', 'b') s rs
  | .bRollComp rs op e => ∃ a b, s = a ++ b ∧ RollsText ('B', 'b') a rs ∧ CompareText b op e
  | .rRollList rl => RRollsText ('R', 'r') s rl
  | .rRollComp rl op e => ∃ a b, s = a ++ b ∧ RRollsText ('R', 'r') a rl ∧ CompareText b op e
  | .uRollExpr u => URollText s u
  | .uRollComp u op e => ∃ a b, s = a ++ b ∧ URollText a u ∧ CompareText b op e
  | .dRollExpr e => Der (.add .dice) s e ∧ HasRandom e
  | .dRollComp l op e => ∃ a b, s = a ++ b ∧ (Der (.add .dice) a l ∧ HasRandom l) ∧ CompareText b op e

/-- **C32.** A roll command is accepted exactly when it spans the whole text. -/
theorem C32_roll_whole (s : Str) (node : Node) (hn : node.isRollCommand = true) :
    parse s = some node ↔ RollCommandText s node := by
  rw [parse_iff]
  constructor
  · intro h
    cases h with
    | choice => simp [Node.isRollCommand] at hn
    | «calc» => simp [Node.isRollCommand] at hn
    | bRollList h => exact h
    | bRollComp h1 h2 => exact ⟨_, _, rfl, h1, h2⟩
    | rRollList h => exact h
    | rRollComp h1 h2 => exact ⟨_, _, rfl, h1, h2⟩
    | uRollExpr h => exact h
    | uRollComp h1 h2 => exact ⟨_, _, rfl, h1, h2⟩
    | dRollExpr h1 h2 => exact ⟨h1, (hasRandom_iff _).mpr h2⟩
    | dRollComp h1 h2 h3 => exact ⟨_, _, rfl, ⟨h1, (hasRandom_iff _).mpr h2⟩, h3⟩
  · intro h
    cases node with
    | choice => exact h.elim
    | «calc» => exact h.elim
    | bRollList => exact .bRollList h
    | bRollComp => obtain ⟨a, b, rfl, h1, h2⟩ := h; exact .bRollComp h1 h2
    | rRollList => exact .rRollList h
    | rRollComp => obtain ⟨a, b, rfl, h1, h2⟩ := h; exact .rRollComp h1 h2
    | uRollExpr => exact .uRollExpr h
    | uRollComp => obtain ⟨a, b, rfl, h1, h2⟩ := h; exact .uRollComp h1 h2
    | dRollExpr => exact .dRollExpr h.1 ((hasRandom_iff _).mp h.2)
    | dRollComp => obtain ⟨a, b, rfl, h1, h2⟩ := h; exact .dRollComp h1.1 ((hasRandom_iff _).mp h1.2) h2

/-- **C32.** Whatever follows the closing bracket of a Choice or Calc is ignored. -/
theorem C32_prefix (s rest : Str) (node : Node) (hn : node.isRollCommand = false)
    (h : parse s = some node) : parse (s ++ rest) = some node := by
  rw [parse_iff] at h ⊢
  cases h with
  | choice h1 h2 h3 => rw [List.append_assoc]; exact .choice h1 h2 h3
  | «calc» h1 h2 => rw [List.append_assoc]; exact .calc h1 h2
  | _ => simp [Node.isRollCommand] at hn

/-- The characters of roll commands. -/
def rollChars : Str := chars!"0123456789()[].+-*/<>=BDRUbdru"

theorem digit_rollChars {c : Char} (h : isDigit c = true) : c ∈ rollChars := by
  have : ∀ n, 48 ≤ n → n ≤ 57 → Char.ofNat n ∈ rollChars := by
    intro n h1 h2
    have : n = 48 ∨ n = 49 ∨ n = 50 ∨ n = 51 ∨ n = 52 ∨ n = 53 ∨ n = 54 ∨ n = 55 ∨ n = 56 ∨ n = 57 := by
      omega
    rcases this with rfl | rfl | rfl | rfl | rfl | rfl | rfl | rfl | rfl | rfl <;> decide
  simp only [isDigit, Bool.and_eq_true, decide_eq_true_eq, char_le_iff] at h
  have h2 := this c.toNat h.1 h.2
  rwa [Char.ofNat_toNat] at h2

/-- Every character of the text is a roll character. -/
def AllRoll (s : Str) : Prop := ∀ c ∈ s, c ∈ rollChars

theorem AllRoll.append {s t : Str} (hs : AllRoll s) (ht : AllRoll t) : AllRoll (s ++ t) := by
  intro c hc
  rcases List.mem_append.mp hc with h | h
  · exact hs c h
  · exact ht c h

theorem AllRoll.one {c : Char} (h : c ∈ rollChars) : AllRoll [c] := by
  intro d hd
  simp only [List.mem_singleton] at hd
  subst hd; exact h

theorem Der.chars {nt : NT} {s : Str} {e : Expr} (h : Der nt s e) : AllRoll s := by
  induction h with
  | number _ hd => exact fun c hc => digit_rollChars (hd c hc)
  | randOperandNum _ ih => exact ih
  | randOperandParen _ ih => exact ((AllRoll.one (by decide)).append ih).append (.one (by decide))
  | randNum _ _ ih1 ih2 =>
    exact ((((AllRoll.one (by decide)).append ih1).append (by unfold AllRoll; decide)).append ih2).append
      (.one (by decide))
  | rollOperandNum _ ih => exact ih
  | rollOperandRand _ ih => exact ih
  | rollOperandParen _ ih => exact ((AllRoll.one (by decide)).append ih).append (.one (by decide))
  | dRoll hd _ _ ih1 ih2 =>
    refine (ih1.append (.one ?_)).append ih2
    rcases hd with rfl | rfl <;> decide
  | primNum _ ih => exact ih
  | primRand _ _ ih => exact ih
  | primDice _ ih => exact ih
  | plus _ ih => exact (AllRoll.one (by decide)).append ih
  | minus _ ih => exact (AllRoll.one (by decide)).append ih
  | paren _ ih => exact ((AllRoll.one (by decide)).append ih).append (.one (by decide))
  | mulPrim _ ih => exact ih
  | mulMul _ _ ih1 ih2 => exact (ih1.append (.one (by decide))).append ih2
  | mulDiv _ _ ih1 ih2 => exact (ih1.append (.one (by decide))).append ih2
  | mulDivUp hu _ _ ih1 ih2 =>
    refine ((ih1.append (.one (by decide))).append ih2).append (.one ?_)
    rcases hu with rfl | rfl <;> decide
  | mulDivRound hu _ _ ih1 ih2 =>
    refine ((ih1.append (.one (by decide))).append ih2).append (.one ?_)
    rcases hu with rfl | rfl <;> decide
  | addMul _ ih => exact ih
  | addAdd _ _ ih1 ih2 => exact (ih1.append (.one (by decide))).append ih2
  | addSub _ _ ih1 ih2 => exact (ih1.append (.one (by decide))).append ih2

theorem RollsText.chars {up lo : Char} (hL : RollLetter up lo) {s : Str} {rs : List Roll}
    (h : RollsText (up, lo) s rs) : AllRoll s := by
  have one : ∀ {s : Str} {r : Roll}, RollText (up, lo) s r → AllRoll s := by
    rintro s r ⟨a, b, l, rfl, hl, ha, hb⟩
    refine (ha.chars.append (.one ?_)).append hb.chars
    simp only at hl
    cases hL <;> rcases hl with rfl | rfl <;> decide
  induction h with
  | one h => exact one h
  | cons h _ ih => exact ((one h).append (.one (by decide))).append ih

theorem RRollsText.chars {up lo : Char} (hL : RollLetter up lo) {s : Str} {rl : RRollList}
    (h : RRollsText (up, lo) s rl) : AllRoll s := by
  obtain ⟨rolls, th⟩ := rl
  obtain ⟨a, b, rfl, ha, hb⟩ := h
  refine (RollsText.chars hL ha).append ?_
  cases hb with
  | absent => exact fun c hc => absurd hc (List.not_mem_nil)
  | given h => exact ((AllRoll.one (by decide)).append h.chars).append (.one (by decide))

theorem URollText.chars {s : Str} {u : URollExpr} (h : URollText s u) : AllRoll s := by
  obtain ⟨list, bon⟩ := u
  obtain ⟨a, b, rfl, ha, hb⟩ := h
  refine (RRollsText.chars .u ha).append ?_
  cases hb with
  | absent => exact fun c hc => absurd hc (List.not_mem_nil)
  | plus h => exact (AllRoll.one (by decide)).append h.chars
  | minus h => exact (AllRoll.one (by decide)).append h.chars

theorem CompareText.chars {s : Str} {op : CmpOp} {e : Expr} (h : CompareText s op e) : AllRoll s := by
  cases h with
  | mk h =>
    refine AllRoll.append ?_ h.chars
    cases op <;> (unfold AllRoll; decide)

/-- **C32.** In particular a roll command consists of digits, signs, brackets and the letters BDRU
only: with a comment, or any white space, before, inside or after it, it is not accepted. -/
theorem C32_roll_chars (s : Str) (node : Node) (hn : node.isRollCommand = true)
    (h : parse s = some node) : ∀ c ∈ s, c ∈ rollChars := by
  cases (parse_iff s node).mp h with
  | choice => simp [Node.isRollCommand] at hn
  | «calc» => simp [Node.isRollCommand] at hn
  | bRollList h1 => exact RollsText.chars .b h1
  | bRollComp h1 h2 => exact (RollsText.chars .b h1).append h2.chars
  | rRollList h1 => exact RRollsText.chars .r h1
  | rRollComp h1 h2 => exact (RRollsText.chars .r h1).append h2.chars
  | uRollExpr h1 => exact h1.chars
  | uRollComp h1 h2 => exact h1.chars.append h2.chars
  | dRollExpr h1 h2 => exact h1.chars
  | dRollComp h1 h2 h3 => exact h1.chars.append h3.chars

-- non-vacuity
example : parse chars!"2d6" ≠ none ∧ parse chars!"2d6 x" = none ∧ parse chars!"2d6)" = none ∧
    parse chars!"c(1)2d6" = some (.calc (.int 1)) ∧
    parse chars!"choice[a,b]!" = some (.choice [chars!"a", chars!"b"]) := by decide

/-! ### C29: letters are case-insensitive -/

/-- ASCII lower case. -/
def lowerAscii (c : Char) : Char := if 'A' ≤ c ∧ c ≤ 'Z' then Char.ofNat (c.toNat + 32) else c

/-- Two texts that differ only in the case of ASCII letters. -/
def SameCase (s t : Str) : Prop := s.map lowerAscii = t.map lowerAscii

instance (s t : Str) : Decidable (SameCase s t) := inferInstanceAs (Decidable (_ = _))

/-- A character that is not a letter. -/
def notLetter (c : Char) : Prop := ¬ ('A' ≤ c ∧ c ≤ 'Z') ∧ ¬ ('a' ≤ c ∧ c ≤ 'z')

instance (c : Char) : Decidable (notLetter c) := inferInstanceAs (Decidable (_ ∧ _))

theorem toNat_ofNat_small {n : Nat} (h : n < 128) : (Char.ofNat n).toNat = n := by
  have : ∀ n, n < 128 → (Char.ofNat n).toNat = n := by decide
  exact this n h

theorem lowerAscii_upper {c : Char} (h : 'A' ≤ c ∧ c ≤ 'Z') :
    'a' ≤ lowerAscii c ∧ lowerAscii c ≤ 'z' ∧ (lowerAscii c).toNat = c.toNat + 32 := by
  have h' := h
  simp only [char_le_iff] at h'
  have e1 : 'A'.toNat = 65 := rfl
  have e2 : 'Z'.toNat = 90 := rfl
  have e3 : (Char.ofNat (c.toNat + 32)).toNat = c.toNat + 32 :=
    toNat_ofNat_small (by omega)
  unfold lowerAscii
  rw [if_pos h]
  simp only [char_le_iff]
  rw [e3]
  have e4 : 'a'.toNat = 97 := rfl
  have e5 : 'z'.toNat = 122 := rfl
  omega

theorem lowerAscii_eq_notLetter {x c : Char} (hc : notLetter c) (h : lowerAscii x = lowerAscii c) :
    x = c := by
  have e : lowerAscii c = c := if_neg hc.1
  rw [e] at h
  by_cases hx : 'A' ≤ x ∧ x ≤ 'Z'
  · have := lowerAscii_upper hx
    rw [h] at this
    exact absurd ⟨this.1, this.2.1⟩ hc.2
  · rw [← h]; exact (if_neg hx).symm

theorem SameCase.append {a b t : Str} (h : SameCase (a ++ b) t) :
    ∃ a' b', t = a' ++ b' ∧ SameCase a a' ∧ SameCase b b' := by
  unfold SameCase at h
  rw [List.map_append] at h
  obtain ⟨a', b', rfl, h1, h2⟩ := List.map_eq_append_iff.mp h.symm
  exact ⟨a', b', rfl, h1.symm, h2.symm⟩

theorem SameCase.one {c : Char} {t : Str} (h : SameCase [c] t) :
    ∃ x, t = [x] ∧ lowerAscii x = lowerAscii c := by
  unfold SameCase at h
  cases t with
  | nil => simp at h
  | cons x t =>
    cases t with
    | nil => simp at h; exact ⟨x, rfl, h.symm⟩
    | cons y t => simp at h

theorem SameCase.fixed {w t : Str} (hw : ∀ c ∈ w, notLetter c) (h : SameCase w t) : t = w := by
  induction w generalizing t with
  | nil => unfold SameCase at h; cases t with
    | nil => rfl
    | cons => simp at h
  | cons c w ih =>
    unfold SameCase at h
    cases t with
    | nil => simp at h
    | cons x t =>
      simp only [List.map_cons, List.cons.injEq] at h
      rw [lowerAscii_eq_notLetter (hw c (by simp)) h.1.symm,
        ih (fun d hd => hw d (by simp [hd])) h.2]

theorem SameCase.symm {s t : Str} (h : SameCase s t) : SameCase t s := Eq.symm h

theorem isDigit_notLetter {c : Char} (h : isDigit c = true) : notLetter c := by
  simp only [isDigit, Bool.and_eq_true, decide_eq_true_eq, char_le_iff] at h
  simp only [notLetter, char_le_iff]
  have e1 : 'A'.toNat = 65 := rfl
  have e2 : 'a'.toNat = 97 := rfl
  have e3 : '9'.toNat = 57 := rfl
  omega

theorem letter_either {up lo x l : Char} (hup : lowerAscii up = lo) (hlo : lowerAscii lo = lo)
    (h1 : 'A' ≤ up ∧ up ≤ 'Z') (h2 : up.toNat + 32 = lo.toNat)
    (hl : l = up ∨ l = lo) (h : lowerAscii x = lowerAscii l) : x = up ∨ x = lo := by
  have h' : lowerAscii x = lo := by
    rcases hl with rfl | rfl
    · rw [h, hup]
    · rw [h, hlo]
  by_cases hx : 'A' ≤ x ∧ x ≤ 'Z'
  · left
    have := (lowerAscii_upper hx).2.2
    rw [h'] at this
    exact (char_eq_iff _ _).mpr (by omega)
  · right
    rw [← h']; exact (if_neg hx).symm

theorem letter_D {x l : Char} (hl : l = 'D' ∨ l = 'd') (h : lowerAscii x = lowerAscii l) :
    x = 'D' ∨ x = 'd' :=
  letter_either (by decide) (by decide) (by decide) (by decide) hl h

theorem letter_U {x l : Char} (hl : l = 'U' ∨ l = 'u') (h : lowerAscii x = lowerAscii l) :
    x = 'U' ∨ x = 'u' :=
  letter_either (by decide) (by decide) (by decide) (by decide) hl h

theorem letter_R {x l : Char} (hl : l = 'R' ∨ l = 'r') (h : lowerAscii x = lowerAscii l) :
    x = 'R' ∨ x = 'r' :=
  letter_either (by decide) (by decide) (by decide) (by decide) hl h

theorem letter_B {x l : Char} (hl : l = 'B' ∨ l = 'b') (h : lowerAscii x = lowerAscii l) :
    x = 'B' ∨ x = 'b' :=
  letter_either (by decide) (by decide) (by decide) (by decide) hl h

theorem letter_C {x l : Char} (hl : l = 'C' ∨ l = 'c') (h : lowerAscii x = lowerAscii l) :
    x = 'C' ∨ x = 'c' :=
  letter_either (by decide) (by decide) (by decide) (by decide) hl h

theorem Der.sameCase {nt : NT} {s : Str} {e : Expr} (h : Der nt s e) :
    ∀ {t : Str}, SameCase s t → Der nt t e := by
  induction h with
  | number h0 hd =>
    intro t ht
    rw [SameCase.fixed (fun c hc => isDigit_notLetter (hd c hc)) ht]
    exact .number h0 hd
  | randOperandNum _ ih => intro t ht; exact .randOperandNum (ih ht)
  | randOperandParen _ ih =>
    intro t ht
    obtain ⟨t1, t2, rfl, h1, h2⟩ := ht.append
    obtain ⟨t3, t4, rfl, h3, h4⟩ := h1.append
    rw [h2.fixed (by decide), h3.fixed (by decide)]
    exact .randOperandParen (ih h4)
  | randNum _ _ ih1 ih2 =>
    intro t ht
    obtain ⟨t1, t2, rfl, h1, h2⟩ := ht.append
    obtain ⟨t3, t4, rfl, h3, h4⟩ := h1.append
    obtain ⟨t5, t6, rfl, h5, h6⟩ := h3.append
    obtain ⟨t7, t8, rfl, h7, h8⟩ := h5.append
    rw [h2.fixed (by decide), h6.fixed (by decide), h7.fixed (by decide)]
    exact .randNum (ih1 h8) (ih2 h4)
  | rollOperandNum _ ih => intro t ht; exact .rollOperandNum (ih ht)
  | rollOperandRand _ ih => intro t ht; exact .rollOperandRand (ih ht)
  | rollOperandParen _ ih =>
    intro t ht
    obtain ⟨t1, t2, rfl, h1, h2⟩ := ht.append
    obtain ⟨t3, t4, rfl, h3, h4⟩ := h1.append
    rw [h2.fixed (by decide), h3.fixed (by decide)]
    exact .rollOperandParen (ih h4)
  | dRoll hd _ _ ih1 ih2 =>
    intro t ht
    obtain ⟨t1, t2, rfl, h1, h2⟩ := ht.append
    obtain ⟨t3, t4, rfl, h3, h4⟩ := h1.append
    obtain ⟨x, rfl, hx⟩ := h4.one
    exact .dRoll (letter_D hd hx) (ih1 h3) (ih2 h2)
  | primNum _ ih => intro t ht; exact .primNum (ih ht)
  | primRand hk _ ih => intro t ht; exact .primRand hk (ih ht)
  | primDice _ ih => intro t ht; exact .primDice (ih ht)
  | plus _ ih =>
    intro t ht
    obtain ⟨t1, t2, rfl, h1, h2⟩ := ht.append
    rw [h1.fixed (by decide)]
    exact .plus (ih h2)
  | minus _ ih =>
    intro t ht
    obtain ⟨t1, t2, rfl, h1, h2⟩ := ht.append
    rw [h1.fixed (by decide)]
    exact .minus (ih h2)
  | paren _ ih =>
    intro t ht
    obtain ⟨t1, t2, rfl, h1, h2⟩ := ht.append
    obtain ⟨t3, t4, rfl, h3, h4⟩ := h1.append
    rw [h2.fixed (by decide), h3.fixed (by decide)]
    exact .paren (ih h4)
  | mulPrim _ ih => intro t ht; exact .mulPrim (ih ht)
  | mulMul _ _ ih1 ih2 =>
    intro t ht
    obtain ⟨t1, t2, rfl, h1, h2⟩ := ht.append
    obtain ⟨t3, t4, rfl, h3, h4⟩ := h1.append
    rw [h4.fixed (by decide)]
    exact .mulMul (ih1 h3) (ih2 h2)
  | mulDiv _ _ ih1 ih2 =>
    intro t ht
    obtain ⟨t1, t2, rfl, h1, h2⟩ := ht.append
    obtain ⟨t3, t4, rfl, h3, h4⟩ := h1.append
    rw [h4.fixed (by decide)]
    exact .mulDiv (ih1 h3) (ih2 h2)
  | mulDivUp hu _ _ ih1 ih2 =>
    intro t ht
    obtain ⟨t1, t2, rfl, h1, h2⟩ := ht.append
    obtain ⟨t3, t4, rfl, h3, h4⟩ := h1.append
    obtain ⟨t5, t6, rfl, h5, h6⟩ := h3.append
    obtain ⟨x, rfl, hx⟩ := h2.one
    rw [h6.fixed (by decide)]
    exact .mulDivUp (letter_U hu hx) (ih1 h5) (ih2 h4)
  | mulDivRound hu _ _ ih1 ih2 =>
    intro t ht
    obtain ⟨t1, t2, rfl, h1, h2⟩ := ht.append
    obtain ⟨t3, t4, rfl, h3, h4⟩ := h1.append
    obtain ⟨t5, t6, rfl, h5, h6⟩ := h3.append
    obtain ⟨x, rfl, hx⟩ := h2.one
    rw [h6.fixed (by decide)]
    exact .mulDivRound (letter_R hu hx) (ih1 h5) (ih2 h4)
  | addMul _ ih => intro t ht; exact .addMul (ih ht)
  | addAdd _ _ ih1 ih2 =>
    intro t ht
    obtain ⟨t1, t2, rfl, h1, h2⟩ := ht.append
    obtain ⟨t3, t4, rfl, h3, h4⟩ := h1.append
    rw [h4.fixed (by decide)]
    exact .addAdd (ih1 h3) (ih2 h2)
  | addSub _ _ ih1 ih2 =>
    intro t ht
    obtain ⟨t1, t2, rfl, h1, h2⟩ := ht.append
    obtain ⟨t3, t4, rfl, h3, h4⟩ := h1.append
    rw [h4.fixed (by decide)]
    exact .addSub (ih1 h3) (ih2 h2)

theorem RollsText.sameCase {up lo : Char} (hL : RollLetter up lo) {s t : Str} {rs : List Roll}
    (h : RollsText (up, lo) s rs) (ht : SameCase s t) : RollsText (up, lo) t rs := by
  have one : ∀ {s t : Str} {r : Roll}, RollText (up, lo) s r → SameCase s t → RollText (up, lo) t r := by
    rintro s t r ⟨a, b, l, rfl, hl, ha, hb⟩ ht
    obtain ⟨t1, t2, rfl, h1, h2⟩ := ht.append
    obtain ⟨t3, t4, rfl, h3, h4⟩ := h1.append
    obtain ⟨x, rfl, hx⟩ := h4.one
    refine ⟨_, _, x, rfl, ?_, ha.sameCase h3, hb.sameCase h2⟩
    cases hL
    · exact letter_B hl hx
    · exact letter_R hl hx
    · exact letter_U hl hx
  induction h generalizing t with
  | one h => exact .one (one h ht)
  | cons h _ ih =>
    obtain ⟨t1, t2, rfl, h1, h2⟩ := ht.append
    obtain ⟨t3, t4, rfl, h3, h4⟩ := h1.append
    rw [h4.fixed (by decide)]
    exact .cons (one h h3) (ih h2)

theorem SameCase.nil {t : Str} (h : SameCase [] t) : t = [] := SameCase.fixed (by simp) h

theorem RRollsText.sameCase {up lo : Char} (hL : RollLetter up lo) {s t : Str} {rl : RRollList}
    (h : RRollsText (up, lo) s rl) (ht : SameCase s t) : RRollsText (up, lo) t rl := by
  obtain ⟨rolls, th⟩ := rl
  obtain ⟨a, b, rfl, ha, hb⟩ := h
  obtain ⟨t1, t2, rfl, h1, h2⟩ := ht.append
  refine ⟨t1, t2, rfl, RollsText.sameCase hL ha h1, ?_⟩
  simp only at hb ⊢
  cases hb with
  | absent => rw [h2.nil]; exact .absent
  | given h =>
    obtain ⟨t3, t4, rfl, h3, h4⟩ := h2.append
    obtain ⟨t5, t6, rfl, h5, h6⟩ := h3.append
    rw [h4.fixed (by decide), h5.fixed (by decide)]
    exact .given (h.sameCase h6)

theorem URollText.sameCase {s t : Str} {u : URollExpr} (h : URollText s u) (ht : SameCase s t) :
    URollText t u := by
  obtain ⟨list, bon⟩ := u
  obtain ⟨a, b, rfl, ha, hb⟩ := h
  obtain ⟨t1, t2, rfl, h1, h2⟩ := ht.append
  refine ⟨t1, t2, rfl, RRollsText.sameCase .u ha h1, ?_⟩
  simp only at hb ⊢
  cases hb with
  | absent => rw [h2.nil]; exact .absent
  | plus h =>
    obtain ⟨t3, t4, rfl, h3, h4⟩ := h2.append
    rw [h3.fixed (by decide)]
    exact .plus (h.sameCase h4)
  | minus h =>
    obtain ⟨t3, t4, rfl, h3, h4⟩ := h2.append
    rw [h3.fixed (by decide)]
    exact .minus (h.sameCase h4)

theorem CompareText.sameCase {s t : Str} {op : CmpOp} {e : Expr} (h : CompareText s op e)
    (ht : SameCase s t) : CompareText t op e := by
  cases h with
  | mk h =>
    obtain ⟨t1, t2, rfl, h1, h2⟩ := ht.append
    rw [h1.fixed (by cases op <;> decide)]
    exact .mk (h.sameCase h2)

/-- Is a Choice command. -/
def Node.isChoice : Node → Bool
  | .choice _ => true
  | _ => false

theorem CommandText.sameCase {s t : Str} {node : Node} (h : CommandText s node) (ht : SameCase s t)
    (hn : node.isChoice = false) : CommandText t node := by
  cases h with
  | choice => simp [Node.isChoice] at hn
  | «calc» hc h =>
    obtain ⟨t1, t2, rfl, h1, h2⟩ := ht.append
    obtain ⟨t3, t4, rfl, h3, h4⟩ := h1.append
    obtain ⟨t5, t6, rfl, h5, h6⟩ := h3.append
    obtain ⟨t7, t8, rfl, h7, h8⟩ := h5.append
    obtain ⟨x, rfl, hx⟩ := h7.one
    rw [h4.fixed (by decide), h8.fixed (by decide)]
    exact .calc (letter_C hc hx) (h.sameCase h6)
  | bRollList h => exact .bRollList (RollsText.sameCase .b h ht)
  | bRollComp h1 h2 =>
    obtain ⟨t1, t2, rfl, g1, g2⟩ := ht.append
    exact .bRollComp (RollsText.sameCase .b h1 g1) (h2.sameCase g2)
  | rRollList h => exact .rRollList (RRollsText.sameCase .r h ht)
  | rRollComp h1 h2 =>
    obtain ⟨t1, t2, rfl, g1, g2⟩ := ht.append
    exact .rRollComp (RRollsText.sameCase .r h1 g1) (h2.sameCase g2)
  | uRollExpr h => exact .uRollExpr (URollText.sameCase h ht)
  | uRollComp h1 h2 =>
    obtain ⟨t1, t2, rfl, g1, g2⟩ := ht.append
    exact .uRollComp (URollText.sameCase h1 g1) (h2.sameCase g2)
  | dRollExpr h1 h2 => exact .dRollExpr (h1.sameCase ht) h2
  | dRollComp h1 h2 h3 =>
    obtain ⟨t1, t2, rfl, g1, g2⟩ := ht.append
    exact .dRollComp (h1.sameCase g1) h2 (h3.sameCase g2)

/-- **C29.** Changing the case of letters changes nothing for commands other than Choice. -/
theorem C29_case_insensitive (s t : Str) (h : SameCase s t) (node : Node)
    (hn : node.isChoice = false) : parse s = some node ↔ parse t = some node := by
  rw [parse_iff, parse_iff]
  exact ⟨fun hs => hs.sameCase h hn, fun ht => ht.sameCase h.symm hn⟩

/-- **C29.** Choice: the case of the keyword does not matter, the items are kept as written. -/
theorem C29_choice_keyword (kw kw' rest : Str) (items : List Str)
    (h1 : SameCase kw chars!"choice") (h2 : SameCase kw' chars!"choice") :
    parse (kw ++ rest) = some (.choice items) ↔ parse (kw' ++ rest) = some (.choice items) := by
  have key : ∀ {w kw kw' : Str}, (∀ c ∈ w, 'a' ≤ c ∧ c ≤ 'z') → SameCase kw w → SameCase kw' w →
      ∀ {kw0 r : Str}, SameWord w kw0 → (∃ r', kw ++ rest = kw0 ++ r' ∧ r = r') →
        kw0 = kw ∧ SameWord w kw' := by
    intro w
    induction w with
    | nil =>
      intro kw kw' _ h1 h2 kw0 r h3 _
      rw [h1.symm.nil, h2.symm.nil]
      cases kw0 with
      | nil => exact ⟨rfl, trivial⟩
      | cons => exact h3.elim
    | cons c w ih =>
      intro kw kw' hw h1 h2 kw0 r h3 h4
      obtain ⟨r', h4, rfl⟩ := h4
      cases kw with
      | nil => unfold SameCase at h1; simp at h1
      | cons x kw =>
        cases kw' with
        | nil => unfold SameCase at h2; simp at h2
        | cons y kw' =>
          cases kw0 with
          | nil => exact h3.elim
          | cons z kw0 =>
            simp only [SameCase, List.map_cons, List.cons.injEq] at h1 h2
            simp only [List.cons_append, List.cons.injEq] at h4
            obtain ⟨g1, g2⟩ := ih (fun d hd => hw d (by simp [hd])) h1.2 h2.2 h3.2 ⟨r, h4.2, rfl⟩
            refine ⟨by rw [g1, h4.1], ?_, g2⟩
            have hc := hw c (by simp)
            have ec : lowerAscii c = c := by
              unfold lowerAscii
              rw [if_neg]
              simp only [char_le_iff] at hc ⊢
              have e1 : 'a'.toNat = 97 := rfl
              have e2 : 'Z'.toNat = 90 := rfl
              omega
            rw [ec] at h2
            by_cases hy : 'A' ≤ y ∧ y ≤ 'Z'
            · right; left
              have := (lowerAscii_upper hy).2.2
              rw [h2.1] at this
              exact ⟨this.symm, hy⟩
            · left
              rw [← h2.1]; exact (if_neg hy).symm
  have dir : ∀ {kw kw' : Str}, SameCase kw chars!"choice" → SameCase kw' chars!"choice" →
      CommandText (kw ++ rest) (.choice items) → CommandText (kw' ++ rest) (.choice items) := by
    intro kw kw' h1 h2 h
    generalize hs : kw ++ rest = s at h
    cases h with
    | @choice kw0 body seps rest0 _ hkw hit hse =>
      obtain ⟨rfl, g2⟩ := key (by decide) h1 h2 hkw
        ⟨chars!"[" ++ body ++ seps ++ chars!"]" ++ rest0, by rw [hs]; simp, rfl⟩
      have : rest = chars!"[" ++ body ++ seps ++ chars!"]" ++ rest0 :=
        List.append_cancel_left (by rw [hs]; simp)
      rw [this]
      have := CommandText.choice (rest := rest0) g2 hit hse
      simpa using this
  rw [parse_iff, parse_iff]
  exact ⟨dir h1 h2, dir h2 h1⟩

-- non-vacuity
example : SameCase chars!"(4+[1...3])u6[6]>=7" chars!"(4+[1...3])U6[6]>=7" ∧
    parse chars!"(4+[1...3])u6[6]>=7" ≠ none := by decide
example : parse chars!"cHoIcE[A,b]" = some (.choice [chars!"A", chars!"b"]) := by decide

end GoBCDice
