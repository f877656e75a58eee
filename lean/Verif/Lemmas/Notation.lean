import Verif.Spec.Grammar
import Verif.Spec.Display
import Verif.Notation
import Verif.Lemmas.Str

/-!
# The displayed notation parses again

`norm e` is the tree the displayed text of `e` denotes: `a+(b+c)` is displayed as `a+b+c`.
-/

namespace GoBCDice

namespace Expr

/-- A sum or difference. -/
def isSum : Expr → Bool
  | .bin .add _ _ => true
  | .bin .sub _ _ => true
  | _ => false

/-- A product or quotient. -/
def isProd : Expr → Bool
  | .bin .mul _ _ => true
  | .div _ _ _ => true
  | _ => false

/-- `a + r` with the terms of `r` added one by one. -/
def addTo (a : Expr) : Expr → Expr
  | .bin .add l r => .bin .add (addTo a l) r
  | .bin .sub l r => .bin .sub (addTo a l) r
  | e => .bin .add a e

/-- `a * r` with the factors of `r` applied one by one. -/
def mulTo (a : Expr) : Expr → Expr
  | .bin .mul l r => .bin .mul (mulTo a l) r
  | .div m l r => .div m (mulTo a l) r
  | e => .bin .mul a e

/-- The tree denoted by the displayed text. -/
def norm : Expr → Expr
  | .neg r => .neg r.norm
  | .bin .add l r => addTo l.norm r.norm
  | .bin .sub l r => .bin .sub l.norm r.norm
  | .bin .mul l r => mulTo l.norm r.norm
  | .div m l r => .div m l.norm r.norm
  | .var k l r => .var k l.norm r.norm
  | e => e

/-- The trees the parser can build for arithmetic of kind `k`. -/
def Shape : Kind → Expr → Prop
  | _, .int v => 0 ≤ v
  | _, .sumRoll _ => False
  | k, .neg r => r.Shape k
  | k, .bin _ l r => l.Shape k ∧ r.Shape k
  | k, .div _ l r => l.Shape k ∧ r.Shape k
  | k, .var .d l r => k = .dice ∧ l.Shape .rand ∧ r.Shape .rand
  | k, .var .rand l r => k ≠ .int ∧ l.Shape .int ∧ r.Shape .int

end Expr

open Expr

theorem addTo_isSum (a b : Expr) : (addTo a b).isSum = true := by
  unfold addTo; split <;> rfl

theorem mulTo_isProd (a b : Expr) : (mulTo a b).isProd = true := by
  unfold mulTo; split <;> rfl

theorem isSum_not_isProd {e : Expr} (h : e.isSum = true) : e.isProd = false := by
  match e, h with
  | .bin .add _ _, _ => rfl
  | .bin .sub _ _, _ => rfl

theorem isProd_not_isSum {e : Expr} (h : e.isProd = true) : e.isSum = false := by
  match e, h with
  | .bin .mul _ _, _ => rfl
  | .div _ _ _, _ => rfl

theorem norm_isSum (e : Expr) : e.norm.isSum = e.isSum := by
  match e with
  | .int _ => rfl
  | .sumRoll _ => rfl
  | .neg _ => rfl
  | .bin .add _ _ => exact addTo_isSum _ _
  | .bin .sub _ _ => rfl
  | .bin .mul _ _ => exact isProd_not_isSum (mulTo_isProd _ _)
  | .div _ _ _ => rfl
  | .var _ _ _ => rfl

theorem norm_isProd (e : Expr) : e.norm.isProd = e.isProd := by
  match e with
  | .int _ => rfl
  | .sumRoll _ => rfl
  | .neg _ => rfl
  | .bin .add _ _ => exact isSum_not_isProd (addTo_isSum _ _)
  | .bin .sub _ _ => rfl
  | .bin .mul _ _ => exact mulTo_isProd _ _
  | .div _ _ _ => rfl
  | .var _ _ _ => rfl

theorem addTo_isPrefix (a b : Expr) : (addTo a b).isPrefix = false := by
  unfold addTo; split <;> rfl

theorem mulTo_isPrefix (a b : Expr) : (mulTo a b).isPrefix = false := by
  unfold mulTo; split <;> rfl

theorem addTo_isPrimary (a b : Expr) : (addTo a b).isPrimary = false := by
  unfold addTo; split <;> rfl

theorem mulTo_isPrimary (a b : Expr) : (mulTo a b).isPrimary = false := by
  unfold mulTo; split <;> rfl

theorem norm_isPrefix (e : Expr) : e.norm.isPrefix = e.isPrefix := by
  match e with
  | .int _ => rfl
  | .sumRoll _ => rfl
  | .neg _ => rfl
  | .bin .add l r => exact addTo_isPrefix _ _
  | .bin .sub _ _ => rfl
  | .bin .mul l r => exact mulTo_isPrefix _ _
  | .div _ _ _ => rfl
  | .var _ _ _ => rfl

theorem norm_isPrimary (e : Expr) : e.norm.isPrimary = e.isPrimary := by
  match e with
  | .int _ => rfl
  | .sumRoll _ => rfl
  | .neg _ => rfl
  | .bin .add l r => exact addTo_isPrimary _ _
  | .bin .sub _ _ => rfl
  | .bin .mul l r => exact mulTo_isPrimary _ _
  | .div _ _ _ => rfl
  | .var _ _ _ => rfl

/-! ## Parentheses -/

theorem needsParen_add_true (e : Expr) : e.needsParen .additive true = false := by
  match e with
  | .int _ => rfl
  | .sumRoll _ => rfl
  | .neg _ => rfl
  | .bin .add _ _ => rfl
  | .bin .sub _ _ => rfl
  | .bin .mul _ _ => rfl
  | .div _ _ _ => rfl
  | .var .d _ _ => rfl
  | .var .rand _ _ => rfl

theorem needsParen_add_false (e : Expr) : e.needsParen .additive false = e.isSum := by
  match e with
  | .int _ => rfl
  | .sumRoll _ => rfl
  | .neg _ => rfl
  | .bin .add _ _ => rfl
  | .bin .sub _ _ => rfl
  | .bin .mul _ _ => rfl
  | .div _ _ _ => rfl
  | .var .d _ _ => rfl
  | .var .rand _ _ => rfl

theorem needsParen_mul_true (e : Expr) : e.needsParen .multitive true = e.isSum := by
  match e with
  | .int _ => rfl
  | .sumRoll _ => rfl
  | .neg _ => rfl
  | .bin .add _ _ => rfl
  | .bin .sub _ _ => rfl
  | .bin .mul _ _ => rfl
  | .div _ _ _ => rfl
  | .var .d _ _ => rfl
  | .var .rand _ _ => rfl

theorem needsParen_mul_false (e : Expr) : e.needsParen .multitive false = (e.isSum || e.isProd) := by
  match e with
  | .int _ => rfl
  | .sumRoll _ => rfl
  | .neg _ => rfl
  | .bin .add _ _ => rfl
  | .bin .sub _ _ => rfl
  | .bin .mul _ _ => rfl
  | .div _ _ _ => rfl
  | .var .d _ _ => rfl
  | .var .rand _ _ => rfl

/-! ## Sums and products with their terms exposed -/

/-- A sum whose left spine is written without parentheses. -/
inductive SumDer (k : Kind) : Str → Expr → Prop where
  | base {s : Str} {e : Expr} : Der (.mul k) s e → e.isSum = false → SumDer k s e
  | add {s t : Str} {l r : Expr} : SumDer k s l → Der (.mul k) t r →
      SumDer k (s ++ chars!"+" ++ t) (.bin .add l r)
  | sub {s t : Str} {l r : Expr} : SumDer k s l → Der (.mul k) t r →
      SumDer k (s ++ chars!"-" ++ t) (.bin .sub l r)

/-- A product whose left spine is written without parentheses. -/
inductive ProdDer (k : Kind) : Str → Expr → Prop where
  | base {s : Str} {e : Expr} : Der (.prim k) s e → e.isProd = false → ProdDer k s e
  | mul {s t : Str} {l r : Expr} : ProdDer k s l → Der (.prim k) t r →
      ProdDer k (s ++ chars!"*" ++ t) (.bin .mul l r)
  | div {m : Rounding} {s t : Str} {l r : Expr} : ProdDer k s l → Der (.prim k) t r →
      ProdDer k (s ++ chars!"/" ++ t ++ m.str) (.div m l r)

theorem SumDer.der {k : Kind} {s : Str} {e : Expr} (h : SumDer k s e) : Der (.add k) s e := by
  induction h with
  | base h _ => exact .addMul h
  | add _ h ih => exact .addAdd ih h
  | sub _ h ih => exact .addSub ih h

theorem ProdDer.der {k : Kind} {s : Str} {e : Expr} (h : ProdDer k s e) : Der (.mul k) s e := by
  induction h with
  | base h _ => exact .mulPrim h
  | mul _ h ih => exact .mulMul ih h
  | @div m s t l r _ h ih =>
    cases m with
    | up => exact .mulDivUp (.inl rfl) ih h
    | round => exact .mulDivRound (.inl rfl) ih h
    | down => simpa [Rounding.str] using Der.mulDiv ih h

theorem addTo_base (a b : Expr) (h : b.isSum = false) : addTo a b = .bin .add a b := by
  match b, h with
  | .int _, _ => rfl
  | .sumRoll _, _ => rfl
  | .neg _, _ => rfl
  | .bin .mul _ _, _ => rfl
  | .div _ _ _, _ => rfl
  | .var _ _ _, _ => rfl

theorem mulTo_base (a b : Expr) (h : b.isProd = false) : mulTo a b = .bin .mul a b := by
  match b, h with
  | .int _, _ => rfl
  | .sumRoll _, _ => rfl
  | .neg _, _ => rfl
  | .bin .add _ _, _ => rfl
  | .bin .sub _ _, _ => rfl
  | .var _ _ _, _ => rfl

theorem SumDer.addTo {k : Kind} {s t : Str} {a b : Expr} (ha : SumDer k s a) (hb : SumDer k t b) :
    SumDer k (s ++ chars!"+" ++ t) (addTo a b) := by
  induction hb with
  | base h hn => rw [addTo_base _ _ hn]; exact .add ha h
  | add _ h ih =>
    have := SumDer.add ih h
    simpa [Expr.addTo, List.append_assoc] using this
  | sub _ h ih =>
    have := SumDer.sub ih h
    simpa [Expr.addTo, List.append_assoc] using this

theorem ProdDer.mulTo {k : Kind} {s t : Str} {a b : Expr} (ha : ProdDer k s a) (hb : ProdDer k t b) :
    ProdDer k (s ++ chars!"*" ++ t) (mulTo a b) := by
  induction hb with
  | base h hn => rw [mulTo_base _ _ hn]; exact .mul ha h
  | mul _ h ih =>
    have := ProdDer.mul ih h
    simpa [Expr.mulTo, List.append_assoc] using this
  | @div m _ _ _ _ _ h ih =>
    have := ProdDer.div (m := m) ih h
    simpa [Expr.mulTo, List.append_assoc] using this

/-! ## The displayed text denotes `norm e` -/

theorem der_int {v : Int64} (h : 0 ≤ v) : Der .number (intStr v) (.int v) := by
  have e0 : (0 : Int64).toInt = 0 := by decide
  have h' := h
  rw [Int64.le_iff_toInt_le, e0] at h'
  have hs : intStr v = natStr v.toInt.natAbs := by unfold intStr; rw [if_neg (by omega)]
  have := Der.number (ds := intStr v) (by rw [hs]; exact natStr_ne_nil _) (by rw [hs]; exact natStr_isDigit _)
  rwa [atoiSat_intStr v h] at this

/-- What is proved of each tree by induction. -/
def Reparses (e : Expr) : Prop := ∀ (k : Kind) (wl : Bool), e.Shape k →
  SumDer k (infixNotation wl e) e.norm ∧
  (e.isSum = false → ProdDer k (infixNotation wl e) e.norm) ∧
  (e.isSum = false → e.isProd = false → Der (.prim k) (infixNotation wl e) e.norm)

theorem Reparses.ofPrim {e : Expr} (h1 : e.isSum = false) (h2 : e.isProd = false)
    (h : ∀ k wl, e.Shape k → Der (.prim k) (infixNotation wl e) e.norm) : Reparses e := by
  intro k wl hs
  have hp : ProdDer k (infixNotation wl e) e.norm := .base (h k wl hs) (by rw [norm_isProd]; exact h2)
  exact ⟨.base hp.der (by rw [norm_isSum]; exact h1), fun _ => hp, fun _ _ => h k wl hs⟩

theorem Reparses.ofProd {e : Expr} (h1 : e.isSum = false) (h2 : e.isProd = true)
    (h : ∀ k wl, e.Shape k → ProdDer k (infixNotation wl e) e.norm) : Reparses e := by
  intro k wl hs
  exact ⟨.base (h k wl hs).der (by rw [norm_isSum]; exact h1), fun _ => h k wl hs,
    fun _ hn => by rw [h2] at hn; simp at hn⟩

theorem Reparses.ofSum {e : Expr} (h1 : e.isSum = true)
    (h : ∀ k wl, e.Shape k → SumDer k (infixNotation wl e) e.norm) : Reparses e := by
  intro k wl hs
  exact ⟨h k wl hs, fun hn => (by rw [h1] at hn; simp at hn), fun hn => (by rw [h1] at hn; simp at hn)⟩

theorem Reparses.paren {e : Expr} (h : Reparses e) {k : Kind} (wl : Bool) (hs : e.Shape k) :
    Der (.prim k) (parenthesize (infixNotation wl e)) e.norm :=
  .paren (h k wl hs).1.der

theorem isPrefix_class {e : Expr} (h : e.isPrefix = true) : e.isSum = false ∧ e.isProd = false := by
  match e, h with
  | .neg _, _ => exact ⟨rfl, rfl⟩

/-- Left operand of `+ -`. -/
theorem Reparses.sumLeft {l : Expr} (h : Reparses l) {k : Kind} (wl : Bool) (hs : l.Shape k) :
    SumDer k (if l.isPrefix && wl then infixNotation wl l
     else if l.isPrefix then parenthesize (infixNotation wl l)
     else if l.needsParen .additive true then parenthesize (infixNotation true l)
     else infixNotation wl l) l.norm := by
  rw [needsParen_add_true]
  split
  · exact (h k wl hs).1
  · split
    · rename_i hp
      have := isPrefix_class hp
      exact .base (.mulPrim (h.paren wl hs)) (by rw [norm_isSum]; exact this.1)
    · exact (h k wl hs).1

/-- Left operand of `* /`. -/
theorem Reparses.prodLeft {l : Expr} (h : Reparses l) {k : Kind} (wl : Bool) (hs : l.Shape k) :
    ProdDer k (if l.isPrefix && wl then infixNotation wl l
     else if l.isPrefix then parenthesize (infixNotation wl l)
     else if l.needsParen .multitive true then parenthesize (infixNotation true l)
     else infixNotation wl l) l.norm := by
  rw [needsParen_mul_true]
  split
  · rename_i hp
    simp only [Bool.and_eq_true] at hp
    exact (h k wl hs).2.1 (isPrefix_class hp.1).1
  · split
    · rename_i hp
      exact .base (h.paren wl hs) (by rw [norm_isProd]; exact (isPrefix_class hp).2)
    · split
      · rename_i hp
        exact .base (h.paren true hs) (by rw [norm_isProd]; exact isSum_not_isProd hp)
      · rename_i hp
        exact (h k wl hs).2.1 (by simpa using hp)

/-- Operands of random numbers. -/
theorem Reparses.randOperand {e : Expr} (h : Reparses e) (wl : Bool) (hs : e.Shape .int) :
    Der .randOperand (if e.isPrefix then parenthesize (infixNotation wl e)
     else if e.needsParen .dots false then parenthesize (infixNotation true e)
     else infixNotation wl e) e.norm := by
  have paren : ∀ wl, Der .randOperand (parenthesize (infixNotation wl e)) e.norm := fun wl =>
    .randOperandParen (h .int wl hs).1.der
  match e, hs, paren with
  | .int v, hs, _ => exact .randOperandNum (der_int hs)
  | .neg _, _, paren => exact paren wl
  | .bin .add _ _, _, paren => exact paren true
  | .bin .sub _ _, _, paren => exact paren true
  | .bin .mul _ _, _, paren => exact paren true
  | .div _ _ _, _, paren => exact paren true
  | .var .rand _ _, hs, _ => exact absurd rfl hs.1
  | .var .d _ _, hs, _ => exact absurd hs.1 (by simp)

/-- Random numbers. -/
theorem Reparses.randNum {l r : Expr} (hl : Reparses l) (hr : Reparses r) (wl : Bool)
    (h1 : l.Shape .int) (h2 : r.Shape .int) :
    Der .randNum (infixNotation wl (.var .rand l r)) (Expr.var .rand l r).norm :=
  .randNum (hl.randOperand true h1) (hr.randOperand false h2)

/-- Roll operands. -/
theorem Reparses.rollOperand {e : Expr} (h : Reparses e)
    (hv : ∀ l r, e = .var .rand l r → Reparses l ∧ Reparses r) (wl : Bool) (hs : e.Shape .rand) :
    Der .rollOperand (rollOperandNotation wl e) e.norm := by
  have paren : ∀ wl, Der .rollOperand (parenthesize (infixNotation wl e)) e.norm := fun wl =>
    .rollOperandParen (h .rand wl hs).1.der
  match e, hs, paren, hv with
  | .int v, hs, _, _ => exact .rollOperandNum (der_int hs)
  | .neg _, _, paren, _ => exact paren wl
  | .bin .add _ _, _, paren, _ => exact paren true
  | .bin .sub _ _, _, paren, _ => exact paren true
  | .bin .mul _ _, _, paren, _ => exact paren true
  | .div _ _ _, _, paren, _ => exact paren true
  | .var .rand l r, hs, _, hv =>
    obtain ⟨h1, h2⟩ := hv l r rfl
    exact .rollOperandRand (h1.randNum h2 wl hs.2.1 hs.2.2)
  | .var .d _ _, hs, _, _ => exact absurd hs.1 (by simp)

/-- Right operand of an infix expression. -/
theorem Reparses.right {r : Expr} (h : Reparses r) {k : Kind} (hs : r.Shape k) (c : Bool)
    (hc : c = false → r.isSum = false ∧ r.isProd = false) :
    Der (.prim k) (if r.isPrefix then parenthesize (infixNotation false r)
     else if c then parenthesize (infixNotation true r)
     else infixNotation false r) r.norm := by
  split
  · exact h.paren false hs
  · split
    · exact h.paren true hs
    · rename_i hn
      have := hc (by simpa using hn)
      exact (h k false hs).2.2 this.1 this.2

/-- Right operand of `-`: a product. -/
theorem Reparses.rightProd {r : Expr} (h : Reparses r) {k : Kind} (hs : r.Shape k) (c : Bool)
    (hc : c = false → r.isSum = false) :
    Der (.mul k) (if r.isPrefix then parenthesize (infixNotation false r)
     else if c then parenthesize (infixNotation true r)
     else infixNotation false r) r.norm := by
  split
  · exact .mulPrim (h.paren false hs)
  · split
    · exact .mulPrim (h.paren true hs)
    · rename_i hn
      exact ((h k false hs).2.1 (hc (by simpa using hn))).der

/-- Right operand of `+`. -/
theorem Reparses.rightAdd {r : Expr} (h : Reparses r) {k : Kind} (hs : r.Shape k) :
    SumDer k (if r.isPrefix then parenthesize (infixNotation false r)
     else if r.needsParen .additive true then parenthesize (infixNotation true r)
     else infixNotation false r) r.norm := by
  rw [needsParen_add_true]
  split
  · rename_i hp
    exact .base (.mulPrim (h.paren false hs)) (by rw [norm_isSum]; exact (isPrefix_class hp).1)
  · exact (h k false hs).1

/-- Right operand of `*`. -/
theorem Reparses.rightMul {r : Expr} (h : Reparses r) {k : Kind} (hs : r.Shape k) :
    ProdDer k (if r.isPrefix then parenthesize (infixNotation false r)
     else if r.needsParen .multitive true then parenthesize (infixNotation true r)
     else infixNotation false r) r.norm := by
  rw [needsParen_mul_true]
  split
  · rename_i hp
    exact .base (h.paren false hs) (by rw [norm_isProd]; exact (isPrefix_class hp).2)
  · split
    · rename_i hp
      exact .base (h.paren true hs) (by rw [norm_isProd]; exact isSum_not_isProd hp)
    · rename_i hp
      exact (h k false hs).2.1 (by simpa using hp)

theorem reparses_aux (e : Expr) :
    Reparses e ∧ ∀ l r, e = .var .rand l r → Reparses l ∧ Reparses r := by
  induction e with
  | int v => exact ⟨.ofPrim rfl rfl fun k wl hs => .primNum (der_int hs), nofun⟩
  | sumRoll ds => exact ⟨.ofPrim rfl rfl fun k wl hs => absurd hs (by simp [Shape]), nofun⟩
  | neg r ih =>
    replace ih := ih.1
    refine ⟨.ofPrim rfl rfl fun k wl hs => ?_, nofun⟩
    rw [infixNotation]
    split
    · rename_i hp
      refine .minus ((ih k wl hs).2.2 ?_ ?_) <;>
        (match r, hp with
         | .int _, _ => rfl
         | .sumRoll _, _ => rfl
         | .var _ _ _, _ => rfl)
    · exact .minus (ih.paren true hs)
  | bin op l r ihl ihr =>
    refine ⟨?_, nofun⟩
    replace ihl := ihl.1
    replace ihr := ihr.1
    cases op with
    | add => exact .ofSum rfl fun k wl hs => (ihl.sumLeft wl hs.1).addTo (ihr.rightAdd hs.2)
    | sub =>
      refine .ofSum rfl fun k wl hs => .sub (ihl.sumLeft wl hs.1) (ihr.rightProd hs.2 _ ?_)
      intro h; rw [← needsParen_add_false]; exact h
    | mul => exact .ofProd rfl rfl fun k wl hs => (ihl.prodLeft wl hs.1).mulTo (ihr.rightMul hs.2)
  | div m l r ihl ihr =>
    refine ⟨.ofProd rfl rfl fun k wl hs => .div (ihl.1.prodLeft wl hs.1) (ihr.1.right hs.2 _ ?_), nofun⟩
    intro h; rw [needsParen_mul_false] at h; simpa using h
  | var vk l r ihl ihr =>
    cases vk with
    | d =>
      refine ⟨.ofPrim rfl rfl fun k wl hs => ?_, nofun⟩
      obtain ⟨hk, h1, h2⟩ := hs
      subst hk
      exact .primDice (.dRoll (.inl rfl) (ihl.1.rollOperand ihl.2 wl h1)
        (ihr.1.rollOperand ihr.2 false h2))
    | rand =>
      refine ⟨.ofPrim rfl rfl fun k wl hs => ?_, ?_⟩
      · exact .primRand hs.1 (ihl.1.randNum ihr.1 wl hs.2.1 hs.2.2)
      · rintro _ _ ⟨⟩; exact ⟨ihl.1, ihr.1⟩

theorem reparses (e : Expr) : Reparses e := (reparses_aux e).1

/-- The kind of arithmetic of a nonterminal. -/
def NT.ShapeOf : NT → Expr → Prop
  | .number, e => ∃ v, 0 ≤ v ∧ e = .int v
  | .randOperand, e => e.Shape .int
  | .randNum, e => e.Shape .rand ∧ e.Shape .dice
  | .rollOperand, e => e.Shape .rand
  | .dRoll, e => e.Shape .dice
  | .prim k, e => e.Shape k
  | .mul k, e => e.Shape k
  | .add k, e => e.Shape k

theorem atoiSat_nonneg (ds : Str) : 0 ≤ atoiSat ds := by
  rw [Int64.le_iff_toInt_le]
  unfold atoiSat
  generalize digitsVal ds = n
  have hn : (0 : Int) ≤ (n : Int) := Int.natCast_nonneg n
  have hs : Int64.size = 2 ^ 64 := rfl
  have e0 : (0 : Int64).toInt = 0 := by decide
  rw [Int64.toInt_ofInt, hs, Int.bmod_eq_of_le, e0] <;> omega

/-- Parsed trees have the shape assumed above. -/
theorem Der.shape {nt : NT} {s : Str} {e : Expr} (h : Der nt s e) : nt.ShapeOf e := by
  have num : ∀ {e : Expr} {k : Kind}, NT.number.ShapeOf e → e.Shape k := by
    rintro _ _ ⟨v, hv, rfl⟩; exact hv
  induction h with
  | number _ _ => exact ⟨_, atoiSat_nonneg _, rfl⟩
  | randOperandNum _ ih => exact num ih
  | randOperandParen _ ih => exact ih
  | randNum _ _ ih1 ih2 => exact ⟨⟨by simp, ih1, ih2⟩, ⟨by simp, ih1, ih2⟩⟩
  | rollOperandNum _ ih => exact num ih
  | rollOperandRand _ ih => exact ih.1
  | rollOperandParen _ ih => exact ih
  | dRoll _ _ _ ih1 ih2 => exact ⟨rfl, ih1, ih2⟩
  | primNum _ ih => exact num ih
  | @primRand k _ _ hk _ ih =>
    cases k with
    | int => exact absurd rfl hk
    | rand => exact ih.1
    | dice => exact ih.2
  | primDice _ ih => exact ih
  | plus _ ih => exact ih
  | minus _ ih => exact ih
  | paren _ ih => exact ih
  | mulPrim _ ih => exact ih
  | mulMul _ _ ih1 ih2 => exact ⟨ih1, ih2⟩
  | mulDiv _ _ ih1 ih2 => exact ⟨ih1, ih2⟩
  | mulDivUp _ _ _ ih1 ih2 => exact ⟨ih1, ih2⟩
  | mulDivRound _ _ _ ih1 ih2 => exact ⟨ih1, ih2⟩
  | addMul _ ih => exact ih
  | addAdd _ _ ih1 ih2 => exact ⟨ih1, ih2⟩
  | addSub _ _ ih1 ih2 => exact ⟨ih1, ih2⟩

/-- The displayed text of a tree of kind `k` denotes its normal form. -/
theorem der_notation {k : Kind} {e : Expr} (wl : Bool) (h : e.Shape k) :
    Der (.add k) (infixNotation wl e) e.norm := ((reparses e) k wl h).1.der

theorem der_rollOperand {e : Expr} (wl : Bool) (h : e.Shape .rand) :
    Der .rollOperand (rollOperandNotation wl e) e.norm :=
  (reparses_aux e).1.rollOperand (reparses_aux e).2 wl h

/-! ## Values -/

theorem ev_add_iff {l r : Expr} {ds : List Die} {v : Int64} : Ev (.bin .add l r) ds v ↔
    ∃ d1 d2 a b, ds = d1 ++ d2 ∧ v = a + b ∧ Ev l d1 a ∧ Ev r d2 b := by
  constructor
  · intro h; cases h with | add h1 h2 => exact ⟨_, _, _, _, rfl, rfl, h1, h2⟩
  · rintro ⟨_, _, _, _, rfl, rfl, h1, h2⟩; exact .add h1 h2

theorem ev_sub_iff {l r : Expr} {ds : List Die} {v : Int64} : Ev (.bin .sub l r) ds v ↔
    ∃ d1 d2 a b, ds = d1 ++ d2 ∧ v = a - b ∧ Ev l d1 a ∧ Ev r d2 b := by
  constructor
  · intro h; cases h with | sub h1 h2 => exact ⟨_, _, _, _, rfl, rfl, h1, h2⟩
  · rintro ⟨_, _, _, _, rfl, rfl, h1, h2⟩; exact .sub h1 h2

theorem ev_mul_iff {l r : Expr} {ds : List Die} {v : Int64} : Ev (.bin .mul l r) ds v ↔
    ∃ d1 d2 a b, ds = d1 ++ d2 ∧ v = a * b ∧ Ev l d1 a ∧ Ev r d2 b := by
  constructor
  · intro h; cases h with | mul h1 h2 => exact ⟨_, _, _, _, rfl, rfl, h1, h2⟩
  · rintro ⟨_, _, _, _, rfl, rfl, h1, h2⟩; exact .mul h1 h2

theorem ev_div_iff {m : Rounding} {l r : Expr} {ds : List Die} {v : Int64} : Ev (.div m l r) ds v ↔
    ∃ d1 d2 a b, ds = d1 ++ d2 ∧ v = divValue m a b ∧ Ev l d1 a ∧ Ev r d2 b ∧ b ≠ 0 := by
  constructor
  · intro h; cases h with | div h1 h2 h3 => exact ⟨_, _, _, _, rfl, rfl, h1, h2, h3⟩
  · rintro ⟨_, _, _, _, rfl, rfl, h1, h2, h3⟩; exact .div h1 h2 h3

theorem ev_neg_iff {r : Expr} {ds : List Die} {v : Int64} : Ev (.neg r) ds v ↔
    ∃ a, v = -a ∧ Ev r ds a := by
  constructor
  · intro h; cases h with | neg h1 => exact ⟨_, rfl, h1⟩
  · rintro ⟨_, rfl, h1⟩; exact .neg h1

theorem ev_d_iff {l r : Expr} {ds : List Die} {v : Int64} : Ev (.var .d l r) ds v ↔
    ∃ d1 d2 rs x y, ds = d1 ++ d2 ++ rs ∧ v = (rs.map Die.value).sum ∧ Ev l d1 x ∧ Ev r d2 y ∧
      Rolled x y rs := by
  constructor
  · intro h; cases h with | d h1 h2 h3 => exact ⟨_, _, _, _, _, rfl, rfl, h1, h2, h3⟩
  · rintro ⟨_, _, _, _, _, rfl, rfl, h1, h2, h3⟩; exact .d h1 h2 h3

theorem ev_rand_iff {l r : Expr} {ds : List Die} {v : Int64} : Ev (.var .rand l r) ds v ↔
    ∃ d1 d2 d x y, ds = d1 ++ d2 ++ [d] ∧ v = x - 1 + d.value ∧ Ev l d1 x ∧ Ev r d2 y ∧ x < y ∧
      Rolled 1 (y - x + 1) [d] := by
  constructor
  · intro h; cases h with | rand h1 h2 h3 h4 => exact ⟨_, _, _, _, _, rfl, rfl, h1, h2, h3, h4⟩
  · rintro ⟨_, _, _, _, _, rfl, rfl, h1, h2, h3, h4⟩; exact .rand h1 h2 h3 h4

theorem ev_add_congr {l l' r r' : Expr} (h1 : ∀ ds v, Ev l ds v ↔ Ev l' ds v)
    (h2 : ∀ ds v, Ev r ds v ↔ Ev r' ds v) (ds : List Die) (v : Int64) :
    Ev (.bin .add l r) ds v ↔ Ev (.bin .add l' r') ds v := by
  simp only [ev_add_iff, h1, h2]

theorem ev_sub_congr {l l' r r' : Expr} (h1 : ∀ ds v, Ev l ds v ↔ Ev l' ds v)
    (h2 : ∀ ds v, Ev r ds v ↔ Ev r' ds v) (ds : List Die) (v : Int64) :
    Ev (.bin .sub l r) ds v ↔ Ev (.bin .sub l' r') ds v := by
  simp only [ev_sub_iff, h1, h2]

theorem ev_mul_congr {l l' r r' : Expr} (h1 : ∀ ds v, Ev l ds v ↔ Ev l' ds v)
    (h2 : ∀ ds v, Ev r ds v ↔ Ev r' ds v) (ds : List Die) (v : Int64) :
    Ev (.bin .mul l r) ds v ↔ Ev (.bin .mul l' r') ds v := by
  simp only [ev_mul_iff, h1, h2]

theorem ev_add_assoc (a l r : Expr) (ds : List Die) (v : Int64) :
    Ev (.bin .add (.bin .add a l) r) ds v ↔ Ev (.bin .add a (.bin .add l r)) ds v := by
  simp only [ev_add_iff]
  constructor
  · rintro ⟨_, _, _, _, rfl, rfl, ⟨_, _, _, _, rfl, rfl, h1, h2⟩, h3⟩
    exact ⟨_, _, _, _, List.append_assoc .., Int64.add_assoc .., h1, _, _, _, _, rfl, rfl, h2, h3⟩
  · rintro ⟨_, _, _, _, rfl, rfl, h1, _, _, _, _, rfl, rfl, h2, h3⟩
    exact ⟨_, _, _, _, (List.append_assoc ..).symm, (Int64.add_assoc ..).symm,
      ⟨_, _, _, _, rfl, rfl, h1, h2⟩, h3⟩

theorem ev_add_sub_assoc (a l r : Expr) (ds : List Die) (v : Int64) :
    Ev (.bin .sub (.bin .add a l) r) ds v ↔ Ev (.bin .add a (.bin .sub l r)) ds v := by
  have hc : ∀ a b c : Int64, a + b - c = a + (b - c) := fun a b c => by
    rw [Int64.sub_eq_add_neg, Int64.sub_eq_add_neg, Int64.add_assoc]
  simp only [ev_add_iff, ev_sub_iff]
  constructor
  · rintro ⟨_, _, _, _, rfl, rfl, ⟨_, _, _, _, rfl, rfl, h1, h2⟩, h3⟩
    exact ⟨_, _, _, _, List.append_assoc .., hc .., h1, _, _, _, _, rfl, rfl, h2, h3⟩
  · rintro ⟨_, _, _, _, rfl, rfl, h1, _, _, _, _, rfl, rfl, h2, h3⟩
    exact ⟨_, _, _, _, (List.append_assoc ..).symm, (hc ..).symm,
      ⟨_, _, _, _, rfl, rfl, h1, h2⟩, h3⟩

theorem ev_mul_assoc (a l r : Expr) (ds : List Die) (v : Int64) :
    Ev (.bin .mul (.bin .mul a l) r) ds v ↔ Ev (.bin .mul a (.bin .mul l r)) ds v := by
  simp only [ev_mul_iff]
  constructor
  · rintro ⟨_, _, _, _, rfl, rfl, ⟨_, _, _, _, rfl, rfl, h1, h2⟩, h3⟩
    exact ⟨_, _, _, _, List.append_assoc .., Int64.mul_assoc .., h1, _, _, _, _, rfl, rfl, h2, h3⟩
  · rintro ⟨_, _, _, _, rfl, rfl, h1, _, _, _, _, rfl, rfl, h2, h3⟩
    exact ⟨_, _, _, _, (List.append_assoc ..).symm, (Int64.mul_assoc ..).symm,
      ⟨_, _, _, _, rfl, rfl, h1, h2⟩, h3⟩

theorem ev_addTo (a b : Expr) : ∀ ds v, Ev (addTo a b) ds v ↔ Ev (.bin .add a b) ds v := by
  induction b with
  | bin op l r ihl _ =>
    intro ds v
    cases op with
    | add => exact (ev_add_congr ihl (fun _ _ => .rfl) ds v).trans (ev_add_assoc a l r ds v)
    | sub => exact (ev_sub_congr ihl (fun _ _ => .rfl) ds v).trans (ev_add_sub_assoc a l r ds v)
    | mul => exact .rfl
  | _ => exact fun _ _ => .rfl

theorem ev_mulTo (a b : Expr) (hb : b.noDivSpine) :
    ∀ ds v, Ev (mulTo a b) ds v ↔ Ev (.bin .mul a b) ds v := by
  induction b with
  | bin op l r ihl _ =>
    intro ds v
    cases op with
    | add => exact .rfl
    | sub => exact .rfl
    | mul => exact (ev_mul_congr (ihl hb) (fun _ _ => .rfl) ds v).trans (ev_mul_assoc a l r ds v)
  | div => exact hb.elim
  | _ => exact fun _ _ => .rfl

theorem noDivSpine_addTo (a b : Expr) : (addTo a b).noDivSpine := by
  unfold addTo; split <;> trivial

theorem noDivSpine_mulTo (a b : Expr) (ha : a.noDivSpine) (hb : b.noDivSpine) :
    (mulTo a b).noDivSpine := by
  induction b with
  | bin op l r ihl _ =>
    cases op with
    | add => exact ha
    | sub => exact ha
    | mul => exact ihl hb
  | div => exact hb.elim
  | _ => exact ha

theorem noDivSpine_norm {e : Expr} (hs : e.mulSafe) (h : e.noDivSpine) : e.norm.noDivSpine := by
  induction e with
  | bin op l r ihl ihr =>
    cases op with
    | add => exact noDivSpine_addTo _ _
    | sub => trivial
    | mul => exact noDivSpine_mulTo _ _ (ihl hs.1 h) (ihr hs.2.1 hs.2.2)
  | div => exact h.elim
  | _ => trivial

/-- The displayed text means the same. -/
theorem ev_norm {e : Expr} (hs : e.mulSafe) : ∀ ds v, Ev e.norm ds v ↔ Ev e ds v := by
  induction e with
  | int _ => exact fun _ _ => .rfl
  | sumRoll _ => exact fun _ _ => .rfl
  | neg r ih => intro ds v; simp only [norm, ev_neg_iff, ih hs]
  | bin op l r ihl ihr =>
    intro ds v
    cases op with
    | add => exact (ev_addTo _ _ ds v).trans (ev_add_congr (ihl hs.1) (ihr hs.2) ds v)
    | sub => exact ev_sub_congr (ihl hs.1) (ihr hs.2) ds v
    | mul =>
      exact (ev_mulTo _ _ (noDivSpine_norm hs.2.1 hs.2.2) ds v).trans
        (ev_mul_congr (ihl hs.1) (ihr hs.2.1) ds v)
  | div m l r ihl ihr => intro ds v; simp only [norm, ev_div_iff, ihl hs.1, ihr hs.2]
  | var k l r ihl ihr =>
    intro ds v
    cases k with
    | d => simp only [norm, ev_d_iff, ihl hs.1, ihr hs.2]
    | rand => simp only [norm, ev_rand_iff, ihl hs.1, ihr hs.2]

/-! ## The text of the normal form -/

theorem addTo_prec (a b : Expr) : (addTo a b).prec? = some .additive := by
  unfold addTo; split <;> rfl

theorem mulTo_prec (a b : Expr) : (mulTo a b).prec? = some .multitive := by
  unfold mulTo; split <;> rfl

theorem norm_prec (e : Expr) : e.norm.prec? = e.prec? := by
  match e with
  | .int _ => rfl
  | .sumRoll _ => rfl
  | .neg _ => rfl
  | .bin .add l r => exact addTo_prec _ _
  | .bin .sub _ _ => rfl
  | .bin .mul l r => exact mulTo_prec _ _
  | .div _ _ _ => rfl
  | .var _ _ _ => rfl

theorem norm_needsParen (e : Expr) (p : Prec) (b : Bool) :
    e.norm.needsParen p b = e.needsParen p b := by
  simp only [needsParen, norm_prec]

theorem infixNotation_addTo (wl : Bool) (a b : Expr) :
    infixNotation wl (addTo a b) = infixNotation wl (.bin .add a b) := by
  induction b with
  | bin op l r ihl _ =>
    cases op with
    | add =>
      have h : addTo a (.bin .add l r) = .bin .add (addTo a l) r := rfl
      rw [h, infixNotation, addTo_isPrefix]
      simp only [Bool.false_and, Bool.false_eq_true, if_false, BinOp.prec, needsParen_add_true, ihl]
      simp only [infixNotation, isPrefix, BinOp.prec, BinOp.rightAssoc, needsParen_add_true,
        Bool.false_eq_true, if_false, Bool.and_false, List.append_assoc]
    | sub =>
      have h : addTo a (.bin .sub l r) = .bin .sub (addTo a l) r := rfl
      rw [h, infixNotation, addTo_isPrefix]
      simp only [Bool.false_and, Bool.false_eq_true, if_false, BinOp.prec, needsParen_add_true, ihl]
      simp only [infixNotation, isPrefix, BinOp.prec, BinOp.rightAssoc, needsParen_add_true,
        Bool.false_eq_true, if_false, Bool.and_false, List.append_assoc]
    | mul => rfl
  | _ => rfl

theorem infixNotation_mulTo (wl : Bool) (a b : Expr) :
    infixNotation wl (mulTo a b) = infixNotation wl (.bin .mul a b) := by
  induction b with
  | bin op l r ihl _ =>
    cases op with
    | add => rfl
    | sub => rfl
    | mul =>
      have h : mulTo a (.bin .mul l r) = .bin .mul (mulTo a l) r := rfl
      rw [h, infixNotation, mulTo_isPrefix]
      simp only [Bool.false_and, Bool.false_eq_true, if_false, BinOp.prec, needsParen_mul_true,
        isProd_not_isSum (mulTo_isProd _ _), ihl]
      simp only [infixNotation, isPrefix, isSum, BinOp.prec, BinOp.rightAssoc, needsParen_mul_true,
        Bool.false_eq_true, if_false, Bool.and_false, List.append_assoc]
  | div m l r ihl _ =>
    have h : mulTo a (.div m l r) = .div m (mulTo a l) r := rfl
    conv => lhs; rw [h, infixNotation]
    rw [mulTo_isPrefix]
    simp only [Bool.false_and, Bool.false_eq_true, if_false, needsParen_mul_true,
      isProd_not_isSum (mulTo_isProd _ _), ihl]
    simp only [infixNotation, isPrefix, isSum, BinOp.prec, BinOp.rightAssoc, needsParen_mul_true,
      Bool.false_eq_true, if_false, Bool.and_false, List.append_assoc]
  | _ => rfl

/-- The normal form is displayed in the same way. -/
theorem infixNotation_norm (e : Expr) : ∀ wl, infixNotation wl e.norm = infixNotation wl e := by
  induction e with
  | int _ => exact fun _ => rfl
  | sumRoll _ => exact fun _ => rfl
  | neg r ih => intro wl; simp only [norm, infixNotation, norm_isPrimary, ih]
  | bin op l r ihl ihr =>
    intro wl
    cases op with
    | add =>
      rw [norm, infixNotation_addTo]
      simp only [infixNotation, norm_isPrefix, norm_needsParen, ihl, ihr]
    | sub => simp only [norm, infixNotation, norm_isPrefix, norm_needsParen, ihl, ihr]
    | mul =>
      rw [norm, infixNotation_mulTo]
      simp only [infixNotation, norm_isPrefix, norm_needsParen, ihl, ihr]
  | div m l r ihl ihr =>
    intro wl
    simp only [norm, infixNotation, norm_isPrefix, norm_needsParen, ihl, ihr]
  | var k l r ihl ihr =>
    intro wl
    cases k <;> simp only [norm, infixNotation, norm_isPrefix, norm_needsParen, ihl, ihr]

theorem rands_addTo (a b : Expr) : (addTo a b).rands = a.rands + b.rands := by
  induction b with
  | bin op l r ihl _ =>
    cases op with
    | add => simp only [addTo, rands, ihl]; omega
    | sub => simp only [addTo, rands, ihl]; omega
    | mul => rfl
  | _ => rfl

theorem rands_mulTo (a b : Expr) : (mulTo a b).rands = a.rands + b.rands := by
  induction b with
  | bin op l r ihl _ =>
    cases op with
    | add => rfl
    | sub => rfl
    | mul => simp only [mulTo, rands, ihl]; omega
  | div m l r ihl _ => simp only [mulTo, rands, ihl]; omega
  | _ => rfl

theorem rands_norm (e : Expr) : e.norm.rands = e.rands := by
  induction e with
  | int _ => rfl
  | sumRoll _ => rfl
  | neg r ih => exact ih
  | bin op l r ihl ihr =>
    cases op with
    | add => simp only [norm, rands_addTo, rands, ihl, ihr]
    | sub => simp only [norm, rands, ihl, ihr]
    | mul => simp only [norm, rands_mulTo, rands, ihl, ihr]
  | div m l r ihl ihr => simp only [norm, rands, ihl, ihr]
  | var k l r ihl ihr => simp only [norm, rands, ihl, ihr]

end GoBCDice
