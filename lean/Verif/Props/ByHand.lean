import Verif.Spec.ByHand
import Verif.Props.Parens
import Verif.Props.Display

/-!
# C112: calculations may be done by hand
-/

namespace GoBCDice

/-- `e` is a calculation without dice, of value `v`. -/
structure Expr.Const (e : Expr) (v : Int64) : Prop where
  pure : e.isVariable = false
  eval : ∀ {τ : Type} (E : Evaluator τ) (s : St τ), E.eval e s = (.ok v, s)

/-- Two trees that differ in calculations of the same value only; `ops`: these may also be in operands of rolls. -/
inductive Expr.Same (ops : Prop) : Expr → Expr → Prop where
  | refl (e : Expr) : Same ops e e
  | const {e e' : Expr} {v : Int64} : e.Const v → e'.Const v → Same ops e e'
  | neg {r r' : Expr} : Same ops r r' → Same ops (.neg r) (.neg r')
  | bin {l l' r r' : Expr} (op : BinOp) : Same ops l l' → Same ops r r' → Same ops (.bin op l r) (.bin op l' r')
  | div {l l' r r' : Expr} (m : Rounding) : Same ops l l' → Same ops r r' → Same ops (.div m l r) (.div m l' r')
  | var {l l' r r' : Expr} (k : VarKind) : ops → Same ops l l' → Same ops r r' → Same ops (.var k l r) (.var k l' r')

theorem Expr.rands_eq_zero {e : Expr} (h : e.isVariable = false) : e.rands = 0 := by
  induction e with
  | int _ => rfl
  | sumRoll _ => rfl
  | neg r ih => exact ih h
  | bin _ l r ih1 ih2 =>
    simp only [Expr.isVariable, Bool.or_eq_false_iff] at h
    simp [Expr.rands, ih1 h.1, ih2 h.2]
  | div _ l r ih1 ih2 =>
    simp only [Expr.isVariable, Bool.or_eq_false_iff] at h
    simp [Expr.rands, ih1 h.1, ih2 h.2]
  | var => simp [Expr.isVariable] at h

theorem Expr.Same.rands {ops : Prop} {e e' : Expr} (h : e.Same ops e') : e.rands = e'.rands := by
  induction h with
  | refl => rfl
  | const h h' => rw [Expr.rands_eq_zero h.pure, Expr.rands_eq_zero h'.pure]
  | neg _ ih => exact ih
  | bin _ _ _ i j => simp [Expr.rands, i, j]
  | div _ _ _ i j => simp [Expr.rands, i, j]
  | var _ _ _ _ i j => simp [Expr.rands, i, j]

section
variable {σ : Type} (E : Evaluator σ)

theorem Expr.Same.eval {ops : Prop} {e e' : Expr} (h : e.Same ops e') : E.eval e = E.eval e' := by
  induction h with
  | refl => rfl
  | const h h' => funext s; rw [h.eval, h'.eval]
  | neg _ ih => simp only [Evaluator.eval, ih]
  | bin _ _ _ i j => simp only [Evaluator.eval, i, j]
  | div _ _ _ i j => simp only [Evaluator.eval, i, j]
  | var k _ _ _ i j => cases k <;> simp only [Evaluator.eval, i, j]

/-- Two runs end alike, with related values if they succeed. -/
def RunsLike {α : Type} (R : α → α → Prop) (x y : Out α × St σ) : Prop :=
  (∃ a a' s, x = (.ok a, s) ∧ y = (.ok a', s) ∧ R a a') ∨ (x = y ∧ ∀ a, x.1 ≠ .ok a)

theorem RunsLike.of_eq {α : Type} {R : α → α → Prop} (hR : ∀ a, R a a) {x y : Out α × St σ} (h : x = y) : RunsLike R x y := by
  subst h
  obtain ⟨o, s⟩ := x
  cases o with
  | ok a => exact .inl ⟨a, a, s, rfl, rfl, hR a⟩
  | err e => exact .inr ⟨rfl, fun a h => by cases h⟩
  | panic m => exact .inr ⟨rfl, fun a h => by cases h⟩

theorem RunsLike.bind {α β : Type} {R : α → α → Prop} {Q : β → β → Prop} {x y : M σ α} {f g : α → M σ β} {s : St σ}
    (h : RunsLike R (x s) (y s)) (hf : ∀ a a' t, R a a' → RunsLike Q (f a t) (g a' t)) :
    RunsLike Q ((x >>= f) s) ((y >>= g) s) := by
  show RunsLike Q (M.bnd x f s) (M.bnd y g s)
  unfold M.bnd
  rcases h with ⟨a, a', t, h1, h2, h3⟩ | ⟨h1, h2⟩
  · rw [h1, h2]
    exact hf a a' t h3
  · rw [← h1]
    rcases hx : x s with ⟨o, t⟩
    rw [hx] at h2
    cases o with
    | ok a => exact (h2 a rfl).elim
    | err e => exact .inr ⟨rfl, fun a h => by cases h⟩
    | panic m => exact .inr ⟨rfl, fun a h => by cases h⟩

theorem RunsLike.ret {α : Type} {R : α → α → Prop} {a a' : α} {s : St σ} (h : R a a') :
    RunsLike R ((pure a : M σ α) s) ((pure a' : M σ α) s) := .inl ⟨a, a', s, rfl, rfl, h⟩

theorem RunsLike.pair {α β γ : Type} {R : α → α → Prop} {x y : M σ α} {s : St σ} (k : β → γ) (z : M σ β)
    (h : RunsLike R (x s) (y s)) : RunsLike (fun (p p' : α × γ) => R p.1 p'.1 ∧ p.2 = p'.2)
      ((x >>= fun a => z >>= fun b => pure (a, k b)) s) ((y >>= fun a => z >>= fun b => pure (a, k b)) s) :=
  h.bind fun a a' t h1 => (RunsLike.of_eq (R := Eq) (fun _ => rfl) (x := z t) rfl).bind fun b b' u h2 => by
    subst h2
    exact .inl ⟨_, _, u, rfl, rfl, h1, rfl⟩

/-- What stage 1 does with an operand. -/
theorem varArgs_neg (r : Expr) : E.evalVarArgsInCommand (.neg r) = E.evalVarArgsInCommand r >>= fun r' => pure (.neg r') := by
  have h0 : (Expr.neg r).isPrimary = false := rfl
  cases h : r.isPrimary <;> simp [Evaluator.evalVarArgsInCommand, Evaluator.evalVarArgs, h0, h]

theorem varArgs_bin (op : BinOp) (l r : Expr) : E.evalVarArgsInCommand (.bin op l r) =
    E.evalVarArgsInCommand l >>= fun l' => E.evalVarArgsInCommand r >>= fun r' => pure (.bin op l' r') := by
  have h0 : (Expr.bin op l r).isPrimary = false := rfl
  cases h1 : l.isPrimary <;> cases h2 : r.isPrimary <;> simp [Evaluator.evalVarArgsInCommand, Evaluator.evalVarArgs, h0, h1, h2]

theorem varArgs_div (m : Rounding) (l r : Expr) : E.evalVarArgsInCommand (.div m l r) =
    E.evalVarArgsInCommand l >>= fun l' => E.evalVarArgsInCommand r >>= fun r' => pure (.div m l' r') := by
  have h0 : (Expr.div m l r).isPrimary = false := rfl
  cases h1 : l.isPrimary <;> cases h2 : r.isPrimary <;> simp [Evaluator.evalVarArgsInCommand, Evaluator.evalVarArgs, h0, h1, h2]

theorem determine_neg (r : Expr) : E.determineValuesOperand (.neg r) = E.determineValuesOperand r >>= fun r' => pure (.neg r') := by
  have h0 : (Expr.neg r).isPrimary = false := rfl
  cases h : r.isPrimary <;> simp [Evaluator.determineValuesOperand, Evaluator.determineValues, h0, h]

theorem determine_bin (op : BinOp) (l r : Expr) : E.determineValuesOperand (.bin op l r) =
    E.determineValuesOperand l >>= fun l' => E.determineValuesOperand r >>= fun r' => pure (.bin op l' r') := by
  have h0 : (Expr.bin op l r).isPrimary = false := rfl
  cases h1 : l.isPrimary <;> cases h2 : r.isPrimary <;> simp [Evaluator.determineValuesOperand, Evaluator.determineValues, h0, h1, h2]

theorem determine_div (m : Rounding) (l r : Expr) : E.determineValuesOperand (.div m l r) =
    E.determineValuesOperand l >>= fun l' => E.determineValuesOperand r >>= fun r' => pure (.div m l' r') := by
  have h0 : (Expr.div m l r).isPrimary = false := rfl
  cases h1 : l.isPrimary <;> cases h2 : r.isPrimary <;> simp [Evaluator.determineValuesOperand, Evaluator.determineValues, h0, h1, h2]

theorem bind_ok {α β : Type} {x : M σ α} {f : α → M σ β} {s t : St σ} {a : α} (h : x s = (.ok a, t)) : (x >>= f) s = f a t := by
  show M.bnd x f s = _
  unfold M.bnd
  rw [h]

theorem varArgs_const {e : Expr} (h : e.isVariable = false) (s : St σ) : E.evalVarArgsInCommand e s = (.ok e, s) := by
  induction e generalizing s with
  | int _ => rfl
  | sumRoll _ => rfl
  | neg r ih =>
    rw [varArgs_neg, bind_ok (ih h s)]
    rfl
  | bin _ l r i j =>
    simp only [Expr.isVariable, Bool.or_eq_false_iff] at h
    rw [varArgs_bin, bind_ok (i h.1 s), bind_ok (j h.2 s)]
    rfl
  | div _ l r i j =>
    simp only [Expr.isVariable, Bool.or_eq_false_iff] at h
    rw [varArgs_div, bind_ok (i h.1 s), bind_ok (j h.2 s)]
    rfl
  | var => simp [Expr.isVariable] at h

theorem determine_const {e : Expr} (h : e.isVariable = false) (s : St σ) : E.determineValuesOperand e s = (.ok e, s) := by
  induction e generalizing s with
  | int _ => rfl
  | sumRoll _ => rfl
  | neg r ih =>
    rw [determine_neg, bind_ok (ih h s)]
    rfl
  | bin _ l r i j =>
    simp only [Expr.isVariable, Bool.or_eq_false_iff] at h
    rw [determine_bin, bind_ok (i h.1 s), bind_ok (j h.2 s)]
    rfl
  | div _ l r i j =>
    simp only [Expr.isVariable, Bool.or_eq_false_iff] at h
    rw [determine_div, bind_ok (i h.1 s), bind_ok (j h.2 s)]
    rfl
  | var => simp [Expr.isVariable] at h

theorem Expr.Same.varArgs {ops : Prop} {e e' : Expr} (h : e.Same ops e') (s : St σ) :
    RunsLike (Expr.Same False) (E.evalVarArgsInCommand e s) (E.evalVarArgsInCommand e' s) := by
  induction h generalizing s with
  | refl => exact .of_eq .refl rfl
  | const h h' =>
    rw [varArgs_const E h.pure, varArgs_const E h'.pure]
    exact .inl ⟨_, _, s, rfl, rfl, .const h h'⟩
  | neg _ ih =>
    rw [varArgs_neg, varArgs_neg]
    exact (ih s).bind fun _ _ _ h => .ret (.neg h)
  | bin op _ _ i j =>
    rw [varArgs_bin, varArgs_bin]
    exact (i s).bind fun _ _ t h => (j t).bind fun _ _ _ h' => .ret (.bin op h h')
  | div m _ _ i j =>
    rw [varArgs_div, varArgs_div]
    exact (i s).bind fun _ _ t h => (j t).bind fun _ _ _ h' => .ret (.div m h h')
  | @var l l' r r' k _ h1 h2 _ _ =>
    refine .of_eq .refl ?_
    cases k with
    | rand => rfl
    | d =>
      show (E.eval l >>= fun a => E.eval r >>= fun b => pure (Expr.var .d (.int a) (.int b))) s =
        (E.eval l' >>= fun a => E.eval r' >>= fun b => pure (Expr.var .d (.int a) (.int b))) s
      rw [h1.eval, h2.eval]

theorem Expr.Same.determine {e e' : Expr} (h : e.Same False e') (s : St σ) :
    RunsLike (Expr.Same False) (E.determineValuesOperand e s) (E.determineValuesOperand e' s) := by
  induction h generalizing s with
  | refl => exact .of_eq .refl rfl
  | const h h' =>
    rw [determine_const E h.pure, determine_const E h'.pure]
    exact .inl ⟨_, _, s, rfl, rfl, .const h h'⟩
  | neg _ ih =>
    rw [determine_neg, determine_neg]
    exact (ih s).bind fun _ _ _ h => .ret (.neg h)
  | bin op _ _ i j =>
    rw [determine_bin, determine_bin]
    exact (i s).bind fun _ _ t h => (j t).bind fun _ _ _ h' => .ret (.bin op h h')
  | div m _ _ i j =>
    rw [determine_div, determine_div]
    exact (i s).bind fun _ _ t h => (j t).bind fun _ _ _ h' => .ret (.div m h h')
  | var _ h => exact h.elim

end

/-! ## Commands -/

/-- Rolls with the same operands, up to calculations. -/
inductive SameRolls : List Roll → List Roll → Prop where
  | nil : SameRolls [] []
  | cons {r r' : Roll} {rs rs' : List Roll} : r.num.Same True r'.num → r.sides.Same True r'.sides → SameRolls rs rs' →
      SameRolls (r :: rs) (r' :: rs')

inductive SameOption : Option Expr → Option Expr → Prop where
  | none : SameOption none none
  | some {e e' : Expr} : e.Same True e' → SameOption (some e) (some e')

structure SameRList (a b : RRollList) : Prop where
  rolls : SameRolls a.rolls b.rolls
  threshold : SameOption a.threshold b.threshold

inductive SameBonus : Option (Sign × Expr) → Option (Sign × Expr) → Prop where
  | none : SameBonus none none
  | some {e e' : Expr} (s : Sign) : e.Same True e' → SameBonus (some (s, e)) (some (s, e'))

structure SameU (a b : URollExpr) : Prop where
  list : SameRList a.list b.list
  bonus : SameBonus a.bonus b.bonus

/-- Commands that differ in calculations only. -/
inductive SameNode : Node → Node → Prop where
  | choice (items : List Str) : SameNode (.choice items) (.choice items)
  | «calc» {e e' : Expr} : e.Same True e' → SameNode (.calc e) (.calc e')
  | dRollExpr {e e' : Expr} : e.Same True e' → SameNode (.dRollExpr e) (.dRollExpr e')
  | dRollComp {l l' r r' : Expr} (op : CmpOp) : l.Same True l' → r.Same True r' → 1 ≤ l.rands →
      SameNode (.dRollComp l op r) (.dRollComp l' op r')
  | bRollList {rs rs' : List Roll} : SameRolls rs rs' → SameNode (.bRollList rs) (.bRollList rs')
  | bRollComp {rs rs' : List Roll} {r r' : Expr} (op : CmpOp) : SameRolls rs rs' → r.Same True r' →
      SameNode (.bRollComp rs op r) (.bRollComp rs' op r')
  | rRollList {a b : RRollList} : SameRList a b → SameNode (.rRollList a) (.rRollList b)
  | rRollComp {a b : RRollList} {r r' : Expr} (op : CmpOp) : SameRList a b → r.Same True r' →
      SameNode (.rRollComp a op r) (.rRollComp b op r')
  | uRollExpr {a b : URollExpr} : SameU a b → SameNode (.uRollExpr a) (.uRollExpr b)
  | uRollComp {a b : URollExpr} {r r' : Expr} (op : CmpOp) : SameU a b → r.Same True r' →
      SameNode (.uRollComp a op r) (.uRollComp b op r')

section
variable {σ : Type} (E : Evaluator σ)

theorem SameRolls.args {a b : List Roll} (h : SameRolls a b) : E.evalVarArgsInRolls a = E.evalVarArgsInRolls b := by
  induction h with
  | nil => rfl
  | cons h1 h2 _ ih => simp only [Evaluator.evalVarArgsInRolls, Evaluator.evalVarArgsOfRoll, h1.eval, h2.eval, ih]

theorem SameRList.args {a b : RRollList} (h : SameRList a b) : E.evalVarArgsInRRollList a = E.evalVarArgsInRRollList b := by
  unfold Evaluator.evalVarArgsInRRollList
  rw [h.rolls.args]
  obtain ⟨ra, ta⟩ := a
  obtain ⟨rb, tb⟩ := b
  cases h.threshold with
  | none => rfl
  | some h' => simp only [Evaluator.evalVarArgsOfThreshold, h'.eval]

theorem SameU.args {a b : URollExpr} (h : SameU a b) : E.evalVarArgsInURollExpr a = E.evalVarArgsInURollExpr b := by
  unfold Evaluator.evalVarArgsInURollExpr
  rw [h.list.args]
  obtain ⟨ra, ta⟩ := a
  obtain ⟨rb, tb⟩ := b
  cases h.bonus with
  | none => rfl
  | some s h' => cases s <;> simp only [bonusExpr, Evaluator.eval, h'.eval]

/-- B, R and U commands are not told apart at all. -/
theorem SameNode.execute {n n' : Node} (h : SameNode n n') (g : Str) (hb : match n with
      | .bRollList _ | .bRollComp _ _ _ | .rRollList _ | .rRollComp _ _ _ | .uRollExpr _ | .uRollComp _ _ _ => True
      | _ => False) : E.execute g n = E.execute g n' := by
  cases h with
  | choice => exact hb.elim
  | «calc» => exact hb.elim
  | dRollExpr => exact hb.elim
  | dRollComp => exact hb.elim
  | bRollList h => simp only [Evaluator.execute, Evaluator.executeBRollList, h.args]
  | bRollComp op h h' => simp only [Evaluator.execute, Evaluator.executeBRollComp, h.args, h'.eval]
  | rRollList h => simp only [Evaluator.execute, Evaluator.executeRRollList, h.args]
  | rRollComp op h h' => simp only [Evaluator.execute, Evaluator.executeRRollComp, h.args, h'.eval]
  | uRollExpr h => simp only [Evaluator.execute, Evaluator.executeURollExpr, h.args]
  | uRollComp op h h' => simp only [Evaluator.execute, Evaluator.executeURollComp, h.args, h'.eval]

theorem AlikeResults.refl (r : Result) : AlikeResults r r := ⟨rfl, rfl, rfl, rfl, rfl, rfl⟩

theorem SameNode.alike {n n' : Node} (h : SameNode n n') (hs : n.isSingleRollComp = false) (g : Str) (s : St σ) :
    RunsLike AlikeResults (E.execute g n s) (E.execute g n' s) := by
  cases h with
  | choice => exact .of_eq .refl rfl
  | «calc» h =>
    simp only [Evaluator.execute, Evaluator.executeCalc, h.eval]
    exact (RunsLike.of_eq (R := Eq) (fun _ => rfl) rfl).bind fun v v' t h => h ▸ .ret ⟨rfl, rfl, rfl, rfl, rfl, rfl⟩
  | dRollExpr h =>
    simp only [Evaluator.execute, Evaluator.executeDRollExpr]
    refine (h.varArgs E s).bind fun e1 e1' t h1 => (h1.determine E t).bind fun e2 e2' u h2 => ?_
    rw [h2.eval]
    refine (RunsLike.of_eq (R := Eq) (fun _ => rfl) rfl).bind fun v v' t h => ?_
    refine (RunsLike.of_eq (R := Eq) (fun _ => rfl) rfl).bind fun d d' t h' => ?_
    subst h h'
    exact .ret ⟨rfl, rfl, rfl, rfl, rfl, rfl⟩
  | @dRollComp l l' r r' op h h' hr =>
    have hv : ∀ {e : Expr}, 1 ≤ e.rands → (∀ k a b, e ≠ .var k a b) → E.evalVarArgs e = E.evalVarArgsInCommand e := by
      intro e h1 h2
      cases e with
      | int => simp [Expr.rands] at h1
      | sumRoll => simp [Expr.rands] at h1
      | var k a b => exact (h2 k a b rfl).elim
      | _ => rfl
    have h1 : ∀ k a b, l ≠ .var k a b := by rintro k a b rfl; cases hs
    have h2 : ∀ k a b, l' ≠ .var k a b := by
      rintro k a b rfl
      cases h with
      | refl => exact h1 _ _ _ rfl
      | const h h' => have := Expr.rands_eq_zero h.pure; omega
      | var => exact h1 _ _ _ rfl
    simp only [Evaluator.execute, Evaluator.executeDRollComp, Evaluator.evalVarArgsInDCompare, Evaluator.determineValuesInCompare,
      hv hr h1, hv (h.rands ▸ hr) h2, h'.eval]
    refine ((h.varArgs E s).pair Expr.int (E.eval r')).bind fun p p' t h5 => ?_
    obtain ⟨l1, r1⟩ := p
    obtain ⟨l1', r1'⟩ := p'
    obtain ⟨h5, h6⟩ := h5
    simp only at h5 h6
    subst h6
    refine ((h5.determine E t).pair id (E.determineValuesOperand r1)).bind fun p p' t h5 => ?_
    obtain ⟨l2, r2⟩ := p
    obtain ⟨l2', r2'⟩ := p'
    obtain ⟨h5, h6⟩ := h5
    simp only at h5 h6
    subst h6
    simp only [h5.eval]
    refine (RunsLike.of_eq (R := Eq) (fun _ => rfl) rfl).bind fun v v' t e1 => ?_
    subst e1
    refine (RunsLike.of_eq (R := Eq) (fun _ => rfl) rfl).bind fun a a' t e1 => ?_
    subst e1
    refine (RunsLike.of_eq (R := Eq) (fun _ => rfl) rfl).bind fun b b' t e1 => ?_
    subst e1
    refine (RunsLike.of_eq (R := Eq) (fun _ => rfl) rfl).bind fun d d' t e1 => ?_
    subst e1
    exact .ret ⟨rfl, rfl, rfl, rfl, rfl, rfl⟩
  | bRollList h => exact .of_eq .refl (congrFun ((SameNode.bRollList h).execute E g trivial) s)
  | bRollComp op h h' => exact .of_eq .refl (congrFun ((SameNode.bRollComp op h h').execute E g trivial) s)
  | rRollList h => exact .of_eq .refl (congrFun ((SameNode.rRollList h).execute E g trivial) s)
  | rRollComp op h h' => exact .of_eq .refl (congrFun ((SameNode.rRollComp op h h').execute E g trivial) s)
  | uRollExpr h => exact .of_eq .refl (congrFun ((SameNode.uRollExpr h).execute E g trivial) s)
  | uRollComp op h h' => exact .of_eq .refl (congrFun ((SameNode.uRollComp op h h').execute E g trivial) s)

end

/-! ## Texts -/

/-- `w` can stand for `m` between parentheses and gives the same up to calculations. -/
def Recalculates (w m : Str) : Prop := ∀ k e, Der (.add k) m e → ∃ e', Der (.add k) w e' ∧ e.Same True e'

section
variable {m w : Str}

theorem der_recalc {nt : NT} {s : Str} {e : Expr} (h : Der nt s e) (hm : Balanced m) (hr : Recalculates w m) : ∀ {a b : Str},
    s = a ++ chars!"(" ++ m ++ chars!")" ++ b → ∃ e', Der nt (a ++ chars!"(" ++ w ++ chars!")" ++ b) e' ∧ e.Same True e' := by
  induction h with
  | number _ hd =>
    intro a b hs
    exact absurd (hd '(' (by rw [hs]; simp)) (by decide)
  | randOperandNum _ ih => intro a b hs; obtain ⟨e', h1, h2⟩ := ih hs; exact ⟨e', .randOperandNum h1, h2⟩
  | rollOperandNum _ ih => intro a b hs; obtain ⟨e', h1, h2⟩ := ih hs; exact ⟨e', .rollOperandNum h1, h2⟩
  | primNum _ ih => intro a b hs; obtain ⟨e', h1, h2⟩ := ih hs; exact ⟨e', .primNum h1, h2⟩
  | rollOperandRand _ ih => intro a b hs; obtain ⟨e', h1, h2⟩ := ih hs; exact ⟨e', .rollOperandRand h1, h2⟩
  | primDice _ ih => intro a b hs; obtain ⟨e', h1, h2⟩ := ih hs; exact ⟨e', .primDice h1, h2⟩
  | mulPrim _ ih => intro a b hs; obtain ⟨e', h1, h2⟩ := ih hs; exact ⟨e', .mulPrim h1, h2⟩
  | addMul _ ih => intro a b hs; obtain ⟨e', h1, h2⟩ := ih hs; exact ⟨e', .addMul h1, h2⟩
  | primRand hk _ ih => intro a b hs; obtain ⟨e', h1, h2⟩ := ih hs; exact ⟨e', .primRand hk h1, h2⟩
  | paren h ih =>
    intro a b hs
    rcases split_outer h.balanced hm hs with ⟨rfl, rfl, rfl⟩ | ⟨a', b', h1, rfl, rfl⟩
    · obtain ⟨e', h2, h3⟩ := hr _ _ h
      exact ⟨e', by simpa using Der.paren h2, h3⟩
    · obtain ⟨e', h2, h3⟩ := ih h1
      exact ⟨e', by simpa using Der.paren h2, h3⟩
  | randOperandParen h ih =>
    intro a b hs
    rcases split_outer h.balanced hm hs with ⟨rfl, rfl, rfl⟩ | ⟨a', b', h1, rfl, rfl⟩
    · obtain ⟨e', h2, h3⟩ := hr _ _ h
      exact ⟨e', by simpa using Der.randOperandParen h2, h3⟩
    · obtain ⟨e', h2, h3⟩ := ih h1
      exact ⟨e', by simpa using Der.randOperandParen h2, h3⟩
  | rollOperandParen h ih =>
    intro a b hs
    rcases split_outer h.balanced hm hs with ⟨rfl, rfl, rfl⟩ | ⟨a', b', h1, rfl, rfl⟩
    · obtain ⟨e', h2, h3⟩ := hr _ _ h
      exact ⟨e', by simpa using Der.rollOperandParen h2, h3⟩
    · obtain ⟨e', h2, h3⟩ := ih h1
      exact ⟨e', by simpa using Der.rollOperandParen h2, h3⟩
  | plus _ ih =>
    intro a b hs
    rcases split_block (s := []) (sep := chars!"+") .nil hm (by decide) (by simpa using hs) with ⟨b', h1, -⟩ | ⟨a', h1, rfl⟩
    · simp at h1
    · obtain ⟨e', h2, h3⟩ := ih h1
      exact ⟨e', by simpa using Der.plus h2, h3⟩
  | minus _ ih =>
    intro a b hs
    rcases split_block (s := []) (sep := chars!"-") .nil hm (by decide) (by simpa using hs) with ⟨b', h1, -⟩ | ⟨a', h1, rfl⟩
    · simp at h1
    · obtain ⟨e', h2, h3⟩ := ih h1
      exact ⟨.neg e', by simpa using Der.minus h2, .neg h3⟩
  | mulMul hl hr' ihl ihr =>
    intro a b hs
    rcases split_block hl.balanced hm (by decide) hs with ⟨b', h1, rfl⟩ | ⟨a', h1, rfl⟩
    · obtain ⟨e', h2, h3⟩ := ihl h1
      exact ⟨_, by simpa using Der.mulMul h2 hr', .bin .mul h3 (.refl _)⟩
    · obtain ⟨e', h2, h3⟩ := ihr h1
      exact ⟨_, by simpa using Der.mulMul hl h2, .bin .mul (.refl _) h3⟩
  | mulDiv hl hr' ihl ihr =>
    intro a b hs
    rcases split_block hl.balanced hm (by decide) hs with ⟨b', h1, rfl⟩ | ⟨a', h1, rfl⟩
    · obtain ⟨e', h2, h3⟩ := ihl h1
      exact ⟨_, by simpa using Der.mulDiv h2 hr', .div .down h3 (.refl _)⟩
    · obtain ⟨e', h2, h3⟩ := ihr h1
      exact ⟨_, by simpa using Der.mulDiv hl h2, .div .down (.refl _) h3⟩
  | addAdd hl hr' ihl ihr =>
    intro a b hs
    rcases split_block hl.balanced hm (by decide) hs with ⟨b', h1, rfl⟩ | ⟨a', h1, rfl⟩
    · obtain ⟨e', h2, h3⟩ := ihl h1
      exact ⟨_, by simpa using Der.addAdd h2 hr', .bin .add h3 (.refl _)⟩
    · obtain ⟨e', h2, h3⟩ := ihr h1
      exact ⟨_, by simpa using Der.addAdd hl h2, .bin .add (.refl _) h3⟩
  | addSub hl hr' ihl ihr =>
    intro a b hs
    rcases split_block hl.balanced hm (by decide) hs with ⟨b', h1, rfl⟩ | ⟨a', h1, rfl⟩
    · obtain ⟨e', h2, h3⟩ := ihl h1
      exact ⟨_, by simpa using Der.addSub h2 hr', .bin .sub h3 (.refl _)⟩
    · obtain ⟨e', h2, h3⟩ := ihr h1
      exact ⟨_, by simpa using Der.addSub hl h2, .bin .sub (.refl _) h3⟩
  | @mulDivUp k s t l r u hu hl hr' ihl ihr =>
    intro a b hs
    have hu' : '(' ∉ [u] := by rcases hu with rfl | rfl <;> decide
    rcases split_block (sep := chars!"/") (t := t ++ [u]) hl.balanced hm (by decide) (by simpa using hs) with
      ⟨b', h1, rfl⟩ | ⟨a', h1, rfl⟩
    · obtain ⟨e', h2, h3⟩ := ihl h1
      exact ⟨_, by simpa using Der.mulDivUp hu h2 hr', .div .up h3 (.refl _)⟩
    · rcases split_block (t := []) hr'.balanced hm hu' (by simpa using h1) with ⟨b', h2, rfl⟩ | ⟨a', h2, -⟩
      · obtain ⟨e', h3, h4⟩ := ihr h2
        exact ⟨_, by simpa using Der.mulDivUp hu hl h3, .div .up (.refl _) h4⟩
      · simp at h2
  | @mulDivRound k s t l r u hu hl hr' ihl ihr =>
    intro a b hs
    have hu' : '(' ∉ [u] := by rcases hu with rfl | rfl <;> decide
    rcases split_block (sep := chars!"/") (t := t ++ [u]) hl.balanced hm (by decide) (by simpa using hs) with
      ⟨b', h1, rfl⟩ | ⟨a', h1, rfl⟩
    · obtain ⟨e', h2, h3⟩ := ihl h1
      exact ⟨_, by simpa using Der.mulDivRound hu h2 hr', .div .round h3 (.refl _)⟩
    · rcases split_block (t := []) hr'.balanced hm hu' (by simpa using h1) with ⟨b', h2, rfl⟩ | ⟨a', h2, -⟩
      · obtain ⟨e', h3, h4⟩ := ihr h2
        exact ⟨_, by simpa using Der.mulDivRound hu hl h3, .div .round (.refl _) h4⟩
      · simp at h2
  | @dRoll a0 b0 x y d hd hl hr' ihl ihr =>
    intro a b hs
    rcases split_block (sep := [d]) hl.balanced hm (by rcases hd with rfl | rfl <;> decide) hs with ⟨b', h1, rfl⟩ | ⟨a', h1, rfl⟩
    · obtain ⟨e', h2, h3⟩ := ihl h1
      exact ⟨_, by simpa using Der.dRoll hd h2 hr', .var .d trivial h3 (.refl _)⟩
    · obtain ⟨e', h2, h3⟩ := ihr h1
      exact ⟨_, by simpa using Der.dRoll hd hl h2, .var .d trivial (.refl _) h3⟩
  | @randNum a0 b0 x y hl hr' ihl ihr =>
    intro a b hs
    rcases split_block (s := []) (sep := chars!"[") (t := a0 ++ chars!"..." ++ b0 ++ chars!"]") .nil hm (by decide)
      (by simpa using hs) with ⟨b', h1, -⟩ | ⟨a', h1, rfl⟩
    · simp at h1
    · rcases split_block (sep := chars!"...") (t := b0 ++ chars!"]") hl.balanced hm (by decide) (by simpa using h1) with
        ⟨b', h2, rfl⟩ | ⟨a2, h2, rfl⟩
      · obtain ⟨e', h3, h4⟩ := ihl h2
        exact ⟨_, by simpa using Der.randNum h3 hr', .var .rand trivial h4 (.refl _)⟩
      · rcases split_block (t := []) (sep := chars!"]") hr'.balanced hm (by decide) (by simpa using h2) with ⟨b', h3, rfl⟩ | ⟨a3, h3, -⟩
        · obtain ⟨e', h4, h5⟩ := ihr h3
          exact ⟨_, by simpa using Der.randNum hl h4, .var .rand trivial (.refl _) h5⟩
        · simp at h3

theorem SameRolls.refl : ∀ rs : List Roll, SameRolls rs rs
  | [] => .nil
  | _ :: rs => .cons (.refl _) (.refl _) (.refl rs)

theorem roll_recalc {letters : Char × Char} (hl : '(' ≠ letters.1 ∧ '(' ≠ letters.2) {s : Str} {r : Roll}
    (h : RollText letters s r) (hm : Balanced m) (hr : Recalculates w m) {a b : Str}
    (hs : s = a ++ chars!"(" ++ m ++ chars!")" ++ b) : ∃ r', RollText letters (a ++ chars!"(" ++ w ++ chars!")" ++ b) r' ∧
      r.num.Same True r'.num ∧ r.sides.Same True r'.sides := by
  obtain ⟨x, y, l, rfl, hl', hx, hy⟩ := h
  rcases split_block (sep := [l]) hx.balanced hm (by
    rw [List.mem_singleton]
    rcases hl' with rfl | rfl
    · exact hl.1
    · exact hl.2) hs with ⟨b', h1, rfl⟩ | ⟨a', h1, rfl⟩
  · obtain ⟨e', h2, h3⟩ := der_recalc hx hm hr h1
    exact ⟨⟨e', r.sides⟩, ⟨a ++ chars!"(" ++ w ++ chars!")" ++ b', y, l, by simp, hl', h2, hy⟩, h3, .refl _⟩
  · obtain ⟨e', h2, h3⟩ := der_recalc hy hm hr h1
    exact ⟨⟨r.num, e'⟩, ⟨x, a' ++ chars!"(" ++ w ++ chars!")" ++ b, l, by simp, hl', hx, h2⟩, .refl _, h3⟩

theorem rolls_recalc {letters : Char × Char} (hl : Plain2 letters) {s : Str}
    {rs : List Roll} (h : RollsText letters s rs) (hm : Balanced m) (hr : Recalculates w m) : ∀ {a b : Str},
    s = a ++ chars!"(" ++ m ++ chars!")" ++ b →
      ∃ rs', RollsText letters (a ++ chars!"(" ++ w ++ chars!")" ++ b) rs' ∧ SameRolls rs rs' := by
  have hl' : '(' ≠ letters.1 ∧ '(' ≠ letters.2 := ⟨hl.1.1.symm, hl.2.1.symm⟩
  induction h with
  | one h =>
    intro a b hs
    obtain ⟨r', h1, h2, h3⟩ := roll_recalc hl' h hm hr hs
    exact ⟨[r'], .one h1, .cons h2 h3 .nil⟩
  | cons h1 h2 ih =>
    intro a b hs
    rcases split_block (sep := chars!"+") (h1.balanced hl) hm (by decide) hs with ⟨b', h3, rfl⟩ | ⟨a', h3, rfl⟩
    · obtain ⟨r', h4, h5, h6⟩ := roll_recalc hl' h1 hm hr h3
      exact ⟨_, by simpa using RollsText.cons h4 h2, .cons h5 h6 (.refl _)⟩
    · obtain ⟨rs', h4, h5⟩ := ih h3
      exact ⟨_, by simpa using RollsText.cons h1 h4, .cons (.refl _) (.refl _) h5⟩

theorem SameOption.refl : ∀ t : Option Expr, SameOption t t
  | Option.none => .none
  | Option.some _ => .some (.refl _)

theorem rRolls_recalc {letters : Char × Char} (hl : Plain2 letters) {s : Str}
    {rl : RRollList} (h : RRollsText letters s rl) (hm : Balanced m) (hr : Recalculates w m) {a b : Str}
    (hs : s = a ++ chars!"(" ++ m ++ chars!")" ++ b) :
    ∃ rl', RRollsText letters (a ++ chars!"(" ++ w ++ chars!")" ++ b) rl' ∧ SameRList rl rl' := by
  obtain ⟨x, y, rfl, hx, hy⟩ := h
  obtain ⟨rs, th⟩ := rl
  simp only at hx hy
  cases hy with
  | absent =>
    obtain ⟨rs', h1, h2⟩ := rolls_recalc hl hx hm hr (a := a) (b := b) (by simpa using hs)
    exact ⟨⟨rs', none⟩, ⟨a ++ chars!"(" ++ w ++ chars!")" ++ b, [], by simp, h1, .absent⟩, h2, .none⟩
  | @given t e he =>
    rcases split_block (sep := chars!"[") (t := t ++ chars!"]") (hx.balanced hl) hm (by decide) (by simpa using hs) with
      ⟨b', h1, rfl⟩ | ⟨a', h1, rfl⟩
    · obtain ⟨rs', h2, h3⟩ := rolls_recalc hl hx hm hr h1
      exact ⟨⟨rs', some e⟩, ⟨a ++ chars!"(" ++ w ++ chars!")" ++ b', chars!"[" ++ t ++ chars!"]", by simp, h2, .given he⟩, h3, .refl _⟩
    · rcases split_block (t := []) (sep := chars!"]") he.balanced hm (by decide) (by simpa using h1) with ⟨b', h2, rfl⟩ | ⟨a2, h2, -⟩
      · obtain ⟨e', h3, h4⟩ := der_recalc he hm hr h2
        exact ⟨⟨rs, some e'⟩, ⟨x, chars!"[" ++ (a' ++ chars!"(" ++ w ++ chars!")" ++ b') ++ chars!"]", by simp, hx, .given h3⟩,
          .refl _, .some h4⟩
      · simp at h2

theorem SameBonus.refl : ∀ t : Option (Sign × Expr), SameBonus t t
  | Option.none => .none
  | Option.some (s, _) => .some s (.refl _)

theorem SameRList.refl (a : RRollList) : SameRList a a := ⟨.refl _, .refl _⟩

theorem uRoll_recalc {s : Str} {u : URollExpr} (h : URollText s u) (hm : Balanced m) (hr : Recalculates w m) {a b : Str}
    (hs : s = a ++ chars!"(" ++ m ++ chars!")" ++ b) :
    ∃ u', URollText (a ++ chars!"(" ++ w ++ chars!")" ++ b) u' ∧ SameU u u' := by
  obtain ⟨x, y, rfl, hx, hy⟩ := h
  obtain ⟨rl, bo⟩ := u
  simp only at hx hy
  have hb := RRollsText.balanced (by decide) hx
  cases hy with
  | absent =>
    obtain ⟨rl', h1, h2⟩ := rRolls_recalc (by decide) hx hm hr (a := a) (b := b) (by simpa using hs)
    exact ⟨⟨rl', none⟩, ⟨a ++ chars!"(" ++ w ++ chars!")" ++ b, [], by simp, h1, .absent⟩, h2, .none⟩
  | @plus t e he =>
    rcases split_block (sep := chars!"+") (t := t) hb hm (by decide) (by simpa using hs) with ⟨b', h1, rfl⟩ | ⟨a', h1, rfl⟩
    · obtain ⟨rl', h2, h3⟩ := rRolls_recalc (by decide) hx hm hr h1
      exact ⟨⟨rl', some (.plus, e)⟩, ⟨a ++ chars!"(" ++ w ++ chars!")" ++ b', chars!"+" ++ t, by simp, h2, .plus he⟩, h3, .refl _⟩
    · obtain ⟨e', h2, h3⟩ := der_recalc he hm hr h1
      exact ⟨⟨rl, some (.plus, e')⟩, ⟨x, chars!"+" ++ (a' ++ chars!"(" ++ w ++ chars!")" ++ b), by simp, hx, .plus h2⟩, .refl _, .some _ h3⟩
  | @minus t e he =>
    rcases split_block (sep := chars!"-") (t := t) hb hm (by decide) (by simpa using hs) with ⟨b', h1, rfl⟩ | ⟨a', h1, rfl⟩
    · obtain ⟨rl', h2, h3⟩ := rRolls_recalc (by decide) hx hm hr h1
      exact ⟨⟨rl', some (.minus, e)⟩, ⟨a ++ chars!"(" ++ w ++ chars!")" ++ b', chars!"-" ++ t, by simp, h2, .minus he⟩, h3, .refl _⟩
    · obtain ⟨e', h2, h3⟩ := der_recalc he hm hr h1
      exact ⟨⟨rl, some (.minus, e')⟩, ⟨x, chars!"-" ++ (a' ++ chars!"(" ++ w ++ chars!")" ++ b), by simp, hx, .minus h2⟩, .refl _, .some _ h3⟩

/-- The left side of a comparison, or the right one. -/
theorem compare_recalc {α : Type} {P : Str → α → Prop} {S : α → α → Prop} (hS : ∀ x, S x x) {s t : Str} {x : α} {op : CmpOp} {e : Expr}
    {a b : Str}
    (hP : ∀ {b' : Str}, s = a ++ chars!"(" ++ m ++ chars!")" ++ b' → ∃ x', P (a ++ chars!"(" ++ w ++ chars!")" ++ b') x' ∧ S x x')
    (h0 : P s x) (hb : Balanced s) (ht : CompareText t op e) (hm : Balanced m) (hr : Recalculates w m)
    (hs : s ++ t = a ++ chars!"(" ++ m ++ chars!")" ++ b) :
    ∃ s' t' x' e', a ++ chars!"(" ++ w ++ chars!")" ++ b = s' ++ t' ∧ P s' x' ∧ CompareText t' op e' ∧ S x x' ∧ e.Same True e' := by
  cases ht with
  | @mk t _ _ he =>
    rcases split_block (sep := op.str) (t := t) hb hm (by cases op <;> decide) (by simpa using hs) with
      ⟨b', h1, rfl⟩ | ⟨a', h1, rfl⟩
    · obtain ⟨x', h2, h3⟩ := hP h1
      exact ⟨a ++ chars!"(" ++ w ++ chars!")" ++ b', op.str ++ t, x', e, by simp, h2, .mk he, h3, .refl _⟩
    · obtain ⟨e', h2, h3⟩ := der_recalc he hm hr h1
      exact ⟨s, op.str ++ (a' ++ chars!"(" ++ w ++ chars!")" ++ b), x, e', by simp, h0, .mk h2, hS x, h3⟩

theorem command_recalc {s : Str} {n : Node} (h : CommandText s n) (hc : n.isChoice = false) (hm : Balanced m)
    (hr : Recalculates w m) {a b : Str} (hs : s = a ++ chars!"(" ++ m ++ chars!")" ++ b) :
    ∃ n', CommandText (a ++ chars!"(" ++ w ++ chars!")" ++ b) n' ∧ SameNode n n' := by
  cases h with
  | choice => simp [Node.isChoice] at hc
  | @«calc» t rest e c hc' he =>
    have hcd : '(' ∉ [c] := by rcases hc' with rfl | rfl <;> decide
    rcases split_block (s := []) (sep := [c]) (t := chars!"(" ++ t ++ chars!")" ++ rest) .nil hm hcd (by simpa using hs) with
      ⟨b', h1, -⟩ | ⟨a1, h1, rfl⟩
    · simp at h1
    rcases split_block (s := chars!"(" ++ t ++ chars!")") (sep := []) (t := rest) he.balanced.wrap hm (by decide)
      (by simpa using h1) with ⟨b', h2, rfl⟩ | ⟨a', h2, rfl⟩
    · rcases split_outer he.balanced hm h2 with ⟨rfl, rfl, rfl⟩ | ⟨a', b2, h3, rfl, rfl⟩
      · obtain ⟨e', h4, h5⟩ := hr _ _ he
        exact ⟨_, by simpa using CommandText.calc (rest := rest) hc' h4, .calc h5⟩
      · obtain ⟨e', h4, h5⟩ := der_recalc he hm hr h3
        exact ⟨_, by simpa using CommandText.calc (rest := rest) hc' h4, .calc h5⟩
    · exact ⟨_, by simpa using CommandText.calc (rest := a' ++ chars!"(" ++ w ++ chars!")" ++ b) hc' he, .calc (.refl _)⟩
  | bRollList h => obtain ⟨_, h1, h2⟩ := rolls_recalc (by decide) h hm hr hs; exact ⟨_, .bRollList h1, .bRollList h2⟩
  | rRollList h => obtain ⟨_, h1, h2⟩ := rRolls_recalc (by decide) h hm hr hs; exact ⟨_, .rRollList h1, .rRollList h2⟩
  | uRollExpr h => obtain ⟨_, h1, h2⟩ := uRoll_recalc h hm hr hs; exact ⟨_, .uRollExpr h1, .uRollExpr h2⟩
  | dRollExpr h hx =>
    obtain ⟨_, h1, h2⟩ := der_recalc h hm hr hs
    exact ⟨_, .dRollExpr h1 (h2.rands ▸ hx), .dRollExpr h2⟩
  | bRollComp h ht =>
    obtain ⟨s', t', x', e', h1, h2, h3, h4, h5⟩ := compare_recalc (P := RollsText ('B', 'b')) (S := SameRolls) .refl
      (rolls_recalc (by decide) h hm hr) h (RollsText.balanced (by decide) h) ht hm hr hs
    exact ⟨_, h1 ▸ .bRollComp h2 h3, .bRollComp _ h4 h5⟩
  | rRollComp h ht =>
    obtain ⟨s', t', x', e', h1, h2, h3, h4, h5⟩ := compare_recalc (P := RRollsText ('R', 'r')) (S := SameRList) .refl
      (rRolls_recalc (by decide) h hm hr) h (RRollsText.balanced (by decide) h) ht hm hr hs
    exact ⟨_, h1 ▸ .rRollComp h2 h3, .rRollComp _ h4 h5⟩
  | uRollComp h ht =>
    obtain ⟨s', t', x', e', h1, h2, h3, h4, h5⟩ := compare_recalc (P := URollText) (S := SameU) (fun x => ⟨.refl _, .refl _⟩)
      (uRoll_recalc h hm hr) h h.balanced ht hm hr hs
    exact ⟨_, h1 ▸ .uRollComp h2 h3, .uRollComp _ h4 h5⟩
  | dRollComp h hx ht =>
    obtain ⟨s', t', x', e', h1, h2, h3, h4, h5⟩ := compare_recalc (P := Der (.add .dice)) (S := Expr.Same True) .refl
      (der_recalc h hm hr) h h.balanced ht hm hr hs
    exact ⟨_, h1 ▸ .dRollComp h2 (h4.rands ▸ hx) h3, .dRollComp _ h4 h5 hx⟩

end

/-- Where an expression may contain fewer kinds of atoms, it may contain more. -/
theorem Der.widenTo {nt : NT} {s : Str} {e : Expr} (h : Der nt s e) (f : Kind → Kind) (h1 : ∀ k, k ≠ .int → f k ≠ .int)
    (h2 : f .dice = .dice) : Der (match nt with
      | .prim k => .prim (f k)
      | .mul k => .mul (f k)
      | .add k => .add (f k)
      | nt => nt) s e := by
  induction h with
  | number a b => exact .number a b
  | randOperandNum h => exact .randOperandNum h
  | randOperandParen h => exact .randOperandParen h
  | randNum h h' => exact .randNum h h'
  | rollOperandNum h => exact .rollOperandNum h
  | rollOperandRand h => exact .rollOperandRand h
  | rollOperandParen h => exact .rollOperandParen h
  | dRoll h a b => exact .dRoll h a b
  | primNum h => exact .primNum h
  | primRand hk h => exact .primRand (h1 _ hk) h
  | primDice h =>
    simp only [h2]
    exact .primDice h
  | plus _ ih => exact .plus ih
  | minus _ ih => exact .minus ih
  | paren _ ih => exact .paren ih
  | mulPrim _ ih => exact .mulPrim ih
  | mulMul _ _ i j => exact .mulMul i j
  | mulDiv _ _ i j => exact .mulDiv i j
  | mulDivUp hu _ _ i j => exact .mulDivUp hu i j
  | mulDivRound hu _ _ i j => exact .mulDivRound hu i j
  | addMul _ ih => exact .addMul ih
  | addAdd _ _ i j => exact .addAdd i j
  | addSub _ _ i j => exact .addSub i j

/-- Whatever kinds of atoms are allowed, the tree is the same. -/
theorem Der.kinds {k k' : Kind} {s : Str} {e e' : Expr} (h : Der (.add k) s e) (h' : Der (.add k') s e') : e = e' := by
  have up : ∀ {k : Kind} {e : Expr}, Der (.add k) s e →
      CommandText (s ++ chars!"+" ++ (chars!"1" ++ ['D'] ++ chars!"1")) (.dRollExpr (.bin .add e (.var .d (.int 1) (.int 1)))) := by
    intro k e h
    refine .dRollExpr (.addAdd (h.widenTo (fun _ => .dice) (fun _ _ => by simp) rfl) (.mulPrim (.primDice (.dRoll (.inl rfl)
      (.rollOperandNum (.number (by simp) (by decide))) (.rollOperandNum (.number (by simp) (by decide))))))) ?_
    simp [Expr.rands]
  have := C27_unambiguous _ _ _ (up h) (up h')
  simpa using this

/-- A text in parentheses ends with the parenthesis that closes the first. -/
theorem wrap_unique {t rest m : Str} (ht : Balanced t) (hm : Balanced m)
    (he : chars!"(" ++ t ++ chars!")" ++ rest = chars!"(" ++ m ++ chars!")") : t = m := by
  rcases split_outer (a := []) (b := []) hm hm (by simp) with ⟨-, -, -⟩ | ⟨a', b', h, h2, -⟩
  · rcases split_block (s := chars!"(" ++ t ++ chars!")") (sep := []) (t := rest) ht.wrap hm (by simp) (a := []) (b := [])
      (by simpa using he) with ⟨b', h1, h2⟩ | ⟨a', h1, h2⟩
    · rcases split_outer (a := []) ht hm (by simpa using h1) with ⟨-, -, h⟩ | ⟨a', b'', h, h2, -⟩
      · exact h
      · simp at h2
    · simp at h2
  · simp at h2

/-- What `C(m)` answers. -/
theorem calc_value {σ : Type} {F : DieFeeder σ} {g m : Str} {f f' : σ} {r : Result} (hm : Balanced m)
    (h : executeBasicCommand F g (chars!"C(" ++ m ++ chars!")") f = (.ok r, f')) :
    ∃ e v, Der (.add .int) m e ∧ e.Const v ∧ r.parts.getLast? = some (intStr v) := by
  obtain ⟨node, ds, ht, ho, -⟩ := executeBasicCommand_ok_text.mp h
  have nostart : ∀ {nt : NT} {s t : Str} {e : Expr}, Der nt s e → s ++ t = chars!"C(" ++ m ++ chars!")" → False := by
    intro nt s t e h he
    obtain ⟨x, s', rfl, hx⟩ := h.start
    simp only [List.cons_append, List.nil_append, List.cons.injEq] at he
    rw [he.1] at hx
    revert hx
    decide
  have noroll : ∀ {letters : Char × Char} {s t : Str} {rs : List Roll}, RollsText letters s rs →
      s ++ t = chars!"C(" ++ m ++ chars!")" → False := by
    intro letters s t rs h he
    cases h with
    | one h => obtain ⟨a, b, l, rfl, -, h, -⟩ := h; exact nostart h (by simpa using he)
    | cons h => obtain ⟨a, b, l, rfl, -, h, -⟩ := h; exact nostart h (by simpa using he)
  generalize hs : chars!"C(" ++ m ++ chars!")" = s at ht
  cases ht with
  | @choice kw body seps rest items hk =>
    exfalso
    cases kw with
    | nil => exact hk
    | cons x kw =>
      cases kw with
      | nil => exact hk.2
      | cons y kw =>
        have h1 := hk.2.1
        simp only [List.cons_append, List.nil_append, List.cons.injEq] at hs
        rw [← hs.2.1] at h1
        rcases h1 with h1 | ⟨h1, h2, -⟩ | ⟨h1, -⟩
        · revert h1; decide
        · revert h2; decide
        · revert h1; decide
  | @«calc» t rest e c hc he =>
    have : t = m := by
      refine wrap_unique (rest := rest) he.balanced hm ?_
      simp only [List.cons_append, List.nil_append, List.append_assoc, List.cons.injEq] at hs ⊢
      exact ⟨trivial, hs.2.2.symm⟩
    subst this
    cases ho with
    | @«calc» _ ds v hv =>
      have hp : e.isVariable = false := by
          cases hvar : e.isVariable with
        | false => rfl
        | true =>
          exfalso
          have hsh := he.shape
          simp only [NT.ShapeOf] at hsh
          clear he hv h hs
          induction e with
          | int _ => cases hvar
          | sumRoll _ => cases hvar
          | neg r ih => exact ih hvar hsh
          | bin _ l r i j =>
            simp only [Expr.isVariable, Bool.or_eq_true] at hvar
            exact hvar.elim (fun h => i h hsh.1) (fun h => j h hsh.2)
          | div _ l r i j =>
            simp only [Expr.isVariable, Bool.or_eq_true] at hvar
            exact hvar.elim (fun h => i h hsh.1) (fun h => j h hsh.2)
          | var k l r => cases k <;> simp [Expr.Shape] at hsh
      refine ⟨e, v, he, ⟨hp, ?_⟩, rfl⟩
      intro τ E s
      have h0 := hv.no_dice hp
      subst h0
      exact (realizes_eval E e s s v).mpr ⟨[], hv, .nil _, by simp⟩
  | bRollList h => exact (noroll (t := []) h (by simpa using hs.symm)).elim
  | bRollComp h => exact (noroll h hs.symm).elim
  | rRollList h => obtain ⟨a, b, rfl, h, -⟩ := h; exact (noroll h (by simpa using hs.symm)).elim
  | rRollComp h => obtain ⟨a, b, rfl, h, -⟩ := h; exact (noroll h (by simpa using hs.symm)).elim
  | uRollExpr h => obtain ⟨a, b, rfl, ⟨c, d, rfl, h, -⟩, -⟩ := h; exact (noroll h (by simpa using hs.symm)).elim
  | uRollComp h => obtain ⟨a, b, rfl, ⟨c, d, rfl, h, -⟩, -⟩ := h; exact (noroll h (by simpa using hs.symm)).elim
  | dRollExpr h => exact (nostart (t := []) h (by simpa using hs.symm)).elim
  | dRollComp h => exact (nostart h hs.symm).elim

theorem by_hand_text {σ τ : Type} {F : DieFeeder σ} {F' : DieFeeder τ} {g g' a m w b : Str} {f f1 : σ} {f' f1' : τ} {n : Node} {r r' : Result}
    (hm : Balanced m) (hw : Balanced w)
    (h1 : executeBasicCommand F g (chars!"C(" ++ m ++ chars!")") f = (.ok r, f1))
    (h2 : executeBasicCommand F' g' (chars!"C(" ++ w ++ chars!")") f' = (.ok r', f1'))
    (hv : r.parts.getLast? = r'.parts.getLast?)
    (hn : parse (a ++ chars!"(" ++ m ++ chars!")" ++ b) = some n) (hc : n.isChoice = false) :
    ∃ n', parse (a ++ chars!"(" ++ w ++ chars!")" ++ b) = some n' ∧ SameNode n n' := by
  obtain ⟨e, v, d1, c1, p1⟩ := calc_value hm h1
  obtain ⟨e', v', d2, c2, p2⟩ := calc_value hw h2
  rw [p1, p2] at hv
  obtain rfl := intStr_inj (Option.some.inj hv)
  obtain ⟨n', h3, h4⟩ := command_recalc ((parse_iff _ _).mp hn) hc hm (w := w) (fun k x hx => by
    obtain rfl := hx.kinds d1
    exact ⟨e', Der.widen d2 k rfl, .const c1 c2⟩) rfl
  exact ⟨n', (parse_iff _ _).mpr h3, h4⟩

/-- **C112.** If `C(m)` and `C(w)` give the same value, then `(w)` may stand for `(m)` in every command but a choice, anywhere: as
a number of dice or sides, as a threshold, a bonus, a target, a bound of a random number, a part of a larger calculation. From the same feeder
the same dice are drawn, the answer has the same dice, success and values, the feeder is left in the same state, and what
fails fails alike. Comparisons of a single D roll are excepted (see C112_single_needed). -/
theorem C112_by_hand {σ τ τ' : Type} (F : DieFeeder σ) (F₁ : DieFeeder τ) (F₂ : DieFeeder τ') (g g₁ g₂ a m w b : Str)
    (f₁ f₁' : τ) (f₂ f₂' : τ') (r₁ r₂ : Result) (n : Node) (hm : Balanced m) (hw : Balanced w)
    (h₁ : executeBasicCommand F₁ g₁ (chars!"C(" ++ m ++ chars!")") f₁ = (.ok r₁, f₁'))
    (h₂ : executeBasicCommand F₂ g₂ (chars!"C(" ++ w ++ chars!")") f₂ = (.ok r₂, f₂'))
    (hv : r₁.parts.getLast? = r₂.parts.getLast?)
    (hn : parse (a ++ chars!"(" ++ m ++ chars!")" ++ b) = some n) (hc : n.isChoice = false) (hs : n.isSingleRollComp = false)
    (f : σ) :
    AlikeAnswers (executeBasicCommand F g (a ++ chars!"(" ++ m ++ chars!")" ++ b) f).1
      (executeBasicCommand F g (a ++ chars!"(" ++ w ++ chars!")" ++ b) f).1 ∧
    (executeBasicCommand F g (a ++ chars!"(" ++ m ++ chars!")" ++ b) f).2 =
      (executeBasicCommand F g (a ++ chars!"(" ++ w ++ chars!")" ++ b) f).2 := by
  obtain ⟨n', hn', h⟩ := by_hand_text hm hw h₁ h₂ hv hn hc
  have hx := h.alike (newEvaluator F) hs g ⟨f, []⟩
  simp only [executeBasicCommand, hn, hn', runFresh]
  rcases hx with ⟨r, r', s, e1, e2, h3⟩ | ⟨e1, h3⟩
  · rw [e1, e2]
    exact ⟨.ok h3, rfl⟩
  · rw [← e1]
    refine ⟨?_, rfl⟩
    rcases ho : (newEvaluator F).execute g n ⟨f, []⟩ with ⟨o, s⟩
    rw [ho] at h3
    cases o with
    | ok r => exact (h3 r rfl).elim
    | err m => exact .err m
    | panic m => exact .panic m

/-- **C112.** In B, R and U commands nothing at all tells which of the two was written. -/
theorem C112_rolls {σ τ τ' : Type} (F : DieFeeder σ) (F₁ : DieFeeder τ) (F₂ : DieFeeder τ') (g g₁ g₂ a m w b : Str)
    (f₁ f₁' : τ) (f₂ f₂' : τ') (r₁ r₂ : Result) (n : Node) (hm : Balanced m) (hw : Balanced w)
    (h₁ : executeBasicCommand F₁ g₁ (chars!"C(" ++ m ++ chars!")") f₁ = (.ok r₁, f₁'))
    (h₂ : executeBasicCommand F₂ g₂ (chars!"C(" ++ w ++ chars!")") f₂ = (.ok r₂, f₂'))
    (hv : r₁.parts.getLast? = r₂.parts.getLast?)
    (hn : parse (a ++ chars!"(" ++ m ++ chars!")" ++ b) = some n) (hc : n.showsValues = true) (f : σ) :
    executeBasicCommand F g (a ++ chars!"(" ++ m ++ chars!")" ++ b) f =
      executeBasicCommand F g (a ++ chars!"(" ++ w ++ chars!")" ++ b) f := by
  obtain ⟨n', hn', h⟩ := by_hand_text hm hw h₁ h₂ hv hn (by cases n <;> first | rfl | cases hc)
  simp only [executeBasicCommand, hn, hn']
  rw [h.execute (newEvaluator F) g (by cases n <;> first | trivial | cases hc)]

/-- A sign of a comparison. -/
def isCompareSign (c : Char) : Bool := c == '=' || c == '<' || c == '>'

theorem Der.noSign {nt : NT} {s : Str} {e : Expr} (h : Der nt s e) : ∀ c ∈ s, isCompareSign c = false := by
  induction h with
  | number _ hd =>
    intro c hc
    have := isDigit_iff'.mp (hd c hc)
    cases hx : isCompareSign c with
    | false => rfl
    | true =>
      exfalso
      simp only [isCompareSign, Bool.or_eq_true, beq_iff_eq] at hx
      rcases hx with (rfl | rfl) | rfl <;> (revert this; decide)
  | dRoll hd _ _ i j =>
    intro c hc
    simp only [List.mem_append, List.mem_singleton] at hc
    rcases hc with (hc | rfl) | hc
    · exact i c hc
    · rcases hd with rfl | rfl <;> decide
    · exact j c hc
  | mulDivUp hu _ _ i j =>
    intro c hc
    simp only [List.mem_append, List.mem_singleton] at hc
    rcases hc with ((hc | rfl) | hc) | rfl
    · exact i c hc
    · decide
    · exact j c hc
    · rcases hu with rfl | rfl <;> decide
  | mulDivRound hu _ _ i j =>
    intro c hc
    simp only [List.mem_append, List.mem_singleton] at hc
    rcases hc with ((hc | rfl) | hc) | rfl
    · exact i c hc
    · decide
    · exact j c hc
    · rcases hu with rfl | rfl <;> decide
  | randNum _ _ i j =>
    intro c hc
    simp only [List.mem_append, List.mem_cons, List.not_mem_nil, or_false] at hc
    rcases hc with (((rfl | hc) | hc) | hc) | rfl
    · decide
    · exact i c hc
    · rcases hc with rfl | rfl | rfl <;> decide
    · exact j c hc
    · decide
  | mulMul _ _ i j | mulDiv _ _ i j | addAdd _ _ i j | addSub _ _ i j =>
    intro c hc
    simp only [List.mem_append, List.mem_singleton] at hc
    rcases hc with (hc | rfl) | hc
    · exact i c hc
    · decide
    · exact j c hc
  | plus _ ih | minus _ ih =>
    intro c hc
    simp only [List.mem_append, List.mem_singleton] at hc
    rcases hc with rfl | hc
    · decide
    · exact ih c hc
  | paren _ ih | randOperandParen _ ih | rollOperandParen _ ih =>
    intro c hc
    simp only [List.mem_append, List.mem_singleton] at hc
    rcases hc with (rfl | hc) | rfl
    · decide
    · exact ih c hc
    · decide
  | _ => assumption

/-- **C112.** Nor does anything tell it when `(m)` is part of the target of a D comparison, single rolls included. -/
theorem C112_target {σ τ τ' : Type} (F : DieFeeder σ) (F₁ : DieFeeder τ) (F₂ : DieFeeder τ') (g g₁ g₂ a m w b : Str)
    (f₁ f₁' : τ) (f₂ f₂' : τ') (r₁ r₂ : Result) (l r : Expr) (op : CmpOp) (hm : Balanced m) (hw : Balanced w)
    (h₁ : executeBasicCommand F₁ g₁ (chars!"C(" ++ m ++ chars!")") f₁ = (.ok r₁, f₁'))
    (h₂ : executeBasicCommand F₂ g₂ (chars!"C(" ++ w ++ chars!")") f₂ = (.ok r₂, f₂'))
    (hv : r₁.parts.getLast? = r₂.parts.getLast?)
    (hn : parse (a ++ chars!"(" ++ m ++ chars!")" ++ b) = some (.dRollComp l op r))
    (ha : ∃ c ∈ a, c = '=' ∨ c = '<' ∨ c = '>') (f : σ) :
    executeBasicCommand F g (a ++ chars!"(" ++ m ++ chars!")" ++ b) f =
      executeBasicCommand F g (a ++ chars!"(" ++ w ++ chars!")" ++ b) f := by
  obtain ⟨e, v, d1, c1, p1⟩ := calc_value hm h₁
  obtain ⟨e', v', d2, c2, p2⟩ := calc_value hw h₂
  rw [p1, p2] at hv
  obtain rfl := intStr_inj (Option.some.inj hv)
  have hr : Recalculates w m := fun k x hx => by
    obtain rfl := hx.kinds d1
    exact ⟨e', Der.widen d2 k rfl, .const c1 c2⟩
  have : ∃ r', parse (a ++ chars!"(" ++ w ++ chars!")" ++ b) = some (.dRollComp l op r') ∧ r.Same True r' := by
    have ht := (parse_iff _ _).mp hn
    generalize hs : a ++ chars!"(" ++ m ++ chars!")" ++ b = s at ht
    cases ht with
    | @dRollComp s t _ _ _ hl hx ht =>
      cases ht with
      | @mk t _ _ he =>
        rcases split_block (sep := op.str) (t := t) hl.balanced hm (by cases op <;> decide) (by simpa using hs.symm) with
          ⟨b', h1, rfl⟩ | ⟨a', h1, rfl⟩
        · obtain ⟨c, hc, hc'⟩ := ha
          have := hl.noSign c (by rw [h1]; simp [hc])
          simp [isCompareSign] at this
          rcases hc' with rfl | rfl | rfl <;> simp at this
        · obtain ⟨e', h2, h3⟩ := der_recalc he hm hr h1
          exact ⟨e', (parse_iff _ _).mpr (by simpa using CommandText.dRollComp hl hx (.mk h2)), h3⟩
  obtain ⟨r', hn', h⟩ := this
  simp only [executeBasicCommand, hn, hn', Evaluator.execute, Evaluator.executeDRollComp, Evaluator.evalVarArgsInDCompare, h.eval]

/-- `(7-5)B(10-4)>=(2*2)` and `(2)B(10-4)>=(2*2)`. -/
example (f : List Die) :
    executeBasicCommand queueFeeder chars!"DiceBot" (chars!"" ++ chars!"(" ++ chars!"7-5" ++ chars!")" ++ chars!"B(10-4)>=(2*2)") f =
      executeBasicCommand queueFeeder chars!"DiceBot" (chars!"" ++ chars!"(" ++ chars!"2" ++ chars!")" ++ chars!"B(10-4)>=(2*2)") f := by
  have h1 : ∃ r, executeBasicCommand queueFeeder chars!"DiceBot" (chars!"C(" ++ chars!"7-5" ++ chars!")") [] = (.ok r, []) ∧
      r.parts.getLast? = some chars!"2" := ⟨_, rfl, by decide⟩
  have h2 : ∃ r, executeBasicCommand queueFeeder chars!"DiceBot" (chars!"C(" ++ chars!"2" ++ chars!")") [] = (.ok r, []) ∧
      r.parts.getLast? = some chars!"2" := ⟨_, rfl, by decide⟩
  obtain ⟨r1, h1, p1⟩ := h1
  obtain ⟨r2, h2, p2⟩ := h2
  have hn : ∃ n, parse (chars!"" ++ chars!"(" ++ chars!"7-5" ++ chars!")" ++ chars!"B(10-4)>=(2*2)") = some n ∧ n.showsValues = true := by
    refine ⟨_, rfl, ?_⟩
    decide
  obtain ⟨n, hn, hs⟩ := hn
  exact C112_rolls queueFeeder queueFeeder queueFeeder _ _ _ _ _ _ _ _ _ _ _ _ _ n (.plain (by decide)) (.plain (by decide)) h1 h2
    (p1.trans p2.symm) hn hs f

/-- `(1D6+(7-5))*(3)` and `2D6>=(7-5)`, with `2` for `7-5`. -/
example (f : List Die) :
    AlikeAnswers (executeBasicCommand queueFeeder chars!"DiceBot" (chars!"(1D6+" ++ chars!"(" ++ chars!"7-5" ++ chars!")" ++ chars!")*(3)") f).1
      (executeBasicCommand queueFeeder chars!"DiceBot" (chars!"(1D6+" ++ chars!"(" ++ chars!"2" ++ chars!")" ++ chars!")*(3)") f).1 ∧
    executeBasicCommand queueFeeder chars!"DiceBot" (chars!"2D6>=" ++ chars!"(" ++ chars!"7-5" ++ chars!")" ++ chars!"") f =
      executeBasicCommand queueFeeder chars!"DiceBot" (chars!"2D6>=" ++ chars!"(" ++ chars!"2" ++ chars!")" ++ chars!"") f := by
  have h1 : ∃ r, executeBasicCommand queueFeeder chars!"DiceBot" (chars!"C(" ++ chars!"7-5" ++ chars!")") [] = (.ok r, []) ∧
      r.parts.getLast? = some chars!"2" := ⟨_, rfl, by decide⟩
  have h2 : ∃ r, executeBasicCommand queueFeeder chars!"DiceBot" (chars!"C(" ++ chars!"2" ++ chars!")") [] = (.ok r, []) ∧
      r.parts.getLast? = some chars!"2" := ⟨_, rfl, by decide⟩
  obtain ⟨r1, h1, p1⟩ := h1
  obtain ⟨r2, h2, p2⟩ := h2
  have hn : ∃ n, parse (chars!"(1D6+" ++ chars!"(" ++ chars!"7-5" ++ chars!")" ++ chars!")*(3)") = some n ∧
      n.isChoice = false ∧ n.isSingleRollComp = false := ⟨_, rfl, by decide, by decide⟩
  have hn' : ∃ l op r, parse (chars!"2D6>=" ++ chars!"(" ++ chars!"7-5" ++ chars!")" ++ chars!"") = some (.dRollComp l op r) :=
    ⟨_, _, _, rfl⟩
  obtain ⟨n, hn, hc, hs⟩ := hn
  obtain ⟨l, op, r, hn'⟩ := hn'
  exact ⟨(C112_by_hand queueFeeder queueFeeder queueFeeder _ _ _ _ _ _ _ _ _ _ _ _ _ n (.plain (by decide)) (.plain (by decide)) h1 h2
    (p1.trans p2.symm) hn hc hs f).1, C112_target queueFeeder queueFeeder queueFeeder _ _ _ _ _ _ _ _ _ _ _ _ _ l r op (.plain (by decide))
    (.plain (by decide)) h1 h2 (p1.trans p2.symm) hn' ⟨'=', by decide, .inl rfl⟩ f⟩

/-- A single D roll in a comparison must have plain numbers (finding 2): `2D6>=7` is executed, `2D(3+3)>=7` is not, although the
latter is executed without the comparison. -/
theorem C112_single_needed :
    let dice : List Die := [⟨4, 6⟩, ⟨5, 6⟩]
    (∃ r, executeBasicCommand queueFeeder chars!"DiceBot" chars!"2D(6)>=7" dice = (.ok r, [])) ∧
    (∃ r, executeBasicCommand queueFeeder chars!"DiceBot" chars!"2D(3+3)" dice = (.ok r, [])) ∧
    ∃ m, executeBasicCommand queueFeeder chars!"DiceBot" chars!"2D(3+3)>=7" dice = (.err m, dice) :=
  ⟨⟨_, rfl⟩, ⟨_, rfl⟩, ⟨_, rfl⟩⟩

end GoBCDice
