import Verif.Lemmas.EvalRealize
import Verif.Spec.Command

/-!
# Commands realise the outcome specification
-/

namespace GoBCDice

/-- Like `Realizes`, for a computation that may look at the log it starts from. -/
def From {σ α : Type} (F : DieFeeder σ) (log : List Die) (m : M σ α)
    (R : List Die → α → Prop) : Prop :=
  ∀ (f : σ) (s' : St σ) (a : α),
    m ⟨f, log⟩ = (.ok a, s') ↔ ∃ ds, R ds a ∧ Draws F f ds s'.feeder ∧ s'.log = log ++ ds

namespace From
variable {σ α β : Type} {F : DieFeeder σ} {log : List Die}

theorem of_realizes {m : M σ α} {R : List Die → α → Prop} (h : Realizes F m R) :
    From F log m R := fun f s' a => h ⟨f, log⟩ s' a

theorem bind {m : M σ α} {k : α → M σ β} {R : List Die → α → Prop}
    {S : α → List Die → List Die → β → Prop} (hm : Realizes F m R)
    (hk : ∀ a d1, R d1 a → From F (log ++ d1) (k a) (S a d1)) :
    From F log (m >>= k) (fun ds b => ∃ d1 d2 a, ds = d1 ++ d2 ∧ R d1 a ∧ S a d1 d2 b) := by
  intro f s' b
  rw [M.bind_ok]
  constructor
  · rintro ⟨a, s₁, h1, h2⟩
    obtain ⟨d1, hR, hd1, hl1⟩ := (hm _ s₁ a).mp h1
    have e : s₁ = ⟨s₁.feeder, log ++ d1⟩ := by cases s₁; simp_all
    rw [e] at h2
    obtain ⟨d2, hS, hd2, hl2⟩ := (hk a d1 hR _ s' b).mp h2
    exact ⟨d1 ++ d2, ⟨d1, d2, a, rfl, hR, hS⟩, hd1.append hd2, by simp [hl2]⟩
  · rintro ⟨ds, ⟨d1, d2, a, rfl, hR, hS⟩, hd, hl⟩
    obtain ⟨f₁, hd1, hd2⟩ := hd.split
    refine ⟨a, ⟨f₁, log ++ d1⟩, (hm ⟨f, log⟩ _ a).mpr ⟨d1, hR, hd1, rfl⟩,
      (hk a d1 hR _ s' b).mpr ⟨d2, hS, hd2, by simp [hl]⟩⟩

/-- `bind` when the intermediate value is a function of a witness -/
theorem bindW {W : Type} {v : W → α} {m : M σ α} {k : α → M σ β} {R : List Die → W → Prop}
    {S : W → List Die → List Die → β → Prop}
    (hm : Realizes F m (fun ds a => ∃ w, R ds w ∧ a = v w))
    (hk : ∀ w d1, R d1 w → From F (log ++ d1) (k (v w)) (S w d1)) :
    From F log (m >>= k) (fun ds b => ∃ d1 d2 w, ds = d1 ++ d2 ∧ R d1 w ∧ S w d1 d2 b) := by
  intro f s' b
  rw [M.bind_ok]
  constructor
  · rintro ⟨a, s₁, h1, h2⟩
    obtain ⟨d1, ⟨w, hR, rfl⟩, hd1, hl1⟩ := (hm _ s₁ a).mp h1
    have e : s₁ = ⟨s₁.feeder, log ++ d1⟩ := by cases s₁; simp_all
    rw [e] at h2
    obtain ⟨d2, hS, hd2, hl2⟩ := (hk w d1 hR _ s' b).mp h2
    exact ⟨d1 ++ d2, ⟨d1, d2, w, rfl, hR, hS⟩, hd1.append hd2, by simp [hl2]⟩
  · rintro ⟨ds, ⟨d1, d2, w, rfl, hR, hS⟩, hd, hl⟩
    obtain ⟨f₁, hd1, hd2⟩ := hd.split
    refine ⟨v w, ⟨f₁, log ++ d1⟩, (hm ⟨f, log⟩ _ _).mpr ⟨d1, ⟨w, hR, rfl⟩, hd1, rfl⟩,
      (hk w d1 hR _ s' b).mpr ⟨d2, hS, hd2, by simp [hl]⟩⟩

/-- `bind` after a computation that does nothing but return a value -/
theorem bindPure {a : α} {k : α → M σ β} {R : List Die → β → Prop} (hk : From F log (k a) R) :
    From F log (pure a >>= k) R := hk

theorem logged (g : List Die → α) :
    From F log (do let dice ← Evaluator.rolledDice; pure (g dice))
      (fun ds a => ds = [] ∧ a = g log) := by
  intro f s' a
  show (Out.ok (g log), (⟨f, log⟩ : St σ)) = (.ok a, s') ↔ _
  simp only [Prod.mk.injEq, Out.ok.injEq]
  constructor
  · rintro ⟨rfl, rfl⟩
    exact ⟨[], ⟨rfl, rfl⟩, .nil _, by simp⟩
  · rintro ⟨ds, ⟨rfl, rfl⟩, hd, hl⟩
    obtain ⟨f', l'⟩ := s'
    cases hd
    simp_all

theorem congr {m : M σ α} {R S : List Die → α → Prop} (hm : From F log m R)
    (h : ∀ ds a, R ds a ↔ S ds a) : From F log m S := by
  intro f s' a
  rw [hm f s' a]
  simp only [h]

end From

/-! ## Staged evaluation of D expressions -/

variable {σ : Type} (E : Evaluator σ)

theorem evalVarArgsInCommand_neg (r : Expr) :
    E.evalVarArgsInCommand (.neg r) = (do
      let r' ← E.evalVarArgsInCommand r
      pure (.neg r')) := by
  show E.evalVarArgs (.neg r) = _
  unfold Evaluator.evalVarArgs Evaluator.evalVarArgsInCommand
  split <;> rfl

theorem evalVarArgsInCommand_bin (op : BinOp) (l r : Expr) :
    E.evalVarArgsInCommand (.bin op l r) = (do
      let l' ← E.evalVarArgsInCommand l
      let r' ← E.evalVarArgsInCommand r
      pure (.bin op l' r')) := by
  show E.evalVarArgs (.bin op l r) = _
  unfold Evaluator.evalVarArgs Evaluator.evalVarArgsInCommand
  split <;> split <;> rfl

theorem evalVarArgsInCommand_div (m : Rounding) (l r : Expr) :
    E.evalVarArgsInCommand (.div m l r) = (do
      let l' ← E.evalVarArgsInCommand l
      let r' ← E.evalVarArgsInCommand r
      pure (.div m l' r')) := by
  show E.evalVarArgs (.div m l r) = _
  unfold Evaluator.evalVarArgs Evaluator.evalVarArgsInCommand
  split <;> split <;> rfl

theorem evalVarArgs_var (k : VarKind) (l r : Expr) :
    E.evalVarArgs (.var k l r) = (do
      let l' ← E.evalVarArgsInCommand l
      let r' ← E.evalVarArgsInCommand r
      pure (.var k l' r')) := by
  conv => lhs; unfold Evaluator.evalVarArgs
  unfold Evaluator.evalVarArgsInCommand
  split <;> split <;> rfl

theorem determineValuesOperand_neg (r : Expr) :
    E.determineValuesOperand (.neg r) = (do
      let r' ← E.determineValuesOperand r
      pure (.neg r')) := by
  show E.determineValues (.neg r) = _
  unfold Evaluator.determineValues Evaluator.determineValuesOperand
  split <;> rfl

theorem determineValuesOperand_bin (op : BinOp) (l r : Expr) :
    E.determineValuesOperand (.bin op l r) = (do
      let l' ← E.determineValuesOperand l
      let r' ← E.determineValuesOperand r
      pure (.bin op l' r')) := by
  show E.determineValues (.bin op l r) = _
  unfold Evaluator.determineValues Evaluator.determineValuesOperand
  split <;> split <;> rfl

theorem determineValuesOperand_div (m : Rounding) (l r : Expr) :
    E.determineValuesOperand (.div m l r) = (do
      let l' ← E.determineValuesOperand l
      let r' ← E.determineValuesOperand r
      pure (.div m l' r')) := by
  show E.determineValues (.div m l r) = _
  unfold Evaluator.determineValues Evaluator.determineValuesOperand
  split <;> split <;> rfl

theorem realizes_evalVarArgsInCommand (e : Expr) :
    Realizes E.F (E.evalVarArgsInCommand e) (DArgs e) := by
  induction e with
  | int v =>
    refine Realizes.congr (m := E.evalVarArgsInCommand (.int v)) (Realizes.pure (Expr.int v)) ?_
    intro ds a
    constructor
    · rintro ⟨rfl, rfl⟩; exact .int _
    · rintro ⟨⟩; exact ⟨rfl, rfl⟩
  | sumRoll rs =>
    refine Realizes.congr (m := E.evalVarArgsInCommand (.sumRoll rs))
      (Realizes.pure (Expr.sumRoll rs)) ?_
    intro ds a
    constructor
    · rintro ⟨rfl, rfl⟩; exact .sumRoll _
    · rintro ⟨⟩; exact ⟨rfl, rfl⟩
  | neg r ih =>
    rw [evalVarArgsInCommand_neg]
    refine Realizes.congr
      (Realizes.bind ih (fun r' => Realizes.pure (Expr.neg r'))) ?_
    intro ds a
    constructor
    · rintro ⟨d1, _, _, rfl, h, rfl, rfl⟩; simpa using DArgs.neg h
    · intro h
      cases h with | neg h =>
      exact ⟨_, [], _, by simp, h, rfl, rfl⟩
  | bin op l r ihl ihr =>
    rw [evalVarArgsInCommand_bin]
    refine Realizes.congr
      (Realizes.bind ihl (fun l' => Realizes.bind ihr (fun r' => Realizes.pure (Expr.bin op l' r')))) ?_
    intro ds a
    constructor
    · rintro ⟨d1, _, _, rfl, h1, d2, _, _, rfl, h2, rfl, rfl⟩
      rw [List.append_nil]
      exact .bin h1 h2
    · intro h
      cases h with | bin h1 h2 =>
      exact ⟨_, _, _, rfl, h1, _, [], _, by simp, h2, rfl, rfl⟩
  | div m l r ihl ihr =>
    rw [evalVarArgsInCommand_div]
    refine Realizes.congr
      (Realizes.bind ihl (fun l' => Realizes.bind ihr (fun r' => Realizes.pure (Expr.div m l' r')))) ?_
    intro ds a
    constructor
    · rintro ⟨d1, _, _, rfl, h1, d2, _, _, rfl, h2, rfl, rfl⟩
      rw [List.append_nil]
      exact .div h1 h2
    · intro h
      cases h with | div h1 h2 =>
      exact ⟨_, _, _, rfl, h1, _, [], _, by simp, h2, rfl, rfl⟩
  | var k l r _ _ =>
    cases k with
    | d =>
      refine Realizes.congr (m := E.evalVarArgsInCommand (.var .d l r))
        (Realizes.bind (realizes_eval E l) (fun a => Realizes.bind (realizes_eval E r)
          (fun b => Realizes.pure (Expr.var .d (.int a) (.int b))))) ?_
      intro ds a
      constructor
      · rintro ⟨d1, _, _, rfl, h1, d2, _, _, rfl, h2, rfl, rfl⟩
        rw [List.append_nil]
        exact .roll h1 h2
      · intro h
        cases h with | roll h1 h2 =>
        exact ⟨_, _, _, rfl, h1, _, [], _, by simp, h2, rfl, rfl⟩
    | rand =>
      refine Realizes.congr (m := E.evalVarArgsInCommand (.var .rand l r)) (Realizes.fail _) ?_
      intro ds a
      constructor
      · intro h; exact h.elim
      · intro h; cases h

theorem realizes_determineValueOfVariableExpr (e : Expr) :
    Realizes E.F (E.determineValueOfVariableExpr e)
      (fun ds a => ∃ x y, e = .var .d (.int x) (.int y) ∧ Rolled x y ds ∧ a = .sumRoll ds) := by
  unfold Evaluator.determineValueOfVariableExpr
  split
  · split
    · split
      · refine (Realizes.bind (realizes_rollDice E _ _) (fun ds => Realizes.pure (Expr.sumRoll ds))).congr ?_
        intro ds a
        constructor
        · rintro ⟨d1, _, _, rfl, ⟨rfl, hr⟩, rfl, rfl⟩
          exact ⟨_, _, rfl, by simpa using hr, by simp⟩
        · rintro ⟨x, y, h, hr, rfl⟩
          simp only [Expr.var.injEq, Expr.int.injEq, true_and] at h
          obtain ⟨rfl, rfl⟩ := h
          exact ⟨ds, [], ds, by simp, ⟨rfl, hr⟩, rfl, rfl⟩
      · rename_i h
        refine (Realizes.fail _).congr ?_
        intro ds a
        constructor
        · intro h; exact h.elim
        · rintro ⟨x, y, h', -⟩
          simp only [Expr.var.injEq, true_and] at h'
          exact h _ h'.2
    · rename_i h
      refine (Realizes.fail _).congr ?_
      intro ds a
      constructor
      · intro h; exact h.elim
      · rintro ⟨x, y, h', -⟩
        simp only [Expr.var.injEq, true_and] at h'
        exact h _ h'.1
  · rename_i h
    refine (Realizes.fail _).congr ?_
    intro ds a
    constructor
    · intro h; exact h.elim
    · rintro ⟨x, y, rfl, -⟩
      exact h _ _ rfl

theorem realizes_determineValuesOperand (e : Expr) :
    Realizes E.F (E.determineValuesOperand e) (DDice e) := by
  induction e with
  | int v =>
    refine Realizes.congr (m := E.determineValuesOperand (.int v)) (Realizes.pure (Expr.int v)) ?_
    intro ds a
    constructor
    · rintro ⟨rfl, rfl⟩; exact .int _
    · rintro ⟨⟩; exact ⟨rfl, rfl⟩
  | sumRoll rs =>
    refine Realizes.congr (m := E.determineValuesOperand (.sumRoll rs))
      (Realizes.pure (Expr.sumRoll rs)) ?_
    intro ds a
    constructor
    · rintro ⟨rfl, rfl⟩; exact .sumRoll _
    · rintro ⟨⟩; exact ⟨rfl, rfl⟩
  | neg r ih =>
    rw [determineValuesOperand_neg]
    refine Realizes.congr
      (Realizes.bind ih (fun r' => Realizes.pure (Expr.neg r'))) ?_
    intro ds a
    constructor
    · rintro ⟨d1, _, _, rfl, h, rfl, rfl⟩; simpa using DDice.neg h
    · intro h
      cases h with | neg h =>
      exact ⟨_, [], _, by simp, h, rfl, rfl⟩
  | bin op l r ihl ihr =>
    rw [determineValuesOperand_bin]
    refine Realizes.congr
      (Realizes.bind ihl (fun l' => Realizes.bind ihr (fun r' => Realizes.pure (Expr.bin op l' r')))) ?_
    intro ds a
    constructor
    · rintro ⟨d1, _, _, rfl, h1, d2, _, _, rfl, h2, rfl, rfl⟩
      rw [List.append_nil]
      exact .bin h1 h2
    · intro h
      cases h with | bin h1 h2 =>
      exact ⟨_, _, _, rfl, h1, _, [], _, by simp, h2, rfl, rfl⟩
  | div m l r ihl ihr =>
    rw [determineValuesOperand_div]
    refine Realizes.congr
      (Realizes.bind ihl (fun l' => Realizes.bind ihr (fun r' => Realizes.pure (Expr.div m l' r')))) ?_
    intro ds a
    constructor
    · rintro ⟨d1, _, _, rfl, h1, d2, _, _, rfl, h2, rfl, rfl⟩
      rw [List.append_nil]
      exact .div h1 h2
    · intro h
      cases h with | div h1 h2 =>
      exact ⟨_, _, _, rfl, h1, _, [], _, by simp, h2, rfl, rfl⟩
  | var k l r _ _ =>
    refine Realizes.congr (m := E.determineValuesOperand (.var k l r))
      (realizes_determineValueOfVariableExpr E (.var k l r)) ?_
    intro ds a
    constructor
    · rintro ⟨x, y, h, hr, rfl⟩
      rw [h]
      exact .roll hr
    · intro h
      cases h with | roll hr =>
      exact ⟨_, _, rfl, hr, rfl⟩

/-- Stage 2 leaves nothing variable. -/
theorem DDice.not_variable {e e' : Expr} {rs : List Die} (h : DDice e rs e') :
    e'.isVariable = false := by
  induction h <;> simp_all [Expr.isVariable]

/-- Evaluating an expression without variable nodes consumes no dice. -/
theorem Ev.no_dice {e : Expr} {ds : List Die} {v : Int64} (h : Ev e ds v)
    (hv : e.isVariable = false) : ds = [] := by
  induction h <;> simp_all [Expr.isVariable]

/-- After the two stages the value is that of `DVal`. -/
theorem staged_iff_DVal (e : Expr) (as rs : List Die) (v : Int64) :
    (∃ e1 e2, DArgs e as e1 ∧ DDice e1 rs e2 ∧ Ev e2 [] v) ↔ DVal e as rs v := by
  constructor
  · rintro ⟨e1, e2, h1, h2, h3⟩
    induction h1 generalizing rs e2 v with
    | int _ => cases h2; cases h3; exact .int _
    | sumRoll _ => cases h2; cases h3; exact .sumRoll _
    | neg _ ih =>
      cases h2 with | neg h2 =>
      cases h3 with | neg h3 =>
      exact .neg (ih _ _ _ h2 h3)
    | bin _ _ ihl ihr =>
      cases h2 with | bin h2 h2' =>
      generalize hnil : ([] : List Die) = ds0 at h3
      cases h3 with
      | add h3 h3' =>
        obtain ⟨rfl, rfl⟩ := List.append_eq_nil_iff.mp hnil.symm
        exact .add (ihl _ _ _ h2 h3) (ihr _ _ _ h2' h3')
      | sub h3 h3' =>
        obtain ⟨rfl, rfl⟩ := List.append_eq_nil_iff.mp hnil.symm
        exact .sub (ihl _ _ _ h2 h3) (ihr _ _ _ h2' h3')
      | mul h3 h3' =>
        obtain ⟨rfl, rfl⟩ := List.append_eq_nil_iff.mp hnil.symm
        exact .mul (ihl _ _ _ h2 h3) (ihr _ _ _ h2' h3')
    | div _ _ ihl ihr =>
      cases h2 with | div h2 h2' =>
      generalize hnil : ([] : List Die) = ds0 at h3
      cases h3 with
      | div h3 h3' hb =>
        obtain ⟨rfl, rfl⟩ := List.append_eq_nil_iff.mp hnil.symm
        exact .div (ihl _ _ _ h2 h3) (ihr _ _ _ h2' h3') hb
    | roll hl hr =>
      cases h2 with | roll h2 =>
      cases h3
      exact .roll hl hr h2
  · intro h
    induction h with
    | int v => exact ⟨_, _, .int _, .int _, .int _⟩
    | sumRoll ds => exact ⟨_, _, .sumRoll _, .sumRoll _, .sumRoll _⟩
    | neg _ ih =>
      obtain ⟨_, _, a, b, c⟩ := ih
      exact ⟨_, _, .neg a, .neg b, .neg c⟩
    | add _ _ ih1 ih2 =>
      obtain ⟨_, _, a, b, c⟩ := ih1
      obtain ⟨_, _, a', b', c'⟩ := ih2
      exact ⟨_, _, .bin a a', .bin b b', by simpa using Ev.add c c'⟩
    | sub _ _ ih1 ih2 =>
      obtain ⟨_, _, a, b, c⟩ := ih1
      obtain ⟨_, _, a', b', c'⟩ := ih2
      exact ⟨_, _, .bin a a', .bin b b', by simpa using Ev.sub c c'⟩
    | mul _ _ ih1 ih2 =>
      obtain ⟨_, _, a, b, c⟩ := ih1
      obtain ⟨_, _, a', b', c'⟩ := ih2
      exact ⟨_, _, .bin a a', .bin b b', by simpa using Ev.mul c c'⟩
    | div _ _ hb ih1 ih2 =>
      obtain ⟨_, _, a, b, c⟩ := ih1
      obtain ⟨_, _, a', b', c'⟩ := ih2
      exact ⟨_, _, .div a a', .div b b', by simpa using Ev.div c c' hb⟩
    | roll h1 h2 h3 => exact ⟨_, _, .roll h1 h2, .roll h3, .sumRoll _⟩

end GoBCDice
