import Verif.Lemmas.BehaveCommand

/-! # Behaviour of `command.Execute` -/

namespace GoBCDice
variable {σ : Type} {I : σ → Prop} {G S : Prop} (E : Evaluator σ)

theorem beh_rolledDice {F : DieFeeder σ} {Q : Result → Prop} {g : List Die → Result} (hQ : ∀ ds, Q (g ds)) :
    Beh F I 0 G S Q (do let ds ← (Evaluator.rolledDice : M σ (List Die)); pure (g ds)) := by
  refine Beh.bind' (B := 0) (Q := fun _ => True) (B' := 0) ?_ (fun ds _ => Beh.pure _ (hQ ds))
    (Nat.le_refl _)
  exact Beh.ofOk fun s => ⟨_, rfl, rfl, fun _ => rfl, fun _ _ => trivial⟩

theorem beh_executeCalc (g : Str) (e : Expr) (hS : S → e.SmallCounts) :
    Beh E.F I (e.rands * cap) G S (fun _ => True) (E.executeCalc g e) :=
  (beh_eval E e hS).map (fun _ _ => trivial)

theorem beh_executeChoice (g : Str) (items : List Str) (hl : items.length < 2 ^ 63) :
    Beh E.F I 1 G S (fun _ => True) (E.executeChoice g items) :=
  (beh_evalChoice E items hl).bind' (fun _ _ => beh_rolledDice (fun _ => trivial)) (Nat.le_refl _)

theorem beh_evalVarArgsInCommand (e : Expr) (hS : S → e.SmallCounts) :
    Beh E.F I (e.rands * cap) G S (StageOf G S e) (E.evalVarArgsInCommand e) := by
  unfold Evaluator.evalVarArgsInCommand
  split
  · exact beh_evalVarArgsPrimary E e hS
  · exact beh_evalVarArgs E e hS

theorem beh_eval_stage {e e' : Expr} (h : StageOf G S e e') :
    Beh E.F I (e.rands * cap) G S (fun _ => True) (E.eval e') :=
  (beh_eval E e' h.2.1).mono (Nat.mul_le_mul_right _ h.1) (fun _ _ => trivial)

theorem beh_determine_stage {e e' : Expr} (h : StageOf G S e e') :
    Beh E.F I (e.rands * cap) G S (StageOf G S e) (E.determineValuesOperand e') :=
  (beh_determineValuesOperand E e' h.2.1).mono (Nat.mul_le_mul_right _ h.1) 
    (fun _ h' => ⟨Nat.le_trans h'.1 h.1, h'.2.1, fun hG v hv => h.2.2 hG v (h'.2.2 hG v hv)⟩)

theorem beh_executeDRollExpr (g : Str) (e : Expr) (hS : S → e.SmallCounts) :
    Beh E.F I (e.rands * cap * 3) G S (fun _ => True) (E.executeDRollExpr g e) :=
  (beh_evalVarArgsInCommand E e hS).bind' (B' := e.rands * cap * 2) (fun e1 h1 =>
    (beh_determine_stage E h1).bind' (B' := e.rands * cap) (fun e2 h2 =>
      (beh_eval_stage E h2).bind' (B' := 0) (fun _ _ => beh_rolledDice (fun _ => trivial))
        (Nat.le_refl _)) (by omega)) (by omega)

theorem beh_evalVarArgsInDCompare (l r : Expr) (hl : S → l.SmallCounts) (hr : S → r.SmallCounts) :
    Beh E.F I ((l.rands + r.rands) * cap) G S (fun p : Expr × Expr => StageOf G S l p.1 ∧ ∃ v, p.2 = Expr.int v)
      (E.evalVarArgsInDCompare l r) := by
  refine (beh_evalVarArgs E l hl).bind' (fun l' h1 => (beh_eval E r hr).map
    (Q2 := fun p : Expr × Expr => StageOf G S l p.1 ∧ ∃ v, p.2 = Expr.int v) (fun v _ => ⟨h1, v, rfl⟩)) ?_
  rw [Nat.add_mul]; exact Nat.le_refl _

theorem determineValuesOperand_int (v : Int64) : E.determineValuesOperand (.int v) = pure (.int v) := rfl

theorem beh_executeDRollComp (g : Str) (l : Expr) (op : CmpOp) (r : Expr) (hl : S → l.SmallCounts)
    (hr : S → r.SmallCounts) :
    Beh E.F I ((l.rands + r.rands) * cap * 3) G S (fun _ => True) (E.executeDRollComp g l op r) := by
  unfold Evaluator.executeDRollComp
  refine (beh_evalVarArgsInDCompare E l r hl hr).bind' (B' := l.rands * cap * 2) (fun p hp => ?_) ?_
  · obtain ⟨l1, r1⟩ := p
    obtain ⟨h1, v, hv⟩ := hp
    simp only at hv h1
    subst hv
    refine Beh.bind' (B := l.rands * cap) (Q := fun q => StageOf G S l q.1 ∧ q.2 = .int v)
      (B' := l.rands * cap) ?_ (fun q hq => ?_) (by omega)
    · unfold Evaluator.determineValuesInCompare
      refine (beh_determine_stage E h1).bind' (B' := 0) (fun l2 h2 => ?_) (Nat.le_refl _)
      rw [determineValuesOperand_int]
      exact (Beh.pure (Q := fun e => e = Expr.int v) _ rfl).map (fun e he => ⟨h2, he⟩)
    · obtain ⟨l2, r2⟩ := q
      obtain ⟨h2, hq⟩ := hq
      simp only at hq h2
      subst hq
      refine (beh_eval_stage E h2).bind' (B' := 0) (fun a _ => ?_) (Nat.le_refl _)
      refine (beh_eval (I := I) (G := G) (S := S) E (.int a) (fun _ => trivial)).bind' (B' := 0) (fun a _ => ?_)
        (by simp [Expr.rands])
      refine (beh_eval (I := I) (G := G) (S := S) E (.int v) (fun _ => trivial)).bind' (B' := 0) (fun b _ => ?_)
        (by simp [Expr.rands])
      exact beh_rolledDice (fun _ => trivial)
  · rw [Nat.add_mul]; omega

theorem smallLits {rs : List Roll} (h : ∀ r ∈ rs, LitRoll S r) : S → ∀ r ∈ rs, r.SmallCounts :=
  fun hs r hr => (h r hr).small hs

theorem beh_executeBRollList (g : Str) (rs : List Roll) (hS : S → ∀ r ∈ rs, r.SmallCounts) :
    Beh E.F I (rollsRands rs * cap * 2) G S (fun _ => True) (E.executeBRollList g rs) :=
  (beh_evalVarArgsInRolls E rs hS).bind' (B' := rollsRands rs * cap) (fun rs1 h1 =>
    ((beh_evalBRollList E rs1 (smallLits h1.1)).mono
      (Nat.mul_le_mul_right _ (by rw [rollsRands_lit h1.1, h1.2]; exact length_le_rollsRands rs)) 
      (fun _ h => h)).bind' (B' := 0)
      (fun _ _ => beh_rolledDice (fun _ => trivial)) (Nat.le_refl _)) (by omega)

theorem beh_executeBRollComp (g : Str) (rs : List Roll) (op : CmpOp) (e : Expr)
    (hS : S → ∀ r ∈ rs, r.SmallCounts) (he : S → e.SmallCounts) :
    Beh E.F I ((rollsRands rs + e.rands) * cap * 2) G S (fun _ => True) (E.executeBRollComp g rs op e) := by
  unfold Evaluator.executeBRollComp
  refine (beh_evalVarArgsInRolls E rs hS).bind' (B' := e.rands * cap + rollsRands rs * cap)
    (fun rs1 h1 => (beh_eval E e he).bind' (B' := rollsRands rs * cap) (fun b _ => ?_)
      (Nat.le_refl _)) ?_
  · refine Beh.bind' (B := rollsRands rs * cap) (Q := fun _ => True) (B' := 0) ?_
      (fun _ _ => beh_rolledDice (fun _ => trivial)) (Nat.le_refl _)
    unfold Evaluator.evalBRollComp
    refine ((beh_evalBRollList E rs1 (smallLits h1.1)).mono
      (Nat.mul_le_mul_right _ (by rw [rollsRands_lit h1.1, h1.2]; exact length_le_rollsRands rs)) 
      (fun _ h => h)).bind' (B' := 0) (fun vs _ => ?_) (Nat.le_refl _)
    exact ((beh_eval (I := I) (G := G) (S := S) E (.int b) (fun _ => trivial)).map (fun _ _ => trivial)).mono
      (by simp [Expr.rands]) (fun _ h => h)
  · rw [Nat.add_mul]; omega

theorem beh_executeRRollList (g : Str) (rl : RRollList)
    (hS : S → (∀ r ∈ rl.rolls, r.SmallCounts) ∧ ∀ e ∈ rl.threshold, e.SmallCounts) :
    Beh E.F I ((rollsRands rl.rolls + optRands rl.threshold) * cap + loopCount E.maxRerolls * cap) G S
      (fun _ => True) (E.executeRRollList g rl) := by
  unfold Evaluator.executeRRollList
  refine (beh_evalVarArgsInRRollList E rl hS).bind' (fun rl1 h1 =>
    (beh_checkThreshold E _ _ h1.2.2).bind' (B' := loopCount E.maxRerolls * cap)
      (C := loopCount E.maxRerolls * cap) (fun c _ => ?_) (by omega)) (Nat.le_refl _)
  cases c with
  | some m => exact (Beh.pure _ trivial).mono (Nat.zero_le _) (fun _ h => h)
  | none =>
    exact (beh_evalRRollList E rl1 h1).bind' (B' := 0) (fun _ _ => beh_rolledDice (fun _ => trivial))
      (Nat.le_refl _)

theorem beh_setRerollThreshold (rl : RRollList) (v : Int64) {n : Nat} (h : LitList S n rl) :
    Beh E.F I 0 G S (LitList S n) (E.setRerollThreshold rl (.int v)) := by
  obtain ⟨rolls, th⟩ := rl
  cases th with
  | some t => exact Beh.pure _ h
  | none =>
    refine ((beh_eval (I := I) (G := G) (S := S) E (.int v) (fun _ => trivial)).map
      (g := fun v => ({ rolls := rolls, threshold := some (.int v) } : RRollList))
      (Q2 := LitList S n) (fun w _ => ⟨h.1, h.2.1, ?_⟩)).mono
      (by simp [Expr.rands]) (fun _ h => h)
    intro e he
    cases he
    exact ⟨w, rfl⟩

theorem beh_executeRRollComp (g : Str) (rl : RRollList) (op : CmpOp) (e : Expr)
    (hS : S → (∀ r ∈ rl.rolls, r.SmallCounts) ∧ ∀ e ∈ rl.threshold, e.SmallCounts)
    (he : S → e.SmallCounts) :
    Beh E.F I ((rollsRands rl.rolls + optRands rl.threshold + e.rands) * cap +
        loopCount E.maxRerolls * cap) G S
      (fun _ => True) (E.executeRRollComp g rl op e) := by
  unfold Evaluator.executeRRollComp
  refine (beh_evalVarArgsInRRollList E rl hS).bind' (B' := e.rands * cap + loopCount E.maxRerolls * cap)
    (fun rl1 h1 => (beh_eval E e he).bind' (B' := loopCount E.maxRerolls * cap) (fun b _ =>
      (beh_setRerollThreshold E rl1 b h1).bind' (B' := loopCount E.maxRerolls * cap)
        (C := loopCount E.maxRerolls * cap) (fun rl2 h2 =>
          (beh_checkThreshold E _ _ h2.2.2).bind' (B' := loopCount E.maxRerolls * cap)
            (C := loopCount E.maxRerolls * cap) (fun c _ => ?_) (by omega)) (by omega))
      (Nat.le_refl _)) ?_
  · cases c with
    | some m => exact (Beh.pure _ trivial).mono (Nat.zero_le _) (fun _ h => h)
    | none =>
      refine Beh.bind' (B := loopCount E.maxRerolls * cap) (Q := fun _ => True) (B' := 0) ?_
        (fun _ _ => beh_rolledDice (fun _ => trivial)) (Nat.le_refl _)
      unfold Evaluator.evalRRollComp
      refine (beh_evalRRollList E rl2 h2).bind' (B' := 0) (fun vs _ => ?_) (Nat.le_refl _)
      exact ((beh_eval (I := I) (G := G) (S := S) E (.int b) (fun _ => trivial)).map (fun _ _ => trivial)).mono
        (by simp [Expr.rands]) (fun _ h => h)
  · rw [Nat.add_mul _ e.rands]; omega

theorem beh_executeURollExpr (g : Str) (u : URollExpr)
    (hS : S → ((∀ r ∈ u.list.rolls, r.SmallCounts) ∧ ∀ e ∈ u.list.threshold, e.SmallCounts) ∧
      ∀ b ∈ u.bonus, b.2.SmallCounts) :
    Beh E.F I ((rollsRands u.list.rolls + optRands u.list.threshold +
        optRands (u.bonus.map Prod.snd)) * cap + u.list.rolls.length * (cap * loopCount E.maxRerolls)) G S
      (fun _ => True) (E.executeURollExpr g u) := by
  unfold Evaluator.executeURollExpr
  refine (beh_evalVarArgsInURollExpr E u hS).bind' (fun u1 h1 =>
    (beh_checkThreshold E _ _ h1.1.2.2).bind'
      (B' := u.list.rolls.length * (cap * loopCount E.maxRerolls))
      (C := u.list.rolls.length * (cap * loopCount E.maxRerolls)) (fun c _ => ?_) (by omega))
    (Nat.le_refl _)
  cases c with
  | some m => exact (Beh.pure _ trivial).mono (Nat.zero_le _) (fun _ h => h)
  | none =>
    exact (beh_evalURollExpr E u1 h1.1 h1.2).bind' (B' := 0)
      (fun _ _ => beh_rolledDice (fun _ => trivial)) (Nat.le_refl _)

theorem beh_executeURollComp (g : Str) (u : URollExpr) (op : CmpOp) (e : Expr)
    (hS : S → ((∀ r ∈ u.list.rolls, r.SmallCounts) ∧ ∀ e ∈ u.list.threshold, e.SmallCounts) ∧
      ∀ b ∈ u.bonus, b.2.SmallCounts) (he : S → e.SmallCounts) :
    Beh E.F I ((rollsRands u.list.rolls + optRands u.list.threshold +
        optRands (u.bonus.map Prod.snd) + e.rands) * cap +
        u.list.rolls.length * (cap * loopCount E.maxRerolls)) G S
      (fun _ => True) (E.executeURollComp g u op e) := by
  unfold Evaluator.executeURollComp
  generalize hB : u.list.rolls.length * (cap * loopCount E.maxRerolls) = B
  refine (beh_evalVarArgsInURollExpr E u hS).bind' (B' := e.rands * cap + B) (fun u1 h1 =>
    (beh_eval E e he).bind' (B' := B) (fun b _ =>
      (beh_checkThreshold E _ _ h1.1.2.2).bind' (B' := B) (C := B) (fun c _ => ?_) (by omega))
      (Nat.le_refl _)) ?_
  · cases c with
    | some m => exact (Beh.pure _ trivial).mono (Nat.zero_le _) (fun _ h => h)
    | none =>
      refine Beh.bind' (B := B) (Q := fun _ => True) (B' := 0) ?_
        (fun _ _ => beh_rolledDice (fun _ => trivial)) (Nat.le_refl _)
      unfold Evaluator.evalURollComp
      refine (hB ▸ beh_evalURollExpr E u1 h1.1 h1.2).bind' (B' := 0) (fun vs _ => ?_) (Nat.le_refl _)
      exact ((beh_eval (I := I) (G := G) (S := S) E (.int b) (fun _ => trivial)).map (fun _ _ => trivial)).mono
        (by simp [Expr.rands]) (fun _ h => h)
  · rw [Nat.add_mul _ e.rands]; omega

/-- A choice has fewer than 2^63 items (the length of any Go slice). -/
def Node.AllocOk : Node → Prop
  | .choice items => items.length < 2 ^ 63
  | _ => True

/-- Bound on the number of feeder calls of a command. -/
def callBound (rands rerolls : Nat) : Nat := 2 ^ 44 * ((rands + 1) * (rerolls + 3))

theorem bound_le {n r a R : Nat} (h1 : a ≤ n * cap * 3 + (R + 3) * cap + r * (cap * R))
    (h2 : r ≤ n) : a ≤ callBound n R := by
  unfold callBound
  have : (2 : Nat) ^ 44 = cap := by rw [cap_eq]
  rw [this]
  have h3 : r * (cap * R) ≤ n * (cap * R) := Nat.mul_le_mul_right _ h2
  have h4 : cap * ((n + 1) * (R + 3)) = n * (cap * R) + 3 * (n * cap) + (R + 3) * cap := by grind
  omega

theorem beh_execute (g : Str) (node : Node) (ha : node.AllocOk) (hS : S → node.SmallCounts) :
    Beh E.F I (callBound node.rands (loopCount E.maxRerolls)) G S (fun _ => True) (E.execute g node) := by
  obtain ⟨B, hB, h⟩ : ∃ B, B ≤ callBound node.rands (loopCount E.maxRerolls) ∧
      Beh E.F I B G S (fun _ => True) (E.execute g node) := by
    cases node with
    | choice items =>
      exact ⟨_, bound_le (r := 0) (by have := cap_eq; rw [Nat.add_mul]; omega) (Nat.zero_le _),
        beh_executeChoice E g items ha⟩
    | «calc» e =>
      exact ⟨_, bound_le (r := 0) (by simp only [Node.rands]; omega) (Nat.zero_le _),
        beh_executeCalc E g e hS⟩
    | dRollExpr e =>
      exact ⟨_, bound_le (r := 0) (by simp only [Node.rands]; omega) (Nat.zero_le _),
        beh_executeDRollExpr E g e hS⟩
    | dRollComp l op r =>
      exact ⟨_, bound_le (r := 0) (by simp only [Node.rands]; omega) (Nat.zero_le _),
        beh_executeDRollComp E g l op r (fun h => (hS h).1) (fun h => (hS h).2)⟩
    | bRollList rs =>
      exact ⟨_, bound_le (r := 0) (by simp only [Node.rands]; omega) (Nat.zero_le _),
        beh_executeBRollList E g rs hS⟩
    | bRollComp rs op e =>
      exact ⟨_, bound_le (r := 0) (by simp only [Node.rands]; omega) (Nat.zero_le _),
        beh_executeBRollComp E g rs op e (fun h => (hS h).1) (fun h => (hS h).2)⟩
    | rRollList rl =>
      exact ⟨_, bound_le (r := 0) (by simp only [Node.rands, Nat.add_mul]; omega) (Nat.zero_le _),
        beh_executeRRollList E g rl hS⟩
    | rRollComp rl op e =>
      exact ⟨_, bound_le (r := 0) (by simp only [Node.rands, Nat.add_mul]; omega) (Nat.zero_le _),
        beh_executeRRollComp E g rl op e (fun h => (hS h).1) (fun h => (hS h).2)⟩
    | uRollExpr u =>
      have := length_le_rollsRands u.list.rolls
      exact ⟨_, bound_le (r := u.list.rolls.length) (by simp only [Node.rands, Nat.add_mul]; omega)
        (by simp only [Node.rands]; omega), beh_executeURollExpr E g u hS⟩
    | uRollComp u op e =>
      have := length_le_rollsRands u.list.rolls
      exact ⟨_, bound_le (r := u.list.rolls.length) (by simp only [Node.rands, Nat.add_mul]; omega)
        (by simp only [Node.rands]; omega),
        beh_executeURollComp E g u op e (fun h => (hS h).1) (fun h => (hS h).2)⟩
  exact h.mono hB (fun _ h => h)

end GoBCDice
