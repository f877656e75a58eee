import Verif.Spec.Raw

/-! # Executing what an execution left behind -/

namespace GoBCDice
namespace Evaluator

variable {σ α β γ : Type} (E : Evaluator σ)

theorem bnd_ok {x : M σ α} {f : α → M σ β} {s s' : St σ} {b : β}
    (h : (x >>= f) s = (.ok b, s')) : ∃ a s1, x s = (.ok a, s1) ∧ f a s1 = (.ok b, s') := by
  change M.bnd x f s = _ at h
  unfold M.bnd at h
  cases hx : x s with
  | mk o s1 =>
    rw [hx] at h
    cases o with
    | ok a => exact ⟨a, s1, rfl, h⟩
    | err => cases h
    | panic => cases h

theorem bnd_of_ok {x : M σ α} {f : α → M σ β} {s s' : St σ} {a : α} (h : x s = (.ok a, s')) :
    (x >>= f) s = f a s' := by
  show M.bnd x f s = _
  unfold M.bnd
  rw [h]

theorem pure_ok {a b : α} {s s' : St σ} (h : (pure a : M σ α) s = (.ok b, s')) : a = b ∧ s = s' := by
  cases h; exact ⟨rfl, rfl⟩

/-! ## `executeT` computes `execute` -/

theorem map_bind (x : M σ α) (f : α → M σ (β × γ)) (g : α → M σ β) (s : St σ)
    (hfg : ∀ a s, (f a >>= fun p => (pure p.1 : M σ β)) s = g a s) :
    ((x >>= f) >>= fun p => (pure p.1 : M σ β)) s = (x >>= g) s := by
  show M.bnd (M.bnd x f) _ s = M.bnd x g s
  unfold M.bnd
  cases x s with
  | mk o s1 =>
    cases o with
    | ok a => exact hfg a s1
    | err => rfl
    | panic => rfl

theorem executeT_fst (g : Str) (n : Node) (s : St σ) :
    (E.executeT g n >>= fun rn => (pure rn.1 : M σ Result)) s = E.execute g n s := by
  cases n with
  | choice items =>
    show M.bnd (M.bnd (E.executeChoice g items) _) _ s = E.executeChoice g items s
    unfold M.bnd
    cases E.executeChoice g items s with
    | mk o s1 => cases o <;> rfl
  | «calc» e =>
    show M.bnd (M.bnd (E.executeCalc g e) _) _ s = E.executeCalc g e s
    unfold M.bnd
    cases E.executeCalc g e s with
    | mk o s1 => cases o <;> rfl
  | dRollExpr e =>
    unfold executeT execute executeDRollExprT executeDRollExpr
    repeat' (refine map_bind _ _ _ _ fun _ _ => ?_)
    rfl
  | dRollComp l op r =>
    unfold executeT execute executeDRollCompT executeDRollComp
    repeat' (refine map_bind _ _ _ _ fun _ _ => ?_)
    rfl
  | bRollList rolls =>
    unfold executeT execute executeBRollListT executeBRollList
    repeat' (refine map_bind _ _ _ _ fun _ _ => ?_)
    rfl
  | bRollComp rolls op r =>
    unfold executeT execute executeBRollCompT executeBRollComp
    repeat' (refine map_bind _ _ _ _ fun _ _ => ?_)
    rfl
  | rRollList rl =>
    unfold executeT execute executeRRollListT executeRRollList
    refine map_bind _ _ _ _ fun _ _ => ?_
    refine map_bind _ _ _ _ fun chk _ => ?_
    cases chk with
    | some => rfl
    | none =>
      simp only
      repeat' (refine map_bind _ _ _ _ fun _ _ => ?_)
      rfl
  | rRollComp rl op r =>
    unfold executeT execute executeRRollCompT executeRRollComp
    refine map_bind _ _ _ _ fun _ _ => ?_
    refine map_bind _ _ _ _ fun _ _ => ?_
    refine map_bind _ _ _ _ fun _ _ => ?_
    refine map_bind _ _ _ _ fun chk _ => ?_
    cases chk with
    | some => rfl
    | none =>
      simp only
      repeat' (refine map_bind _ _ _ _ fun _ _ => ?_)
      rfl
  | uRollExpr u =>
    unfold executeT execute executeURollExprT executeURollExpr
    refine map_bind _ _ _ _ fun _ _ => ?_
    refine map_bind _ _ _ _ fun chk _ => ?_
    cases chk with
    | some => rfl
    | none =>
      simp only
      repeat' (refine map_bind _ _ _ _ fun _ _ => ?_)
      rfl
  | uRollComp u op r =>
    unfold executeT execute executeURollCompT executeURollComp
    refine map_bind _ _ _ _ fun _ _ => ?_
    refine map_bind _ _ _ _ fun _ _ => ?_
    refine map_bind _ _ _ _ fun chk _ => ?_
    cases chk with
    | some => rfl
    | none =>
      simp only
      repeat' (refine map_bind _ _ _ _ fun _ _ => ?_)
      rfl

/-! ## Expressions without rolls -/

/-- A constant expression evaluates to the same thing in every state, and leaves the state. -/
theorem eval_fixed (e : Expr) (hv : e.isVariable = false) :
    ∃ o, ∀ s, E.eval e s = (o, s) := by
  induction e with
  | int v => exact ⟨.ok v, fun _ => rfl⟩
  | sumRoll ds => exact ⟨.ok (sumDice ds), fun _ => rfl⟩
  | neg r ih =>
    obtain ⟨o, ho⟩ := ih hv
    cases o with
    | ok v => exact ⟨.ok (-v), fun s => bnd_of_ok (ho s)⟩
    | err m =>
      refine ⟨.err m, fun s => ?_⟩
      show M.bnd _ _ s = _
      unfold M.bnd; rw [ho]
    | panic m =>
      refine ⟨.panic m, fun s => ?_⟩
      show M.bnd _ _ s = _
      unfold M.bnd; rw [ho]
  | bin op l r ihl ihr =>
    simp only [Expr.isVariable, Bool.or_eq_false_iff] at hv
    obtain ⟨o, ho⟩ := ihl hv.1
    obtain ⟨o', ho'⟩ := ihr hv.2
    cases o with
    | ok v =>
      cases o' with
      | ok w => exact ⟨.ok (op.apply v w), fun s => (bnd_of_ok (ho s)).trans (bnd_of_ok (ho' s))⟩
      | err m =>
        refine ⟨.err m, fun s => (bnd_of_ok (ho s)).trans ?_⟩
        show M.bnd _ _ s = _
        unfold M.bnd; rw [ho']
      | panic m =>
        refine ⟨.panic m, fun s => (bnd_of_ok (ho s)).trans ?_⟩
        show M.bnd _ _ s = _
        unfold M.bnd; rw [ho']
    | err m =>
      refine ⟨.err m, fun s => ?_⟩
      show M.bnd _ _ s = _
      unfold M.bnd; rw [ho]
    | panic m =>
      refine ⟨.panic m, fun s => ?_⟩
      show M.bnd _ _ s = _
      unfold M.bnd; rw [ho]
  | div m l r ihl ihr =>
    simp only [Expr.isVariable, Bool.or_eq_false_iff] at hv
    obtain ⟨o, ho⟩ := ihl hv.1
    obtain ⟨o', ho'⟩ := ihr hv.2
    cases o with
    | ok v =>
      cases o' with
      | ok w =>
        by_cases hw : w = 0
        · refine ⟨.err (intStr v ++ chars!" divided by zero"),
            fun s => (bnd_of_ok (ho s)).trans ((bnd_of_ok (ho' s)).trans ?_)⟩
          · unfold evalIntegerDivide; rw [if_pos hw]; rfl
        · refine ⟨.ok (divValue m v w), fun s => (bnd_of_ok (ho s)).trans ((bnd_of_ok (ho' s)).trans ?_)⟩
          · unfold evalIntegerDivide; rw [if_neg hw]; rfl
      | err m =>
        refine ⟨.err m, fun s => (bnd_of_ok (ho s)).trans ?_⟩
        show M.bnd _ _ s = _
        unfold M.bnd; rw [ho']
      | panic m =>
        refine ⟨.panic m, fun s => (bnd_of_ok (ho s)).trans ?_⟩
        show M.bnd _ _ s = _
        unfold M.bnd; rw [ho']
    | err m =>
      refine ⟨.err m, fun s => ?_⟩
      show M.bnd _ _ s = _
      unfold M.bnd; rw [ho]
    | panic m =>
      refine ⟨.panic m, fun s => ?_⟩
      show M.bnd _ _ s = _
      unfold M.bnd; rw [ho]
  | var k l r => cases hv

theorem fixed_ok {e : Expr} (hv : e.isVariable = false) {v : Int64} {s s' : St σ}
    (h : E.eval e s = (.ok v, s')) (t : St σ) : E.eval e t = (.ok v, t) := by
  obtain ⟨o, ho⟩ := E.eval_fixed e hv
  rw [ho] at h
  cases h
  exact ho t

theorem varArgs_neg (r : Expr) : E.evalVarArgsInCommand (.neg r) =
    (E.evalVarArgsInCommand r >>= fun r' => pure (.neg r')) := by
  have hp : Expr.isPrimary (.neg r) = false := rfl
  unfold evalVarArgsInCommand
  cases h : r.isPrimary <;>
    simp [hp, evalVarArgs, h]

theorem varArgs_bin (op : BinOp) (l r : Expr) : E.evalVarArgsInCommand (.bin op l r) =
    (E.evalVarArgsInCommand l >>= fun l' => E.evalVarArgsInCommand r >>= fun r' =>
      pure (.bin op l' r')) := by
  have hp : Expr.isPrimary (.bin op l r) = false := rfl
  unfold evalVarArgsInCommand
  cases h : l.isPrimary <;> cases h' : r.isPrimary <;>
    simp [hp, evalVarArgs, h, h']

theorem varArgs_div (m : Rounding) (l r : Expr) : E.evalVarArgsInCommand (.div m l r) =
    (E.evalVarArgsInCommand l >>= fun l' => E.evalVarArgsInCommand r >>= fun r' =>
      pure (.div m l' r')) := by
  have hp : Expr.isPrimary (.div m l r) = false := rfl
  unfold evalVarArgsInCommand
  cases h : l.isPrimary <;> cases h' : r.isPrimary <;>
    simp [hp, evalVarArgs, h, h']

theorem determine_neg (r : Expr) : E.determineValuesOperand (.neg r) =
    (E.determineValuesOperand r >>= fun r' => pure (.neg r')) := by
  have hp : Expr.isPrimary (.neg r) = false := rfl
  unfold determineValuesOperand
  cases h : r.isPrimary <;>
    simp [hp, determineValues, h]

theorem determine_bin (op : BinOp) (l r : Expr) : E.determineValuesOperand (.bin op l r) =
    (E.determineValuesOperand l >>= fun l' => E.determineValuesOperand r >>= fun r' =>
      pure (.bin op l' r')) := by
  have hp : Expr.isPrimary (.bin op l r) = false := rfl
  unfold determineValuesOperand
  cases h : l.isPrimary <;> cases h' : r.isPrimary <;>
    simp [hp, determineValues, h, h']

theorem determine_div (m : Rounding) (l r : Expr) : E.determineValuesOperand (.div m l r) =
    (E.determineValuesOperand l >>= fun l' => E.determineValuesOperand r >>= fun r' =>
      pure (.div m l' r')) := by
  have hp : Expr.isPrimary (.div m l r) = false := rfl
  unfold determineValuesOperand
  cases h : l.isPrimary <;> cases h' : r.isPrimary <;>
    simp [hp, determineValues, h, h']

theorem varArgs_fixed (e : Expr) (hv : e.isVariable = false) (s : St σ) :
    E.evalVarArgsInCommand e s = (.ok e, s) := by
  induction e generalizing s with
  | int v => rfl
  | sumRoll ds => rfl
  | neg r ih => rw [varArgs_neg]; exact bnd_of_ok (ih hv s)
  | bin op l r ihl ihr =>
    simp only [Expr.isVariable, Bool.or_eq_false_iff] at hv
    rw [varArgs_bin]
    exact (bnd_of_ok (ihl hv.1 s)).trans (bnd_of_ok (ihr hv.2 s))
  | div m l r ihl ihr =>
    simp only [Expr.isVariable, Bool.or_eq_false_iff] at hv
    rw [varArgs_div]
    exact (bnd_of_ok (ihl hv.1 s)).trans (bnd_of_ok (ihr hv.2 s))
  | var k l r => cases hv

theorem determine_fixed (e : Expr) (hv : e.isVariable = false) (s : St σ) :
    E.determineValuesOperand e s = (.ok e, s) := by
  induction e generalizing s with
  | int v => rfl
  | sumRoll ds => rfl
  | neg r ih => rw [determine_neg]; exact bnd_of_ok (ih hv s)
  | bin op l r ihl ihr =>
    simp only [Expr.isVariable, Bool.or_eq_false_iff] at hv
    rw [determine_bin]
    exact (bnd_of_ok (ihl hv.1 s)).trans (bnd_of_ok (ihr hv.2 s))
  | div m l r ihl ihr =>
    simp only [Expr.isVariable, Bool.or_eq_false_iff] at hv
    rw [determine_div]
    exact (bnd_of_ok (ihl hv.1 s)).trans (bnd_of_ok (ihr hv.2 s))
  | var k l r => cases hv

/-- After `DetermineValues` no roll is left. -/
theorem determine_fixes (e : Expr) {e' : Expr} {s s' : St σ}
    (h : E.determineValuesOperand e s = (.ok e', s')) : e'.isVariable = false := by
  induction e generalizing e' s s' with
  | int v => cases h; rfl
  | sumRoll ds => cases h; rfl
  | neg r ih =>
    rw [determine_neg] at h
    obtain ⟨a, s1, h1, h2⟩ := bnd_ok h
    obtain ⟨rfl, _⟩ := pure_ok h2
    have := ih h1
    simpa [Expr.isVariable] using this
  | bin op l r ihl ihr =>
    rw [determine_bin] at h
    obtain ⟨a, s1, h1, h2⟩ := bnd_ok h
    obtain ⟨b, s2, h3, h4⟩ := bnd_ok h2
    obtain ⟨rfl, _⟩ := pure_ok h4
    simp [Expr.isVariable, ihl h1, ihr h3]
  | div m l r ihl ihr =>
    rw [determine_div] at h
    obtain ⟨a, s1, h1, h2⟩ := bnd_ok h
    obtain ⟨b, s2, h3, h4⟩ := bnd_ok h2
    obtain ⟨rfl, _⟩ := pure_ok h4
    simp [Expr.isVariable, ihl h1, ihr h3]
  | var k l r =>
    change E.determineValueOfVariableExpr (.var k l r) s = _ at h
    unfold determineValueOfVariableExpr at h
    cases k with
    | d =>
      cases l with
      | int num =>
        cases r with
        | int sides =>
          simp only at h
          obtain ⟨ds, s1, h1, h2⟩ := bnd_ok h
          obtain ⟨rfl, _⟩ := pure_ok h2
          rfl
        | _ => cases h
      | _ => cases h
    | rand => cases h

/-! ## Rolls with literal arguments -/

/-- Both arguments are literals. -/
def _root_.GoBCDice.Roll.isLit (r : Roll) : Bool :=
  match r.num, r.sides with
  | .int _, .int _ => true
  | _, _ => false

theorem rollArgs_lit {r : Roll} (hr : r.isLit = true) (s : St σ) :
    E.evalVarArgsOfRoll r s = (.ok r, s) := by
  obtain ⟨num, sides⟩ := r
  cases num <;> cases sides <;> first | rfl | cases hr

theorem rollsArgs_lit : ∀ {rs : List Roll}, (∀ r ∈ rs, r.isLit = true) → ∀ s : St σ,
    E.evalVarArgsInRolls rs s = (.ok rs, s)
  | [], _, _ => rfl
  | r :: rs, hr, s => (bnd_of_ok (rollArgs_lit E (hr r (by simp)) s)).trans
      (bnd_of_ok (rollsArgs_lit (fun r h => hr r (by simp [h])) s))

theorem rollsArgs_lits : ∀ {rs rs' : List Roll} {s s' : St σ},
    E.evalVarArgsInRolls rs s = (.ok rs', s') → ∀ r ∈ rs', r.isLit = true
  | [], _, _, _, h => by cases h; simp
  | r :: rs, rs', s, s', h => by
    obtain ⟨r', s1, h1, h2⟩ := bnd_ok h
    obtain ⟨rest', s2, h3, h4⟩ := bnd_ok h2
    obtain ⟨rfl, _⟩ := pure_ok h4
    obtain ⟨a, s3, h5, h6⟩ := bnd_ok h1
    obtain ⟨b, s4, h7, h8⟩ := bnd_ok h6
    obtain ⟨rfl, _⟩ := pure_ok h8
    intro x hx
    rw [List.mem_cons] at hx
    rcases hx with rfl | hx
    · rfl
    · exact rollsArgs_lits h3 x hx

/-- Rolls and threshold are literals. -/
def LitList (rl : RRollList) : Prop :=
  (∀ r ∈ rl.rolls, r.isLit = true) ∧ ∀ e, rl.threshold = some e → ∃ v, e = .int v

theorem listArgs_lit {rl : RRollList} (h : LitList rl) (s : St σ) :
    E.evalVarArgsInRRollList rl s = (.ok rl, s) := by
  obtain ⟨rolls, t⟩ := rl
  cases t with
  | none => exact bnd_of_ok (f := fun rolls => (pure ⟨rolls, none⟩ : M σ RRollList)) (E.rollsArgs_lit h.1 s)
  | some e =>
    obtain ⟨v, rfl⟩ := h.2 e rfl
    exact bnd_of_ok (f := fun rolls => (pure ⟨rolls, some (.int v)⟩ : M σ RRollList)) (E.rollsArgs_lit h.1 s)

theorem listArgs_lits {rl rl' : RRollList} {s s' : St σ}
    (h : E.evalVarArgsInRRollList rl s = (.ok rl', s')) : LitList rl' := by
  obtain ⟨t, s1, h1, h2⟩ := bnd_ok h
  obtain ⟨rolls, s2, h3, h4⟩ := bnd_ok h2
  obtain ⟨rfl, _⟩ := pure_ok h4
  refine ⟨E.rollsArgs_lits h3, ?_⟩
  intro e he
  simp only at he
  subst he
  unfold evalVarArgsOfThreshold at h1
  cases ht : rl.threshold with
  | none => rw [ht] at h1; cases h1
  | some e' =>
    rw [ht] at h1
    obtain ⟨v, s4, h5, h6⟩ := bnd_ok h1
    obtain ⟨h7, _⟩ := pure_ok h6
    cases h7
    exact ⟨v, rfl⟩

/-- Literals, with a normalised bonus. -/
def LitU (u : URollExpr) : Prop := LitList u.list ∧ ∃ v, u.bonus = normalizeBonus v

theorem bonus_value (v : Int64) (s : St σ) (b : Sign × Expr) (hb : normalizeBonus v = some b) :
    E.eval (bonusExpr b) s = (.ok v, s) := by
  unfold normalizeBonus at hb
  by_cases h0 : v = 0
  · rw [if_pos h0] at hb; cases hb
  · rw [if_neg h0] at hb
    by_cases h1 : v > 0
    · rw [if_pos h1] at hb
      cases hb
      show (Out.ok ((0 : Int64) + v), s) = _
      simp
    · rw [if_neg h1] at hb
      cases hb
      show (Out.ok ((0 : Int64) - -v), s) = _
      simp

theorem uArgs_lit {u : URollExpr} (h : LitU u) (s : St σ) :
    E.evalVarArgsInURollExpr u s = (.ok u, s) := by
  obtain ⟨list, bonus⟩ := u
  obtain ⟨hl, v, hb⟩ := h
  simp only at hl hb
  refine (bnd_of_ok (E.listArgs_lit hl s)).trans ?_
  cases bonus with
  | none => rfl
  | some b =>
    refine (bnd_of_ok (f := fun v => (pure ⟨list, normalizeBonus v⟩ : M σ URollExpr))
      (E.bonus_value v s b hb.symm)).trans ?_
    rw [← hb]
    rfl

theorem uArgs_lits {u u' : URollExpr} {s s' : St σ}
    (h : E.evalVarArgsInURollExpr u s = (.ok u', s')) : LitU u' := by
  obtain ⟨list, s1, h1, h2⟩ := bnd_ok h
  have hl := E.listArgs_lits h1
  cases hb : u.bonus with
  | none =>
    rw [hb] at h2
    obtain ⟨rfl, _⟩ := pure_ok h2
    exact ⟨hl, 0, rfl⟩
  | some b =>
    rw [hb] at h2
    obtain ⟨v, s2, h3, h4⟩ := bnd_ok h2
    obtain ⟨rfl, _⟩ := pure_ok h4
    exact ⟨hl, v, rfl⟩

/-! ## The second run -/

/-- After a D roll all dice are fixed: executing again draws nothing and gives the same value. -/
theorem dExpr_again {g g' : Str} {e : Expr} {s s1 : St σ} {r : Result} {n1 : Node}
    (h : E.executeT g (.dRollExpr e) s = (.ok (r, n1), s1)) :
    ∃ shown v, r.parts.tail = [shown, intStr v] ∧ ∀ t : St σ, E.executeT g' n1 t =
      (.ok (mkResult g' [parenthesize shown, shown, intStr v] t.log, n1), t) := by
  obtain ⟨e1, t1, h1, h⟩ := bnd_ok h
  obtain ⟨e2, t2, h2, h⟩ := bnd_ok h
  obtain ⟨v, t3, h3, h⟩ := bnd_ok h
  obtain ⟨dice, t4, h4, h⟩ := bnd_ok h
  obtain ⟨hr, _⟩ := pure_ok h
  obtain ⟨rfl, rfl⟩ := Prod.mk.inj hr
  have hf := E.determine_fixes e1 h2
  refine ⟨infixNotation true e2, v, rfl, fun t => ?_⟩
  refine (bnd_of_ok (E.varArgs_fixed e2 hf t)).trans ?_
  refine (bnd_of_ok (E.determine_fixed e2 hf t)).trans ?_
  exact (bnd_of_ok (E.fixed_ok hf h3 t)).trans rfl

/-- A comparison of D rolls cannot be executed again. -/
theorem dComp_again {g g' : Str} {l : Expr} {op : CmpOp} {rr : Expr} {s s1 : St σ} {r : Result}
    {n1 : Node} (h : E.executeT g (.dRollComp l op rr) s = (.ok (r, n1), s1)) (t : St σ) :
    E.executeT g' n1 t = (.err chars!"EvalVarArgs not implemented: Int", t) := by
  obtain ⟨_, t1, h1, h⟩ := bnd_ok h
  obtain ⟨_, t2, h2, h⟩ := bnd_ok h
  obtain ⟨v, t3, h3, h⟩ := bnd_ok h
  obtain ⟨a, t4, h4, h⟩ := bnd_ok h
  obtain ⟨b, t5, h5, h⟩ := bnd_ok h
  obtain ⟨dice, t6, h6, h⟩ := bnd_ok h
  obtain ⟨hr, _⟩ := pure_ok h
  obtain ⟨rfl, rfl⟩ := Prod.mk.inj hr
  rfl

theorem choice_again {g g' : Str} (items : List Str) {s s1 : St σ} {r : Result} {n1 : Node}
    (h : E.executeT g (.choice items) s = (.ok (r, n1), s1)) {t t' : St σ} {r' : Result} {n2 : Node}
    (h' : E.executeT g' n1 t = (.ok (r', n2), t')) :
    n2 = n1 ∧ r'.parts.head? = r.parts.head? := by
  obtain ⟨_, t1, h1, h2⟩ := bnd_ok h
  obtain ⟨hr, _⟩ := pure_ok h2
  obtain ⟨rfl, rfl⟩ := Prod.mk.inj hr
  obtain ⟨_, t2, h3, h4⟩ := bnd_ok h'
  obtain ⟨hr, _⟩ := pure_ok h4
  obtain ⟨rfl, rfl⟩ := Prod.mk.inj hr
  refine ⟨rfl, ?_⟩
  obtain ⟨_, _, _, h1⟩ := bnd_ok h1
  obtain ⟨_, _, _, h1⟩ := bnd_ok h1
  obtain ⟨rfl, _⟩ := pure_ok h1
  obtain ⟨_, _, _, h3⟩ := bnd_ok h3
  obtain ⟨_, _, _, h3⟩ := bnd_ok h3
  obtain ⟨rfl, _⟩ := pure_ok h3
  rfl

theorem calc_again {g g' : Str} (e : Expr) {s s1 : St σ} {r : Result} {n1 : Node}
    (h : E.executeT g (.calc e) s = (.ok (r, n1), s1)) {t t' : St σ} {r' : Result} {n2 : Node}
    (h' : E.executeT g' n1 t = (.ok (r', n2), t')) :
    n2 = n1 ∧ r'.parts.head? = r.parts.head? := by
  obtain ⟨_, t1, h1, h2⟩ := bnd_ok h
  obtain ⟨hr, _⟩ := pure_ok h2
  obtain ⟨rfl, rfl⟩ := Prod.mk.inj hr
  obtain ⟨_, t2, h3, h4⟩ := bnd_ok h'
  obtain ⟨hr, _⟩ := pure_ok h4
  obtain ⟨rfl, rfl⟩ := Prod.mk.inj hr
  refine ⟨rfl, ?_⟩
  obtain ⟨_, _, _, h1⟩ := bnd_ok h1
  obtain ⟨rfl, _⟩ := pure_ok h1
  obtain ⟨_, _, _, h3⟩ := bnd_ok h3
  obtain ⟨rfl, _⟩ := pure_ok h3
  simp only [mkResult, List.head?_cons]

theorem bRollList_again {g g' : Str} (rolls : List Roll) {s s1 : St σ} {r : Result} {n1 : Node}
    (h : E.executeT g (.bRollList rolls) s = (.ok (r, n1), s1)) {t t' : St σ} {r' : Result} {n2 : Node}
    (h' : E.executeT g' n1 t = (.ok (r', n2), t')) :
    n2 = n1 ∧ r'.parts.head? = r.parts.head? := by
  obtain ⟨rolls1, t1, h1, h⟩ := bnd_ok h
  obtain ⟨_, _, _, h⟩ := bnd_ok h
  obtain ⟨_, _, _, h⟩ := bnd_ok h
  obtain ⟨hr, _⟩ := pure_ok h
  obtain ⟨rfl, rfl⟩ := Prod.mk.inj hr
  obtain ⟨rolls2, t2, h2, h'⟩ := bnd_ok h'
  obtain ⟨_, _, _, h'⟩ := bnd_ok h'
  obtain ⟨_, _, _, h'⟩ := bnd_ok h'
  obtain ⟨hr, _⟩ := pure_ok h'
  obtain ⟨rfl, rfl⟩ := Prod.mk.inj hr
  rw [E.rollsArgs_lit (E.rollsArgs_lits h1)] at h2
  cases h2
  exact ⟨rfl, rfl⟩

theorem bRollComp_again {g g' : Str} (rolls : List Roll) (op : CmpOp) (rr : Expr) {s s1 : St σ} {r : Result} {n1 : Node}
    (h : E.executeT g (.bRollComp rolls op rr) s = (.ok (r, n1), s1)) {t t' : St σ} {r' : Result} {n2 : Node}
    (h' : E.executeT g' n1 t = (.ok (r', n2), t')) :
    n2 = n1 ∧ r'.parts.head? = r.parts.head? := by
  obtain ⟨rolls1, t1, h1, h⟩ := bnd_ok h
  obtain ⟨b, _, _, h⟩ := bnd_ok h
  obtain ⟨_, _, _, h⟩ := bnd_ok h
  obtain ⟨_, _, _, h⟩ := bnd_ok h
  obtain ⟨hr, _⟩ := pure_ok h
  obtain ⟨rfl, rfl⟩ := Prod.mk.inj hr
  obtain ⟨rolls2, t2, h2, h'⟩ := bnd_ok h'
  obtain ⟨b', _, h3, h'⟩ := bnd_ok h'
  obtain ⟨_, _, _, h'⟩ := bnd_ok h'
  obtain ⟨_, _, _, h'⟩ := bnd_ok h'
  obtain ⟨hr, _⟩ := pure_ok h'
  obtain ⟨rfl, rfl⟩ := Prod.mk.inj hr
  rw [E.rollsArgs_lit (E.rollsArgs_lits h1)] at h2
  cases h2
  cases h3
  exact ⟨rfl, rfl⟩

theorem rRollList_again {g g' : Str} (rl : RRollList) {s s1 : St σ} {r : Result} {n1 : Node}
    (h : E.executeT g (.rRollList rl) s = (.ok (r, n1), s1)) {t t' : St σ} {r' : Result} {n2 : Node}
    (h' : E.executeT g' n1 t = (.ok (r', n2), t')) :
    n2 = n1 ∧ r'.parts.head? = r.parts.head? := by
  obtain ⟨rl1, t1, h1, h⟩ := bnd_ok h
  have hl := E.listArgs_lits h1
  obtain ⟨chk, t2, h2, h⟩ := bnd_ok h
  have hfirst : r.parts.head? = some (parenthesize (rRollListNotation chars!"R" rl1)) ∧
      n1 = .rRollList rl1 := by
    cases chk with
    | some msg =>
      obtain ⟨hr, _⟩ := pure_ok h
      obtain ⟨rfl, rfl⟩ := Prod.mk.inj hr
      exact ⟨rfl, rfl⟩
    | none =>
      obtain ⟨_, _, _, h⟩ := bnd_ok h
      obtain ⟨_, _, _, h⟩ := bnd_ok h
      obtain ⟨hr, _⟩ := pure_ok h
      obtain ⟨rfl, rfl⟩ := Prod.mk.inj hr
      exact ⟨rfl, rfl⟩
  obtain ⟨hf, rfl⟩ := hfirst
  obtain ⟨rl2, t3, h3, h'⟩ := bnd_ok h'
  rw [E.listArgs_lit hl] at h3
  cases h3
  obtain ⟨chk', t4, h4, h'⟩ := bnd_ok h'
  rw [hf]
  cases chk' with
  | some msg =>
    obtain ⟨hr, _⟩ := pure_ok h'
    obtain ⟨rfl, rfl⟩ := Prod.mk.inj hr
    exact ⟨rfl, rfl⟩
  | none =>
    obtain ⟨_, _, _, h⟩ := bnd_ok h'
    obtain ⟨_, _, _, h⟩ := bnd_ok h
    obtain ⟨hr, _⟩ := pure_ok h
    obtain ⟨rfl, rfl⟩ := Prod.mk.inj hr
    exact ⟨rfl, rfl⟩

theorem rRollComp_again {g g' : Str} (rl : RRollList) (op : CmpOp) (rr : Expr) {s s1 : St σ} {r : Result} {n1 : Node}
    (h : E.executeT g (.rRollComp rl op rr) s = (.ok (r, n1), s1)) {t t' : St σ} {r' : Result} {n2 : Node}
    (h' : E.executeT g' n1 t = (.ok (r', n2), t')) :
    n2 = n1 ∧ r'.parts.head? = r.parts.head? := by
  obtain ⟨rl1, t1, h1, h⟩ := bnd_ok h
  have hl1 := E.listArgs_lits h1
  obtain ⟨b, t2, h2, h⟩ := bnd_ok h
  obtain ⟨rl2, t3, h3, h⟩ := bnd_ok h
  have hl : LitList rl2 ∧ ∃ v, rl2.threshold = some (.int v) := by
    unfold setRerollThreshold at h3
    cases ht : rl1.threshold with
    | some e =>
      rw [ht] at h3
      cases h3
      obtain ⟨v, rfl⟩ := hl1.2 e ht
      exact ⟨hl1, v, ht⟩
    | none =>
      rw [ht] at h3
      obtain ⟨v, _, _, h4⟩ := bnd_ok h3
      obtain ⟨rfl, _⟩ := pure_ok h4
      exact ⟨⟨hl1.1, fun e he => ⟨v, (Option.some.inj he).symm⟩⟩, v, rfl⟩
  obtain ⟨hl, v, hv⟩ := hl
  obtain ⟨chk, t4, h4, h⟩ := bnd_ok h
  have hfirst : r.parts.head? = some (parenthesize (rRollListNotation chars!"R" rl2 ++ op.str ++
      infixNotation true (.int b))) ∧ n1 = .rRollComp rl2 op (.int b) := by
    cases chk with
    | some msg =>
      obtain ⟨hr, _⟩ := pure_ok h
      obtain ⟨rfl, rfl⟩ := Prod.mk.inj hr
      exact ⟨rfl, rfl⟩
    | none =>
      obtain ⟨_, _, _, h⟩ := bnd_ok h
      obtain ⟨_, _, _, h⟩ := bnd_ok h
      obtain ⟨hr, _⟩ := pure_ok h
      obtain ⟨rfl, rfl⟩ := Prod.mk.inj hr
      exact ⟨rfl, rfl⟩
  obtain ⟨hf, rfl⟩ := hfirst
  obtain ⟨rl3, t5, h5, h'⟩ := bnd_ok h'
  rw [E.listArgs_lit hl] at h5
  cases h5
  obtain ⟨b', t6, h6, h'⟩ := bnd_ok h'
  cases h6
  obtain ⟨rl4, t7, h7, h'⟩ := bnd_ok h'
  unfold setRerollThreshold at h7
  rw [hv] at h7
  cases h7
  obtain ⟨chk', t8, h8, h'⟩ := bnd_ok h'
  rw [hf]
  cases chk' with
  | some msg =>
    obtain ⟨hr, _⟩ := pure_ok h'
    obtain ⟨rfl, rfl⟩ := Prod.mk.inj hr
    exact ⟨rfl, rfl⟩
  | none =>
    obtain ⟨_, _, _, h⟩ := bnd_ok h'
    obtain ⟨_, _, _, h⟩ := bnd_ok h
    obtain ⟨hr, _⟩ := pure_ok h
    obtain ⟨rfl, rfl⟩ := Prod.mk.inj hr
    exact ⟨rfl, rfl⟩

theorem uRollExpr_again {g g' : Str} (u : URollExpr) {s s1 : St σ} {r : Result} {n1 : Node}
    (h : E.executeT g (.uRollExpr u) s = (.ok (r, n1), s1)) {t t' : St σ} {r' : Result} {n2 : Node}
    (h' : E.executeT g' n1 t = (.ok (r', n2), t')) :
    n2 = n1 ∧ r'.parts.head? = r.parts.head? := by
  obtain ⟨u1, t1, h1, h⟩ := bnd_ok h
  have hl := E.uArgs_lits h1
  obtain ⟨chk, t2, h2, h⟩ := bnd_ok h
  have hfirst : r.parts.head? = some (parenthesize (uRollExprNotation u1)) ∧
      n1 = .uRollExpr u1 := by
    cases chk with
    | some msg =>
      obtain ⟨hr, _⟩ := pure_ok h
      obtain ⟨rfl, rfl⟩ := Prod.mk.inj hr
      exact ⟨rfl, rfl⟩
    | none =>
      obtain ⟨_, _, _, h⟩ := bnd_ok h
      obtain ⟨_, _, _, h⟩ := bnd_ok h
      obtain ⟨hr, _⟩ := pure_ok h
      obtain ⟨rfl, rfl⟩ := Prod.mk.inj hr
      exact ⟨rfl, rfl⟩
  obtain ⟨hf, rfl⟩ := hfirst
  obtain ⟨u2, t3, h3, h'⟩ := bnd_ok h'
  rw [E.uArgs_lit hl] at h3
  cases h3
  obtain ⟨chk', t4, h4, h'⟩ := bnd_ok h'
  rw [hf]
  cases chk' with
  | some msg =>
    obtain ⟨hr, _⟩ := pure_ok h'
    obtain ⟨rfl, rfl⟩ := Prod.mk.inj hr
    exact ⟨rfl, rfl⟩
  | none =>
    obtain ⟨_, _, _, h⟩ := bnd_ok h'
    obtain ⟨_, _, _, h⟩ := bnd_ok h
    obtain ⟨hr, _⟩ := pure_ok h
    obtain ⟨rfl, rfl⟩ := Prod.mk.inj hr
    exact ⟨rfl, rfl⟩

theorem uRollComp_again {g g' : Str} (u : URollExpr) (op : CmpOp) (rr : Expr) {s s1 : St σ} {r : Result} {n1 : Node}
    (h : E.executeT g (.uRollComp u op rr) s = (.ok (r, n1), s1)) {t t' : St σ} {r' : Result} {n2 : Node}
    (h' : E.executeT g' n1 t = (.ok (r', n2), t')) :
    n2 = n1 ∧ r'.parts.head? = r.parts.head? := by
  obtain ⟨u1, t1, h1, h⟩ := bnd_ok h
  have hl := E.uArgs_lits h1
  obtain ⟨b, t2, h2, h⟩ := bnd_ok h
  obtain ⟨chk, t4, h4, h⟩ := bnd_ok h
  have hfirst : r.parts.head? = some (parenthesize (uRollExprNotation u1 ++ op.str ++
      infixNotation true (.int b))) ∧ n1 = .uRollComp u1 op (.int b) := by
    cases chk with
    | some msg =>
      obtain ⟨hr, _⟩ := pure_ok h
      obtain ⟨rfl, rfl⟩ := Prod.mk.inj hr
      exact ⟨rfl, rfl⟩
    | none =>
      obtain ⟨_, _, _, h⟩ := bnd_ok h
      obtain ⟨_, _, _, h⟩ := bnd_ok h
      obtain ⟨hr, _⟩ := pure_ok h
      obtain ⟨rfl, rfl⟩ := Prod.mk.inj hr
      exact ⟨rfl, rfl⟩
  obtain ⟨hf, rfl⟩ := hfirst
  obtain ⟨u2, t5, h5, h'⟩ := bnd_ok h'
  rw [E.uArgs_lit hl] at h5
  cases h5
  obtain ⟨b', t6, h6, h'⟩ := bnd_ok h'
  cases h6
  obtain ⟨chk', t8, h8, h'⟩ := bnd_ok h'
  rw [hf]
  cases chk' with
  | some msg =>
    obtain ⟨hr, _⟩ := pure_ok h'
    obtain ⟨rfl, rfl⟩ := Prod.mk.inj hr
    exact ⟨rfl, rfl⟩
  | none =>
    obtain ⟨_, _, _, h⟩ := bnd_ok h'
    obtain ⟨_, _, _, h⟩ := bnd_ok h
    obtain ⟨hr, _⟩ := pure_ok h
    obtain ⟨rfl, rfl⟩ := Prod.mk.inj hr
    exact ⟨rfl, rfl⟩

/-- Any other command stays as the first run has left it, and is displayed in the same way. -/
theorem other_again {g g' : Str} {n : Node} {s s1 : St σ} {r : Result} {n1 : Node}
    (hn : (∀ e, n ≠ .dRollExpr e) ∧ ∀ l op rr, n ≠ .dRollComp l op rr)
    (h : E.executeT g n s = (.ok (r, n1), s1)) {t t' : St σ} {r' : Result} {n2 : Node}
    (h' : E.executeT g' n1 t = (.ok (r', n2), t')) :
    n2 = n1 ∧ r'.parts.head? = r.parts.head? := by
  cases n with
  | choice items => exact choice_again E items h h'
  | «calc» e => exact calc_again E e h h'
  | dRollExpr e => exact absurd rfl (hn.1 e)
  | dRollComp l op rr => exact absurd rfl (hn.2 l op rr)
  | bRollList rolls => exact bRollList_again E rolls h h'
  | bRollComp rolls op rr => exact bRollComp_again E rolls op rr h h'
  | rRollList rl => exact rRollList_again E rl h h'
  | rRollComp rl op rr => exact rRollComp_again E rl op rr h h'
  | uRollExpr u => exact uRollExpr_again E u h h'
  | uRollComp u op rr => exact uRollComp_again E u op rr h h'

end Evaluator
end GoBCDice
