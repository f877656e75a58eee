import Verif.Lemmas.Behave

/-! # Behaviour of whole commands -/

namespace GoBCDice
variable {σ : Type} {I : σ → Prop} {G S : Prop} (E : Evaluator σ)

/-! ## Rolls -/

/-- A roll with literal operands, small if `S`. -/
def LitRoll (S : Prop) (r : Roll) : Prop :=
  ∃ a b, r = ⟨.int a, .int b⟩ ∧ (S → a.toInt ≤ cap)

theorem LitRoll.rands {r : Roll} (h : LitRoll S r) : r.rands = 1 := by
  obtain ⟨a, b, rfl, -⟩ := h
  rfl

theorem LitRoll.small {r : Roll} (h : LitRoll S r) (hs : S) : r.SmallCounts := by
  obtain ⟨a, b, rfl, h⟩ := h
  refine ⟨?_, trivial, trivial⟩
  intro ds v _ he
  cases he
  have := h hs; rw [cap_eq] at this; exact this

theorem beh_evalBasicRoll (r : Roll) (hS : S → r.SmallCounts) :
    Beh E.F I (r.rands * cap) G S (fun vs => vs.length ≤ cap) (E.evalBasicRoll r) := by
  refine Beh.assume fun hSG => (beh_eval E r.num (fun h => (hS h).2.1)).bind'
    (B' := r.sides.rands * cap + cap) (fun a ha =>
    (beh_eval E r.sides (fun h => (hS h).2.2)).bind' (C := r.sides.rands * cap + cap) (B' := cap)
      (fun b _ => ?_) (Nat.le_refl _)) ?_
  · refine (beh_rollDice_cap E a b (fun h => ?_)).map (fun ds hd => ?_)
    · obtain ⟨ds, h1, h2⟩ := ha (hSG h)
      rw [cap_eq]; exact (hS h).1 ds a h1 h2
    · simp only [List.length_map]; exact hd.1.length_le
  · simp only [Roll.rands, Nat.add_mul]; omega

theorem beh_evalBRollList (rs : List Roll) (hS : S → ∀ r ∈ rs, r.SmallCounts) :
    Beh E.F I (rollsRands rs * cap) G S (fun _ => True) (E.evalBRollList rs) := by
  induction rs with
  | nil => exact (Beh.pure _ trivial).mono (Nat.zero_le _) (fun _ h => h)
  | cons r rs ih =>
    unfold Evaluator.evalBRollList
    refine (beh_evalBasicRoll E r (fun h => hS h r (by simp))).bind' (fun vs _ =>
      (ih (fun h x hx => hS h x (by simp [hx]))).map (fun _ _ => trivial)) ?_
    simp only [rollsRands, List.map_cons, List.sum_cons, Nat.add_mul]; omega

theorem rollsRands_lit {rs : List Roll} (h : ∀ r ∈ rs, LitRoll S r) : rollsRands rs = rs.length := by
  induction rs with
  | nil => rfl
  | cons r rs ih =>
    have := (h r (by simp)).rands
    have := ih (fun x hx => h x (by simp [hx]))
    simp only [rollsRands, List.map_cons, List.sum_cons, List.length_cons] at *
    omega

theorem length_le_rollsRands (rs : List Roll) : rs.length ≤ rollsRands rs := by
  induction rs with
  | nil => simp
  | cons r rs ih =>
    simp only [rollsRands, List.map_cons, List.sum_cons, List.length_cons, Roll.rands] at *
    omega

theorem beh_rRollLoop (th : Int64) (n : Nat) : ∀ (queue : List Roll) (acc : List (List Int64)),
    (∀ r ∈ queue, LitRoll S r) →
    Beh E.F I (n * cap) G S (fun _ => True) (E.rRollLoop th n queue acc) := by
  induction n with
  | zero =>
    intro queue acc _
    exact (Beh.pure _ trivial).mono (Nat.zero_le _) (fun _ h => h)
  | succ n ih =>
    intro queue acc hq
    cases queue with
    | nil => exact (Beh.pure _ trivial).mono (Nat.zero_le _) (fun _ h => h)
    | cons r queue =>
      have hr := hq r (by simp)
      unfold Evaluator.rRollLoop
      refine (beh_evalBasicRoll E r hr.small).bind' (B' := n * cap) (fun vs hvs => ?_) ?_
      · refine ih _ _ ?_
        split
        · intro x hx
          rcases List.mem_append.mp hx with hx | hx
          · exact hq x (by simp [hx])
          · simp only [List.mem_singleton] at hx
            subst hx
            obtain ⟨a, b, rfl, -⟩ := hr
            refine ⟨_, b, rfl, fun _ => ?_⟩
            have hle : (vs.filter (fun v => decide (v ≥ th))).length ≤ cap :=
              Nat.le_trans (List.length_filter_le _ _) hvs
            rw [cap_eq] at hle ⊢
            rw [Int64.toInt_ofNat_of_lt (by omega)]
            omega
        · intro x hx
          exact hq x (by simp [hx])
      · rw [hr.rands, Nat.add_mul]; omega

theorem beh_uGroup (sides th : Int64) (n : Nat) : ∀ acc : List Int64,
    Beh E.F I n G S (fun _ => True) (E.uGroup sides th n acc) := by
  induction n with
  | zero => intro acc; exact Beh.pure _ trivial
  | succ n ih =>
    intro acc
    unfold Evaluator.uGroup
    refine (beh_rollOne E sides).bind' (B' := n) (fun ds hds =>
      (beh_firstDie E ds hds.1).bind' (B' := n) (C := n) (fun d _ => ?_) (by omega)) (by omega)
    split
    · exact (Beh.pure _ trivial).mono (Nat.zero_le _) (fun _ h => h)
    · exact ih _

theorem beh_uGroups (sides th : Int64) (n : Nat) : ∀ acc : List (List Int64),
    Beh E.F I (n * loopCount E.maxRerolls) G S (fun _ => True) (E.uGroups sides th n acc) := by
  induction n with
  | zero => intro acc; exact (Beh.pure _ trivial).mono (Nat.zero_le _) (fun _ h => h)
  | succ n ih =>
    intro acc
    unfold Evaluator.uGroups
    refine (beh_uGroup E sides th _ _).bind' (fun g _ => ih _) ?_
    rw [Nat.add_mul]; omega

theorem Beh.crashMake {α : Type} {F : DieFeeder σ} {Q : α → Prop} (h : ¬ S) :
    Beh F I 0 G S Q (M.crash makePanicMsg : M σ α) := by
  intro _ _ s o s' hi hm
  simp only [M.crash, Prod.mk.injEq] at hm
  obtain ⟨rfl, rfl⟩ := hm
  refine ⟨hi, [], _, [], .nil _, .nil _, by simp, by simp, by simp, ?_⟩
  intro msg hmsg
  cases hmsg
  exact ⟨fun _ => rfl, h⟩

theorem beh_evalCompoundingRoll (r : Roll) (th : Int64) (hr : LitRoll S r) :
    Beh E.F I (cap * loopCount E.maxRerolls) G S (fun _ => True) (E.evalCompoundingRoll r th) := by
  obtain ⟨a, b, rfl, hS⟩ := hr
  have : E.evalCompoundingRoll ⟨.int a, .int b⟩ th =
      (if b < 1 then M.fail (Evaluator.compoundingMsg a b chars!"ダイスの面数が少なすぎます")
       else if a < 1 then M.fail (Evaluator.compoundingMsg a b chars!"振るダイス数が少なすぎます")
       else if maxMakeCap < a then M.crash makePanicMsg
       else E.uGroups b th (loopCount a) []) := by
    funext s; rfl
  rw [this]
  split
  · exact (Beh.fail _).mono (Nat.zero_le _) (fun _ h => h)
  · split
    · exact (Beh.fail _).mono (Nat.zero_le _) (fun _ h => h)
    · split
      · rename_i h3
        rw [Int64.lt_iff_toInt_lt, maxMakeCap_toInt] at h3
        exact (Beh.crashMake (fun hs => by have := hS hs; omega)).mono (Nat.zero_le _) (fun _ h => h)
      · rename_i h3
        rw [Int64.lt_iff_toInt_lt, maxMakeCap_toInt] at h3
        exact (beh_uGroups E b th _ _).mono
          (Nat.mul_le_mul_right _ (by unfold loopCount; omega)) (fun _ h => h)

theorem beh_evalCompoundingRolls (th : Int64) (rs : List Roll) (h : ∀ r ∈ rs, LitRoll S r) :
    Beh E.F I (rs.length * (cap * loopCount E.maxRerolls)) G S (fun _ => True)
      (E.evalCompoundingRolls th rs) := by
  induction rs with
  | nil => exact (Beh.pure _ trivial).mono (Nat.zero_le _) (fun _ h => h)
  | cons r rs ih =>
    unfold Evaluator.evalCompoundingRolls
    refine (beh_evalCompoundingRoll E r th (h r (by simp))).bind' (fun gs _ =>
      (ih (fun x hx => h x (by simp [hx]))).map (fun _ _ => trivial)) ?_
    simp only [List.length_cons, Nat.add_mul, Nat.one_mul]; omega

/-! ## Stage 1 -/

theorem beh_evalVarArgsOfRoll (r : Roll) (hS : S → r.SmallCounts) :
    Beh E.F I ((r.num.rands + r.sides.rands) * cap) G S (LitRoll S) (E.evalVarArgsOfRoll r) := by
  refine Beh.assume fun hSG => (beh_eval E r.num (fun h => (hS h).2.1)).bind' (fun a ha =>
    (beh_eval E r.sides (fun h => (hS h).2.2)).map (Q2 := LitRoll S) (fun b _ => ⟨a, b, rfl, fun h => ?_⟩)) ?_
  · obtain ⟨ds, h1, h2⟩ := ha (hSG h)
    rw [cap_eq]; exact (hS h).1 ds a h1 h2
  · rw [Nat.add_mul]; omega

theorem beh_evalVarArgsInRolls (rs : List Roll) (hS : S → ∀ r ∈ rs, r.SmallCounts) :
    Beh E.F I (rollsRands rs * cap) G S
      (fun rs' => (∀ r ∈ rs', LitRoll S r) ∧ rs'.length = rs.length) (E.evalVarArgsInRolls rs) := by
  induction rs with
  | nil => exact (Beh.pure _ ⟨by simp, rfl⟩).mono (Nat.zero_le _) (fun _ h => h)
  | cons r rs ih =>
    unfold Evaluator.evalVarArgsInRolls
    refine (beh_evalVarArgsOfRoll E r (fun h => hS h r (by simp))).bind' (fun r' hr' =>
      (ih (fun h x hx => hS h x (by simp [hx]))).map (fun rs' hrs' => ⟨?_, by simp [hrs'.2]⟩)) ?_
    · intro x hx
      rcases List.mem_cons.mp hx with rfl | hx
      · exact hr'
      · exact hrs'.1 x hx
    · simp only [rollsRands, List.map_cons, List.sum_cons, Nat.add_mul, Roll.rands]; omega

/-- A threshold that is absent or a literal. -/
def LitOpt (t : Option Expr) : Prop := ∀ e ∈ t, ∃ v, e = .int v

theorem beh_evalVarArgsOfThreshold (t : Option Expr) (hS : S → ∀ e ∈ t, e.SmallCounts) :
    Beh E.F I (optRands t * cap) G S LitOpt (E.evalVarArgsOfThreshold t) := by
  cases t with
  | none => exact (Beh.pure _ (by intro e he; cases he)).mono (Nat.zero_le _) (fun _ h => h)
  | some e =>
    exact (beh_eval E e (fun h => hS h e rfl)).map (fun v _ => by
      intro e he; cases he; exact ⟨v, rfl⟩)

/-- A roll list ready to be rolled. -/
def LitList (S : Prop) (n : Nat) (rl : RRollList) : Prop :=
  (∀ r ∈ rl.rolls, LitRoll S r) ∧ rl.rolls.length = n ∧ LitOpt rl.threshold

theorem beh_evalVarArgsInRRollList (rl : RRollList)
    (hS : S → (∀ r ∈ rl.rolls, r.SmallCounts) ∧ ∀ e ∈ rl.threshold, e.SmallCounts) :
    Beh E.F I ((rollsRands rl.rolls + optRands rl.threshold) * cap) G S (LitList S rl.rolls.length)
      (E.evalVarArgsInRRollList rl) := by
  unfold Evaluator.evalVarArgsInRRollList
  refine (beh_evalVarArgsOfThreshold E _ (fun h => (hS h).2)).bind' (fun t ht =>
    (beh_evalVarArgsInRolls E _ (fun h => (hS h).1)).map (fun rs hrs => ⟨hrs.1, hrs.2, ht⟩)) ?_
  rw [Nat.add_mul]; omega

theorem bonusExpr_rands (b : Sign × Expr) : (bonusExpr b).rands = b.2.rands := by
  obtain ⟨s, e⟩ := b
  cases s <;> simp [bonusExpr, Expr.rands]

theorem bonusExpr_small (b : Sign × Expr) (h : b.2.SmallCounts) : (bonusExpr b).SmallCounts := by
  obtain ⟨s, e⟩ := b
  cases s <;> exact ⟨trivial, h⟩

/-- A bonus that is absent or a literal. -/
def LitBonus (b : Option (Sign × Expr)) : Prop := ∀ x ∈ b, ∃ v, x.2 = .int v

theorem litBonus_normalize (v : Int64) : LitBonus (Evaluator.normalizeBonus v) := by
  unfold Evaluator.normalizeBonus
  split
  · intro x hx; cases hx
  · split
    · intro x hx; cases hx; exact ⟨_, rfl⟩
    · intro x hx; cases hx; exact ⟨_, rfl⟩

theorem beh_evalVarArgsInURollExpr (u : URollExpr)
    (hS : S → ((∀ r ∈ u.list.rolls, r.SmallCounts) ∧ ∀ e ∈ u.list.threshold, e.SmallCounts) ∧
      ∀ b ∈ u.bonus, b.2.SmallCounts) :
    Beh E.F I ((rollsRands u.list.rolls + optRands u.list.threshold +
        optRands (u.bonus.map Prod.snd)) * cap) G S
      (fun u' => LitList S u.list.rolls.length u'.list ∧ LitBonus u'.bonus)
      (E.evalVarArgsInURollExpr u) := by
  obtain ⟨list, bon⟩ := u
  unfold Evaluator.evalVarArgsInURollExpr
  refine (beh_evalVarArgsInRRollList E list (fun h => (hS h).1)).bind'
    (B' := optRands (bon.map Prod.snd) * cap) (fun l hl => ?_) ?_
  · cases bon with
    | none =>
      exact (Beh.pure _ ⟨hl, by intro x hx; cases hx⟩).mono (Nat.zero_le _) (fun _ h => h)
    | some b =>
      refine ((beh_eval E (bonusExpr b) (fun h => bonusExpr_small b ((hS h).2 b rfl))).map
        (fun v _ => ⟨hl, litBonus_normalize v⟩)).mono ?_ (fun _ h => h)
      rw [bonusExpr_rands]; exact Nat.le_refl _
  · simp only [Nat.add_mul]; omega

/-! ## Thresholds -/

theorem beh_checkThreshold (msg : Str) (t : Option Expr) (h : LitOpt t) :
    Beh E.F I 0 G S (fun _ => True) (E.checkThreshold msg t) := by
  cases t with
  | none => exact Beh.pure _ trivial
  | some e =>
    obtain ⟨v, rfl⟩ := h e rfl
    have : E.checkThreshold msg (some (.int v)) =
        (pure (if v < 2 then some Evaluator.thresholdTooSmallMsg else none) : M σ (Option Str)) := by
      funext s
      rfl
    rw [this]
    exact Beh.pure _ trivial

theorem beh_evalRRollList (rl : RRollList) {n : Nat} (h : LitList S n rl) :
    Beh E.F I (loopCount E.maxRerolls * cap) G S (fun _ => True) (E.evalRRollList rl) := by
  obtain ⟨rolls, th⟩ := rl
  unfold Evaluator.evalRRollList
  cases th with
  | none => exact (Beh.fail _).mono (Nat.zero_le _) (fun _ h => h)
  | some e =>
    obtain ⟨v, rfl⟩ := h.2.2 e rfl
    exact (beh_eval (I := I) (G := G) (S := S) E (.int v) (fun _ => trivial)).bind' (fun t _ =>
      beh_rRollLoop E t _ _ _ h.1) (by simp [Expr.rands])

theorem beh_evalURollList (rl : RRollList) {n : Nat} (h : LitList S n rl) :
    Beh E.F I (n * (cap * loopCount E.maxRerolls)) G S (fun _ => True) (E.evalURollList rl) := by
  obtain ⟨rolls, th⟩ := rl
  unfold Evaluator.evalURollList
  cases th with
  | none => exact (Beh.fail _).mono (Nat.zero_le _) (fun _ h => h)
  | some e =>
    obtain ⟨v, rfl⟩ := h.2.2 e rfl
    refine (beh_eval (I := I) (G := G) (S := S) E (.int v) (fun _ => trivial)).bind' (fun t _ =>
      beh_evalCompoundingRolls E t _ h.1) ?_
    have := h.2.1
    simp only at this
    rw [this]
    simp [Expr.rands]

theorem beh_evalBonus (b : Option (Sign × Expr)) (h : LitBonus b) :
    Beh E.F I 0 G S (fun _ => True) (E.evalBonus b) := by
  cases b with
  | none => exact Beh.pure _ trivial
  | some x =>
    obtain ⟨v, hv⟩ := h x rfl
    refine (beh_eval (I := I) (G := G) (S := S) E (bonusExpr x)
      (fun _ => bonusExpr_small x (by rw [hv]; trivial))).mono ?_ (fun _ _ => trivial)
    rw [bonusExpr_rands, hv]; simp [Expr.rands]

theorem beh_evalURollExpr (u : URollExpr) {n : Nat} (h : LitList S n u.list) (hb : LitBonus u.bonus) :
    Beh E.F I (n * (cap * loopCount E.maxRerolls)) G S (fun _ => True) (E.evalURollExpr u) := by
  unfold Evaluator.evalURollExpr
  exact (beh_evalBonus E u.bonus hb).bind' (fun v _ =>
    (beh_evalURollList E u.list h).map (fun _ _ => trivial)) (by omega)

/-! ## D rolls in stages -/

/-- The result of a stage is not more random than what it started from, and has only values the
start could have. -/
def StageOf (G S : Prop) (e e' : Expr) : Prop :=
  e'.rands ≤ e.rands ∧ (S → e'.SmallCounts) ∧ (G → ∀ v, FairVal e' v → FairVal e v)

theorem FairVal.inv_bin {op : BinOp} {l r : Expr} {v : Int64} (h : FairVal (.bin op l r) v) :
    ∃ a b, FairVal l a ∧ FairVal r b ∧ v = op.apply a b := by
  obtain ⟨ds, hf, he⟩ := h
  cases he with
  | add h1 h2 => exact ⟨_, _, ⟨_, fun d hd => hf d (by simp [hd]), h1⟩, ⟨_, fun d hd => hf d (by simp [hd]), h2⟩, rfl⟩
  | sub h1 h2 => exact ⟨_, _, ⟨_, fun d hd => hf d (by simp [hd]), h1⟩, ⟨_, fun d hd => hf d (by simp [hd]), h2⟩, rfl⟩
  | mul h1 h2 => exact ⟨_, _, ⟨_, fun d hd => hf d (by simp [hd]), h1⟩, ⟨_, fun d hd => hf d (by simp [hd]), h2⟩, rfl⟩

theorem FairVal.congr_neg {r r' : Expr} (h : ∀ v, FairVal r' v → FairVal r v) {v : Int64}
    (hv : FairVal (.neg r') v) : FairVal (.neg r) v := by
  obtain ⟨ds, hf, he⟩ := hv
  cases he with
  | neg he =>
    obtain ⟨es, h1, h2⟩ := h _ ⟨_, hf, he⟩
    exact ⟨es, h1, .neg h2⟩

theorem FairVal.congr_bin {op : BinOp} {l r l' r' : Expr} (hl : ∀ v, FairVal l' v → FairVal l v)
    (hr : ∀ v, FairVal r' v → FairVal r v) {v : Int64} (hv : FairVal (.bin op l' r') v) :
    FairVal (.bin op l r) v := by
  obtain ⟨a, b, h1, h2, rfl⟩ := hv.inv_bin
  exact (hl a h1).bin (hr b h2)

theorem FairVal.congr_div {op : Rounding} {l r l' r' : Expr} (hl : ∀ v, FairVal l' v → FairVal l v)
    (hr : ∀ v, FairVal r' v → FairVal r v) {v : Int64} (hv : FairVal (.div op l' r') v) :
    FairVal (.div op l r) v := by
  obtain ⟨ds, hf, he⟩ := hv
  cases he with
  | div h1 h2 h3 =>
    obtain ⟨as, f1, e1⟩ := hl _ ⟨_, fun d hd => hf d (by simp [hd]), h1⟩
    obtain ⟨bs, f2, e2⟩ := hr _ ⟨_, fun d hd => hf d (by simp [hd]), h2⟩
    exact ⟨_, fair_append f1 f2, .div e1 e2 h3⟩

theorem FairVal.congr_var {k : VarKind} {l r l' r' : Expr} (hl : ∀ v, FairVal l' v → FairVal l v)
    (hr : ∀ v, FairVal r' v → FairVal r v) {v : Int64} (hv : FairVal (.var k l' r') v) :
    FairVal (.var k l r) v := by
  obtain ⟨ds, hf, he⟩ := hv
  cases he with
  | d h1 h2 h3 =>
    obtain ⟨as, f1, e1⟩ := hl _ ⟨_, fun d hd => hf d (by simp [hd]), h1⟩
    obtain ⟨bs, f2, e2⟩ := hr _ ⟨_, fun d hd => hf d (by simp [hd]), h2⟩
    exact ⟨_, fair_append (fair_append f1 f2) (fun d hd => hf d (by simp [hd])), .d e1 e2 h3⟩
  | rand h1 h2 h3 h4 =>
    obtain ⟨as, f1, e1⟩ := hl _ ⟨_, fun d hd => hf d (by simp [hd]), h1⟩
    obtain ⟨bs, f2, e2⟩ := hr _ ⟨_, fun d hd => hf d (by simp [hd]), h2⟩
    exact ⟨_, fair_append (fair_append f1 f2) (fun d hd => hf d (List.mem_append_right _ hd)),
      .rand e1 e2 h3 h4⟩

theorem fairVal_int {a v : Int64} (h : FairVal (.int a) v) : v = a := by
  obtain ⟨ds, -, he⟩ := h
  cases he
  rfl

theorem beh_evalVarArgsOfVariableExpr (e : Expr) (hS : S → e.SmallCounts) :
    Beh E.F I (e.rands * cap) G S (StageOf G S e) (E.evalVarArgsOfVariableExpr e) := by
  refine Beh.assume fun hSG => ?_
  unfold Evaluator.evalVarArgsOfVariableExpr
  split
  · rename_i l r
    refine (beh_eval E l (fun h => (hS h).2.1)).bind' (fun a ha =>
      (beh_eval E r (fun h => (hS h).2.2)).map (Q2 := StageOf G S (.var .d l r)) (fun b hb =>
      ⟨?_, ?_, ?_⟩)) ?_
    · simp [Expr.rands]
    · intro h
      refine ⟨?_, trivial, trivial⟩
      obtain ⟨ds, h1, h2⟩ := ha (hSG h)
      intro es v _ hv
      cases hv
      exact (hS h).1 ds a h1 h2
    · intro hG v hv
      exact FairVal.congr_var (fun w hw => by rw [fairVal_int hw]; exact ha hG)
        (fun w hw => by rw [fairVal_int hw]; exact hb hG) hv
    · simp only [Expr.rands, Nat.add_mul]; omega
  · exact (Beh.fail _).mono (Nat.zero_le _) (fun _ h => h)

theorem StageOf.refl {e : Expr} (hS : S → e.SmallCounts) : StageOf G S e e :=
  ⟨Nat.le_refl _, hS, fun _ _ h => h⟩

theorem beh_evalVarArgsPrimary (e : Expr) (hS : S → e.SmallCounts) :
    Beh E.F I (e.rands * cap) G S (StageOf G S e) (E.evalVarArgsPrimary e) := by
  unfold Evaluator.evalVarArgsPrimary
  split
  · exact beh_evalVarArgsOfVariableExpr E e hS
  · exact (Beh.pure _ (StageOf.refl hS)).mono (Nat.zero_le _) (fun _ h => h)

/-- Recombining two operands. -/
theorem stage_binary {f : Expr → Expr → Expr} {l r : Expr} {ml mr : M σ Expr}
    (hf : ∀ l' r', (f l' r').rands ≤ (f l r).rands + (l'.rands - l.rands) + (r'.rands - r.rands))
    (hl : Beh E.F I (l.rands * cap) G S (StageOf G S l) ml) (hr : Beh E.F I (r.rands * cap) G S (StageOf G S r) mr)
    (hs : ∀ l' r', StageOf G S l l' → StageOf G S r r' → S → (f l' r').SmallCounts)
    (hn : ∀ l' r', (∀ v, FairVal l' v → FairVal l v) → (∀ v, FairVal r' v → FairVal r v) →
      ∀ v, FairVal (f l' r') v → FairVal (f l r) v)
    (hle : l.rands + r.rands ≤ (f l r).rands) :
    Beh E.F I ((f l r).rands * cap) G S (StageOf G S (f l r))
      (do let a ← ml; let b ← mr; pure (f a b)) := by
  refine hl.bind' (fun a ha => hr.map (Q2 := StageOf G S (f l r)) (fun b hb => ⟨?_, hs a b ha hb, ?_⟩)) ?_
  · have := hf a b
    have := ha.1
    have := hb.1
    omega
  · intro hG
    exact hn a b (ha.2.2 hG) (hb.2.2 hG)
  · have := Nat.mul_le_mul_right cap hle
    rw [Nat.add_mul] at this
    omega

theorem small_var {k : VarKind} {l r l' r' : Expr} (hSG : S → G) (hS : S → (Expr.var k l r).SmallCounts)
    (hl : StageOf G S l l') (hr : StageOf G S r r') (h : S) : (Expr.var k l' r').SmallCounts := by
  cases k with
  | d =>
    refine ⟨?_, hl.2.1 h, hr.2.1 h⟩
    intro ds v hf hv
    obtain ⟨es, h1, h2⟩ := hl.2.2 (hSG h) v ⟨ds, hf, hv⟩
    exact (hS h).1 es v h1 h2
  | rand => exact ⟨hl.2.1 h, hr.2.1 h⟩

theorem small_var_ops {k : VarKind} {l r : Expr} (hS : S → (Expr.var k l r).SmallCounts) :
    (S → l.SmallCounts) ∧ (S → r.SmallCounts) := by
  cases k with
  | d => exact ⟨fun h => (hS h).2.1, fun h => (hS h).2.2⟩
  | rand => exact ⟨fun h => (hS h).1, fun h => (hS h).2⟩

theorem beh_evalVarArgs_neg_eq (r : Expr) : E.evalVarArgs (.neg r) = (do
    let r' ← (if r.isPrimary then E.evalVarArgsPrimary r else E.evalVarArgs r)
    pure (.neg r')) := by
  cases h : r.isPrimary <;> simp only [Evaluator.evalVarArgs, h, if_true, if_false, Bool.false_eq_true]

theorem beh_evalVarArgs_bin_eq (o : BinOp) (l r : Expr) : E.evalVarArgs (.bin o l r) = (do
    let l' ← (if l.isPrimary then E.evalVarArgsPrimary l else E.evalVarArgs l)
    let r' ← (if r.isPrimary then E.evalVarArgsPrimary r else E.evalVarArgs r)
    pure (.bin o l' r')) := by
  cases h : r.isPrimary <;> cases h' : l.isPrimary <;>
    simp only [Evaluator.evalVarArgs, h, h', if_true, if_false, Bool.false_eq_true]

theorem beh_evalVarArgs_div_eq (o : Rounding) (l r : Expr) : E.evalVarArgs (.div o l r) = (do
    let l' ← (if l.isPrimary then E.evalVarArgsPrimary l else E.evalVarArgs l)
    let r' ← (if r.isPrimary then E.evalVarArgsPrimary r else E.evalVarArgs r)
    pure (.div o l' r')) := by
  cases h : r.isPrimary <;> cases h' : l.isPrimary <;>
    simp only [Evaluator.evalVarArgs, h, h', if_true, if_false, Bool.false_eq_true]

theorem beh_evalVarArgs_var_eq (o : VarKind) (l r : Expr) : E.evalVarArgs (.var o l r) = (do
    let l' ← (if l.isPrimary then E.evalVarArgsPrimary l else E.evalVarArgs l)
    let r' ← (if r.isPrimary then E.evalVarArgsPrimary r else E.evalVarArgs r)
    pure (.var o l' r')) := by
  cases h : r.isPrimary <;> cases h' : l.isPrimary <;>
    simp only [Evaluator.evalVarArgs, h, h', if_true, if_false, Bool.false_eq_true]

theorem beh_evalVarArgs (e : Expr) (hS : S → e.SmallCounts) :
    Beh E.F I (e.rands * cap) G S (StageOf G S e) (E.evalVarArgs e) := by
  refine Beh.assume fun hSG => ?_
  have op : ∀ x : Expr, (S → x.SmallCounts) →
      ((S → x.SmallCounts) → Beh E.F I (x.rands * cap) G S (StageOf G S x) (E.evalVarArgs x)) →
      Beh E.F I (x.rands * cap) G S (StageOf G S x)
        (if x.isPrimary then E.evalVarArgsPrimary x else E.evalVarArgs x) := by
    intro x hx ih
    split
    · exact beh_evalVarArgsPrimary E x hx
    · exact ih hx
  induction e with
  | int v => exact (Beh.fail _).mono (Nat.zero_le _) (fun _ h => h)
  | sumRoll ds => exact (Beh.fail _).mono (Nat.zero_le _) (fun _ h => h)
  | neg r ih =>
    rw [beh_evalVarArgs_neg_eq]
    exact (op r hS ih).map (Q2 := StageOf G S (.neg r)) (fun a ha => ⟨ha.1, ha.2.1, fun hG _ hv => hv.congr_neg (ha.2.2 hG)⟩)
  | bin o l r ihl ihr =>
    rw [beh_evalVarArgs_bin_eq]
    exact stage_binary E (f := fun a b => .bin o a b) (by intro a b; simp only [Expr.rands]; omega)
      (op l (fun h => (hS h).1) ihl) (op r (fun h => (hS h).2) ihr)
      (fun a b ha hb h => ⟨ha.2.1 h, hb.2.1 h⟩) (fun _ _ h1 h2 _ => .congr_bin h1 h2) (by simp [Expr.rands])
  | div o l r ihl ihr =>
    rw [beh_evalVarArgs_div_eq]
    exact stage_binary E (f := fun a b => .div o a b) (by intro a b; simp only [Expr.rands]; omega)
      (op l (fun h => (hS h).1) ihl) (op r (fun h => (hS h).2) ihr)
      (fun a b ha hb h => ⟨ha.2.1 h, hb.2.1 h⟩) (fun _ _ h1 h2 _ => .congr_div h1 h2) (by simp [Expr.rands])
  | var k l r ihl ihr =>
    rw [beh_evalVarArgs_var_eq]
    exact stage_binary E (f := fun a b => .var k a b) (by intro a b; simp only [Expr.rands]; omega)
      (op l (small_var_ops hS).1 ihl) (op r (small_var_ops hS).2 ihr)
      (fun a b ha hb h => small_var hSG hS ha hb h) (fun _ _ h1 h2 _ => .congr_var h1 h2)
      (by simp only [Expr.rands]; omega)

theorem beh_replaceVariablePrimaryExpr (e : Expr) (hS : S → e.SmallCounts) :
    Beh E.F I (e.rands * cap) G S (StageOf G S e) (E.replaceVariablePrimaryExpr e) := by
  have hfail : ∀ m, Beh E.F I (e.rands * cap) G S (StageOf G S e) (M.fail m : M σ Expr) :=
    fun m => (Beh.fail m).mono (Nat.zero_le _) (fun _ h => h)
  have hpure : Beh E.F I (e.rands * cap) G S (StageOf G S e) (pure e : M σ Expr) :=
    (Beh.pure _ (StageOf.refl hS)).mono (Nat.zero_le _) (fun _ h => h)
  unfold Evaluator.replaceVariablePrimaryExpr
  split
  · match e, hS, hfail with
    | .var .d (.int num) (.int sides), hS, _ =>
      refine ((beh_rollDice_cap E num sides (fun h => ?_)).map
        (Q2 := StageOf G S (.var .d (.int num) (.int sides))) (fun ds hd => ⟨?_, ?_, ?_⟩)).mono ?_ 
        (fun _ h => h)
      · rw [cap_eq]; exact (hS h).1 [] num (by simp) (.int num)
      · simp [Expr.rands]
      · intro _; trivial
      · intro hG v hv
        obtain ⟨es, -, he⟩ := hv
        cases he
        exact FairVal.d ⟨[], by simp, .int num⟩ ⟨[], by simp, .int sides⟩ hd.1 (hd.2 hG)
      · simp [Expr.rands]
    | .int _, _, hfail => exact hfail _
    | .sumRoll _, _, hfail => exact hfail _
    | .neg _, _, hfail => exact hfail _
    | .bin _ _ _, _, hfail => exact hfail _
    | .div _ _ _, _, hfail => exact hfail _
    | .var .rand _ _, _, hfail => exact hfail _
    | .var .d (.sumRoll _) _, _, hfail => exact hfail _
    | .var .d (.neg _) _, _, hfail => exact hfail _
    | .var .d (.bin _ _ _) _, _, hfail => exact hfail _
    | .var .d (.div _ _ _) _, _, hfail => exact hfail _
    | .var .d (.var _ _ _) _, _, hfail => exact hfail _
    | .var .d (.int _) (.sumRoll _), _, hfail => exact hfail _
    | .var .d (.int _) (.neg _), _, hfail => exact hfail _
    | .var .d (.int _) (.bin _ _ _), _, hfail => exact hfail _
    | .var .d (.int _) (.div _ _ _), _, hfail => exact hfail _
    | .var .d (.int _) (.var _ _ _), _, hfail => exact hfail _
  · exact hpure

theorem beh_determineValues_neg_eq (r : Expr) : E.determineValues (.neg r) = (do
    let r' ← (if r.isPrimary then E.replaceVariablePrimaryExpr r else E.determineValues r)
    pure (.neg r')) := by
  cases h : r.isPrimary <;> simp only [Evaluator.determineValues, h, if_true, if_false, Bool.false_eq_true]

theorem beh_determineValues_bin_eq (o : BinOp) (l r : Expr) : E.determineValues (.bin o l r) = (do
    let l' ← (if l.isPrimary then E.replaceVariablePrimaryExpr l else E.determineValues l)
    let r' ← (if r.isPrimary then E.replaceVariablePrimaryExpr r else E.determineValues r)
    pure (.bin o l' r')) := by
  cases h : r.isPrimary <;> cases h' : l.isPrimary <;>
    simp only [Evaluator.determineValues, h, h', if_true, if_false, Bool.false_eq_true]

theorem beh_determineValues_div_eq (o : Rounding) (l r : Expr) : E.determineValues (.div o l r) = (do
    let l' ← (if l.isPrimary then E.replaceVariablePrimaryExpr l else E.determineValues l)
    let r' ← (if r.isPrimary then E.replaceVariablePrimaryExpr r else E.determineValues r)
    pure (.div o l' r')) := by
  cases h : r.isPrimary <;> cases h' : l.isPrimary <;>
    simp only [Evaluator.determineValues, h, h', if_true, if_false, Bool.false_eq_true]

theorem beh_determineValues_var_eq (o : VarKind) (l r : Expr) : E.determineValues (.var o l r) = (do
    let l' ← (if l.isPrimary then E.replaceVariablePrimaryExpr l else E.determineValues l)
    let r' ← (if r.isPrimary then E.replaceVariablePrimaryExpr r else E.determineValues r)
    pure (.var o l' r')) := by
  cases h : r.isPrimary <;> cases h' : l.isPrimary <;>
    simp only [Evaluator.determineValues, h, h', if_true, if_false, Bool.false_eq_true]

theorem beh_determineValues (e : Expr) (hS : S → e.SmallCounts) :
    Beh E.F I (e.rands * cap) G S (StageOf G S e) (E.determineValues e) := by
  refine Beh.assume fun hSG => ?_
  have op : ∀ x : Expr, (S → x.SmallCounts) →
      ((S → x.SmallCounts) → Beh E.F I (x.rands * cap) G S (StageOf G S x) (E.determineValues x)) →
      Beh E.F I (x.rands * cap) G S (StageOf G S x)
        (if x.isPrimary then E.replaceVariablePrimaryExpr x else E.determineValues x) := by
    intro x hx ih
    split
    · exact beh_replaceVariablePrimaryExpr E x hx
    · exact ih hx
  induction e with
  | int v => exact (Beh.fail _).mono (Nat.zero_le _) (fun _ h => h)
  | sumRoll ds => exact (Beh.fail _).mono (Nat.zero_le _) (fun _ h => h)
  | neg r ih =>
    rw [beh_determineValues_neg_eq]
    exact (op r hS ih).map (Q2 := StageOf G S (.neg r)) (fun a ha => ⟨ha.1, ha.2.1, fun hG _ hv => hv.congr_neg (ha.2.2 hG)⟩)
  | bin o l r ihl ihr =>
    rw [beh_determineValues_bin_eq]
    exact stage_binary E (f := fun a b => .bin o a b) (by intro a b; simp only [Expr.rands]; omega)
      (op l (fun h => (hS h).1) ihl) (op r (fun h => (hS h).2) ihr)
      (fun a b ha hb h => ⟨ha.2.1 h, hb.2.1 h⟩) (fun _ _ h1 h2 _ => .congr_bin h1 h2) (by simp [Expr.rands])
  | div o l r ihl ihr =>
    rw [beh_determineValues_div_eq]
    exact stage_binary E (f := fun a b => .div o a b) (by intro a b; simp only [Expr.rands]; omega)
      (op l (fun h => (hS h).1) ihl) (op r (fun h => (hS h).2) ihr)
      (fun a b ha hb h => ⟨ha.2.1 h, hb.2.1 h⟩) (fun _ _ h1 h2 _ => .congr_div h1 h2) (by simp [Expr.rands])
  | var k l r ihl ihr =>
    rw [beh_determineValues_var_eq]
    exact stage_binary E (f := fun a b => .var k a b) (by intro a b; simp only [Expr.rands]; omega)
      (op l (small_var_ops hS).1 ihl) (op r (small_var_ops hS).2 ihr)
      (fun a b ha hb h => small_var hSG hS ha hb h) (fun _ _ h1 h2 _ => .congr_var h1 h2)
      (by simp only [Expr.rands]; omega)

theorem beh_determineValuesOperand (e : Expr) (hS : S → e.SmallCounts) :
    Beh E.F I (e.rands * cap) G S (StageOf G S e) (E.determineValuesOperand e) := by
  unfold Evaluator.determineValuesOperand
  split
  · exact beh_replaceVariablePrimaryExpr E e hS
  · exact beh_determineValues E e hS

/-! ## Choice -/

theorem Beh.ofOk {α : Type} {F : DieFeeder σ} {B : Nat} {Q : α → Prop} {m : M σ α}
    (h : ∀ s, ∃ o, m s = (o, s) ∧ o.isErr = false ∧ (G → o.isPanic = false) ∧ ∀ a, o = .ok a → Q a) :
    Beh F I B G S Q m := by
  intro hF hSG s o s' hi hm
  obtain ⟨o', h1, h2, h3, h4⟩ := h s
  rw [h1] at hm
  simp only [Prod.mk.injEq] at hm
  obtain ⟨rfl, rfl⟩ := hm
  refine ⟨hi, [], _, [], .nil _, .nil _, by simp, by simp, fun a ha => ⟨rfl, h4 a ha⟩, ?_⟩
  intro msg hm
  have hG : ¬ G := by
    intro hG
    have := h3 hG
    rw [hm] at this
    simp [Out.isPanic] at this
  exact ⟨fun h => absurd h hG, fun h => hG (hSG h)⟩

theorem beh_evalChoice (items : List Str) (hl : items.length < 2 ^ 63) :
    Beh E.F I 1 G S (fun _ => True) (E.evalChoice items) := by
  have hlen : (Int64.ofNat items.length).toInt = items.length := Int64.toInt_ofNat_of_lt hl
  have e1 : (1 : Int64).toInt = 1 := by decide
  have e0 : (0 : Int64).toInt = 0 := by decide
  unfold Evaluator.evalChoice
  refine (beh_rollOne E _).bind' (B' := 0) (fun ds hds => (beh_firstDie E ds hds.1).bind' (B' := 0)
    (fun d hd => ?_) (Nat.le_refl _)) (Nat.le_refl _)
  subst hd
  have hidx : G → 0 ≤ (d.value - 1).toInt ∧ (d.value - 1).toInt.toNat < items.length := by
    intro hG
    obtain ⟨f1, f2⟩ := hds.2.2 hG d (by simp)
    rw [Int64.le_iff_toInt_le] at f1 f2
    rw [hds.2.1.2.2.2.2 d (by simp), hlen] at f2
    rw [e1] at f1
    have := Int64.toInt_lt d.value
    have hv : (d.value - 1).toInt = d.value.toInt - 1 := by
      rw [Int64.toInt_sub, e1, Int.bmod_eq_of_le] <;> omega
    omega
  refine Beh.ofOk fun s => ?_
  by_cases hneg : d.value - 1 < 0
  · refine ⟨.panic chars!"runtime error: index out of range", ?_, rfl, fun hG => ?_, by simp⟩
    · simp only [hneg, if_true]; rfl
    · have := hidx hG
      rw [Int64.lt_iff_toInt_lt, e0] at hneg
      omega
  · cases hit : items[(d.value - 1).toInt.toNat]? with
    | some item => exact ⟨.ok item, by simp only [hneg, if_false]; rfl, rfl, fun _ => rfl, fun _ _ => trivial⟩
    | none =>
      refine ⟨.panic chars!"runtime error: index out of range", ?_, rfl, fun hG => ?_, by simp⟩
      · simp only [hneg, if_false]; rfl
      · have := hidx hG
        rw [List.getElem?_eq_none_iff] at hit
        omega

end GoBCDice
