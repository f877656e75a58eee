import Verif.Lemmas.Raw

/-! # `Eval` on roll lists, comparisons and choices in memory -/

namespace GoBCDice.Raw

variable {σ α β γ δ : Type}

/-- Integers as objects. -/
abbrev ints (vs : List Int64) : List Value := vs.map .integer

/-- Groups of integers as objects. -/
abbrev groups (gs : List (List Int64)) : List Value := gs.map (fun g => .array (ints g))

theorem Sim.bind' {h fp} {x : H σ α} {y : M σ β} {f : α → H σ γ} {g : β → M σ δ}
    {S : HSt σ} {s : St σ} {Q : α → β → Heap → Prop} {R : γ → δ → Heap → Prop}
    (hx : Sim h fp (x S) (y s) Q)
    (hf : ∀ a b s' h', Frame h fp h' → Q a b h' → Sim h fp (f a ⟨s', h'⟩) (g b s') R) :
    Sim h fp ((x >>= f) S) ((y >>= g) s) R :=
  Sim.bind hx (fun a b s' h' _ _ f q => hf a b s' h' f q)

/-- `eval_sim` from an earlier memory. -/
theorem eval_sim' (E : Evaluator σ) {h p e fp d s h'} (hr : Rep h p e fp) (hd : e.height ≤ d)
    (f : Frame h [] h') :
    Sim h [] (eval E d p ⟨s, h'⟩) (E.eval e s) (fun v n _ => v = .integer n) :=
  (eval_sim E hr d hd s h' f).from f (by simp)

theorem asInteger_bind (n : Int64) (f : Int64 → H σ γ) (S : HSt σ) :
    (asInteger (.integer n) >>= f) S = f n S := rfl

theorem asArray_bind (vs : List Value) (f : List Value → H σ γ) (S : HSt σ) :
    (asArray (.array vs) >>= f) S = f vs S := rfl

/-- A B or R roll. -/
theorem roll_sim (E : Evaluator σ) {h r lp rp a b fl fr d s h' k} (hk : k = .bRoll ∨ k = .rRoll)
    (hx : h[r]? = some (.binary k lp rp)) (hl : Rep h lp a fl) (hr : Rep h rp b fr)
    (hd : max a.height b.height + 1 ≤ d) (f : Frame h [] h') :
    Sim h [] (eval E d (some r) ⟨s, h'⟩) (E.evalBasicRoll ⟨a, b⟩ s)
      (fun v vs _ => v = .array (ints vs)) := by
  obtain ⟨d, rfl⟩ : ∃ d', d = d' + 1 := ⟨d - 1, by omega⟩
  have hx' := (f.2 r (lt_of_get hx) (by simp)).trans hx
  simp only [eval, evalStep]
  rw [deref_bind hx']
  refine evalInfix_sim (g := fun x y => do let ds ← E.rollDice x y; pure (ds.map Die.value)) f
    (hl.frame0 f) (hr.frame0 f)
    (fun s h2 f2 => eval_sim E hl d (by omega) s h2 (f.trans f2 (by simp)))
    (fun s h2 f2 => eval_sim E hr d (by omega) s h2 (f.trans f2 (by simp))) ?_
  intro x y s h2 f2
  have hc : infixCore E k x y = (do
      let ds ← H.lift (E.rollDice x y)
      pure (.array (ds.map (fun d => .integer d.value))) : H σ Value) := by
    rcases hk with rfl | rfl <;> rfl
  rw [hc]
  refine Sim.bind' (Sim.lift f2) ?_
  rintro ds ds' s1 h1 f1 ⟨rfl, rfl⟩
  exact Sim.pure f1 (by simp)

theorem bRolls_sim (E : Evaluator σ) {h d} : ∀ {ps rolls fp}, RepRolls h .bRoll ps rolls fp →
    rollsHeight rolls ≤ d → ∀ {s h'}, Frame h [] h' →
    Sim h [] (evalBRollList (eval E d) ps ⟨s, h'⟩) (E.evalBRollList rolls s)
      (fun vs ws _ => vs = ints ws) := by
  intro ps rolls fp hr
  induction hr with
  | nil => intro _ s h' f; exact Sim.pure f rfl
  | @cons r lp rp a b ps rest fl fr fs hx hl hr hrest ih =>
    intro hd s h' f
    simp only [rollsHeight, Roll.height] at hd
    simp only [evalBRollList, Evaluator.evalBRollList]
    refine Sim.bind' (roll_sim E (.inl rfl) hx hl hr (by omega) f) ?_
    rintro v vs s1 h1 f1 rfl
    rw [asArray_bind]
    refine Sim.bind' (ih (by omega) f1) ?_
    rintro ws ws' s2 h2 f2 rfl
    exact Sim.pure f2 (by simp [ints])

theorem bRollList_sim (E : Evaluator σ) {h d r ps rolls fp s h'} (hx : h[r]? = some (.bRollList ps))
    (hr : RepRolls h .bRoll ps rolls fp) (hd : rollsHeight rolls + 1 ≤ d) (f : Frame h [] h') :
    Sim h [] (eval E d (some r) ⟨s, h'⟩) (E.evalBRollList rolls s)
      (fun v ws _ => v = .array (ints ws)) := by
  obtain ⟨d, rfl⟩ : ∃ d', d = d' + 1 := ⟨d - 1, by omega⟩
  have hx' := (f.2 r (lt_of_get hx) (by simp)).trans hx
  simp only [eval, evalStep]
  rw [deref_bind hx']
  have := bRolls_sim E hr (d := d) (by omega) f (s := s)
  have h2 := Sim.bind' (g := fun b => (pure b : M σ (List Int64)))
    (R := fun v ws _ => v = Value.array (ints ws)) this
    (f := fun els => (pure (.array els) : H σ Value)) (by
      rintro a b s1 h1 f1 rfl; exact Sim.pure f1 rfl)
  have heq : ((E.evalBRollList rolls >>= fun b => (pure b : M σ (List Int64))) s) =
      E.evalBRollList rolls s := by
    show M.bnd _ _ _ = _
    unfold M.bnd
    cases E.evalBRollList rolls s with
    | mk o s1 => cases o <;> rfl
  rw [heq] at h2
  exact h2

/-! ## Comparisons -/

/-- `Eval` on a comparison of two integer literals. -/
theorem compare_lits (E : Evaluator σ) {h c l r d} {op : CmpOp} {x y : Int64} {s : St σ}
    (hc : h[c]? = some (.binary (.compare op.str) (some l) (some r))) (hl : h[l]? = some (.int x))
    (hr : h[r]? = some (.int y)) :
    eval E (d + 2) (some c) ⟨s, h⟩ = (.ok (.boolean (op.holds x y)), ⟨s, h⟩) := by
  have e1 : eval E (d + 1) (some l) ⟨s, h⟩ = (.ok (.integer x), ⟨s, h⟩) := by
    simp only [eval, evalStep]; rw [deref_bind hl]; rfl
  have e2 : eval E (d + 1) (some r) ⟨s, h⟩ = (.ok (.integer y), ⟨s, h⟩) := by
    simp only [eval, evalStep]; rw [deref_bind hr]; rfl
  rw [eval, evalStep, deref_bind hc]
  have e3 : evalOperands (eval E (d + 1)) (InfixKind.compare op.str).operator (some l) (some r)
      ⟨s, h⟩ = (.ok (.integer x, .integer y), ⟨s, h⟩) := by
    simp only [evalOperands, reduceCtorEq, if_false]
    rw [bind_ok e1, bind_ok e2]; rfl
  simp only [evalInfix]
  rw [bind_ok e3]
  cases op <;> rfl

/-- Counting successes draws nothing and only adds nodes. -/
theorem countSuccesses_ok (E : Evaluator σ) {d} {op : CmpOp} {target : Int64} {s : St σ} :
    ∀ (vs : List Int64) (n : Int64) (h : Heap), ∃ h',
      countSuccesses (eval E (d + 2)) op.str target (ints vs) n ⟨s, h⟩ =
        (.ok (vs.foldl (fun n v => if op.holds v target then n + 1 else n) n), ⟨s, h'⟩) ∧
      Frame h [] h' := by
  intro vs
  induction vs with
  | nil => intro n h; exact ⟨h, rfl, Frame.refl _ _⟩
  | cons v vs ih =>
    intro n h
    let h1 := h ++ [Obj.int v]
    let h2 := h1 ++ [Obj.int target]
    let h3 := h2 ++ [Obj.binary (.compare op.str) (some h.length) (some h1.length)]
    have hc : h3[h2.length]? =
        some (.binary (.compare op.str) (some h.length) (some h1.length)) := by simp [h3]
    have hl : h3[h.length]? = some (.int v) := by simp [h3, h2, h1]
    have hr : h3[h1.length]? = some (.int target) := by simp [h3, h2]
    have hev := compare_lits E (d := d) (s := s) hc hl hr
    have f3 : Frame h [] h3 := by
      have : h3 = h ++ [Obj.int v, Obj.int target,
        Obj.binary (.compare op.str) (some h.length) (some h1.length)] := by simp [h3, h2, h1]
      rw [this]; exact Frame.append _ _ _
    have step : countSuccesses (eval E (d + 2)) op.str target (ints (v :: vs)) n ⟨s, h⟩ =
        (countSuccesses (eval E (d + 2)) op.str target (ints vs)
          (if op.holds v target then n + 1 else n)) ⟨s, h3⟩ := by
      show (eval E (d + 2) (some h2.length) >>= _) ⟨s, h3⟩ = _
      rw [bind_ok hev]
      cases op.holds v target <;> rfl
    obtain ⟨h', he, f'⟩ := ih (if op.holds v target then n + 1 else n) h3
    refine ⟨h', ?_, f3.trans f' (by simp)⟩
    rw [step, he]
    rfl

theorem asBasicInfix_ok {h c op lp rp} {s : St σ}
    (hc : h[c]? = some (.binary (.compare op) lp rp)) :
    asBasicInfix (some c) ⟨s, h⟩ = (.ok (.compare op, lp, rp), ⟨s, h⟩) := by
  simp only [asBasicInfix]
  rw [deref_bind hc]
  rfl

/-- Both sides of a comparison, as operands. -/
theorem operands_sim {ev : Ptr → H σ Value} {op : Str} {lp rp : Ptr}
    {h h' : Heap} {s : St σ} {m1 : M σ α} {m2 : M σ β}
    {Q1 : Value → α → Heap → Prop} {Q2 : Value → β → Heap → Prop}
    (hl : lp ≠ none) (hr : rp ≠ none) (f : Frame h [] h')
    (e1 : ∀ s h', Frame h [] h' → Sim h [] (ev lp ⟨s, h'⟩) (m1 s) (fun v x _ => Q1 v x h))
    (e2 : ∀ s h', Frame h [] h' → Sim h [] (ev rp ⟨s, h'⟩) (m2 s) (fun v x _ => Q2 v x h)) :
    Sim h [] (evalOperands ev op lp rp ⟨s, h'⟩)
      ((do let x ← m1; let y ← m2; pure (x, y) : M σ (α × β)) s)
      (fun v n _ => Q1 v.1 n.1 h ∧ Q2 v.2 n.2 h) := by
  unfold evalOperands
  rw [if_neg hl, if_neg hr]
  refine Sim.bind' (e1 s h' f) ?_
  intro a b s1 h1 f1 q1
  refine Sim.bind' (e2 s1 h1 f1) ?_
  intro a' b' s2 h2 f2 q2
  exact Sim.pure f2 ⟨q1, q2⟩

theorem pair_bind {m1 : M σ α} {m2 : M σ β} {g : α × β → M σ γ} (s : St σ) :
    ((do let x ← m1; let y ← m2; g (x, y) : M σ γ) s) =
      ((do let xy ← (do let x ← m1; let y ← m2; pure (x, y) : M σ (α × β)); g xy : M σ γ) s) := by
  simp only [bind, M.bnd]
  cases m1 s with
  | mk o s1 =>
    cases o with
    | ok x =>
      simp only
      cases m2 s1 with
      | mk o s2 => cases o <;> rfl
    | err => rfl
    | panic => rfl

/-- B comparison. -/
theorem bRollComp_sim (E : Evaluator σ) {h d r c l ps rp op rolls b fl fr s h'}
    (hx : h[r]? = some (.command .bRollComp (some c)))
    (hc : h[c]? = some (.binary (.compare (CmpOp.str op)) (some l) rp))
    (hl : h[l]? = some (.bRollList ps)) (hrs : RepRolls h .bRoll ps rolls fl) (hr : Rep h rp b fr)
    (hd : max (rollsHeight rolls + 1) b.height + 2 ≤ d) (f : Frame h [] h') :
    Sim h [] (eval E d (some r) ⟨s, h'⟩) (E.evalBRollComp rolls op b s)
      (fun v w _ => v = .bRollComp (ints w.1) w.2) := by
  obtain ⟨d, rfl⟩ : ∃ d', d = d' + 3 := ⟨d - 3, by omega⟩
  have hx' := (f.2 r (lt_of_get hx) (by simp)).trans hx
  have hc' := (f.2 c (lt_of_get hc) (by simp)).trans hc
  rw [eval, evalStep, deref_bind hx']
  simp only [evalBRollComp]
  rw [bind_ok (asBasicInfix_ok hc')]
  simp only [Evaluator.evalBRollComp]
  rw [pair_bind (m1 := E.evalBRollList rolls) (m2 := E.eval b)
    (g := fun xy => pure (xy.1, Evaluator.countNumOfSuccesses xy.1 op xy.2))]
  refine Sim.bind' (operands_sim (Q1 := fun v w _ => v = .array (ints w))
    (Q2 := fun v n _ => v = .integer n) (by simp) hr.ptr_ne f
    (fun s h2 f2 => bRollList_sim E hl hrs (by omega) f2)
    (fun s h2 f2 => eval_sim' E hr (by omega) f2)) ?_
  rintro ⟨v, w⟩ ⟨vs, n⟩ s1 h1 f1 ⟨q1, q2⟩
  cases q1; cases q2
  rw [asArray_bind, asInteger_bind]
  obtain ⟨h2, he, f2⟩ := countSuccesses_ok E (d := d) (op := op) (target := n) (s := s1) vs 0 h1
  rw [show (InfixKind.compare op.str).operator = op.str from rfl, bind_ok he]
  exact Sim.pure (f1.trans f2 (by simp)) rfl

/-! ## Rerolls -/

theorem countReaching_ok {t : Int64} {S : HSt σ} : ∀ (vs : List Int64) (n : Nat),
    countReaching t (ints vs) n S = (.ok (n + (vs.filter (fun v => decide (v ≥ t))).length), S) := by
  intro vs
  induction vs with
  | nil => intro n; rfl
  | cons v vs ih =>
    intro n
    show countReaching t (ints vs) (if v ≥ t then n + 1 else n) S = _
    rw [ih]
    by_cases hv : v ≥ t
    · simp [hv]; omega
    · simp [hv]

/-- Pending rolls: sharing of operands does not matter to `Eval`. -/
inductive Pending (h : Heap) (d : Nat) : List Ptr → List Roll → Prop
  | nil : Pending h d [] []
  | cons {r lp rp a b ps rest fl fr} : h[r]? = some (.binary .rRoll lp rp) →
      Rep h lp a fl → Rep h rp b fr → max a.height b.height + 1 ≤ d → Pending h d ps rest →
      Pending h d (some r :: ps) ({ num := a, sides := b } :: rest)

theorem Pending.frame {h d ps rolls h'} (hp : Pending h d ps rolls) (f : Frame h [] h') :
    Pending h' d ps rolls := by
  induction hp with
  | nil => exact .nil
  | cons hx hl hr hd _ ih =>
    exact .cons ((f.2 _ (lt_of_get hx) (by simp)).trans hx) (hl.frame0 f) (hr.frame0 f) hd ih

theorem Pending.snoc {h d ps rolls r lp rp a b fl fr} (hp : Pending h d ps rolls)
    (hx : h[r]? = some (.binary .rRoll lp rp)) (hl : Rep h lp a fl) (hr : Rep h rp b fr)
    (hd : max a.height b.height + 1 ≤ d) :
    Pending h d (ps ++ [some r]) (rolls ++ [{ num := a, sides := b }]) := by
  induction hp with
  | nil => exact .cons hx hl hr hd .nil
  | cons hx1 hl1 hr1 hd1 _ ih => exact .cons hx1 hl1 hr1 hd1 ih

theorem RepRolls.pending {h ps rolls fp d} (hr : RepRolls h .rRoll ps rolls fp)
    (hd : rollsHeight rolls ≤ d) : Pending h d ps rolls := by
  induction hr with
  | nil => exact .nil
  | cons hx hl hr _ ih =>
    simp only [rollsHeight, Roll.height] at hd
    exact .cons hx hl hr (by omega) (ih (by omega))

theorem height_pos (e : Expr) : 1 ≤ e.height := by cases e <;> simp [Expr.height]

theorem rRollLoop_sim (E : Evaluator σ) {d t} : ∀ n {h ps rolls}, Pending h d ps rolls →
    ∀ {acc s}, Sim h [] (rRollLoop (eval E d) t n ps (groups acc) ⟨s, h⟩)
      (E.rRollLoop t n rolls acc s) (fun v w _ => v = groups w) := by
  intro n
  induction n with
  | zero => intro h ps rolls _ acc s; cases ps <;> exact Sim.pure (Frame.refl _ _) rfl
  | succ n ih =>
    intro h ps rolls hp acc s
    cases hp with
    | nil => exact Sim.pure (Frame.refl _ _) rfl
    | @cons r lp rp a b ps rest fl fr hx hl hr hd hrest =>
      simp only [rRollLoop, Evaluator.rRollLoop]
      refine Sim.bind' (roll_sim E (.inr rfl) hx hl hr hd (Frame.refl _ _)) ?_
      rintro v vs s1 h1 f1 rfl
      rw [asArray_bind, bind_ok (countReaching_ok vs 0)]
      have hacc : groups acc ++ [Value.array (ints vs)] = groups (acc ++ [vs]) := by simp [groups]
      simp only [Nat.zero_add, hacc]
      have hx1 := (f1.2 r (lt_of_get hx) (by simp)).trans hx
      by_cases hk : (vs.filter (fun v => decide (v ≥ t))).length > 0
      · simp only [hk, if_true]
        let k := (vs.filter (fun v => decide (v ≥ t))).length
        let h2 := h1 ++ [Obj.int (Int64.ofNat k)]
        have hx2 : h2[r]? = some (.binary .rRoll lp rp) := by
          rw [List.getElem?_append_left (lt_of_get hx1)]; exact hx1
        show Sim h [] ((rightOf (some r) >>= _) ⟨s1, h2⟩) _ _
        have hro : rightOf (σ := σ) (some r) ⟨s1, h2⟩ = (.ok rp, ⟨s1, h2⟩) := by
          simp only [rightOf]; rw [deref_bind hx2]; rfl
        rw [bind_ok hro]
        let h3 := h2 ++ [Obj.binary .rRoll (some h1.length) rp]
        show Sim h [] (rRollLoop (eval E d) t n (ps ++ [some h2.length]) _ ⟨s1, h3⟩) _ _
        have f13 : Frame h1 [] h3 := by
          have : h3 = h1 ++ [Obj.int (Int64.ofNat k), Obj.binary .rRoll (some h1.length) rp] := by
            simp [h3, h2]
          rw [this]; exact Frame.append _ _ _
        have f3 : Frame h [] h3 := f1.trans f13 (by simp)
        have hp3 : Pending h3 d (ps ++ [some h2.length])
            (rest ++ [{ num := .int (Int64.ofNat k), sides := b }]) := by
          refine (hrest.frame f3).snoc (lp := some h1.length) (rp := rp) (fl := [h1.length])
            (fr := fr) (by simp [h3]) (.int (by simp [h3, h2])) (hr.frame0 f3) ?_
          have := height_pos b
          simp only [Expr.height]
          omega
        exact (ih hp3).from f3 (by simp)
      · simp only [hk, if_false]
        exact (ih (hrest.frame f1)).from f1 (by simp)

theorem bind_pure_M (x : M σ α) (s : St σ) : (x >>= fun a => (pure a : M σ α)) s = x s := by
  show M.bnd _ _ _ = _
  unfold M.bnd
  cases x s with
  | mk o s1 => cases o <;> rfl

/-- Wrapping the result of a computation on memory. -/
theorem Sim.map {h fp} {x : H σ α} {y : M σ β} {S : HSt σ} {s : St σ} {w : α → γ}
    {Q : α → β → Heap → Prop} {R : γ → β → Heap → Prop} (hx : Sim h fp (x S) (y s) Q)
    (hq : ∀ a b h', Q a b h' → R (w a) b h') :
    Sim h fp ((x >>= fun a => (Pure.pure (w a) : H σ γ)) S) (y s) R := by
  rw [← bind_pure_M y]
  exact Sim.bind' hx (fun a b s' h' f q => Sim.pure f (hq a b h' q))

theorem RepThreshold.deref {h p t fp h'} (hr : RepThreshold h p t fp) (f : Frame h [] h')
    {s : St σ} : ∃ o, Raw.deref p ⟨s, h'⟩ = (.ok o, ⟨s, h'⟩) ∧ o.isNil = t.isNone := by
  cases hr with
  | none hx =>
    exact ⟨_, deref_ok ((f.2 _ (lt_of_get hx) (by simp)).trans hx), rfl⟩
  | some hr =>
    cases hr with
    | int hx => exact ⟨_, deref_ok ((f.2 _ (lt_of_get hx) (by simp)).trans hx), rfl⟩
    | sumRoll hx => exact ⟨_, deref_ok ((f.2 _ (lt_of_get hx) (by simp)).trans hx), rfl⟩
    | neg hx _ => exact ⟨_, deref_ok ((f.2 _ (lt_of_get hx) (by simp)).trans hx), rfl⟩
    | binary hx _ _ _ => exact ⟨_, deref_ok ((f.2 _ (lt_of_get hx) (by simp)).trans hx), rfl⟩

theorem rRollList_sim (E : Evaluator σ) {h d p rl fp s h'} (hr : RepRRollList h .rRoll p rl fp)
    (hd : rl.height ≤ d) (f : Frame h [] h') :
    Sim h [] (eval E d p ⟨s, h'⟩) (E.evalRRollList rl s)
      (fun v w _ => v = .array (groups w)) := by
  cases hr with
  | @mk r ps tp rolls t fs ft hx hs ht =>
    simp only [RRollList.height] at hd
    obtain ⟨d, rfl⟩ : ∃ d', d = d' + 1 := ⟨d - 1, by omega⟩
    have hx' := (f.2 r (lt_of_get hx) (by simp)).trans hx
    simp only [eval, evalStep]
    rw [deref_bind hx']
    refine Sim.map (Q := fun v w _ => v = groups w) ?_ (by rintro a b _ rfl; rfl)
    obtain ⟨o, ho, hnil⟩ := ht.deref f (s := s)
    simp only [evalRRollList]
    rw [bind_ok ho]
    cases t with
    | none =>
      simp only [hnil, Option.isNone, if_true]
      exact Sim.fail f
    | some t =>
      simp only [hnil, Option.isNone, Bool.false_eq_true, if_false]
      cases ht with
      | some ht =>
        simp only [thresholdHeight] at hd
        simp only [Evaluator.evalRRollList]
        refine Sim.bind' (eval_sim' E ht (by omega) f) ?_
        rintro v n s1 h1 f1 rfl
        rw [asInteger_bind]
        have hp : Pending h1 d ps rolls := (hs.pending (by omega)).frame f1
        exact (rRollLoop_sim E _ hp (acc := [])).from f1 (by simp)

theorem countInGroups_ok (E : Evaluator σ) {d} {op : CmpOp} {target : Int64} {s : St σ} :
    ∀ (gs : List (List Int64)) (n : Int64) (h : Heap), ∃ h',
      countInGroups (eval E (d + 2)) op.str target (groups gs) n ⟨s, h⟩ =
        (.ok (gs.foldl (fun n g => n + Evaluator.countNumOfSuccesses g op target) n), ⟨s, h'⟩) ∧
      Frame h [] h' := by
  intro gs
  induction gs with
  | nil => intro n h; exact ⟨h, rfl, Frame.refl _ _⟩
  | cons g gs ih =>
    intro n h
    obtain ⟨h1, he, f1⟩ := countSuccesses_ok E (d := d) (op := op) (target := target) (s := s) g 0 h
    obtain ⟨h2, he2, f2⟩ := ih (n + Evaluator.countNumOfSuccesses g op target) h1
    refine ⟨h2, ?_, f1.trans f2 (by simp)⟩
    show ((countSuccesses (eval E (d + 2)) op.str target (ints g) 0 >>= _) ⟨s, h⟩) = _
    rw [bind_ok he]
    exact he2

/-- R comparison. -/
theorem rRollComp_sim (E : Evaluator σ) {h d r c lp rp op rl b fl fr s h'}
    (hx : h[r]? = some (.command .rRollComp (some c)))
    (hc : h[c]? = some (.binary (.compare (CmpOp.str op)) lp rp))
    (hl : RepRRollList h .rRoll lp rl fl) (hr : Rep h rp b fr)
    (hd : max rl.height b.height + 2 ≤ d) (f : Frame h [] h') :
    Sim h [] (eval E d (some r) ⟨s, h'⟩) (E.evalRRollComp rl op b s)
      (fun v w _ => v = .rRollComp (groups w.1) w.2) := by
  obtain ⟨d, rfl⟩ : ∃ d', d = d' + 3 := ⟨d - 3, by have := height_pos b; omega⟩
  have hx' := (f.2 r (lt_of_get hx) (by simp)).trans hx
  have hc' := (f.2 c (lt_of_get hc) (by simp)).trans hc
  have hlp : lp ≠ none := by cases hl; simp
  rw [eval, evalStep, deref_bind hx']
  simp only [evalRRollComp]
  rw [bind_ok (asBasicInfix_ok hc')]
  simp only [Evaluator.evalRRollComp]
  rw [pair_bind (m1 := E.evalRRollList rl) (m2 := E.eval b)
    (g := fun xy => pure (xy.1, xy.1.foldl
      (fun n g => n + Evaluator.countNumOfSuccesses g op xy.2) 0))]
  refine Sim.bind' (operands_sim (Q1 := fun v w _ => v = .array (groups w))
    (Q2 := fun v n _ => v = .integer n) hlp hr.ptr_ne f
    (fun s h2 f2 => rRollList_sim E hl (by omega) f2)
    (fun s h2 f2 => eval_sim' E hr (by omega) f2)) ?_
  rintro ⟨v, w⟩ ⟨vs, n⟩ s1 h1 f1 ⟨q1, q2⟩
  cases q1; cases q2
  rw [asArray_bind, asInteger_bind]
  obtain ⟨h2, he, f2⟩ := countInGroups_ok E (d := d) (op := op) (target := n) (s := s1) vs 0 h1
  rw [show (InfixKind.compare op.str).operator = op.str from rfl, bind_ok he]
  exact Sim.pure (f1.trans f2 (by simp)) rfl

/-! ## Compounding rolls -/

theorem uGroup_sim (E : Evaluator σ) {sides t : Int64} {h0} : ∀ n {acc s h}, Frame h0 [] h →
    Sim h0 [] (uGroup E sides t n (ints acc) ⟨s, h⟩) (E.uGroup sides t n acc s)
      (fun v w _ => v = ints w) := by
  intro n
  induction n with
  | zero => intro acc s h f; exact Sim.pure f rfl
  | succ n ih =>
    intro acc s h f
    simp only [uGroup, Evaluator.uGroup]
    refine Sim.bind' (Sim.lift f) ?_
    rintro ds ds' s1 h1 f1 ⟨rfl, rfl⟩
    refine Sim.bind' (Sim.lift f1) ?_
    rintro e e' s2 h2 f2 ⟨rfl, rfl⟩
    have hacc : ints acc ++ [Value.integer e.value] = ints (acc ++ [e.value]) := by simp [ints]
    rw [hacc]
    by_cases hv : e.value < t
    · rw [if_pos hv, if_pos hv]; exact Sim.pure f2 rfl
    · rw [if_neg hv, if_neg hv]; exact ih f2

theorem uGroups_sim (E : Evaluator σ) {sides t : Int64} {h0} : ∀ n {acc s h}, Frame h0 [] h →
    Sim h0 [] (uGroups E sides t n (groups acc) ⟨s, h⟩) (E.uGroups sides t n acc s)
      (fun v w _ => v = groups w) := by
  intro n
  induction n with
  | zero => intro acc s h f; exact Sim.pure f rfl
  | succ n ih =>
    intro acc s h f
    simp only [uGroups, Evaluator.uGroups]
    refine Sim.bind' (uGroup_sim E _ (acc := []) f) ?_
    rintro g g' s1 h1 f1 rfl
    have hacc : groups acc ++ [Value.array (ints g')] = groups (acc ++ [g']) := by simp [groups]
    rw [hacc]
    exact ih f1

theorem compoundingRoll_sim (E : Evaluator σ) {h r lp rp a b fl fr d s h' t}
    (hx : h[r]? = some (.binary .uRoll lp rp)) (hl : Rep h lp a fl) (hr : Rep h rp b fr)
    (hd : max a.height b.height ≤ d) (f : Frame h [] h') :
    Sim h [] (evalCompoundingRoll E (eval E d) (some r) t ⟨s, h'⟩)
      (E.evalCompoundingRoll ⟨a, b⟩ t s) (fun v w _ => v = groups w) := by
  have hx' := (f.2 r (lt_of_get hx) (by simp)).trans hx
  simp only [evalCompoundingRoll, Evaluator.evalCompoundingRoll]
  rw [deref_bind hx']
  rw [pair_bind (m1 := E.eval a) (m2 := E.eval b) (g := fun xy =>
    if xy.2 < 1 then M.fail (Evaluator.compoundingMsg xy.1 xy.2 chars!"ダイスの面数が少なすぎます")
    else if xy.1 < 1 then M.fail (Evaluator.compoundingMsg xy.1 xy.2 chars!"振るダイス数が少なすぎます")
    else if maxMakeCap < xy.1 then M.crash makePanicMsg
    else E.uGroups xy.2 t (loopCount xy.1) [])]
  refine Sim.bind' (operands_sim (Q1 := fun v w _ => v = .integer w)
    (Q2 := fun v n _ => v = .integer n) hl.ptr_ne hr.ptr_ne f
    (fun s h2 f2 => eval_sim' E hl (by omega) f2)
    (fun s h2 f2 => eval_sim' E hr (by omega) f2)) ?_
  rintro ⟨v, w⟩ ⟨x, y⟩ s1 h1 f1 ⟨q1, q2⟩
  cases q1; cases q2
  simp only
  by_cases h1' : y < 1
  · rw [if_pos h1', if_pos h1']; exact Sim.fail f1
  · rw [if_neg h1', if_neg h1']
    by_cases h2' : x < 1
    · rw [if_pos h2', if_pos h2']; exact Sim.fail f1
    · rw [if_neg h2', if_neg h2']
      by_cases h3' : maxMakeCap < x
      · rw [if_pos h3', if_pos h3']; exact Sim.crash f1
      · rw [if_neg h3', if_neg h3']; exact uGroups_sim E _ (acc := []) f1

theorem compoundingRolls_sim (E : Evaluator σ) {h d t} : ∀ {ps rolls fp},
    RepRolls h .uRoll ps rolls fp → rollsHeight rolls ≤ d → ∀ {s h'}, Frame h [] h' →
    Sim h [] (evalCompoundingRolls E (eval E d) t ps ⟨s, h'⟩) (E.evalCompoundingRolls t rolls s)
      (fun v w _ => v = groups w) := by
  intro ps rolls fp hr
  induction hr with
  | nil => intro _ s h' f; exact Sim.pure f rfl
  | @cons r lp rp a b ps rest fl fr fs hx hl hr hrest ih =>
    intro hd s h' f
    simp only [rollsHeight, Roll.height] at hd
    simp only [evalCompoundingRolls, Evaluator.evalCompoundingRolls]
    refine Sim.bind' (compoundingRoll_sim E hx hl hr (by omega) f) ?_
    rintro v vs s1 h1 f1 rfl
    refine Sim.bind' (ih (by omega) f1) ?_
    rintro ws ws' s2 h2 f2 rfl
    exact Sim.pure f2 (by simp [groups])

theorem uRollList_sim (E : Evaluator σ) {h d p rl fp s h'} (hr : RepRRollList h .uRoll p rl fp)
    (hd : rl.height ≤ d + 1) (f : Frame h [] h') :
    Sim h [] (evalURollList E (eval E d) p ⟨s, h'⟩) (E.evalURollList rl s)
      (fun v w _ => v = groups w) := by
  cases hr with
  | @mk r ps tp rolls t fs ft hx hs ht =>
    simp only [RRollList.height] at hd
    have hx' := (f.2 r (lt_of_get hx) (by simp)).trans hx
    simp only [evalURollList]
    rw [deref_bind hx']
    obtain ⟨o, ho, hnil⟩ := ht.deref f (s := s)
    simp only
    rw [bind_ok ho]
    cases t with
    | none =>
      simp only [hnil, Option.isNone, if_true]
      exact Sim.fail f
    | some t =>
      simp only [hnil, Option.isNone, Bool.false_eq_true, if_false]
      cases ht with
      | some ht =>
        simp only [thresholdHeight] at hd
        simp only [Evaluator.evalURollList]
        refine Sim.bind' (eval_sim' E ht (by omega) f) ?_
        rintro v n s1 h1 f1 rfl
        rw [asInteger_bind]
        exact compoundingRolls_sim E hs (by omega) f1

theorem modifier_sim (E : Evaluator σ) {h d p b fp s h'} (hr : RepBonus h p b fp)
    (hd : ∀ x, b = some x → (bonusExpr x).height ≤ d) (f : Frame h [] h') :
    Sim h [] (evalModifier (eval E d) p ⟨s, h'⟩) (E.evalBonus b s) (fun v w _ => v = w) := by
  cases hr with
  | none => exact Sim.pure f rfl
  | @some p b fp hr =>
    simp only [evalModifier, Evaluator.evalBonus]
    rw [if_neg hr.ptr_ne, ← bind_pure_M (E.eval (bonusExpr b))]
    refine Sim.bind' (eval_sim' E hr (hd b rfl) f) ?_
    rintro v n s1 h1 f1 rfl
    exact Sim.pure f1 rfl

theorem uHeight_list (u : URollExpr) : u.list.height + 1 ≤ u.height := by
  unfold URollExpr.height; split <;> omega

theorem uHeight_bonus {u : URollExpr} {b} (hb : u.bonus = some b) :
    (bonusExpr b).height + 1 ≤ u.height := by
  unfold URollExpr.height; rw [hb]; simp only; omega

theorem uRollExpr_sim (E : Evaluator σ) {h d p u fp s h'} (hr : RepURollExpr h p u fp)
    (hd : u.height ≤ d) (f : Frame h [] h') :
    Sim h [] (eval E d p ⟨s, h'⟩) (E.evalURollExpr u s)
      (fun v w _ => v = .uRollExpr (groups w.valueGroups) w.modifier ∧ w.sumCache = none) := by
  have hl1 := uHeight_list u
  have hb1 := fun b => uHeight_bonus (u := u) (b := b)
  cases hr with
  | @mk r lp bp list bonus fl fb hx hl hb =>
    obtain ⟨d, rfl⟩ : ∃ d', d = d' + 1 := ⟨d - 1, by omega⟩
    have hx' := (f.2 r (lt_of_get hx) (by simp)).trans hx
    rw [eval, evalStep, deref_bind hx']
    simp only [evalURollExpr, Evaluator.evalURollExpr]
    refine Sim.bind' (modifier_sim E hb (fun x hxb => by have := hb1 x hxb; omega) f) ?_
    rintro m m' s1 h1 f1 rfl
    refine Sim.bind' (uRollList_sim E hl (by simp only at hl1; omega) f1) ?_
    rintro v w s2 h2 f2 rfl
    exact Sim.pure f2 ⟨rfl, rfl⟩

theorem sumLoop_ints : ∀ (vs : List Int64) acc,
    Value.sumLoop acc (ints vs) = some (vs.foldl (· + ·) acc) := by
  intro vs
  induction vs with
  | nil => intro acc; rfl
  | cons v vs ih => intro acc; exact ih _

theorem sumOfIntegers_ints (vs : List Int64) : Value.sumOfIntegers (ints vs) = some (sumInts vs) :=
  sumLoop_ints vs 0

theorem sumOfGroups_ok (gs : List (List Int64)) (S : HSt σ) :
    sumOfGroups (groups gs) S = (.ok (ints (gs.map sumInts)), S) := by
  induction gs with
  | nil => rfl
  | cons g gs ih =>
    simp only [groups, List.map_cons, sumOfGroups] at *
    rw [asArray_bind]
    simp only [sumOfIntegers_ints]
    rw [bind_ok ih]
    rfl

theorem addModifier_ok (m : Int64) (vs : List Int64) (S : HSt σ) :
    addModifier m (ints vs) S = (.ok (ints (vs.map (fun x => x + m))), S) := by
  induction vs with
  | nil => rfl
  | cons g gs ih =>
    simp only [List.map_cons, addModifier] at *
    rw [asInteger_bind, bind_ok ih]
    rfl

/-- U comparison. -/
theorem uRollComp_sim (E : Evaluator σ) {h d r c lp rp op u b fl fr s h'}
    (hx : h[r]? = some (.command .uRollComp (some c)))
    (hc : h[c]? = some (.binary (.compare (CmpOp.str op)) lp rp))
    (hl : RepURollExpr h lp u fl) (hr : Rep h rp b fr)
    (hd : max u.height b.height + 2 ≤ d) (f : Frame h [] h') :
    Sim h [] (eval E d (some r) ⟨s, h'⟩) (E.evalURollComp u op b s)
      (fun v w _ => v = .uRollComp (groups w.1.valueGroups) w.1.modifier w.2 ∧
        w.1.sumCache = some (w.1.valueGroups.map sumInts)) := by
  obtain ⟨d, rfl⟩ : ∃ d', d = d' + 3 := ⟨d - 3, by have := height_pos b; omega⟩
  have hx' := (f.2 r (lt_of_get hx) (by simp)).trans hx
  have hc' := (f.2 c (lt_of_get hc) (by simp)).trans hc
  have hlp : lp ≠ none := by cases hl; simp
  rw [eval, evalStep, deref_bind hx']
  simp only [evalURollComp]
  rw [bind_ok (asBasicInfix_ok hc')]
  simp only [Evaluator.evalURollComp]
  rw [pair_bind (m1 := E.evalURollExpr u) (m2 := E.eval b)
    (g := fun xy => pure (xy.1.sumOfGroups.2, Evaluator.countNumOfSuccesses
      (xy.1.sumOfGroups.1.map (fun x => x + xy.1.sumOfGroups.2.modifier)) op xy.2))]
  refine Sim.bind' (operands_sim
    (Q1 := fun v w _ => v = .uRollExpr (groups w.valueGroups) w.modifier ∧ w.sumCache = none)
    (Q2 := fun v n _ => v = .integer n) hlp hr.ptr_ne f
    (fun s h2 f2 => uRollExpr_sim E hl (by omega) f2)
    (fun s h2 f2 => eval_sim' E hr (by omega) f2)) ?_
  rintro ⟨v, w⟩ ⟨res, n⟩ s1 h1 f1 ⟨⟨q1, qc⟩, q2⟩
  cases q1; cases q2
  simp only at qc ⊢
  rw [bind_ok (sumOfGroups_ok _ _), bind_ok (addModifier_ok _ _ _), asInteger_bind]
  have hs : res.sumOfGroups =
      (res.valueGroups.map sumInts, { res with sumCache := some (res.valueGroups.map sumInts) }) := by
    unfold URollExprResult.sumOfGroups; rw [qc]
  obtain ⟨h2, he, f2⟩ := countSuccesses_ok E (d := d) (op := op) (target := n) (s := s1)
    ((res.valueGroups.map sumInts).map (fun x => x + res.modifier)) 0 h1
  rw [show (InfixKind.compare op.str).operator = op.str from rfl, bind_ok he]
  rw [hs]
  exact Sim.pure (f1.trans f2 (by simp)) ⟨rfl, rfl⟩

/-! ## Choices -/

theorem RepItems.get {h ps items fs} (hr : RepItems h ps items fs) (n : Nat) :
    match ps[n]?, items[n]? with
    | some p, some s => ∃ r, p = some r ∧ h[r]? = some (.string s)
    | none, none => True
    | _, _ => False := by
  induction hr generalizing n with
  | nil => simp
  | cons hx _ ih =>
    cases n with
    | zero => simp only [List.getElem?_cons_zero]; exact ⟨_, rfl, hx⟩
    | succ n => simp only [List.getElem?_cons_succ]; exact ih n

theorem RepItems.length {h ps items fs} (hr : RepItems h ps items fs) : ps.length = items.length := by
  induction hr with
  | nil => rfl
  | cons _ _ ih => simp [ih]

theorem choice_sim (E : Evaluator σ) {h d r ps items fs s h'} (hx : h[r]? = some (.choice ps))
    (hr : RepItems h ps items fs) (hd : 2 ≤ d) (f : Frame h [] h') :
    Sim h [] (eval E d (some r) ⟨s, h'⟩) (E.evalChoice items s) (fun v w _ => v = .string w) := by
  obtain ⟨d, rfl⟩ : ∃ d', d = d' + 1 := ⟨d - 1, by omega⟩
  have hx' := (f.2 r (lt_of_get hx) (by simp)).trans hx
  rw [eval, evalStep, deref_bind hx']
  simp only [evalChoice, Evaluator.evalChoice, hr.length]
  refine Sim.bind' (Sim.lift f) ?_
  rintro ds ds' s1 h1 f1 ⟨rfl, rfl⟩
  refine Sim.bind' (Sim.lift f1) ?_
  rintro e e' s2 h2 f2 ⟨rfl, rfl⟩
  by_cases hi : e.value - 1 < 0
  · rw [if_pos hi, if_pos hi]; exact Sim.crash f2
  · rw [if_neg hi, if_neg hi]
    have hg := hr.get (e.value - 1).toInt.toNat
    revert hg
    cases ps[(e.value - 1).toInt.toNat]? with
    | none =>
      cases items[(e.value - 1).toInt.toNat]? with
      | none => intro _; exact Sim.crash f2
      | some _ => intro hg; exact hg.elim
    | some p =>
      cases items[(e.value - 1).toInt.toNat]? with
      | none => intro hg; exact hg.elim
      | some str =>
        rintro ⟨q, rfl, hq⟩
        simp only
        rw [deref_bind ((f2.2 q (lt_of_get hq) (by simp)).trans hq)]
        exact Sim.pure f2 rfl

end GoBCDice.Raw
