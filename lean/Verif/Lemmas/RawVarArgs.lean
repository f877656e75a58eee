import Verif.Lemmas.RawEval

/-! # `EvalVarArgs` and `DetermineValues` on expressions in memory -/

namespace GoBCDice.Raw

variable {σ α β γ δ : Type}

/-- Every node of `fp'` is a node of `fp` or newer than `h`. -/
def Within (h : Heap) (fp fp' : List Ref) : Prop := ∀ x ∈ fp', x ∈ fp ∨ h.length ≤ x

/-- `p` leads to `e`, not higher than `n`, without sharing, with nodes of `fp` and new ones. -/
def Post (h : Heap) (fp : List Ref) (n : Nat) (p : Ptr) (e : Expr) (h' : Heap) : Prop :=
  ∃ fp', Rep h' p e fp' ∧ fp'.Nodup ∧ Within h fp fp' ∧ e.height ≤ n

theorem Within.refl (h : Heap) (fp : List Ref) : Within h fp fp := fun _ hx => .inl hx

theorem Rep.root {h p e fp} (hr : Rep h p e fp) :
    ∃ r o, p = some r ∧ h[r]? = some o ∧ o.isPrimary = e.isPrimary ∧ o.typeName = e.typeName := by
  cases hr with
  | int hx => exact ⟨_, _, rfl, hx, rfl, rfl⟩
  | sumRoll hx => exact ⟨_, _, rfl, hx, rfl, rfl⟩
  | neg hx _ => exact ⟨_, _, rfl, hx, rfl, rfl⟩
  | @binary r k lp rp a b e fl fr hx he _ _ =>
    refine ⟨_, _, rfl, hx, ?_, ?_⟩
    · cases k <;> simp [infixExpr] at he <;> subst he <;> rfl
    · cases k with
      | div m => simp [infixExpr] at he; subst he; cases m <;> rfl
      | _ => simp [infixExpr] at he <;> subst he <;> rfl

theorem isVariable_ok {h p e fp} {s : St σ} (hr : Rep h p e fp) :
    ∀ d, e.height ≤ d → isVariable d p ⟨s, h⟩ = (.ok e.isVariable, ⟨s, h⟩) := by
  induction hr with
  | int hx =>
    intro d hd
    obtain ⟨d, rfl⟩ : ∃ d', d = d' + 1 := ⟨d - 1, by simp [Expr.height] at hd; omega⟩
    rw [isVariable, deref_bind hx]; rfl
  | sumRoll hx =>
    intro d hd
    obtain ⟨d, rfl⟩ : ∃ d', d = d' + 1 := ⟨d - 1, by simp [Expr.height] at hd; omega⟩
    rw [isVariable, deref_bind hx]; rfl
  | neg hx _ ih =>
    intro d hd
    obtain ⟨d, rfl⟩ : ∃ d', d = d' + 1 := ⟨d - 1, by simp [Expr.height] at hd; omega⟩
    rw [isVariable, deref_bind hx]
    exact ih d (by simp [Expr.height] at hd; omega)
  | @binary r k lp rp a b e fl fr hx he _ _ ihl ihr =>
    intro d hd
    rw [infix_height he] at hd
    obtain ⟨d, rfl⟩ : ∃ d', d = d' + 1 := ⟨d - 1, by omega⟩
    rw [isVariable, deref_bind hx]
    have hl := ihl d (by omega)
    have hr := ihr d (by omega)
    have main : ((do let b ← isVariable d lp; if b then pure true else isVariable d rp : H σ Bool)
        ⟨s, h⟩) = (.ok (a.isVariable || b.isVariable), ⟨s, h⟩) := by
      rw [bind_ok hl]
      cases a.isVariable
      · simpa using hr
      · rfl
    cases k <;> simp [infixExpr] at he <;> subst he <;> first | rfl | exact main

/-! ## Operands of infix nodes -/

/-- The node `r` has operands `a'` and `b'`, not higher than `n`, without sharing. -/
def Post2 (h : Heap) (fp : List Ref) (k : InfixKind) (r : Ref) (na nb : Nat) (a' b' : Expr)
    (h' : Heap) : Prop :=
  ∃ lp rp fl fr, h'[r]? = some (.binary k lp rp) ∧ Rep h' lp a' fl ∧ Rep h' rp b' fr ∧
    (r :: (fl ++ fr)).Nodup ∧ Within h fp (r :: (fl ++ fr)) ∧ a'.height ≤ na ∧ b'.height ≤ nb

theorem Post2.post {h fp k r na nb a' b' e h'} (hp : Post2 h fp k r na nb a' b' h')
    (he : infixExpr k a' b' = some e) : Post h fp (max na nb + 1) (some r) e h' := by
  obtain ⟨lp, rp, fl, fr, hx, hl, hr, hn, hw, ha, hb⟩ := hp
  exact ⟨_, .binary hx he hl hr, hn, hw, by rw [infix_height he]; omega⟩

/-- The left operand of `r` has become `a'`. -/
def PostL (h : Heap) (fl : List Ref) (k : InfixKind) (r : Ref) (rp : Ptr) (na : Nat) (a' : Expr)
    (h' : Heap) : Prop :=
  ∃ lp, h'[r]? = some (.binary k lp rp) ∧ Post h fl na lp a' h'

/-- The right operand of `r` has become `b'`. -/
def PostR (h : Heap) (fr : List Ref) (k : InfixKind) (r : Ref) (lp : Ptr) (nb : Nat) (b' : Expr)
    (h' : Heap) : Prop :=
  ∃ rp, h'[r]? = some (.binary k lp rp) ∧ Post h fr nb rp b' h'

theorem two_phase {h k r lp rp b fl fr na nb} {s : St σ}
    {X1 X2 : H σ Unit} {Y1 Y2 : M σ Expr} {g : Expr → Expr → β}
    (hr : Rep h rp b fr) (hx : h[r]? = some (.binary k lp rp))
    (hn : (r :: (fl ++ fr)).Nodup)
    (h1 : Sim h (r :: fl) (X1 ⟨s, h⟩) (Y1 s) (fun _ a' h' => PostL h fl k r rp na a' h'))
    (h2 : ∀ s1 h1 lp', h1[r]? = some (.binary k lp' rp) → Rep h1 rp b fr →
      Sim h1 (r :: fr) (X2 ⟨s1, h1⟩) (Y2 s1) (fun _ b' h' => PostR h1 fr k r lp' nb b' h')) :
    Sim h (r :: (fl ++ fr)) ((X1 >>= fun _ => X2) ⟨s, h⟩)
      ((do let a' ← Y1; let b' ← Y2; pure (g a' b') : M σ β) s)
      (fun _ c h' => ∃ a' b', c = g a' b' ∧
        Post2 h (r :: (fl ++ fr)) k r na nb a' b' h') := by
  rw [List.nodup_cons, List.nodup_append] at hn
  obtain ⟨hrn, hnl, hnr, hdis⟩ := hn
  have hrl := lt_of_get hx
  refine Sim.bind (h1.from (Frame.refl _ _) (by
    intro x hx; simp only [List.mem_cons] at hx
    rcases hx with rfl | hx <;> simp [*])) ?_
  rintro ⟨⟩ a' s1 m1 e1 _ f1 ⟨lp', hx1, fl', hl', hnl', hwl', hha⟩
  have fr1 : Frame h (r :: fl) m1 := by
    have := h1.2.1; rw [e1] at this; exact this
  have hr1 : Rep m1 rp b fr := hr.frame fr1 (by
    intro x hxf hm
    rcases List.mem_cons.mp hm with rfl | hm
    · exact hrn (by simp [hxf])
    · exact hdis _ hm _ hxf rfl)
  have h2' := h2 s1 m1 lp' hx1 hr1
  rw [show ((do let b' ← Y2; pure (g a' b') : M σ β) s1) =
    ((Y2 >>= fun b' => pure (g a' b') : M σ β) s1) from rfl]
  have step := Sim.bind (f := fun _ : Unit => (pure () : H σ Unit))
    (g := fun b' => (pure (g a' b') : M σ β))
    (R := fun _ c h' => ∃ a' b', c = g a' b' ∧
        Post2 h (r :: (fl ++ fr)) k r na nb a' b' h')
    (h2'.from f1 (by
      intro x hx
      rcases List.mem_cons.mp hx with rfl | hx <;> simp [*])) (by
    rintro ⟨⟩ b' s2 m2 e2 _ f2 ⟨rp', hx2, fr', hr', hnr', hwr', hhb⟩
    have fr2 : Frame m1 (r :: fr) m2 := by
      have := h2'.2.1; rw [e2] at this; exact this
    refine Sim.pure f2 ⟨a', b', rfl, lp', rp', fl', fr', hx2, ?_, hr', ?_, ?_, hha, hhb⟩
    · refine hl'.frame fr2 ?_
      intro x hxl hm
      rcases List.mem_cons.mp hm with rfl | hm
      · rcases hwl' _ hxl with h3 | h3
        · exact hrn (by simp [h3])
        · exact absurd hrl (Nat.not_lt.mpr h3)
      · rcases hwl' _ hxl with h3 | h3
        · exact hdis _ h3 _ hm rfl
        · exact absurd (hr.lt _ hm) (Nat.not_lt.mpr h3)
    · rw [List.nodup_cons, List.nodup_append]
      refine ⟨?_, hnl', hnr', ?_⟩
      · intro hm
        rcases List.mem_append.mp hm with hm | hm
        · rcases hwl' _ hm with h3 | h3
          · exact hrn (by simp [h3])
          · exact absurd hrl (Nat.not_lt.mpr h3)
        · rcases hwr' _ hm with h3 | h3
          · exact hrn (by simp [h3])
          · exact absurd (Nat.lt_of_lt_of_le hrl fr1.1) (Nat.not_lt.mpr h3)
      · intro x hx y hy hxy
        subst hxy
        rcases hwr' _ hy with h3 | h3
        · rcases hwl' _ hx with h4 | h4
          · exact hdis _ h4 _ h3 rfl
          · exact absurd (hr.lt _ h3) (Nat.not_lt.mpr h4)
        · exact absurd (hl'.lt _ hx) (Nat.not_lt.mpr h3)
    · intro x hx
      simp only [List.mem_cons, List.mem_append] at hx
      rcases hx with rfl | hx | hx
      · simp
      · rcases hwl' _ hx with h3 | h3
        · exact .inl (by simp [h3])
        · exact .inr h3
      · rcases hwr' _ hx with h3 | h3
        · exact .inl (by simp [h3])
        · exact .inr (Nat.le_trans f1.1 h3))
  have hid : ((X2 >>= fun _ : Unit => (pure () : H σ Unit)) ⟨s1, m1⟩) = X2 ⟨s1, m1⟩ := by
    show H.bnd _ _ _ = _
    unfold H.bnd
    cases X2 ⟨s1, m1⟩ with
    | mk o s2 => cases o <;> rfl
  rw [hid] at step
  exact step

/-! ## `EvalVarArgs` -/

theorem objectToIntNode_ok (n : Int64) (s : St σ) (h : Heap) :
    objectToIntNode (.integer n) ⟨s, h⟩ = (.ok (some h.length), ⟨s, h ++ [.int n]⟩) := rfl

theorem setLeft_ok {h r k lp rp new} {s : St σ} (hx : h[r]? = some (.binary k lp rp)) :
    setLeft (some r) new ⟨s, h⟩ = (.ok (), ⟨s, h.set r (.binary k new rp)⟩) := by
  unfold setLeft; rw [deref_bind hx]; rfl

theorem setRight_ok {h r k lp rp new} {s : St σ} (hx : h[r]? = some (.binary k lp rp)) :
    setRight (some r) new ⟨s, h⟩ = (.ok (), ⟨s, h.set r (.binary k lp new)⟩) := by
  unfold setRight; rw [deref_bind hx]; rfl

theorem setRight_unary_ok {h r p new} {s : St σ} (hx : h[r]? = some (.unary p)) :
    setRight (some r) new ⟨s, h⟩ = (.ok (), ⟨s, h.set r (.unary new)⟩) := by
  unfold setRight; rw [deref_bind hx]; rfl

/-- A roll whose arguments become literals. -/
theorem ofRoll_sim (E : Evaluator σ) {h r k lp rp a b fl fr d s}
    (hx : h[r]? = some (.binary k lp rp)) (hl : Rep h lp a fl) (hr : Rep h rp b fr)
    (hd : max a.height b.height ≤ d) :
    Sim h [r] (evalVarArgsOfRoll E d (some r) lp rp ⟨s, h⟩)
      ((do let x ← E.eval a; let y ← E.eval b; pure (x, y) : M σ (Int64 × Int64)) s)
      (fun _ xy h' => ∃ i j, h'[r]? = some (.binary k (some i) (some j)) ∧
        h'[i]? = some (.int xy.1) ∧ h'[j]? = some (.int xy.2) ∧ [r, i, j].Nodup ∧
        h.length ≤ i ∧ h.length ≤ j) := by
  have hrl := lt_of_get hx
  unfold evalVarArgsOfRoll
  have step : ∀ x y s1 h1, Frame h [] h1 →
      ∃ h4, ((do
        let l' ← objectToIntNode (.integer x)
        setLeft (some r) l'
        let r' ← objectToIntNode (.integer y)
        setRight (some r) r') : H σ Unit) ⟨s1, h1⟩ = (.ok (), ⟨s1, h4⟩) ∧ Frame h [r] h4 ∧
        ∃ i j, h4[r]? = some (.binary k (some i) (some j)) ∧
        h4[i]? = some (.int x) ∧ h4[j]? = some (.int y) ∧ [r, i, j].Nodup ∧
        h.length ≤ i ∧ h.length ≤ j := by
    intro x y s1 h1 f1
    have hx1 := (f1.2 r hrl (by simp)).trans hx
    have hrl1 := lt_of_get hx1
    have hxa : (h1 ++ [Obj.int x])[r]? = some (.binary k lp rp) := by
      rw [List.getElem?_append_left hrl1]; exact hx1
    let h2 := (h1 ++ [Obj.int x]).set r (.binary k (some h1.length) rp)
    have hlen2 : h2.length = h1.length + 1 := by simp [h2]
    have hx2 : h2[r]? = some (.binary k (some h1.length) rp) := get_set_self hxa
    have hxb : (h2 ++ [Obj.int y])[r]? = some (.binary k (some h1.length) rp) := by
      rw [List.getElem?_append_left (lt_of_get hx2)]; exact hx2
    let h4 := (h2 ++ [Obj.int y]).set r (.binary k (some h1.length) (some h2.length))
    have hne : r ≠ h1.length := Nat.ne_of_lt hrl1
    have hne2 : r ≠ h2.length := Nat.ne_of_lt (lt_of_get hx2)
    refine ⟨h4, ?_, ?_, h1.length, h2.length, get_set_self hxb, ?_, ?_, ?_, f1.1, ?_⟩
    · rw [bind_ok (objectToIntNode_ok _ _ _), bind_ok (setLeft_ok hxa),
        bind_ok (objectToIntNode_ok _ _ _), setRight_ok hxb]
    · have fa : Frame h [r] (h1 ++ [Obj.int x]) := f1.nil.trans (Frame.append h1 [] _) (by simp)
      have fb : Frame h [r] h2 := fa.trans (Frame.set _ r _) (by simp)
      have fc : Frame h [r] (h2 ++ [Obj.int y]) := fb.trans (Frame.append h2 [] _) (by simp)
      exact fc.trans (Frame.set _ r _) (by simp)
    · show ((h2 ++ [Obj.int y]).set r _)[h1.length]? = _
      rw [List.getElem?_set_ne hne, List.getElem?_append_left (by omega)]
      show ((h1 ++ [Obj.int x]).set r _)[h1.length]? = _
      rw [List.getElem?_set_ne hne]
      simp
    · show ((h2 ++ [Obj.int y]).set r _)[h2.length]? = _
      rw [List.getElem?_set_ne hne2]
      simp
    · simp only [List.nodup_cons, List.mem_cons, List.not_mem_nil, or_false, not_or,
        not_false_eq_true, List.nodup_nil, and_true]
      exact ⟨⟨hne, hne2⟩, by rw [hlen2]; simp⟩
    · have := f1.1; omega
  refine Sim.bind (Sim.from (fp := [r]) (eval_sim' E hl (by omega) (Frame.refl _ _))
    (Frame.refl _ _) (by simp)) ?_
  rintro v x s1 h1 e1 _ _ rfl
  have f1 : Frame h [] h1 := by
    have := (eval_sim' E (s := s) hl (by omega : a.height ≤ d) (Frame.refl h [])).2.1
    rw [e1] at this; exact this
  refine Sim.bind (Sim.from (fp := [r]) (eval_sim' E hr (by omega) f1)
    (Frame.refl _ _) (by simp)) ?_
  rintro w y s2 h2 e2 _ _ rfl
  have f2 : Frame h [] h2 := by
    have := (eval_sim' E (s := s1) hr (by omega : b.height ≤ d) f1).2.1
    rw [e2] at this; exact this
  obtain ⟨h4, he, f4, q⟩ := step x y s2 h2 f2
  rw [he]
  exact ⟨rfl, f4, q⟩

theorem variable_only {e : Expr} (hp : e.isPrimary = true) (hv : e.isVariable = true) :
    ∃ k l r, e = .var k l r := by
  cases e <;> simp_all [Expr.isPrimary, Expr.isVariable]

/-- A D roll or random number of an expression. -/
theorem ofVariable_sim (E : Evaluator σ) {h p e fp d s} (hr : Rep h p e fp) (hn : fp.Nodup)
    (hd : e.height ≤ d + 1) (hv : ∃ k l r, e = .var k l r) :
    Sim h fp (evalVarArgsOfVariableExpr E d p ⟨s, h⟩) (E.evalVarArgsOfVariableExpr e s)
      (fun _ e' h' => Post h fp e.height p e' h') := by
  obtain ⟨k, l, r, rfl⟩ := hv
  cases hr with
  | @binary q k' lp rp a b e fl fr hx he hl hr =>
    have hh := infix_height he
    unfold evalVarArgsOfVariableExpr
    rw [deref_bind hx]
    cases k' <;> simp [infixExpr] at he <;> obtain ⟨rfl, rfl, rfl⟩ := he
    · -- D roll
      simp only
      show Sim h _ _ ((do let x ← E.eval a; let y ← E.eval b; pure (.var .d (.int x) (.int y)) :
        M σ Expr) s) _
      rw [pair_bind (m1 := E.eval a) (m2 := E.eval b)
        (g := fun xy => (pure (.var .d (.int xy.1) (.int xy.2)) : M σ Expr))]
      have key := Sim.bind (f := fun _ : Unit => (pure () : H σ Unit))
        (g := fun xy => (pure (.var .d (.int xy.1) (.int xy.2)) : M σ Expr))
        (R := fun _ e' h' => Post h (q :: (fl ++ fr)) (Expr.var .d a b).height (some q) e' h')
        (Sim.from (fp := q :: (fl ++ fr)) (ofRoll_sim E (s := s) (d := d) hx hl hr (by omega))
          (Frame.refl _ _) (by simp)) (by
          rintro ⟨⟩ ⟨x, y⟩ s1 h1 _ _ f1 ⟨i, j, h1x, h1i, h1j, hnd, hi, hj⟩
          refine Sim.pure f1 ⟨q :: ([i] ++ [j]), .binary h1x rfl (.int h1i) (.int h1j), hnd, ?_, ?_⟩
          · intro z hz
            simp at hz
            rcases hz with rfl | rfl | rfl
            · simp
            · exact .inr hi
            · exact .inr hj
          · have h1 := height_pos a
            have h2 := height_pos b
            simp only [Expr.height] at *
            omega)
      have hid : ∀ S, ((evalVarArgsOfRoll E d (some q) lp rp >>=
          fun _ : Unit => (pure () : H σ Unit)) S) = evalVarArgsOfRoll E d (some q) lp rp S := by
        intro S
        show H.bnd _ _ _ = _
        unfold H.bnd
        cases evalVarArgsOfRoll E d (some q) lp rp S with
        | mk o s2 => cases o <;> rfl
      rw [hid] at key
      exact key
    · exact Sim.fail (Frame.refl _ _)

/-- The treatment of an operand, given the recursive call. -/
theorem varArgsOperand_sim (E : Evaluator σ) {h p e fp d s} (hr : Rep h p e fp) (hn : fp.Nodup)
    (hd : e.height ≤ d)
    (ih : Sim h fp (evalVarArgs E d p ⟨s, h⟩) (E.evalVarArgs e s)
      (fun _ e' h' => Post h fp e.height p e' h')) :
    Sim h fp (evalVarArgsOperand E d (evalVarArgs E d) p ⟨s, h⟩)
      ((if e.isPrimary then E.evalVarArgsPrimary e else E.evalVarArgs e) s)
      (fun _ e' h' => Post h fp e.height p e' h') := by
  obtain ⟨q, o, rfl, ho, hp, _⟩ := hr.root
  unfold evalVarArgsOperand
  rw [deref_bind ho, hp]
  by_cases hpr : e.isPrimary = true
  · rw [if_pos hpr, if_pos hpr, bind_ok (isVariable_ok hr d hd)]
    unfold Evaluator.evalVarArgsPrimary
    by_cases hv : e.isVariable = true
    · rw [if_pos hv, if_pos hv]
      exact ofVariable_sim E hr hn (by omega) (variable_only hpr hv)
    · rw [if_neg hv, if_neg hv]
      exact Sim.pure (Frame.refl _ _) ⟨fp, hr, hn, Within.refl _ _, Nat.le_refl _⟩
  · rw [if_neg hpr, if_neg hpr]
    exact ih

/-- The Go code falls through to the infix case for every expression with two operands. -/
theorem evalVarArgs_typed_binary (E : Evaluator σ) {k a b e} (he : infixExpr k a b = some e) (s : St σ) :
    ∃ g : Expr → Expr → Expr, (∀ x y, infixExpr k x y = some (g x y)) ∧
    E.evalVarArgs e s = ((do
      let l' ← (if a.isPrimary then E.evalVarArgsPrimary a else E.evalVarArgs a)
      let r' ← (if b.isPrimary then E.evalVarArgsPrimary b else E.evalVarArgs b)
      pure (g l' r') : M σ Expr) s) := by
  cases k <;> simp [infixExpr] at he <;> subst he <;> refine ⟨_, fun _ _ => rfl, ?_⟩ <;>
    by_cases ha : a.isPrimary = true <;> by_cases hb : b.isPrimary = true <;>
    simp [Evaluator.evalVarArgs, ha, hb]

theorem not_compare {k a b e} (he : infixExpr k a b = some e) : ∀ op, k ≠ .compare op := by
  rintro op rfl; simp [infixExpr] at he

theorem varArgsStep_binary (E : Evaluator σ) {h r k lp rp d go} {s : St σ}
    (hx : h[r]? = some (.binary k lp rp)) (hk : ∀ op, k ≠ .compare op) :
    evalVarArgsStep E d go (some r) ⟨s, h⟩ =
      ((do evalVarArgsOperand E d go lp; evalVarArgsOperand E d go rp) : H σ Unit) ⟨s, h⟩ := by
  unfold evalVarArgsStep
  rw [deref_bind hx]
  cases k <;> first | rfl | exact absurd rfl (hk _)

/-- A step inside the left or right operand leaves the parent node as it is. -/
theorem parent_kept {h fp h1 r o} (f : Frame h fp h1) (hx : h[r]? = some o) (hr : r ∉ fp) :
    h1[r]? = some o := (f.2 r (lt_of_get hx) hr).trans hx

/-- `EvalVarArgs` on an expression. -/
theorem evalVarArgs_sim (E : Evaluator σ) (e : Expr) : ∀ {h p fp d s}, Rep h p e fp → fp.Nodup →
    e.height ≤ d →
    Sim h fp (evalVarArgs E d p ⟨s, h⟩) (E.evalVarArgs e s)
      (fun _ e' h' => Post h fp e.height p e' h') := by
  have bin : ∀ (a b : Expr)
      (_ : ∀ {h p fp d s}, Rep h p a fp → fp.Nodup → a.height ≤ d →
        Sim h fp (evalVarArgs E d p ⟨s, h⟩) (E.evalVarArgs a s)
          (fun _ e' h' => Post h fp a.height p e' h'))
      (_ : ∀ {h p fp d s}, Rep h p b fp → fp.Nodup → b.height ≤ d →
        Sim h fp (evalVarArgs E d p ⟨s, h⟩) (E.evalVarArgs b s)
          (fun _ e' h' => Post h fp b.height p e' h'))
      {h : Heap} {r k lp rp fl fr d} {s : St σ} (e : Expr), infixExpr k a b = some e →
      h[r]? = some (.binary k lp rp) → Rep h lp a fl → Rep h rp b fr → (r :: (fl ++ fr)).Nodup →
      max a.height b.height ≤ d →
      Sim h (r :: (fl ++ fr)) (evalVarArgs E (d + 1) (some r) ⟨s, h⟩) (E.evalVarArgs e s)
        (fun _ e' h' => Post h (r :: (fl ++ fr)) e.height (some r) e' h') := by
    intro a b iha ihb h r k lp rp fl fr d s e he hx hl hr hn hd
    obtain ⟨g, hg, heq⟩ := evalVarArgs_typed_binary E he s
    have hn' := hn
    rw [List.nodup_cons, List.nodup_append] at hn'
    obtain ⟨hrn, hnl, hnr, _⟩ := hn'
    rw [evalVarArgs, varArgsStep_binary E hx (not_compare he), heq]
    refine Sim.weaken (two_phase (na := a.height) (nb := b.height) hr hx hn ?_ ?_) ?_
    · have hs := varArgsOperand_sim E (s := s) hl hnl (by omega : a.height ≤ d)
        (iha hl hnl (by omega))
      refine Sim.weaken (hs.from (Frame.refl _ _) (by intro x hx; simp [hx])) ?_
      intro _ a' _ q
      exact ⟨lp, parent_kept hs.2.1 hx (fun hm => hrn (by simp [hm])), q⟩
    · intro s1 h1 lp' hx1 hr1
      have hs := varArgsOperand_sim E (s := s1) hr1 hnr (by omega : b.height ≤ d)
        (ihb hr1 hnr (by omega))
      refine Sim.weaken (hs.from (Frame.refl _ _) (by intro x hx; simp [hx])) ?_
      intro _ b' _ q
      exact ⟨rp, parent_kept hs.2.1 hx1 (fun hm => hrn (by simp [hm])), q⟩
    · rintro _ c _ ⟨a', b', rfl, q⟩
      have := q.post (hg a' b')
      rw [infix_height he]
      exact this
  induction e with
  | int v =>
    intro h p fp d s hr hn hd
    obtain ⟨d, rfl⟩ : ∃ d', d = d' + 1 := ⟨d - 1, by simp [Expr.height] at hd; omega⟩
    cases hr with
    | int hx =>
      rw [evalVarArgs, evalVarArgsStep, deref_bind hx]
      exact Sim.fail (Frame.refl _ _)
    | binary _ he _ _ => rename_i k _ _ _ _ _ _ _ _ _; cases k <;> simp [infixExpr] at he
  | sumRoll ds =>
    intro h p fp d s hr hn hd
    obtain ⟨d, rfl⟩ : ∃ d', d = d' + 1 := ⟨d - 1, by simp [Expr.height] at hd; omega⟩
    cases hr with
    | sumRoll hx =>
      rw [evalVarArgs, evalVarArgsStep, deref_bind hx]
      exact Sim.fail (Frame.refl _ _)
    | binary _ he _ _ => rename_i k _ _ _ _ _ _ _ _ _; cases k <;> simp [infixExpr] at he
  | neg e ih =>
    intro h p fp d s hr hn hd
    obtain ⟨d, rfl⟩ : ∃ d', d = d' + 1 := ⟨d - 1, by simp [Expr.height] at hd; omega⟩
    cases hr with
    | @neg r p e fp hx hp =>
      rw [List.nodup_cons] at hn
      simp only [Expr.height] at hd
      rw [evalVarArgs, evalVarArgsStep, deref_bind hx]
      have hs := varArgsOperand_sim E (s := s) hp hn.2 (by omega : e.height ≤ d)
        (ih hp hn.2 (by omega))
      have heq : E.evalVarArgs e.neg = ((do
          let r' ← (if e.isPrimary then E.evalVarArgsPrimary e else E.evalVarArgs e)
          pure (.neg r') : M σ Expr)) := by
        by_cases he : e.isPrimary = true <;> simp [Evaluator.evalVarArgs, he]
      rw [heq]
      have key := Sim.bind (f := fun _ : Unit => (pure () : H σ Unit))
        (g := fun r' => (pure (.neg r') : M σ Expr))
        (R := fun _ e' h' => Post h (r :: fp) (Expr.neg e).height (some r) e' h')
        (hs.from (Frame.refl _ _) (fp := r :: fp) (by intro x hx; simp [hx])) (by
          rintro ⟨⟩ r' s1 h1 e1 _ f1 ⟨fp', hr', hn', hw', hh'⟩
          have fs : Frame h fp h1 := by have := hs.2.1; rw [e1] at this; exact this
          have hrl := lt_of_get hx
          refine Sim.pure f1 ⟨r :: fp', .neg (parent_kept fs hx hn.1) hr', ?_, ?_, ?_⟩
          · rw [List.nodup_cons]
            refine ⟨fun hm => ?_, hn'⟩
            rcases hw' _ hm with h3 | h3
            · exact hn.1 h3
            · exact absurd hrl (Nat.not_lt.mpr h3)
          · intro x hx
            rcases List.mem_cons.mp hx with rfl | hx
            · simp
            · rcases hw' _ hx with h3 | h3
              · simp [h3]
              · exact .inr h3
          · simp only [Expr.height]; omega)
      have hid : ∀ S, ((evalVarArgsOperand E d (evalVarArgs E d) p >>=
          fun _ : Unit => (pure () : H σ Unit)) S) =
          evalVarArgsOperand E d (evalVarArgs E d) p S := by
        intro S
        show H.bnd _ _ _ = _
        unfold H.bnd
        cases evalVarArgsOperand E d (evalVarArgs E d) p S with
        | mk o s2 => cases o <;> rfl
      rw [hid] at key
      exact key
    | binary _ he _ _ => rename_i k _ _ _ _ _ _ _ _ _; cases k <;> simp [infixExpr] at he
  | bin op a b iha ihb =>
    intro h p fp d s hr hn hd
    obtain ⟨d, rfl⟩ : ∃ d', d = d' + 1 := ⟨d - 1, by simp [Expr.height] at hd; omega⟩
    cases hr with
    | @binary r k lp rp a' b' _ fl fr hx he hl hr =>
      have hab : a' = a ∧ b' = b := by
        cases k <;> simp [infixExpr] at he <;> simp [he]
      obtain ⟨rfl, rfl⟩ := hab
      exact bin a' b' iha ihb _ he hx hl hr hn (by simp only [Expr.height] at hd; omega)
  | div m a b iha ihb =>
    intro h p fp d s hr hn hd
    obtain ⟨d, rfl⟩ : ∃ d', d = d' + 1 := ⟨d - 1, by simp [Expr.height] at hd; omega⟩
    cases hr with
    | @binary r k lp rp a' b' _ fl fr hx he hl hr =>
      have hab : a' = a ∧ b' = b := by
        cases k <;> simp [infixExpr] at he <;> simp [he]
      obtain ⟨rfl, rfl⟩ := hab
      exact bin a' b' iha ihb _ he hx hl hr hn (by simp only [Expr.height] at hd; omega)
  | var k a b iha ihb =>
    intro h p fp d s hr hn hd
    obtain ⟨d, rfl⟩ : ∃ d', d = d' + 1 := ⟨d - 1, by simp [Expr.height] at hd; omega⟩
    cases hr with
    | @binary r k lp rp a' b' _ fl fr hx he hl hr =>
      have hab : a' = a ∧ b' = b := by
        cases k <;> simp [infixExpr] at he <;> simp [he]
      obtain ⟨rfl, rfl⟩ := hab
      exact bin a' b' iha ihb _ he hx hl hr hn (by simp only [Expr.height] at hd; omega)

end GoBCDice.Raw
