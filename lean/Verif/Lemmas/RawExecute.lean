import Verif.Lemmas.RawFormat

/-! # `Execute` on nodes in memory -/

namespace GoBCDice.Raw

variable {σ α β γ δ : Type}

theorem rolled_ok (s : St σ) (h : Heap) : (rolledDice : H σ _) ⟨s, h⟩ = (.ok s.log, ⟨s, h⟩) := rfl

theorem trolled_ok (s : St σ) : (Evaluator.rolledDice : M σ _) s = (.ok s.log, s) := rfl

/-! ## `C`, `choice` -/

theorem executeCalc_sim (isPrint : Char → Bool) (E : Evaluator σ) {h d r p e fp s g}
    (hx : h[r]? = some (.command .calc p)) (hr : Rep h p e fp) (hd : e.height + 1 ≤ d) :
    Sim h [] (executeCalc isPrint E d g (some r) ⟨s, h⟩)
      ((do let r ← E.executeCalc g e; pure (r, .calc e) : M σ (Result × Node)) s)
      (fun res rn _ => res = rn.1 ∧ rn.2 = .calc e) := by
  have hn : RepNode h (some r) (.calc e) (r :: fp) := .calc hx hr
  obtain ⟨h1, he1, f1⟩ := nodeNotation_ok (s := s) hn (d := d) hd
  obtain ⟨d, rfl⟩ : ∃ d', d = d' + 1 := ⟨d - 1, by omega⟩
  unfold executeCalc
  rw [bind_ok he1]
  have hev : ∀ h', h'[r]? = some (.command .calc p) →
      eval E (d + 1) (some r) ⟨s, h'⟩ = eval E d p ⟨s, h'⟩ := by
    intro h' hx'
    rw [eval, evalStep, deref_bind hx']
  have h2 := eval_sim' E (s := s) (d := d) hr (by omega) f1
  rw [← hev h1 (parent_kept f1 hx (by simp))] at h2
  have heq : ((do let r ← E.executeCalc g e; pure (r, .calc e) : M σ (Result × Node)) s) =
      ((do
        let v ← E.eval e
        pure (mkResult g [calcNotation e, chars!"計算結果", intStr v] [], .calc e) :
          M σ (Result × Node)) s) := by
    simp only [Evaluator.executeCalc, bind, M.bnd]
    cases E.eval e s with
    | mk o s1 => cases o <;> rfl
  rw [heq]
  refine Sim.bind' h2 ?_
  rintro v n s2 h2 f2 rfl
  exact Sim.pure f2 ⟨rfl, rfl⟩

theorem executeChoice_sim (E : Evaluator σ) {h d r ps items fs s g}
    (hx : h[r]? = some (.choice ps)) (hr : RepItems h ps items fs) (hd : 2 ≤ d) :
    Sim h [] (executeChoice E d g (some r) ⟨s, h⟩)
      ((do let r ← E.executeChoice g items; pure (r, .choice items) : M σ (Result × Node)) s)
      (fun res rn _ => res = rn.1 ∧ rn.2 = .choice items) := by
  have hn : RepNode h (some r) (.choice items) (r :: fs) := .choice hx hr
  obtain ⟨h1, he1, f1⟩ := nodeNotation_ok (s := s) hn (d := d) hd
  unfold executeChoice
  rw [bind_ok he1]
  have h2 := choice_sim E (s := s) hx hr hd f1
  have heq : ((do let r ← E.executeChoice g items; pure (r, .choice items) :
      M σ (Result × Node)) s) =
      ((do
        let v ← E.evalChoice items
        let dice ← Evaluator.rolledDice
        pure (mkResult g [parenthesize (choiceNotation items), v] dice, .choice items) :
          M σ (Result × Node)) s) := by
    simp only [Evaluator.executeChoice, bind, M.bnd]
    cases E.evalChoice items s with
    | mk o s1 => cases o <;> rfl
  rw [heq]
  refine Sim.bind' h2 ?_
  rintro v n s2 h2 f2 rfl
  simp only
  rw [bind_ok (rolled_ok _ _), mbind_ok (trolled_ok _)]
  exact Sim.pure f2 ⟨rfl, rfl⟩

/-! ## D rolls -/

theorem setExpression_ok {h r ty p new} {s : St σ} (hx : h[r]? = some (.command ty p)) :
    setExpression (some r) new ⟨s, h⟩ = (.ok (), ⟨s, h.set r (.command ty new)⟩) := by
  unfold setExpression
  rw [deref_bind hx]
  rfl

theorem bind_assoc_H (x : H σ α) (f : α → H σ β) (g : β → H σ γ) (S : HSt σ) :
    ((x >>= f) >>= g) S = (x >>= fun a => f a >>= g) S := by
  show H.bnd (H.bnd x f) g S = H.bnd x (fun a => H.bnd (f a) g) S
  unfold H.bnd
  cases x S with
  | mk o s1 => cases o <;> rfl

theorem bind_assoc_M (x : M σ α) (f : α → M σ β) (g : β → M σ γ) (S : St σ) :
    ((x >>= f) >>= g) S = (x >>= fun a => f a >>= g) S := by
  show M.bnd (M.bnd x f) g S = M.bnd x (fun a => M.bnd (f a) g) S
  unfold M.bnd
  cases x S with
  | mk o s1 => cases o <;> rfl

theorem dExpr_post {h r fp e h' n} {p' : Ptr} (hrl : r < h.length) (hrn : r ∉ fp)
    (hx : h'[r]? = some (.command .dRollExpr p')) (hp : Post h fp n p' e h') :
    NPost h (r :: fp) (n + 1) (some r) (.dRollExpr e) h' := by
  obtain ⟨fp', h1, h2, h3, h4⟩ := hp
  refine ⟨r :: fp', .dRollExpr hx h1, ?_, ?_, ?_⟩
  · rw [List.nodup_cons]
    refine ⟨fun hm => ?_, h2⟩
    rcases h3 r hm with h5 | h5
    · exact hrn h5
    · exact absurd hrl (Nat.not_lt.mpr h5)
  · intro x hx
    simp only [List.mem_cons] at hx
    rcases hx with rfl | hx
    · simp
    · rcases h3 x hx with h5 | h5
      · simp [h5]
      · exact .inr h5
  · show e.height + 1 ≤ n + 1
    omega

theorem executeDRollExpr_sim (isPrint : Char → Bool) (E : Evaluator σ) {h d r p e fp s g}
    (hx : h[r]? = some (.command .dRollExpr p)) (hr : Rep h p e fp) (hn : (r :: fp).Nodup)
    (hd : e.height + 1 ≤ d) :
    Sim h (r :: fp) (executeDRollExpr isPrint E d g (some r) ⟨s, h⟩) (E.executeDRollExprT g e s)
      (fun res rn h' => res = rn.1 ∧ NPost h (r :: fp) (e.height + 1) (some r) rn.2 h') := by
  obtain ⟨d, rfl⟩ : ∃ d', d = d' + 1 := ⟨d - 1, by omega⟩
  have hrl := lt_of_get hx
  have hn' := hn
  rw [List.nodup_cons] at hn'
  obtain ⟨hrn, hnf⟩ := hn'
  unfold executeDRollExpr Evaluator.executeDRollExprT evalVarArgsAndShow determineValuesAndShow
  rw [bind_assoc_H]
  have e1 : evalVarArgs E (d + 1) (some r) ⟨s, h⟩ =
      evalVarArgsOperand E d (evalVarArgs E d) p ⟨s, h⟩ := by
    rw [evalVarArgs, evalVarArgsStep, deref_bind hx]
  have h1 := varArgsOperand_sim E (s := s) (d := d) hr hnf (by omega)
    (evalVarArgs_sim E e hr hnf (by omega))
  rw [← e1] at h1
  refine Sim.bind (h1.from (Frame.refl _ _) (by intro x hx; simp [hx])) ?_
  rintro ⟨⟩ e' s1 h1' q1 _ f1 ⟨fp1, hr1, hn1, hw1, hh1⟩
  have fr1 : Frame h fp h1' := by have := h1.2.1; rw [q1] at this; exact this
  have hx1 := parent_kept fr1 hx hrn
  rw [bind_ok (command_notation true hx1 (by simp) (notation_ok d true hr1 (by omega)))]
  have hrn1 : r ∉ fp1 := by
    intro hm
    rcases hw1 r hm with h5 | h5
    · exact hrn h5
    · exact absurd hrl (Nat.not_lt.mpr h5)
  rw [bind_assoc_H]
  have e2 : determineValues E (d + 1) (some r) ⟨s1, h1'⟩ =
      determineValuesOperand E d (determineValues E d) p (setExpression (some r)) ⟨s1, h1'⟩ := by
    rw [determineValues, determineValuesStep, deref_bind hx1]
  have h2 := determineOperand_sim E (s := s1) (d := d) (r := r) (Par := .command .dRollExpr)
    (set := setExpression (some r)) hx1 hr1 (by rw [List.nodup_cons]; exact ⟨hrn1, hn1⟩)
    (by omega) (fun new s h hx => setExpression_ok hx)
    (determineValues_sim E e' hr1 hn1 (by omega))
  rw [← e2] at h2
  refine Sim.bind (h2.from f1 (by
    intro x hx
    simp only [List.mem_cons] at hx
    rcases hx with rfl | hx
    · simp
    · rcases hw1 x hx with h5 | h5
      · simp [h5]
      · exact .inr h5)) ?_
  rintro ⟨⟩ e'' s2 h2' q2 _ f2 ⟨p', hx2, hp2⟩
  have hp : Post h fp e.height p' e'' h2' := by
    obtain ⟨fp2, hr2, hn2, hw2, hh2⟩ := hp2
    exact ⟨fp2, hr2, hn2, hw1.trans hw2 fr1.1, by omega⟩
  obtain ⟨fp2, hr2, hn2, hw2, hh2⟩ := hp2
  rw [bind_ok (command_notation true hx2 (by simp) (notation_ok d true hr2 (by omega)))]
  refine finish f2 (dExpr_post hrl hrn hx2 hp) ?_
  have e3 : eval E (d + 1) (some r) ⟨s2, h2'⟩ = eval E d p' ⟨s2, h2'⟩ := by
    rw [eval, evalStep, deref_bind hx2]
  have h3 := eval_sim' E (s := s2) (d := d) hr2 (by omega) (Frame.refl h2' [])
  rw [← e3] at h3
  refine Sim.bind' h3 ?_
  rintro v n s3 h3' f3 rfl
  rw [bind_ok (rolled_ok _ _), mbind_ok (trolled_ok _)]
  exact Sim.pure f3 ⟨rfl, rfl⟩

theorem Rep.stable (p : Ptr) (n : Nat) (x : Expr) :
    Stable (fun h fp => Rep h p x fp ∧ x.height ≤ n) :=
  ⟨fun hs f hd _ => ⟨hs.1.frame f hd, hs.2⟩, fun hs => hs.1.lt⟩

theorem infixLeft_ok {h r k lp rp} {s : St σ} (hx : h[r]? = some (.binary k lp rp)) :
    infixLeft (some r) ⟨s, h⟩ = (.ok lp, ⟨s, h⟩) := by
  unfold infixLeft
  rw [deref_bind hx]
  rfl

/-- `Eval` on a comparison of expressions. -/
theorem compare_sim (E : Evaluator σ) {h c lp rp a b fl fr d s} {op : CmpOp}
    (hc : h[c]? = some (.binary (.compare op.str) lp rp)) (hl : Rep h lp a fl) (hr : Rep h rp b fr)
    (hd : max a.height b.height ≤ d) :
    Sim h [] (eval E (d + 1) (some c) ⟨s, h⟩)
      ((do let x ← E.eval a; let y ← E.eval b; pure (op.holds x y) : M σ Bool) s)
      (fun v w _ => v = .boolean w) := by
  rw [eval, evalStep, deref_bind hc]
  refine evalInfix_sim (Frame.refl _ _) hl hr
    (eval_sim E hl d (by omega)) (eval_sim E hr d (by omega)) ?_
  · intro x y s h' f
    cases op <;> exact Sim.pure f rfl

theorem dComp_post {h r c fp op a b na nb h'} (hrl : r < h.length) (hrn : r ∉ fp)
    (hx : h'[r]? = some (.command .dRollComp (some c)))
    (hp : Post2 h fp (.compare (CmpOp.str op)) c na nb a b h') :
    NPost h (r :: fp) (max na nb + 2) (some r) (.dRollComp a op b) h' := by
  obtain ⟨lp, rp, fl, fr, hc, hl, hr, h2, h3, h4, h5⟩ := hp
  refine ⟨r :: c :: (fl ++ fr), .dRollComp hx hc hl hr, ?_, ?_, ?_⟩
  · rw [List.nodup_cons]
    refine ⟨fun hm => ?_, h2⟩
    rcases h3 r hm with h5 | h5
    · exact hrn h5
    · exact absurd hrl (Nat.not_lt.mpr h5)
  · intro x hx
    rw [List.mem_cons] at hx
    rcases hx with rfl | hx
    · simp
    · rcases h3 x hx with h5 | h5
      · simp [h5]
      · exact .inr h5
  · show max a.height b.height + 2 ≤ max na nb + 2
    omega

theorem executeDRollComp_sim (isPrint : Char → Bool) (E : Evaluator σ)
    {h d r c lp rp op a b fl fr s g ty}
    (hx : h[r]? = some (.command .dRollComp (some c)))
    (hc : h[c]? = some (.binary (.compare (CmpOp.str op)) lp rp)) (hl : Rep h lp a fl)
    (hr : Rep h rp b fr) (hn : (r :: c :: (fl ++ fr)).Nodup) (hd : max a.height b.height + 2 ≤ d) :
    Sim h (r :: c :: (fl ++ fr)) (executeDRollComp isPrint E d g ty (some c) ⟨s, h⟩)
      (E.executeDRollCompT g a op b s)
      (fun res rn h' => res = rn.1 ∧ NPost h (r :: c :: (fl ++ fr)) (max a.height b.height + 2)
        (some r) rn.2 h') := by
  obtain ⟨d, rfl⟩ : ∃ d', d = d' + 1 := ⟨d - 1, by omega⟩
  have hrl := lt_of_get hx
  have hn' := hn
  rw [List.nodup_cons] at hn'
  obtain ⟨hrn, hnc⟩ := hn'
  have hnc' := hnc
  rw [List.nodup_cons, List.nodup_append] at hnc'
  obtain ⟨hcn, hnl, hnr, hdis⟩ := hnc'
  unfold executeDRollComp Evaluator.executeDRollCompT evalVarArgsAndShow
  rw [deref_bind hc]
  show Sim h _ (((evalVarArgs E (d + 1) (some c) >>= fun _ =>
    infixNotation (d + 1) true (some c)) >>= _) ⟨s, h⟩) _ _
  rw [bind_assoc_H]
  -- stage 1
  have h0 := evalVarArgs_sim E a (s := s) (d := d) hl hnl (by omega)
  have h1 := compareArgs_sim E (S := fun x h fp => Rep h lp x fp ∧ x.height ≤ a.height)
    (fun x => Rep.stable lp a.height x) (s := s) (d := d) hc hr hnc (by omega)
    (h0.weaken (by
      rintro ⟨⟩ l' _ ⟨fp', q1, q2, q3, q4⟩
      exact ⟨fp', ⟨q1, q4⟩, q2, q3⟩))
  have hty : E.evalVarArgsInDCompare a b s =
      (((do let l' ← E.evalVarArgs a; let y ← E.eval b; pure (l', y) : M σ (Expr × Int64)) >>=
        fun ly => (pure (ly.1, .int ly.2) : M σ (Expr × Expr))) s) := by
    rw [← pair_bind (g := fun ly : Expr × Int64 => (pure (ly.1, .int ly.2) : M σ (Expr × Expr)))]
    rfl
  have h1' : Sim h (c :: (fl ++ fr)) (evalVarArgs E (d + 1) (some c) ⟨s, h⟩)
      (E.evalVarArgsInDCompare a b s)
      (fun _ lr h' => ∃ y, lr.2 = .int y ∧
        Post2 h (c :: (fl ++ fr)) (.compare op.str) c a.height b.height lr.1 lr.2 h') := by
    rw [hty, ← bind_unit (evalVarArgs E (d + 1) (some c))]
    refine Sim.bind' h1 ?_
    rintro ⟨⟩ ⟨l', y⟩ s1 h1 f1 ⟨fl', i, q1, ⟨q2, q2'⟩, q3, q4, q5⟩
    refine Sim.pure f1 ⟨y, rfl, lp, some i, fl', [i], q1, q2, .int q3, q4,
      q5.mono (by intro x hx; simp only [List.mem_cons, List.mem_append] at *; grind), q2', ?_⟩
    have := height_pos b
    simpa [Expr.height] using this
  refine Sim.bind (h1'.from (Frame.refl _ _) (by intro x hx; simp_all)) ?_
  rintro ⟨⟩ ⟨l1, r1⟩ s1 m1 q1 _ f1 ⟨y, hy, lp1, rp1, fl1, fr1, hc1, hl1, hr1, hn1, hw1, ha1, hb1⟩
  simp only at hy hl1 hr1 ha1 hb1
  have fr01 : Frame h (c :: (fl ++ fr)) m1 := by have := h1'.2.1; rw [q1] at this; exact this
  have hx1 := parent_kept fr01 hx hrn
  have hnot1 := compare_notation (s := s1) true hc1 hr1 (d := d) (by omega)
    (notation_ok (s := s1) d true hl1 (by omega)) (Frame.refl _ _)
  rw [bind_ok hnot1]
  -- stage 2
  have h2 := determineBinary_sim E (a := l1) (b := r1)
    (fun a b c => determineValues_sim E l1 a b c) (fun a b c => determineValues_sim E r1 a b c)
    (s := s1) (d := d) (g := fun a b => (a, b)) hc1 hl1 hr1 hn1 (by omega)
  refine Sim.bind (h2.from f1 (by
    intro x hx
    rcases hw1 x hx with h5 | h5
    · exact .inl (List.mem_cons_of_mem _ h5)
    · exact .inr h5)) ?_
  rintro ⟨⟩ _ s2 m2 q2 _ f2 ⟨l2, r2, rfl, lp2, rp2, fl2, fr2, hc2, hl2, hr2, hn2, hw2, ha2, hb2⟩
  have fr12 : Frame m1 (c :: (fl1 ++ fr1)) m2 := by have := h2.2.1; rw [q2] at this; exact this
  have hw02 : Within h (c :: (fl ++ fr)) (c :: (fl2 ++ fr2)) := hw1.trans hw2 fr01.1
  have hrn1 : r ∉ c :: (fl1 ++ fr1) := by
    intro hm
    rcases hw1 r hm with h5 | h5
    · exact hrn h5
    · exact absurd hrl (Nat.not_lt.mpr h5)
  have hrn2 : r ∉ c :: (fl2 ++ fr2) := by
    intro hm
    rcases hw02 r hm with h5 | h5
    · exact hrn h5
    · exact absurd hrl (Nat.not_lt.mpr h5)
  have hx2 := parent_kept fr12 hx1 hrn1
  simp only
  rw [bind_ok (infixLeft_ok hc2), bind_ok (notation_ok (d + 1) true hl2 (by omega))]
  -- the left side
  unfold evalCompareLeft
  rw [bind_assoc_H, deref_bind hc2]
  simp only
  rw [bind_assoc_H]
  have h3 := eval_sim' E (s := s2) (d := d + 1) hl2 (by omega) (Frame.refl m2 [])
  refine Sim.bind (h3.from f2 (by simp)) ?_
  rintro v n s3 m3 q3 _ f3 rfl
  have fr23 : Frame m2 [] m3 := by have := h3.2.1; rw [q3] at this; exact this
  rw [bind_assoc_H, bind_ok (objectToIntNode_ok _ _ _)]
  have fr3 : Frame m2 [] (m3 ++ [.int n]) := fr23.trans (Frame.append _ [] _) (by simp)
  have hc3 := parent_kept fr3 hc2 (by simp)
  rw [bind_assoc_H, bind_ok (setLeft_ok hc3)]
  show Sim h _ ((eval E (d + 1) (some c) >>= _) ⟨s3, _⟩) _ _
  generalize hm4 : (m3 ++ [Obj.int n]).set c (.binary (.compare op.str) (some m3.length) rp2) = m4
  have fr34 : Frame (m3 ++ [.int n]) [c] m4 := by rw [← hm4]; exact Frame.set _ _ _
  have hc4 : m4[c]? = some (.binary (.compare op.str) (some m3.length) rp2) := by
    rw [← hm4]; exact get_set_self hc3
  have hcl : c < m3.length := Nat.lt_of_lt_of_le (lt_of_get hc2) fr23.1
  have hi4 : m4[m3.length]? = some (.int n) := by
    rw [← hm4, List.getElem?_set_ne (Nat.ne_of_lt hcl)]; simp
  have hn2' := hn2
  rw [List.nodup_cons, List.nodup_append] at hn2'
  obtain ⟨hcn2, hnl2, hnr2, hdis2⟩ := hn2'
  have hr4 : Rep m4 rp2 r2 fr2 := (hr2.frame0 fr3).frame fr34 (by
    intro x hxf hm; simp at hm; subst hm; exact hcn2 (by simp [hxf]))
  have hx4 : m4[r]? = some (.command .dRollComp (some c)) :=
    parent_kept fr34 (parent_kept fr3 hx2 (by simp)) (by
      intro hm; simp at hm; subst hm; exact hrn2 (by simp))
  have f4 : Frame h (r :: c :: (fl ++ fr)) m4 :=
    (f3.trans (Frame.append m3 [] _) (by simp)).trans fr34 (by simp)
  have hpost : Post2 h (c :: (fl ++ fr)) (.compare op.str) c a.height b.height (.int n) r2 m4 := by
    refine ⟨some m3.length, rp2, [m3.length], fr2, hc4, .int hi4, hr4, ?_, ?_, ?_, by omega⟩
    · rw [List.nodup_cons, List.nodup_append]
      refine ⟨?_, by simp, hnr2, ?_⟩
      · intro hm
        simp only [List.mem_append, List.mem_singleton] at hm
        rcases hm with hm | hm
        · exact absurd hcl (by simp [hm])
        · exact hcn2 (by simp [hm])
      · intro x hx y hy hxy
        subst hxy
        simp at hx
        subst hx
        exact absurd (Nat.lt_of_lt_of_le (hr2.lt _ hy) fr23.1) (Nat.lt_irrefl _)
    · intro x hx
      simp only [List.mem_cons, List.mem_append, List.not_mem_nil, or_false] at hx
      rcases hx with rfl | rfl | hx
      · simp
      · exact .inr (Nat.le_trans fr01.1 (Nat.le_trans fr12.1 fr23.1))
      · exact hw02 x (by simp [hx])
    · have := height_pos a
      simpa [Expr.height] using this
  refine finish f4 (dComp_post hrl hrn hx4 hpost) ?_
  have h4 := compare_sim E (s := s3) (d := d) hc4 (.int hi4) hr4 (by simp [Expr.height]; omega)
  have heq : ∀ k : Bool → M σ (Result × Node),
      ((do let x ← E.eval (.int n); let y ← E.eval r2; k (op.holds x y) : M σ (Result × Node)) s3) =
      (((do let x ← E.eval (.int n); let y ← E.eval r2; pure (op.holds x y) : M σ Bool) >>= k)
        s3) := by
    intro k
    rw [bind_assoc_M]
    show _ = M.bnd _ _ s3
    simp only [bind, M.bnd]
    cases E.eval (.int n) s3 with
    | mk o s4 =>
      cases o with
      | ok x =>
        simp only
        cases E.eval r2 s4 with
        | mk o s5 => cases o <;> rfl
      | err => rfl
      | panic => rfl
  refine (congrArg (fun z => Sim m4 [] _ z _) (heq (fun holds => do
    let dice ← Evaluator.rolledDice
    pure (mkResult g
      [parenthesize (GoBCDice.infixNotation true l1 ++ op.str ++ GoBCDice.infixNotation true r1),
        GoBCDice.infixNotation true l2, intStr n,
        if holds then chars!"成功" else chars!"失敗"]
      dice (if holds then .success else .failure), .dRollComp (.int n) op r2)))).mpr ?_
  refine Sim.bind' h4 ?_
  rintro v w s5 m5 f5 rfl
  rw [bind_ok (rolled_ok _ _), mbind_ok (trolled_ok _)]
  exact Sim.pure f5 ⟨rfl, rfl⟩

end GoBCDice.Raw
