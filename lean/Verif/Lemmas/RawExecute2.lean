import Verif.Lemmas.RawExecute

/-! # `Execute` on nodes in memory: B, R and U rolls -/

namespace GoBCDice.Raw

variable {σ α β γ δ : Type}

/-- A root that is not overwritten, above a changed rest. -/
theorem root_within {h r fp fp'} (hrl : r < h.length) (hrn : r ∉ fp) (hn : fp'.Nodup)
    (hw : Within h fp fp') : (r :: fp').Nodup ∧ Within h (r :: fp) (r :: fp') := by
  refine ⟨?_, ?_⟩
  · rw [List.nodup_cons]
    refine ⟨fun hm => ?_, hn⟩
    rcases hw r hm with h5 | h5
    · exact hrn h5
    · exact absurd hrl (Nat.not_lt.mpr h5)
  · intro x hx
    rw [List.mem_cons] at hx
    rcases hx with rfl | hx
    · simp
    · rcases hw x hx with h5 | h5
      · simp [h5]
      · exact .inr h5

/-! ## B rolls -/

theorem bListArgs_sim (E : Evaluator σ) {h d r ps rolls fs s}
    (hx : h[r]? = some (.bRollList ps)) (hr : RepRolls h .bRoll ps rolls fs)
    (hn : (r :: fs).Nodup) (hd : rollsHeight rolls ≤ d + 1) :
    Sim h (r :: fs) (evalVarArgs E (d + 1) (some r) ⟨s, h⟩) (E.evalVarArgsInRolls rolls s)
      (fun _ rolls' h' => h'[r]? = some (.bRollList ps) ∧ ∃ fs', RepRolls h' .bRoll ps rolls' fs' ∧
        (r :: fs').Nodup ∧ Within h (r :: fs) (r :: fs') ∧ rollsHeight rolls' ≤ rollsHeight rolls) := by
  rw [List.nodup_cons] at hn
  have hrl := lt_of_get hx
  have e1 : evalVarArgs E (d + 1) (some r) ⟨s, h⟩ = evalVarArgsInRolls E d ps ⟨s, h⟩ := by
    rw [evalVarArgs, evalVarArgsStep, deref_bind hx]
  rw [e1]
  have h1 := rollsArgs_sim E (.inl rfl) (s := s) (d := d) hr hn.2 hd
  have f1 := h1.2.1
  refine (Sim.from (h1.weaken ?_) (Frame.refl _ _) (fp := r :: fs) (by intro x hx; simp [hx]))
  rintro ⟨⟩ rolls' _ ⟨fs', q1, q2, q3, q4⟩
  obtain ⟨k1, k2⟩ := root_within hrl hn.1 q2 q3
  exact ⟨parent_kept f1 hx hn.1, fs', q1, k1, k2, q4⟩

theorem executeBRollList_sim (isPrint : Char → Bool) (E : Evaluator σ) {h d r ps rolls fs s g}
    (hx : h[r]? = some (.bRollList ps)) (hr : RepRolls h .bRoll ps rolls fs)
    (hn : (r :: fs).Nodup) (hd : rollsHeight rolls + 1 ≤ d) :
    Sim h (r :: fs) (executeBRollList isPrint E d g (some r) ⟨s, h⟩) (E.executeBRollListT g rolls s)
      (fun res rn h' => res = rn.1 ∧ NPost h (r :: fs) (rollsHeight rolls + 1) (some r) rn.2 h') := by
  obtain ⟨d, rfl⟩ : ∃ d', d = d' + 1 := ⟨d - 1, by omega⟩
  unfold executeBRollList Evaluator.executeBRollListT evalVarArgsAndShow
  rw [bind_assoc_H]
  refine Sim.bind' (bListArgs_sim E hx hr hn (by omega)) ?_
  rintro ⟨⟩ rolls' s1 m1 f1 ⟨hx1, fs', hr1, hn1, hw1, hh1⟩
  rw [bind_ok (bRollList_notation true hx1 hr1 (by omega))]
  refine finish (node' := .bRollList rolls') f1
    ⟨r :: fs', .bRollList hx1 hr1, hn1, hw1, by show rollsHeight rolls' + 1 ≤ _; omega⟩ ?_
  refine Sim.bind' (bRollList_sim E hx1 hr1 (by omega) (Frame.refl _ _)) ?_
  rintro v ws s2 m2 f2 rfl
  rw [asArray_bind, bind_ok (rolled_ok _ _), mbind_ok (trolled_ok _), joined_elements]
  exact Sim.pure f2 ⟨rfl, rfl⟩

/-- A B roll list with its rolls. -/
def BList (l : Ref) (ps : List Ptr) (n : Nat) (rolls : List Roll) (h : Heap) (fp : List Ref) : Prop :=
  ∃ fs, fp = l :: fs ∧ h[l]? = some (.bRollList ps) ∧ RepRolls h .bRoll ps rolls fs ∧
    rollsHeight rolls ≤ n

theorem BList.stable (l ps n rolls) : Stable (BList l ps n rolls) := by
  refine ⟨?_, ?_⟩
  · rintro h h' fp fp2 ⟨fs, rfl, hx, hr, hn⟩ f hd _
    exact ⟨fs, rfl, parent_kept f hx (hd _ (by simp)),
      hr.frame f (fun x hx => hd x (by simp [hx])), hn⟩
  · rintro h fp ⟨fs, rfl, hx, hr, hn⟩ x hm
    rw [List.mem_cons] at hm
    rcases hm with rfl | hm
    · exact lt_of_get hx
    · exact hr.lt x hm

theorem executeBRollComp_sim (isPrint : Char → Bool) (E : Evaluator σ)
    {h d r c l ps rp op rolls b fl fr s g} (hx : h[r]? = some (.command .bRollComp (some c)))
    (hc : h[c]? = some (.binary (.compare (CmpOp.str op)) (some l) rp))
    (hq : h[l]? = some (.bRollList ps)) (hl : RepRolls h .bRoll ps rolls fl) (hr : Rep h rp b fr)
    (hn : (r :: c :: l :: (fl ++ fr)).Nodup)
    (hd : max (rollsHeight rolls + 1) b.height + 2 ≤ d) :
    Sim h (r :: c :: l :: (fl ++ fr)) (executeBRollComp isPrint E d g (some r) (some c) ⟨s, h⟩)
      (E.executeBRollCompT g rolls op b s)
      (fun res rn h' => res = rn.1 ∧ NPost h (r :: c :: l :: (fl ++ fr))
        (max (rollsHeight rolls + 1) b.height + 2) (some r) rn.2 h') := by
  obtain ⟨d, rfl⟩ : ∃ d', d = d' + 2 := ⟨d - 2, by omega⟩
  have hrl := lt_of_get hx
  have hn' := hn
  rw [List.nodup_cons] at hn'
  obtain ⟨hrn, hnc⟩ := hn'
  have hnc' := hnc
  rw [List.nodup_cons, ← List.cons_append, List.nodup_append] at hnc'
  unfold executeBRollComp Evaluator.executeBRollCompT evalVarArgsAndShow
  rw [bind_ok (asBasicInfix_ok hc), bind_assoc_H]
  have h0 := bListArgs_sim E (s := s) (d := d) hq hl hnc'.2.1 (by omega)
  have h1 := compareArgs_sim E (S := BList l ps (rollsHeight rolls))
    (BList.stable l ps _) (s := s) (d := d + 1) (fl := l :: fl) hc hr hnc (by omega)
    (h0.weaken (by
      rintro ⟨⟩ l' _ ⟨q0, fs', q1, q2, q3, q4⟩
      exact ⟨l :: fs', ⟨fs', rfl, q0, q1, q4⟩, q2, q3⟩))
  have hp : ∀ k : List Roll × Int64 → M σ (Result × Node),
      ((do let x ← E.evalVarArgsInRolls rolls; let y ← E.eval b; k (x, y) : M σ _) s) = _ :=
    fun k => pair_bind s
  refine (congrArg (fun z => Sim h _ _ z _) (hp (fun xy => do
    let (vs, n) ← E.evalBRollComp xy.1 op (.int xy.2)
    let dice ← Evaluator.rolledDice
    pure (mkResult g [parenthesize (rollsNotation chars!"B" xy.1 ++ op.str ++
      GoBCDice.infixNotation true (.int xy.2)), joinedElements vs, successCountPart n] dice,
      .bRollComp xy.1 op (.int xy.2))))).mpr ?_
  refine Sim.bind (h1.from (Frame.refl _ _) (by
    intro x hx; exact .inl (List.mem_cons_of_mem _ hx))) ?_
  rintro ⟨⟩ ⟨rolls', y⟩ s1 m1 q1 _ f1 ⟨_, i, hc1, ⟨fs, rfl, hq1, hl1, hh1⟩, hi, hn1, hw1⟩
  simp only at hi hl1 hh1
  have fr1 := h1.2.1
  rw [q1] at fr1
  have hx1 := parent_kept fr1 hx hrn
  obtain ⟨k1, k2⟩ := root_within (fp' := c :: (l :: fs ++ [i])) hrl hrn hn1 (hw1.mono (by
    intro x hm
    rw [List.mem_cons, List.mem_cons] at hm
    simp only [List.mem_cons, List.mem_append]
    grind))
  have hb := height_pos b
  have hi' : Rep m1 (some i) (.int y) [i] := .int hi
  rw [bind_ok (compare_notation (s := s1) (d := d + 1) true hc1 hi' (by simp [Expr.height])
    (bRollList_notation (s := s1) true hq1 hl1 (by omega)) (Frame.refl _ _))]
  refine finish (node' := .bRollComp rolls' op (.int y)) f1
    ⟨_, .bRollComp hx1 hc1 hq1 hl1 hi', k1, k2, by
      show max (rollsHeight rolls' + 1) 1 + 2 ≤ _; omega⟩ ?_
  refine Sim.bind' (bRollComp_sim E (d := d + 2) hx1 hc1 hq1 hl1 hi' (by
    simp only [Expr.height]; omega) (Frame.refl _ _)) ?_
  rintro v ⟨ws, n⟩ s2 m2 f2 rfl
  simp only
  rw [bind_ok (rolled_ok _ _), mbind_ok (trolled_ok _), joined_elements]
  exact Sim.pure f2 ⟨rfl, rfl⟩

/-! ## R rolls -/

theorem rList_args_step (E : Evaluator σ) {h k d p rl fp} {s : St σ} (hr : RepRRollList h k p rl fp) :
    evalVarArgs E (d + 1) p ⟨s, h⟩ = evalVarArgsInRRollList E d p ⟨s, h⟩ := by
  cases hr with
  | mk hx _ _ => rw [evalVarArgs, evalVarArgsStep, deref_bind hx]

theorem executeRRollList_sim (isPrint : Char → Bool) (E : Evaluator σ) {h d p rl fp s g}
    (hr : RepRRollList h .rRoll p rl fp) (hn : fp.Nodup) (hd : rl.height ≤ d) :
    Sim h fp (executeRRollList isPrint E d g p ⟨s, h⟩) (E.executeRRollListT g rl s)
      (fun res rn h' => res = rn.1 ∧ NPost h fp rl.height p rn.2 h') := by
  obtain ⟨d, rfl⟩ : ∃ d', d = d' + 1 := ⟨d - 1, by unfold RRollList.height at hd; omega⟩
  unfold executeRRollList Evaluator.executeRRollListT evalVarArgsAndShow
  rw [bind_assoc_H]
  have h1 := rListArgs_sim E (.inl rfl) (s := s) hr hn hd
  rw [← rList_args_step E hr] at h1
  refine Sim.bind' h1 ?_
  rintro ⟨⟩ rl' s1 m1 f1 ⟨fp', hr1, hn1, hw1, hh1⟩
  rw [bind_ok (rRollList_notation true (.inl rfl) hr1 (by omega))]
  refine finish (node' := .rRollList rl') f1 ⟨fp', .rRollList hr1, hn1, hw1, hh1⟩ ?_
  refine Sim.bind (checkThreshold_sim E hr1 (by omega)) ?_
  rintro chk _ s2 m2 q2 _ f2 rfl
  cases chk with
  | some msg => exact Sim.pure f2 ⟨rfl, rfl⟩
  | none =>
    simp only
    refine Sim.bind' (rRollList_sim E hr1 (by omega) f2) ?_
    rintro v w s3 m3 f3 rfl
    rw [asArray_bind, bind_ok (rolled_ok _ _), mbind_ok (trolled_ok _),
      bind_ok (formatRRollValues_ok _ _ _)]
    exact Sim.pure f3 ⟨rfl, rfl⟩

/-- An R or U roll list not higher than `n`. -/
theorem RepRRollList.stable (k : InfixKind) (p : Ptr) (n : Nat) (rl : RRollList) :
    Stable (fun h fp => RepRRollList h k p rl fp ∧ rl.height ≤ n) :=
  ⟨fun hs f hd hn => ⟨hs.1.frame f hd hn, hs.2⟩, fun hs => hs.1.lt⟩

theorem RepURollExpr.stable (p : Ptr) (n : Nat) (u : URollExpr) :
    Stable (fun h fp => RepURollExpr h p u fp ∧ u.height ≤ n) :=
  ⟨fun hs f hd hn => ⟨hs.1.frame f hd hn, hs.2⟩, fun hs => hs.1.lt⟩

theorem setReroll_sim (E : Evaluator σ) {h d c lp rp op rl b fl fr s}
    (hc : h[c]? = some (.binary (.compare op) lp rp))
    (hl : RepRRollList h .rRoll lp rl fl) (hr : Rep h rp b fr) (hn : fl.Nodup)
    (hd : b.height ≤ d) :
    Sim h fl (setRerollThreshold E d (some c) ⟨s, h⟩) (E.setRerollThreshold rl b s)
      (fun _ rl' h' => PostRL h fl rl.height .rRoll lp rl' h') := by
  unfold setRerollThreshold
  rw [bind_ok (asBasicInfix_ok hc)]
  cases hl with
  | @mk r ps tp rolls t fs ft hx hs ht =>
    simp only
    rw [bind_ok (asRRollList_ok hx)]
    obtain ⟨o, ho, hnil⟩ := ht.deref (Frame.refl h []) (s := s)
    simp only
    rw [bind_ok ho, hnil]
    have hn' := hn
    rw [List.nodup_cons, List.nodup_append] at hn'
    obtain ⟨hrn, hnt, hns, hdis⟩ := hn'
    have hrs : r ∉ fs := fun hm => hrn (by simp [hm])
    cases t with
    | some t =>
      exact Sim.pure (Frame.refl _ _) ⟨_, .mk hx hs ht, hn, Within.refl _ _, Nat.le_refl _⟩
    | none =>
      cases ht with
      | none ht =>
        simp only [Evaluator.setRerollThreshold]
        show Sim h _ ((eval E d rp >>= fun v => objectToIntNode v >>= fun t' =>
          write (some r) (.rRollList ps t')) ⟨s, h⟩) _ _
        have h0 := eval_sim' E (s := s) (d := d) hr hd (Frame.refl h [])
        refine Sim.bind (h0.from (Frame.refl _ _) (by simp)) ?_
        rintro v n s1 h1 e1 _ _ rfl
        have f1 : Frame h [] h1 := by have := h0.2.1; rw [e1] at this; exact this
        obtain ⟨h2, he2, f2, t', q1, q2, q3, q4, q5⟩ := newThreshold (s := s1) (n := n) hx f1
        rw [he2]
        refine ⟨rfl, f2.mono (by simp), r :: ([t'] ++ fs), .mk q1 (hs.frame f2 (by
          intro x hxf hm; simp at hm; subst hm; exact hrs hxf)) (.some (.int q2)), ?_, ?_, ?_⟩
        · simp only [List.singleton_append, List.nodup_cons, List.mem_cons, not_or]
          exact ⟨⟨q4, hrs⟩, fun hm => absurd (hs.lt _ hm) (Nat.not_lt.mpr q3), hns⟩
        · intro x hx
          simp only [List.singleton_append, List.mem_cons] at hx
          rcases hx with rfl | rfl | hx
          · simp
          · exact .inr q3
          · simp [hx]
        · exact Nat.le_refl _

theorem executeRRollComp_sim (isPrint : Char → Bool) (E : Evaluator σ)
    {h d r c lp rp op rl b fl fr s g} (hx : h[r]? = some (.command .rRollComp (some c)))
    (hc : h[c]? = some (.binary (.compare (CmpOp.str op)) lp rp))
    (hl : RepRRollList h .rRoll lp rl fl) (hr : Rep h rp b fr)
    (hn : (r :: c :: (fl ++ fr)).Nodup) (hd : max rl.height b.height + 2 ≤ d) :
    Sim h (r :: c :: (fl ++ fr)) (executeRRollComp isPrint E d g (some r) (some c) ⟨s, h⟩)
      (E.executeRRollCompT g rl op b s)
      (fun res rn h' => res = rn.1 ∧ NPost h (r :: c :: (fl ++ fr))
        (max rl.height b.height + 2) (some r) rn.2 h') := by
  obtain ⟨d, rfl⟩ : ∃ d', d = d' + 2 := ⟨d - 2, by omega⟩
  have hrl := lt_of_get hx
  have hn' := hn
  rw [List.nodup_cons] at hn'
  obtain ⟨hrn, hnc⟩ := hn'
  have hnc' := hnc
  rw [List.nodup_cons, List.nodup_append] at hnc'
  unfold executeRRollComp Evaluator.executeRRollCompT
  rw [bind_ok (asBasicInfix_ok hc)]
  have h0 := rListArgs_sim E (.inl rfl) (s := s) (d := d) hl hnc'.2.1 (by omega)
  rw [← rList_args_step E hl] at h0
  have h1 := compareArgs_sim E (S := fun x h fp => RepRRollList h .rRoll lp x fp ∧
      x.height ≤ rl.height) (RepRRollList.stable .rRoll lp _) (s := s) (d := d + 1) hc hr hnc
    (by omega)
    (h0.weaken (by
      rintro ⟨⟩ l' _ ⟨fs', q1, q2, q3, q4⟩
      exact ⟨fs', ⟨q1, q4⟩, q2, q3⟩))
  have hp : ∀ k : RRollList × Int64 → M σ (Result × Node),
      ((do let x ← E.evalVarArgsInRRollList rl; let y ← E.eval b; k (x, y) : M σ _) s) = _ :=
    fun k => pair_bind s
  refine (congrArg (fun z => Sim h _ _ z _) (hp (fun xy => do
    let rl2 ← E.setRerollThreshold xy.1 (.int xy.2)
    let notation1 := parenthesize (GoBCDice.rRollListNotation chars!"R" rl2 ++ op.str ++
      GoBCDice.infixNotation true (.int xy.2))
    let check ← E.checkThreshold Evaluator.rThresholdNilMsg rl2.threshold
    match check with
    | some msg => pure (mkResult g [notation1, msg] [], .rRollComp rl2 op (.int xy.2))
    | none => do
      let (groups, n) ← E.evalRRollComp rl2 op (.int xy.2)
      let dice ← Evaluator.rolledDice
      pure (mkResult g [notation1, GoBCDice.formatRRollValues groups, successCountPart n] dice,
        .rRollComp rl2 op (.int xy.2))))).mpr ?_
  refine Sim.bind (h1.from (Frame.refl _ _) (by
    intro x hx; exact .inl (List.mem_cons_of_mem _ hx))) ?_
  rintro ⟨⟩ ⟨rl1, y⟩ s1 m1 q1 _ f1 ⟨fl1, i, hc1, ⟨hl1, hh1⟩, hi, hn1, hw1⟩
  simp only at hi hl1 hh1
  have fr1 := h1.2.1
  rw [q1] at fr1
  have hx1 := parent_kept fr1 hx hrn
  have hi' : Rep m1 (some i) (.int y) [i] := .int hi
  have hb := height_pos b
  have hw1' : Within h (c :: (fl ++ fr)) (c :: (fl1 ++ [i])) := hw1.mono (by
    intro x hm
    rw [List.mem_cons] at hm
    simp only [List.mem_cons, List.mem_append]
    grind)
  have hn1' := hn1
  rw [List.nodup_cons, List.nodup_append] at hn1'
  obtain ⟨hcn1, hnl1, _, hdis1⟩ := hn1'
  have h2 := setReroll_sim E (s := s1) (d := d + 2) hc1 hl1 hi' hnl1 (by
    simp only [Expr.height]; omega)
  simp only
  refine Sim.bind (h2.from f1 (by
    intro x hxf
    rcases hw1' x (by simp [hxf]) with h5 | h5
    · exact .inl (List.mem_cons_of_mem _ h5)
    · exact .inr h5)) ?_
  rintro ⟨⟩ rl2 s2 m2 q2 _ f2 ⟨fl2, hl2, hn2, hw2, hh2⟩
  have fr2 := h2.2.1
  rw [q2] at fr2
  have hc2 := parent_kept fr2 hc1 (fun hm => hcn1 (by simp [hm]))
  have hi2 : Rep m2 (some i) (.int y) [i] := hi'.frame fr2 (by
    intro x hx hm; exact hdis1 x hm x hx rfl)
  have hrn1 : r ∉ c :: (fl1 ++ [i]) := by
    intro hm
    rcases hw1' r hm with h5 | h5
    · exact hrn h5
    · exact absurd hrl (Nat.not_lt.mpr h5)
  have hx2 := parent_kept fr2 hx1 (fun hm => hrn1 (by simp [hm]))
  have hil : i < m1.length := lt_of_get hi
  have hcl1 : c < m1.length := lt_of_get hc1
  have hn3 : (c :: (fl2 ++ [i])).Nodup := by
    rw [List.nodup_cons, List.nodup_append]
    refine ⟨?_, hn2, by simp, ?_⟩
    · intro hm
      simp only [List.mem_append, List.mem_singleton] at hm
      rcases hm with hm | hm
      · rcases hw2 c hm with h5 | h5
        · exact hcn1 (by simp [h5])
        · exact absurd hcl1 (Nat.not_lt.mpr h5)
      · exact hcn1 (by simp [hm])
    · intro x hx y hy hxy
      subst hxy
      rcases hw2 x hx with h5 | h5
      · exact hdis1 x h5 x hy rfl
      · simp only [List.mem_singleton] at hy
        subst hy
        exact absurd hil (Nat.not_lt.mpr h5)
  have hw3 : Within h (c :: (fl ++ fr)) (c :: (fl2 ++ [i])) := by
    intro x hm
    simp only [List.mem_cons, List.mem_append, List.not_mem_nil, or_false] at hm
    rcases hm with rfl | hm | rfl
    · simp
    · rcases hw2 x hm with h5 | h5
      · exact hw1' x (by simp [h5])
      · exact .inr (Nat.le_trans fr1.1 h5)
    · exact hw1' x (by simp)
  obtain ⟨k1, k2⟩ := root_within hrl hrn hn3 hw3
  rw [bind_ok (command_notation (d := d + 1) true hx2 (by simp)
    (compare_notation (s := s2) (d := d) true hc2 hi2 (by
      have : 1 ≤ d := by unfold RRollList.height at hd; omega
      simpa [Expr.height] using this)
    (rRollList_notation (s := s2) true (.inl rfl) hl2 (by omega)) (Frame.refl _ _)))]
  rw [bind_ok (infixLeft_ok hc2)]
  refine finish (node' := .rRollComp rl2 op (.int y)) f2
    ⟨_, .rRollComp hx2 hc2 hl2 hi2, k1, k2, by
      show max rl2.height 1 + 2 ≤ _; omega⟩ ?_
  refine Sim.bind' (checkThreshold_sim E hl2 (by omega)) ?_
  rintro chk _ s3 m3 f3 rfl
  cases chk with
  | some msg => exact Sim.pure f3 ⟨rfl, rfl⟩
  | none =>
    simp only
    refine Sim.bind' (rRollComp_sim E (d := d + 2) hx2 hc2 hl2 hi2 (by
      simp only [Expr.height]; omega) f3) ?_
    rintro v ⟨w, n⟩ s4 m4 f4 rfl
    simp only
    rw [bind_ok (rolled_ok _ _), mbind_ok (trolled_ok _), bind_ok (formatRRollValues_ok _ _ _)]
    exact Sim.pure f4 ⟨rfl, rfl⟩

/-! ## U rolls -/

theorem uArgs_step (E : Evaluator σ) {h d p u fp s} (hr : RepURollExpr h p u fp) (hn : fp.Nodup)
    (hd : u.height ≤ d + 1) :
    Sim h fp (evalVarArgs E (d + 1) p ⟨s, h⟩) (E.evalVarArgsInURollExpr u s)
      (fun _ u' h' => PostU h fp u.height p u' h') := by
  cases hr with
  | mk hx hl hb =>
    rw [evalVarArgs, evalVarArgsStep, deref_bind hx]
    exact (uArgs_sim E (u := ⟨_, _⟩) hx hl hb hn hd).weaken (fun _ _ _ h => h.1)

theorem executeURollExpr_sim (isPrint : Char → Bool) (E : Evaluator σ) {h d r lp bp u fp s g}
    (hx : h[r]? = some (.uRollExpr lp bp))
    (hr : RepURollExpr h (some r) u fp) (hn : fp.Nodup) (hd : u.height ≤ d) :
    Sim h fp (executeURollExpr isPrint E d g (some r) lp ⟨s, h⟩) (E.executeURollExprT g u s)
      (fun res rn h' => res = rn.1 ∧ NPost h fp u.height (some r) rn.2 h') := by
  obtain ⟨d, rfl⟩ : ∃ d', d = d' + 1 := ⟨d - 1, by have := uHeight_list u; omega⟩
  unfold executeURollExpr Evaluator.executeURollExprT evalVarArgsAndShow
  rw [bind_assoc_H]
  have h1 : Sim h fp (evalVarArgs E (d + 1) (some r) ⟨s, h⟩) (E.evalVarArgsInURollExpr u s)
      (fun _ u' h' => PostU h fp u.height (some r) u' h' ∧ ∃ bp', h'[r]? = some (.uRollExpr lp bp')) := by
    cases hr with
    | mk hx' hl hb =>
      rw [hx] at hx'
      cases hx'
      rw [evalVarArgs, evalVarArgsStep, deref_bind hx]
      exact uArgs_sim E (u := ⟨_, _⟩) hx hl hb hn hd
  refine Sim.bind' h1 ?_
  rintro ⟨⟩ u' s1 m1 f1 ⟨⟨fp', hr1, hn1, hw1, hh1⟩, bp', hx1⟩
  obtain ⟨m2, hnot, f12⟩ := uRollExpr_notation (s := s1) (d := d + 1) true hr1 (by omega)
  rw [bind_ok hnot]
  have hr2 := hr1.frame f12 (by simp) (by simp [NotNil])
  refine finish (node' := .uRollExpr u') (f1.trans f12 (by simp))
    ⟨fp', .uRollExpr hr2, hn1, hw1, hh1⟩ ?_
  have hx2 := parent_kept f12 hx1 (by simp)
  obtain ⟨list, bonus⟩ := u'
  cases hr2 with
  | mk hx2' hl2 hb2 =>
    rw [hx2] at hx2'
    cases hx2'
    have hh2 := uHeight_list ⟨list, bonus⟩
    simp only at hh2
    refine Sim.bind' (checkThreshold_sim E hl2 (by simp only at *; omega)) ?_
    rintro chk _ s2 m2 f2 rfl
    cases chk with
    | some msg => exact Sim.pure f2 ⟨rfl, rfl⟩
    | none =>
      simp only
      refine Sim.bind' (uRollExpr_sim E (.mk hx2 hl2 hb2) (by omega) f2) ?_
      rintro v w s3 m3 f3 ⟨rfl, hw⟩
      simp only
      rw [bind_ok (rolled_ok _ _), mbind_ok (trolled_ok _),
        bind_ok (formatURollExpr_ok _ _ _ (.inl hw)), bind_ok (formatMaxAndSum_ok _ _ hw)]
      exact Sim.pure f3 ⟨rfl, rfl⟩

theorem executeURollComp_sim (isPrint : Char → Bool) (E : Evaluator σ)
    {h d r c lp rp op u b fl fr s g} (hx : h[r]? = some (.command .uRollComp (some c)))
    (hc : h[c]? = some (.binary (.compare (CmpOp.str op)) lp rp))
    (hl : RepURollExpr h lp u fl) (hr : Rep h rp b fr)
    (hn : (r :: c :: (fl ++ fr)).Nodup) (hd : max u.height b.height + 2 ≤ d) :
    Sim h (r :: c :: (fl ++ fr)) (executeURollComp isPrint E d g (some r) (some c) ⟨s, h⟩)
      (E.executeURollCompT g u op b s)
      (fun res rn h' => res = rn.1 ∧ NPost h (r :: c :: (fl ++ fr))
        (max u.height b.height + 2) (some r) rn.2 h') := by
  obtain ⟨d, rfl⟩ : ∃ d', d = d' + 2 := ⟨d - 2, by omega⟩
  have hrl := lt_of_get hx
  have hn' := hn
  rw [List.nodup_cons] at hn'
  obtain ⟨hrn, hnc⟩ := hn'
  have hnc' := hnc
  rw [List.nodup_cons, List.nodup_append] at hnc'
  unfold executeURollComp Evaluator.executeURollCompT
  rw [bind_ok (asBasicInfix_ok hc)]
  have h0 := uArgs_step E (s := s) (d := d) hl hnc'.2.1 (by omega)
  have h1 := compareArgs_sim E (S := fun x h fp => RepURollExpr h lp x fp ∧
      x.height ≤ u.height) (RepURollExpr.stable lp _) (s := s) (d := d + 1) hc hr hnc
    (by omega)
    (h0.weaken (by
      rintro ⟨⟩ l' _ ⟨fs', q1, q2, q3, q4⟩
      exact ⟨fs', ⟨q1, q4⟩, q2, q3⟩))
  have hp : ∀ k : URollExpr × Int64 → M σ (Result × Node),
      ((do let x ← E.evalVarArgsInURollExpr u; let y ← E.eval b; k (x, y) : M σ _) s) = _ :=
    fun k => pair_bind s
  refine (congrArg (fun z => Sim h _ _ z _) (hp (fun xy => do
    let notation1 := parenthesize (GoBCDice.uRollExprNotation xy.1 ++ op.str ++
      GoBCDice.infixNotation true (.int xy.2))
    let check ← E.checkThreshold Evaluator.uThresholdNilMsg xy.1.list.threshold
    match check with
    | some msg => pure (mkResult g [notation1, msg] [], .uRollComp xy.1 op (.int xy.2))
    | none => do
      let (res, n) ← E.evalURollComp xy.1 op (.int xy.2)
      let dice ← Evaluator.rolledDice
      pure (mkResult g
        [notation1, formatURollExprValueGroupsAndModifier res, successCountPart n] dice,
        .uRollComp xy.1 op (.int xy.2))))).mpr ?_
  refine Sim.bind (h1.from (Frame.refl _ _) (by
    intro x hx; exact .inl (List.mem_cons_of_mem _ hx))) ?_
  rintro ⟨⟩ ⟨u1, y⟩ s1 m1 q1 _ f1 ⟨fl1, i, hc1, ⟨hl1, hh1⟩, hi, hn1, hw1⟩
  simp only at hi hl1 hh1
  have fr1 := h1.2.1
  rw [q1] at fr1
  have hx1 := parent_kept fr1 hx hrn
  have hi' : Rep m1 (some i) (.int y) [i] := .int hi
  have hb := height_pos b
  have hu := uHeight_list u1
  obtain ⟨k1, k2⟩ := root_within (fp' := c :: (fl1 ++ [i])) hrl hrn hn1 (hw1.mono (by
    intro x hm
    rw [List.mem_cons] at hm
    simp only [List.mem_cons, List.mem_append]
    grind))
  obtain ⟨m2, hnot, f12⟩ := uRollExpr_notation (s := s1) (d := d) true hl1 (by omega)
  simp only
  rw [bind_ok (command_notation (d := d + 1) true hx1 (by simp)
    (compare_notation (s := s1) (d := d) true hc1 hi' (by
      simp only [Expr.height]; omega) hnot f12))]
  have hx2 := parent_kept f12 hx1 (by simp)
  have hc2 := parent_kept f12 hc1 (by simp)
  have hl2 := hl1.frame f12 (by simp) (by simp [NotNil])
  have hi2 := hi'.frame0 f12
  rw [bind_ok (infixLeft_ok hc2)]
  refine finish (node' := .uRollComp u1 op (.int y)) (f1.trans f12 (by simp))
    ⟨_, .uRollComp hx2 hc2 hl2 hi2, k1, k2, by
      show max u1.height 1 + 2 ≤ _; omega⟩ ?_
  have hl2' := hl2
  cases hl2 with
  | @mk q lq bq list bonus fl fb hq hlq hbq =>
    have hul : uRollListOf (some q) (⟨s1, m2⟩ : HSt σ) = (.ok lq, ⟨s1, m2⟩) := by
      simp only [uRollListOf]
      rw [deref_bind hq]
      rfl
    rw [bind_ok hul]
    refine Sim.bind' (checkThreshold_sim E hlq (by simp only at hu ⊢; omega)) ?_
    rintro chk _ s3 m3 f3 rfl
    cases chk with
    | some msg => exact Sim.pure f3 ⟨rfl, rfl⟩
    | none =>
      simp only
      refine Sim.bind' (uRollComp_sim E (d := d + 2) hx2 hc2 hl2' hi2 (by
        simp only [Expr.height]; omega) f3) ?_
      rintro v ⟨w, n⟩ s4 m4 f4 ⟨rfl, hw⟩
      simp only
      rw [bind_ok (rolled_ok _ _), mbind_ok (trolled_ok _),
        bind_ok (formatURollExpr_ok _ _ w (.inr hw))]
      exact Sim.pure f4 ⟨rfl, rfl⟩

/-! ## All commands -/

/-- `Execute` on memory: the same outcome, the same state, only nodes of the command overwritten,
and the command left behind is the one that `executeT` returns. -/
theorem execute_sim (isPrint : Char → Bool) (E : Evaluator σ) {h p n fp d s g}
    (hr : RepNode h p n fp) (hn : fp.Nodup) (hd : n.height ≤ d) :
    Sim h fp (execute isPrint E d g p ⟨s, h⟩) (E.executeT g n s)
      (fun res rn h' => res = rn.1 ∧ NPost h fp n.height p rn.2 h') := by
  unfold execute
  have hself : NPost h fp n.height p n h := ⟨fp, hr, hn, Within.refl _ _, Nat.le_refl _⟩
  cases hr with
  | choice hx hs =>
    rw [deref_bind hx]
    exact finish (Frame.refl _ _) hself (executeChoice_sim E hx hs hd)
  | «calc» hx hs =>
    rw [deref_bind hx]
    exact finish (Frame.refl _ _) hself (executeCalc_sim isPrint E hx hs hd)
  | dRollExpr hx hs => rw [deref_bind hx]; exact executeDRollExpr_sim isPrint E hx hs hn hd
  | dRollComp hx hc hl hr =>
    rw [deref_bind hx]; exact executeDRollComp_sim isPrint E hx hc hl hr hn hd
  | bRollList hx hs => rw [deref_bind hx]; exact executeBRollList_sim isPrint E hx hs hn hd
  | bRollComp hx hc hq hl hr =>
    rw [deref_bind hx]; exact executeBRollComp_sim isPrint E hx hc hq hl hr hn hd
  | rRollList hs =>
    have hs' := hs
    cases hs with
    | mk hx _ _ => rw [deref_bind hx]; exact executeRRollList_sim isPrint E hs' hn hd
  | rRollComp hx hc hl hr =>
    rw [deref_bind hx]; exact executeRRollComp_sim isPrint E hx hc hl hr hn hd
  | uRollExpr hs =>
    have hs' := hs
    cases hs with
    | mk hx _ _ => rw [deref_bind hx]; exact executeURollExpr_sim isPrint E hx hs' hn hd
  | uRollComp hx hc hl hr =>
    rw [deref_bind hx]; exact executeURollComp_sim isPrint E hx hc hl hr hn hd

end GoBCDice.Raw
