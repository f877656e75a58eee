import Verif.Lemmas.RawDetermine
import Verif.Lemmas.RawNotation

/-! # `EvalVarArgs` on roll lists and comparisons in memory, reroll thresholds -/

namespace GoBCDice.Raw

variable {σ α β γ δ : Type}

theorem Within.trans {h h1 fp fp1 fp2} (hw : Within h fp fp1) (hw' : Within h1 fp1 fp2)
    (hle : h.length ≤ h1.length) : Within h fp fp2 := by
  intro x hx
  rcases hw' x hx with h3 | h3
  · exact hw x h3
  · exact .inr (Nat.le_trans hle h3)

theorem Within.mono {h fp fp1 fp2} (hw : Within h fp fp1) (hs : ∀ x ∈ fp, x ∈ fp2) :
    Within h fp2 fp1 := fun x hx => (hw x hx).imp (hs x) id

/-- Lists stay disjoint when one of them is replaced by a version of it. -/
theorem disjoint_within {fl fl' fr : List Ref} {m : Heap} (hd : ∀ x ∈ fl, ∀ y ∈ fr, x ≠ y)
    (hw : ∀ x ∈ fl', x ∈ fl ∨ m.length ≤ x) (hr : ∀ x ∈ fr, x < m.length) :
    ∀ x ∈ fl', ∀ y ∈ fr, x ≠ y := by
  intro x hx y hy hxy
  subst hxy
  rcases hw x hx with h3 | h3
  · exact hd x h3 x hy rfl
  · exact absurd (hr x hy) (Nat.not_lt.mpr h3)

/-- The rolls have become `rolls'`. -/
def PostRolls (h : Heap) (fp : List Ref) (n : Nat) (k : InfixKind) (ps : List Ptr)
    (rolls' : List Roll) (h' : Heap) : Prop :=
  ∃ fp', RepRolls h' k ps rolls' fp' ∧ fp'.Nodup ∧ Within h fp fp' ∧ rollsHeight rolls' ≤ n

theorem listKind {k : InfixKind} (hk : k = .bRoll ∨ k = .rRoll ∨ k = .uRoll) (E : Evaluator σ)
    {d r lp rp h} {s : St σ} (hx : h[r]? = some (.binary k lp rp)) :
    evalVarArgsOfVariableExpr E d (some r) ⟨s, h⟩ = evalVarArgsOfRoll E d (some r) lp rp ⟨s, h⟩ := by
  unfold evalVarArgsOfVariableExpr
  rw [deref_bind hx]
  rcases hk with rfl | rfl | rfl <;> rfl

theorem rollsArgs_sim (E : Evaluator σ) {k} (hk : k = .bRoll ∨ k = .rRoll ∨ k = .uRoll) {d} :
    ∀ {rolls h ps fp s}, RepRolls h k ps rolls fp → fp.Nodup → rollsHeight rolls ≤ d + 1 →
    Sim h fp (evalVarArgsInRolls E d ps ⟨s, h⟩) (E.evalVarArgsInRolls rolls s)
      (fun _ rolls' h' => PostRolls h fp (rollsHeight rolls) k ps rolls' h') := by
  intro rolls
  induction rolls with
  | nil =>
    intro h ps fp s hr _ _
    cases hr
    exact Sim.pure (Frame.refl _ _) ⟨[], .nil, by simp, by simp [Within], Nat.le_refl _⟩
  | cons roll rest ih =>
    intro h ps fp s hr hn hd
    cases hr with
    | @cons r lp rp a b ps _ fl fr fs hx hl hr hrest =>
      simp only [rollsHeight, Roll.height] at hd
      have hn' := hn
      rw [List.nodup_append] at hn'
      obtain ⟨hnh, hns, hdis⟩ := hn'
      have hrl := lt_of_get hx
      have hrs : r ∉ fs := fun hm => hdis r (by simp) r hm rfl
      simp only [evalVarArgsInRolls, Evaluator.evalVarArgsInRolls]
      have h1 : Sim h [r] (evalVarArgsOfVariableExpr E d (some r) ⟨s, h⟩)
          (E.evalVarArgsOfRoll ⟨a, b⟩ s)
          (fun _ roll' h' => ∃ i j x y, roll' = ⟨.int x, .int y⟩ ∧
            h'[r]? = some (.binary k (some i) (some j)) ∧
            h'[i]? = some (.int x) ∧ h'[j]? = some (.int y) ∧ [r, i, j].Nodup ∧
            h.length ≤ i ∧ h.length ≤ j) := by
        rw [listKind hk E hx]
        unfold Evaluator.evalVarArgsOfRoll
        rw [pair_bind (m1 := E.eval a) (m2 := E.eval b)
          (g := fun xy => (pure ⟨.int xy.1, .int xy.2⟩ : M σ Roll)), ← bind_unit (evalVarArgsOfRoll E d (some r) lp rp)]
        refine Sim.bind' (ofRoll_sim E hx hl hr (by omega)) ?_
        rintro ⟨⟩ ⟨x, y⟩ s1 h1 f1 ⟨i, j, q1, q2, q3, q4, q5, q6⟩
        exact Sim.pure f1 ⟨i, j, x, y, rfl, q1, q2, q3, q4, q5, q6⟩
      refine Sim.bind (h1.from (Frame.refl _ _) (by simp)) ?_
      rintro ⟨⟩ _ s1 m1 e1 _ f1 ⟨i, j, x, y, rfl, q1, q2, q3, q4, q5, q6⟩
      have fr1 : Frame h [r] m1 := by have := h1.2.1; rw [e1] at this; exact this
      have hrest1 : RepRolls m1 k ps rest fs := hrest.frame fr1 (by
        intro z hz hm; simp at hm; subst hm; exact hrs hz)
      have h2 := ih (s := s1) hrest1 hns (by omega)
      rw [← bind_unit (evalVarArgsInRolls E d ps)]
      refine Sim.bind (h2.from f1 (by intro z hz; simp [hz])) ?_
      rintro ⟨⟩ rest' s2 m2 e2 _ f2 ⟨fs', hrest', hns', hws', hhs⟩
      have fr2 : Frame m1 fs m2 := by have := h2.2.1; rw [e2] at this; exact this
      have hin : ∀ z, z ∈ [r, i, j] → z ∉ fs := by
        intro z hz hm
        simp at hz
        rcases hz with rfl | rfl | rfl
        · exact hrs hm
        · exact absurd (hrest.lt _ hm) (Nat.not_lt.mpr q5)
        · exact absurd (hrest.lt _ hm) (Nat.not_lt.mpr q6)
      have k1 := parent_kept fr2 q1 (hin r (by simp))
      have k2 := parent_kept fr2 q2 (hin i (by simp))
      have k3 := parent_kept fr2 q3 (hin j (by simp))
      refine Sim.pure f2 ⟨(r :: ([i] ++ [j])) ++ fs', .cons k1 (.int k2) (.int k3) hrest', ?_, ?_, ?_⟩
      · rw [List.nodup_append]
        refine ⟨q4, hns', ?_⟩
        intro z hz w hw hzw
        subst hzw
        rcases hws' z hw with h3 | h3
        · exact hin z (by simpa using hz) h3
        · have : z < m1.length := by
            simp at hz
            rcases hz with rfl | rfl | rfl
            · exact lt_of_get q1
            · exact lt_of_get q2
            · exact lt_of_get q3
          exact absurd this (Nat.not_lt.mpr h3)
      · intro z hz
        simp only [List.mem_append, List.mem_cons, List.not_mem_nil, or_false] at hz
        rcases hz with (rfl | rfl | rfl) | hz
        · simp
        · exact .inr q5
        · exact .inr q6
        · rcases hws' z hz with h3 | h3
          · exact .inl (by simp [h3])
          · exact .inr (Nat.le_trans fr1.1 h3)
      · have := height_pos a
        have := height_pos b
        simp only [rollsHeight, Roll.height, Expr.height]
        omega

/-- The list has become `rl'`. -/
def PostRL (h : Heap) (fp : List Ref) (n : Nat) (k : InfixKind) (p : Ptr)
    (rl' : RRollList) (h' : Heap) : Prop :=
  ∃ fp', RepRRollList h' k p rl' fp' ∧ fp'.Nodup ∧ Within h fp fp' ∧ rl'.height ≤ n

theorem RepRRollList.not_nil {h k p rl fp} (hr : RepRRollList h k p rl fp) : NotNil h fp := by
  cases hr with
  | mk hx hs ht =>
    intro x hm
    simp only [List.mem_cons, List.mem_append] at hm
    rcases hm with rfl | hm | hm
    · rw [hx]; simp
    · cases ht with
      | none => simp at hm
      | some ht => exact ht.not_nil x hm
    · exact hs.not_nil x hm

/-- A new threshold node. -/
theorem newThreshold {h : Heap} {s : St σ} {r ps tp n h1} (hx : h[r]? = some (.rRollList ps tp))
    (f : Frame h [] h1) :
    ∃ h2, ((do
      let t' ← objectToIntNode (.integer n)
      write (some r) (.rRollList ps t')) : H σ Unit) ⟨s, h1⟩ = (.ok (), ⟨s, h2⟩) ∧
      Frame h [r] h2 ∧ ∃ t, h2[r]? = some (.rRollList ps (some t)) ∧ h2[t]? = some (.int n) ∧
      h.length ≤ t ∧ r ≠ t ∧ t < h2.length := by
  have hx1 := (f.2 r (lt_of_get hx) (by simp)).trans hx
  have hxa : (h1 ++ [Obj.int n])[r]? = some (.rRollList ps tp) := by
    rw [List.getElem?_append_left (lt_of_get hx1)]; exact hx1
  refine ⟨(h1 ++ [Obj.int n]).set r (.rRollList ps (some h1.length)), rfl, ?_, h1.length,
    get_set_self hxa, ?_, f.1, Nat.ne_of_lt (lt_of_get hx1), by simp⟩
  · exact (f.nil.trans (Frame.append h1 [] _) (by simp)).trans (Frame.set _ r _) (by simp)
  · rw [List.getElem?_set_ne (Nat.ne_of_lt (lt_of_get hx1))]; simp

theorem rListArgs_sim (E : Evaluator σ) {k} (hk : k = .rRoll ∨ k = .uRoll) {d h p rl fp s}
    (hr : RepRRollList h k p rl fp) (hn : fp.Nodup) (hd : rl.height ≤ d + 1) :
    Sim h fp (evalVarArgsInRRollList E d p ⟨s, h⟩) (E.evalVarArgsInRRollList rl s)
      (fun _ rl' h' => PostRL h fp rl.height k p rl' h') := by
  have hk' : k = .bRoll ∨ k = .rRoll ∨ k = .uRoll := .inr hk
  cases hr with
  | @mk r ps tp rolls t fs ft hx hs ht =>
    simp only [RRollList.height] at hd ⊢
    have hn' := hn
    rw [List.nodup_cons, List.nodup_append] at hn'
    obtain ⟨hrn, hnt, hns, hdis⟩ := hn'
    have hrl := lt_of_get hx
    have hrs : r ∉ fs := fun hm => hrn (by simp [hm])
    unfold evalVarArgsInRRollList
    rw [deref_bind hx]
    obtain ⟨o, ho, hnil⟩ := ht.deref (Frame.refl h []) (s := s)
    simp only
    rw [bind_ok ho, hnil]
    cases t with
    | none =>
      simp only [Option.isNone, if_true]
      show Sim h _ _ ((do
        let rolls ← E.evalVarArgsInRolls rolls
        pure ⟨rolls, none⟩ : M σ RRollList) s) _
      have h1 := rollsArgs_sim E hk' (s := s) (d := d) hs hns (by omega)
      rw [← bind_unit (evalVarArgsInRolls E d ps)]
      refine Sim.bind (h1.from (Frame.refl _ _) (by intro x hx; simp [hx])) ?_
      rintro ⟨⟩ rolls' s1 m1 e1 _ f1 ⟨fs', hs', hns', hws', hhs⟩
      have fr1 : Frame h fs m1 := by have := h1.2.1; rw [e1] at this; exact this
      refine Sim.pure f1 ⟨r :: (ft ++ fs'), .mk (parent_kept fr1 hx hrs) hs'
        (ht.frame fr1 (fun x hx hm => hdis x hx x hm rfl) hs.not_nil), ?_, ?_, ?_⟩
      · cases ht
        simp only [List.nil_append, List.nodup_cons]
        refine ⟨fun hm => ?_, hns'⟩
        rcases hws' r hm with h3 | h3
        · exact hrs h3
        · exact absurd hrl (Nat.not_lt.mpr h3)
      · intro x hx
        simp only [List.mem_cons, List.mem_append] at hx
        rcases hx with rfl | hx | hx
        · simp
        · simp [hx]
        · rcases hws' x hx with h3 | h3
          · simp [h3]
          · exact .inr h3
      · simp only [RRollList.height]
        simp only [thresholdHeight] at *
        omega
    | some t =>
      simp only [Option.isNone, Bool.false_eq_true, if_false]
      cases ht with
      | some ht =>
        simp only [thresholdHeight] at hd ⊢
        have heq : E.evalVarArgsInRRollList { rolls := rolls, threshold := some t } s =
            ((do
              let v ← E.eval t
              let rolls ← E.evalVarArgsInRolls rolls
              pure ⟨rolls, some (.int v)⟩ : M σ RRollList) s) := by
          show M.bnd (M.bnd _ _) _ s = M.bnd _ _ s
          unfold M.bnd
          cases E.eval t s with
          | mk o s1 => cases o <;> rfl
        rw [heq]
        have h0 := eval_sim' E (s := s) (d := d) ht (by omega) (Frame.refl h [])
        refine Sim.bind (h0.from (Frame.refl _ _) (fp := r :: (ft ++ fs)) (by simp)) ?_
        rintro v n s1 h1 e1 _ _ rfl
        have f1 : Frame h [] h1 := by have := h0.2.1; rw [e1] at this; exact this
        obtain ⟨h2, he2, f2, t', q1, q2, q3, q4, q5⟩ := newThreshold (s := s1) (n := n) hx f1
        have hstep : ((do
            let t' ← objectToIntNode (.integer n)
            write (some r) (.rRollList ps t')
            evalVarArgsInRolls E d ps : H σ Unit) ⟨s1, h1⟩) =
            evalVarArgsInRolls E d ps ⟨s1, h2⟩ := by
          have : ((do
            let t' ← objectToIntNode (.integer n)
            write (some r) (.rRollList ps t')
            evalVarArgsInRolls E d ps : H σ Unit) ⟨s1, h1⟩) =
            (((do
              let t' ← objectToIntNode (.integer n)
              write (some r) (.rRollList ps t')) >>= fun _ => evalVarArgsInRolls E d ps : H σ Unit)
              ⟨s1, h1⟩) := rfl
          rw [this, bind_ok he2]
        rw [hstep]
        have hs2 : RepRolls h2 k ps rolls fs := hs.frame f2 (by
          intro x hxf hm; simp at hm; subst hm; exact hrs hxf)
        have h3 := rollsArgs_sim E hk' (s := s1) (d := d) hs2 hns (by omega)
        have f02 : Frame h (r :: (ft ++ fs)) h2 := f2.mono (by simp)
        rw [← bind_unit (evalVarArgsInRolls E d ps)]
        refine Sim.bind (h3.from f02 (by intro x hx; simp [hx])) ?_
        rintro ⟨⟩ rolls' s2 m2 e2 _ f3 ⟨fs', hs', hns', hws', hhs⟩
        have fr2 : Frame h2 fs m2 := by have := h3.2.1; rw [e2] at this; exact this
        have htfs : t' ∉ fs := fun hm => absurd (hs.lt _ hm) (Nat.not_lt.mpr q3)
        refine Sim.pure f3 ⟨r :: ([t'] ++ fs'), .mk (parent_kept fr2 q1 hrs) hs'
          (.some (.int (parent_kept fr2 q2 htfs))), ?_, ?_, ?_⟩
        · simp only [List.singleton_append, List.nodup_cons, List.mem_cons, not_or]
          refine ⟨⟨q4, fun hm => ?_⟩, fun hm => ?_, hns'⟩
          · rcases hws' r hm with h4 | h4
            · exact hrs h4
            · exact absurd (lt_of_get q1) (Nat.not_lt.mpr h4)
          · rcases hws' t' hm with h4 | h4
            · exact htfs h4
            · exact absurd q5 (Nat.not_lt.mpr h4)
        · intro x hx
          simp only [List.singleton_append, List.mem_cons] at hx
          rcases hx with rfl | rfl | hx
          · simp
          · exact .inr q3
          · rcases hws' x hx with h4 | h4
            · simp [h4]
            · exact .inr (Nat.le_trans f2.1 h4)
        · have := height_pos t
          simp only [RRollList.height, thresholdHeight, Expr.height]
          omega

/-- The U roll has become `u'`. -/
def PostU (h : Heap) (fp : List Ref) (n : Nat) (p : Ptr) (u' : URollExpr) (h' : Heap) : Prop :=
  ∃ fp', RepURollExpr h' p u' fp' ∧ fp'.Nodup ∧ Within h fp fp' ∧ u'.height ≤ n

/-- The new bonus in memory. -/
theorem newBonus_ok (v : Int64) (s : St σ) (h : Heap) :
    ∃ p h' fb, newBonus v ⟨s, h⟩ = (.ok p, ⟨s, h'⟩) ∧ Frame h [] h' ∧
      RepBonus h' p (Evaluator.normalizeBonus v) fb ∧ fb.Nodup ∧ ∀ x ∈ fb, h.length ≤ x := by
  unfold newBonus Evaluator.normalizeBonus
  by_cases h0 : v = 0
  · rw [if_pos h0, if_pos h0]
    exact ⟨none, h, [], rfl, Frame.refl _ _, .none, by simp, by simp⟩
  · rw [if_neg h0, if_neg h0]
    by_cases h1 : v > 0
    · rw [if_pos h1, if_pos h1]
      refine ⟨some (h.length + 2), h ++ [.int 0, .int v,
        .binary .add (some h.length) (some (h.length + 1))],
        (h.length + 2) :: ([h.length] ++ [h.length + 1]), ?_, Frame.append _ _ _, ?_, by simp, ?_⟩
      · show (Out.ok _, _) = _
        simp
      · refine .some (.binary (k := .add) (lp := some h.length) (rp := some (h.length + 1)) ?_ rfl
          (.int ?_) (.int ?_)) <;> simp
      · intro x hx; simp at hx; rcases hx with rfl | rfl | rfl <;> simp
    · rw [if_neg h1, if_neg h1]
      refine ⟨some (h.length + 2), h ++ [.int 0, .int (-v),
        .binary .sub (some h.length) (some (h.length + 1))],
        (h.length + 2) :: ([h.length] ++ [h.length + 1]), ?_, Frame.append _ _ _, ?_, by simp, ?_⟩
      · show (Out.ok _, _) = _
        simp
      · refine .some (.binary (k := .sub) (lp := some h.length) (rp := some (h.length + 1)) ?_ rfl
          (.int ?_) (.int ?_)) <;> simp
      · intro x hx; simp at hx; rcases hx with rfl | rfl | rfl <;> simp

theorem normalizeBonus_height (v : Int64) : ∀ b, Evaluator.normalizeBonus v = some b →
    (bonusExpr b).height = 2 := by
  intro b hb
  unfold Evaluator.normalizeBonus at hb
  by_cases h0 : v = 0
  · rw [if_pos h0] at hb; cases hb
  · rw [if_neg h0] at hb
    by_cases h1 : v > 0
    · rw [if_pos h1] at hb; cases hb; rfl
    · rw [if_neg h1] at hb; cases hb; rfl

theorem bonus_height (b : Sign × Expr) : 2 ≤ (bonusExpr b).height := by
  obtain ⟨sg, e⟩ := b
  cases sg <;> simp only [bonusExpr, Expr.height] <;> omega

theorem uArgs_sim (E : Evaluator σ) {d h r lp bp u fl fb s}
    (hx : h[r]? = some (.uRollExpr lp bp)) (hl : RepRRollList h .uRoll lp u.list fl)
    (hb : RepBonus h bp u.bonus fb) (hn : (r :: (fl ++ fb)).Nodup) (hd : u.height ≤ d + 1) :
    Sim h (r :: (fl ++ fb)) (evalVarArgsInURollExpr E d (some r) lp bp ⟨s, h⟩)
      (E.evalVarArgsInURollExpr u s)
      (fun _ u' h' => PostU h (r :: (fl ++ fb)) u.height (some r) u' h' ∧
        ∃ bp', h'[r]? = some (.uRollExpr lp bp')) := by
  obtain ⟨list, bonus⟩ := u
  simp only at hl hb
  have hl1 := uHeight_list ⟨list, bonus⟩
  simp only at hl1
  have hn' := hn
  rw [List.nodup_cons, List.nodup_append] at hn'
  obtain ⟨hrn, hnl, hnb, hdis⟩ := hn'
  have hrl := lt_of_get hx
  have hrf : r ∉ fl := fun hm => hrn (by simp [hm])
  unfold evalVarArgsInURollExpr Evaluator.evalVarArgsInURollExpr
  have h1 := rListArgs_sim E (.inr rfl) (s := s) (d := d) hl hnl (by omega)
  refine Sim.bind (h1.from (Frame.refl _ _) (by intro x hx; simp [hx])) ?_
  rintro ⟨⟩ list' s1 m1 e1 _ f1 ⟨fl', hl', hnl', hwl', hhl⟩
  have fr1 : Frame h fl m1 := by have := h1.2.1; rw [e1] at this; exact this
  have hx1 := parent_kept fr1 hx hrf
  have hb1 : RepBonus m1 bp bonus fb := hb.frame fr1 (fun x hx hm => hdis x hm x hx rfl)
  have hrf' : r ∉ fl' := by
    intro hm
    rcases hwl' r hm with h3 | h3
    · exact hrf h3
    · exact absurd hrl (Nat.not_lt.mpr h3)
  cases hb1 with
  | none =>
    simp only [if_true]
    refine Sim.pure f1 ⟨⟨r :: (fl' ++ []), .mk hx1 hl' .none, ?_, ?_, ?_⟩, none, hx1⟩
    · simp only [List.append_nil, List.nodup_cons]; exact ⟨hrf', hnl'⟩
    · intro x hx
      simp only [List.append_nil, List.mem_cons] at hx
      rcases hx with rfl | hx
      · simp
      · rcases hwl' x hx with h3 | h3
        · simp [h3]
        · exact .inr h3
    · show list'.height + 1 ≤ list.height + 1
      omega
  | @some p b fp hb1 =>
    have hbh : (bonusExpr b).height ≤ d + 1 := by
      have := uHeight_bonus (u := ⟨list, some b⟩) (b := b) rfl
      omega
    have hb2 := bonus_height b
    obtain ⟨q, zp, rp, fz, fr, rfl, hq, hz, hrp, rfl⟩ := hb1.bonus
    simp only [reduceCtorEq, if_false]
    rw [deref_bind hq]
    have hev : ∀ S : HSt σ, S.heap[q]? = some (.binary (signKind b.1) zp rp) →
        evalInfix E (eval E d) (signKind b.1) zp rp S = eval E (d + 1) (some q) S := by
      rintro ⟨st, hp⟩ hS
      rw [eval, evalStep, deref_bind hS]
    simp only
    have h2 : Sim m1 [] (evalInfix E (eval E d) (signKind b.1) zp rp ⟨s1, m1⟩)
        (E.eval (bonusExpr b) s1) (fun v n _ => v = .integer n) := by
      rw [hev _ hq]
      exact eval_sim' E hb1 hbh (Frame.refl _ _)
    refine Sim.bind (h2.from f1 (by simp)) ?_
    rintro v n s2 m2 e2 _ f2 rfl
    have fr2 : Frame m1 [] m2 := by have := h2.2.1; rw [e2] at this; exact this
    rw [asInteger_bind]
    obtain ⟨np, m3, fnb, he3, fr3, hnb3, hnd3, hge3⟩ := newBonus_ok n s2 m2
    rw [bind_ok he3]
    have f13 : Frame m1 [] m3 := fr2.trans fr3 (by simp)
    have hx3 : m3[r]? = some (.uRollExpr lp (some q)) := parent_kept f13 hx1 (by simp)
    have hl3 := hl'.frame f13 (by simp) (by simp [NotNil])
    let m4 := m3.set r (.uRollExpr lp np)
    have f34 : Frame m3 [r] m4 := Frame.set _ _ _
    have hx4 : m4[r]? = some (.uRollExpr lp np) := get_set_self hx3
    have hrnb : r ∉ fnb := fun hm =>
      absurd (Nat.lt_of_lt_of_le (lt_of_get hx1) fr2.1) (Nat.not_lt.mpr (hge3 r hm))
    have hl4 : RepRRollList m4 .uRoll lp list' fl' := hl3.frame f34 (by
      intro x hxf hm; simp at hm; subst hm; exact hrf' hxf) (by
      intro x hm; simp at hm; subst hm; rw [hx3]; simp)
    have hb4 : RepBonus m4 np (Evaluator.normalizeBonus n) fnb := hnb3.frame f34 (by
      intro x hxf hm; simp at hm; subst hm; exact hrnb hxf)
    refine ⟨rfl, ?_, ⟨r :: (fl' ++ fnb), .mk hx4 hl4 hb4, ?_, ?_, ?_⟩, np, hx4⟩
    · exact (f1.trans f13 (by simp)).trans f34 (by simp)
    · rw [List.nodup_cons, List.nodup_append]
      refine ⟨?_, hnl', hnd3, ?_⟩
      · intro hm
        rcases List.mem_append.mp hm with hm | hm
        · exact hrf' hm
        · exact hrnb hm
      · intro x hx y hy hxy
        subst hxy
        exact absurd (Nat.lt_of_lt_of_le (hl'.lt x hx) fr2.1) (Nat.not_lt.mpr (hge3 x hy))
    · intro x hx
      simp only [List.mem_cons, List.mem_append] at hx
      rcases hx with rfl | hx | hx
      · simp
      · rcases hwl' x hx with h3 | h3
        · simp [h3]
        · exact .inr h3
      · exact .inr (Nat.le_trans (Nat.le_trans fr1.1 fr2.1) (hge3 x hx))
    · have hnh := normalizeBonus_height n
      simp only [URollExpr.height]
      cases hnn : Evaluator.normalizeBonus n with
      | none => simp only; omega
      | some b' =>
        have := hnh b' hnn
        simp only
        omega

/-! ## Comparisons -/

/-- Something that stays in memory as long as its nodes are not overwritten. -/
structure Stable (S : Heap → List Ref → Prop) : Prop where
  frame : ∀ {h h' fp fp2}, S h fp → Frame h fp2 h' → (∀ x ∈ fp, x ∉ fp2) → NotNil h fp2 → S h' fp
  lt : ∀ {h fp}, S h fp → ∀ x ∈ fp, x < h.length

theorem varArgsStep_compare (E : Evaluator σ) {h c op lp rp d go} {s : St σ}
    (hc : h[c]? = some (.binary (.compare op) lp rp)) :
    evalVarArgsStep E d go (some c) ⟨s, h⟩ = evalVarArgsInCompare E d go (some c) lp rp ⟨s, h⟩ := by
  unfold evalVarArgsStep
  rw [deref_bind hc]

/-- `EvalVarArgs` on a comparison: the left side is treated, the right side becomes a literal. -/
theorem compareArgs_sim (E : Evaluator σ) {S : β → Heap → List Ref → Prop} (hS : ∀ x, Stable (S x))
    {h c op lp rp b fl fr d s} {Y : M σ β}
    (hc : h[c]? = some (.binary (.compare op) lp rp)) (hr : Rep h rp b fr)
    (hn : (c :: (fl ++ fr)).Nodup) (hd : b.height ≤ d)
    (hl : Sim h fl (evalVarArgs E d lp ⟨s, h⟩) (Y s)
      (fun _ l' h' => ∃ fl', S l' h' fl' ∧ fl'.Nodup ∧ Within h fl fl')) :
    Sim h (c :: (fl ++ fr)) (evalVarArgs E (d + 1) (some c) ⟨s, h⟩)
      ((do let l' ← Y; let y ← E.eval b; pure (l', y) : M σ (β × Int64)) s)
      (fun _ ly h' => ∃ fl' i, h'[c]? = some (.binary (.compare op) lp (some i)) ∧ S ly.1 h' fl' ∧
        h'[i]? = some (.int ly.2) ∧ (c :: (fl' ++ [i])).Nodup ∧
        Within h (c :: fl) (c :: (fl' ++ [i]))) := by
  have hn' := hn
  rw [List.nodup_cons, List.nodup_append] at hn'
  obtain ⟨hrn, hnl, hnr, hdis⟩ := hn'
  have hcl := lt_of_get hc
  have hcf : c ∉ fl := fun hm => hrn (by simp [hm])
  rw [evalVarArgs, varArgsStep_compare E hc]
  unfold evalVarArgsInCompare
  refine Sim.bind (hl.from (Frame.refl _ _) (by intro x hx; simp [hx])) ?_
  rintro ⟨⟩ l' s1 m1 e1 _ f1 ⟨fl', hS1, hnl', hwl'⟩
  have fr1 : Frame h fl m1 := by have := hl.2.1; rw [e1] at this; exact this
  have hc1 := parent_kept fr1 hc hcf
  have hr1 : Rep m1 rp b fr := hr.frame fr1 (fun x hx hm => hdis x hm x hx rfl)
  have h2 := eval_sim' E (s := s1) hr1 hd (Frame.refl m1 [])
  refine Sim.bind (h2.from f1 (by simp)) ?_
  rintro v n s2 m2 e2 _ f2 rfl
  have fr2 : Frame m1 [] m2 := by have := h2.2.1; rw [e2] at this; exact this
  rw [bind_ok (objectToIntNode_ok _ _ _)]
  have fr3 : Frame m1 [] (m2 ++ [.int n]) := fr2.trans (Frame.append _ [] _) (by simp)
  have hc3 := parent_kept fr3 hc1 (by simp)
  rw [setRight_ok hc3]
  have f34 : Frame (m2 ++ [.int n]) [c] ((m2 ++ [Obj.int n]).set c
      (.binary (.compare op) lp (some m2.length))) := Frame.set _ _ _
  have hcm2 : c < m2.length := Nat.lt_of_lt_of_le (lt_of_get hc1) fr2.1
  have hcf' : c ∉ fl' := by
    intro hm
    rcases hwl' c hm with h3 | h3
    · exact hcf h3
    · exact absurd hcl (Nat.not_lt.mpr h3)
  refine ⟨rfl, ?_, fl', m2.length, get_set_self hc3, ?_, ?_, ?_, ?_⟩
  · exact (f1.trans fr3 (by simp)).trans f34 (by simp)
  · refine (hS l').frame ((hS l').frame hS1 fr3 (by simp) (by simp [NotNil])) f34 ?_ ?_
    · intro x hx hm; simp at hm; subst hm; exact hcf' hx
    · intro x hm; simp at hm; subst hm; rw [hc3]; simp
  · rw [List.getElem?_set_ne (Nat.ne_of_lt hcm2)]; simp
  · rw [List.nodup_cons, List.nodup_append]
    refine ⟨?_, hnl', by simp, ?_⟩
    · intro hm
      rcases List.mem_append.mp hm with hm | hm
      · exact hcf' hm
      · simp at hm; exact absurd hcm2 (by simp [hm])
    · intro x hx y hy hxy
      subst hxy
      simp at hy
      have := Nat.lt_of_lt_of_le ((hS l').lt hS1 x hx) fr2.1
      exact absurd this (by simp [hy])
  · intro x hx
    simp only [List.mem_cons, List.mem_append, List.not_mem_nil, or_false] at hx
    rcases hx with rfl | hx | rfl
    · simp
    · rcases hwl' x hx with h3 | h3
      · simp [h3]
      · exact .inr h3
    · exact .inr (Nat.le_trans fr1.1 fr2.1)

end GoBCDice.Raw
