import Verif.Lemmas.RawVarArgs

/-! # `DetermineValues` on expressions in memory -/

namespace GoBCDice.Raw

variable {σ α β γ δ : Type}

theorem bind_unit (X : H σ Unit) (S : HSt σ) :
    (X >>= fun _ : Unit => (pure () : H σ Unit)) S = X S := by
  show H.bnd _ _ _ = _
  unfold H.bnd
  cases X S with
  | mk o s2 => cases o <;> rfl

/-- The node at the root of an expression that is no literal is not an integer node. -/
theorem Rep.not_int {h p e fp} (hr : Rep h p e fp) (he : ∀ v, e ≠ .int v) :
    ∃ r o, p = some r ∧ h[r]? = some o ∧ o.typeName = e.typeName ∧ ∀ v, o ≠ .int v := by
  cases hr with
  | int hx => exact absurd rfl (he _)
  | sumRoll hx => exact ⟨_, _, rfl, hx, rfl, by simp⟩
  | neg hx _ => exact ⟨_, _, rfl, hx, rfl, by simp⟩
  | binary hx h1 h2 h3 =>
    obtain ⟨r, o, hp, ho, _, ht⟩ := (Rep.binary hx h1 h2 h3).root
    cases hp
    refine ⟨_, o, rfl, ho, ht, ?_⟩
    rw [hx] at ho
    cases ho
    simp

/-- A D roll whose arguments are literals is rolled; anything else is refused. -/
theorem determineVariable_sim (E : Evaluator σ) {h p e fp s} (hr : Rep h p e fp)
    (hv : ∃ k l r, e = .var k l r) :
    Sim h [] (determineValueOfVariableExpr E p ⟨s, h⟩) (E.determineValueOfVariableExpr e s)
      (fun q e' h' => q = some h.length ∧ ∃ ds, e' = .sumRoll ds ∧ h' = h ++ [.sumRoll ds]) := by
  obtain ⟨k, l, r, rfl⟩ := hv
  cases hr with
  | @binary q k' lp rp a b e fl fr hx he hl hr =>
    unfold determineValueOfVariableExpr
    rw [deref_bind hx]
    cases k' <;> simp [infixExpr] at he <;> obtain ⟨rfl, rfl, rfl⟩ := he
    · simp only [Evaluator.determineValueOfVariableExpr]
      by_cases ha : ∃ v, a = .int v
      · obtain ⟨num, rfl⟩ := ha
        cases hl with
        | int hlx =>
          rw [deref_bind hlx]
          by_cases hb : ∃ v, b = .int v
          · obtain ⟨sides, rfl⟩ := hb
            cases hr with
            | int hrx =>
              simp only
              rw [deref_bind hrx]
              refine Sim.bind' (Sim.lift (Frame.refl _ _)) ?_
              rintro ds ds' s1 h1 f1 ⟨rfl, rfl⟩
              exact ⟨rfl, Frame.append _ _ _, rfl, ds, rfl, rfl⟩
            | binary _ he _ _ => rename_i k _ _ _ _ _ _ _ _ _; cases k <;> simp [infixExpr] at he
          · obtain ⟨r', o, rfl, ho, ht, hne⟩ := hr.not_int (fun v hv => hb ⟨v, hv⟩)
            simp only
            rw [deref_bind ho]
            cases o with
            | int v => exact absurd rfl (hne v)
            | _ =>
              cases b with
              | int v => exact absurd ⟨v, rfl⟩ hb
              | _ => simp only [ht]; exact Sim.fail (Frame.refl _ _)
        | binary _ he _ _ => rename_i k _ _ _ _ _ _ _ _ _; cases k <;> simp [infixExpr] at he
      · obtain ⟨r', o, rfl, ho, ht, hne⟩ := hl.not_int (fun v hv => ha ⟨v, hv⟩)
        rw [deref_bind ho]
        cases o with
        | int v => exact absurd rfl (hne v)
        | _ =>
          cases a with
          | int v => exact absurd ⟨v, rfl⟩ ha
          | _ => simp only [ht]; exact Sim.fail (Frame.refl _ _)
    · exact Sim.fail (Frame.refl _ _)

/-- An operand in a slot of the node `r`, given the recursive call. -/
theorem determineOperand_sim (E : Evaluator σ) {h p e fp d s r} {Par : Ptr → Obj}
    {set : Ptr → H σ Unit} (hx : h[r]? = some (Par p)) (hr : Rep h p e fp) (hn : (r :: fp).Nodup)
    (hd : e.height ≤ d)
    (hset : ∀ new (s : St σ) (h : Heap), h[r]? = some (Par p) →
      set new ⟨s, h⟩ = (.ok (), ⟨s, h.set r (Par new)⟩))
    (ih : Sim h fp (determineValues E d p ⟨s, h⟩) (E.determineValues e s)
      (fun _ e' h' => Post h fp e.height p e' h')) :
    Sim h (r :: fp) (determineValuesOperand E d (determineValues E d) p set ⟨s, h⟩)
      (E.determineValuesOperand e s)
      (fun _ e' h' => ∃ p', h'[r]? = some (Par p') ∧ Post h fp e.height p' e' h') := by
  rw [List.nodup_cons] at hn
  obtain ⟨q, o, rfl, ho, hp, _⟩ := hr.root
  unfold determineValuesOperand Evaluator.determineValuesOperand
  rw [deref_bind ho, hp]
  by_cases hpr : e.isPrimary = true
  · rw [if_pos hpr, if_pos hpr]
    unfold replaceVariablePrimaryExpr Evaluator.replaceVariablePrimaryExpr
    rw [bind_ok (isVariable_ok hr d hd)]
    by_cases hv : e.isVariable = true
    · rw [if_pos hv, if_pos hv, ← bind_pure_M (E.determineValueOfVariableExpr e)]
      refine Sim.bind' ((determineVariable_sim E hr (variable_only hpr hv)).from (Frame.refl _ _)
        (by simp)) ?_
      rintro _ e' s1 h1 f1 ⟨rfl, ds, rfl, rfl⟩
      have hx1 : (h ++ [Obj.sumRoll ds])[r]? = some (Par (some q)) := by
        rw [List.getElem?_append_left (lt_of_get hx)]; exact hx
      rw [hset _ _ _ hx1]
      refine ⟨rfl, f1.trans (Frame.set _ r _) (by simp), some h.length, get_set_self hx1,
        [h.length], .sumRoll ?_, by simp, ?_, height_pos e⟩
      · rw [List.getElem?_set_ne (Nat.ne_of_lt (lt_of_get hx))]; simp
      · intro x hx; simp at hx; subst hx; exact .inr (Nat.le_refl _)
    · rw [if_neg hv, if_neg hv]
      exact Sim.pure (Frame.refl _ _) ⟨_, hx, fp, hr, hn.2, Within.refl _ _, Nat.le_refl _⟩
  · rw [if_neg hpr, if_neg hpr]
    refine Sim.weaken (ih.from (Frame.refl _ _) (by intro x hx; simp [hx])) ?_
    intro _ e' _ q
    exact ⟨_, parent_kept ih.2.1 hx hn.1, q⟩

theorem determineStep_binary (E : Evaluator σ) {h r k lp rp d go} {s : St σ}
    (hx : h[r]? = some (.binary k lp rp)) :
    determineValuesStep E d go (some r) ⟨s, h⟩ =
      ((do
        determineValuesOperand E d go lp (setLeft (some r))
        let rp ← infixRight (some r)
        determineValuesOperand E d go rp (setRight (some r))) : H σ Unit) ⟨s, h⟩ := by
  unfold determineValuesStep
  rw [deref_bind hx]

theorem infixRight_ok {h r k lp rp} {s : St σ} (hx : h[r]? = some (.binary k lp rp)) :
    infixRight (some r) ⟨s, h⟩ = (.ok rp, ⟨s, h⟩) := by
  unfold infixRight; rw [deref_bind hx]; rfl

theorem determine_typed_binary (E : Evaluator σ) {k a b e} (he : infixExpr k a b = some e)
    (s : St σ) :
    ∃ g : Expr → Expr → Expr, (∀ x y, infixExpr k x y = some (g x y)) ∧
    E.determineValues e s = ((do
      let l' ← E.determineValuesOperand a
      let r' ← E.determineValuesOperand b
      pure (g l' r') : M σ Expr) s) := by
  cases k <;> simp [infixExpr] at he <;> subst he <;> refine ⟨_, fun _ _ => rfl, ?_⟩ <;>
    by_cases ha : a.isPrimary = true <;> by_cases hb : b.isPrimary = true <;>
    simp [Evaluator.determineValues, Evaluator.determineValuesOperand, ha, hb]

/-- `DetermineValues` on a node with two operands, whatever the node is. -/
theorem determineBinary_sim (E : Evaluator σ) {a b : Expr}
    (iha : ∀ {h p fp d s}, Rep h p a fp → fp.Nodup → a.height ≤ d →
      Sim h fp (determineValues E d p ⟨s, h⟩) (E.determineValues a s)
        (fun _ e' h' => Post h fp a.height p e' h'))
    (ihb : ∀ {h p fp d s}, Rep h p b fp → fp.Nodup → b.height ≤ d →
      Sim h fp (determineValues E d p ⟨s, h⟩) (E.determineValues b s)
        (fun _ e' h' => Post h fp b.height p e' h'))
    {h : Heap} {r k lp rp fl fr d} {s : St σ} {g : Expr → Expr → β}
    (hx : h[r]? = some (.binary k lp rp)) (hl : Rep h lp a fl) (hr : Rep h rp b fr)
    (hn : (r :: (fl ++ fr)).Nodup) (hd : max a.height b.height ≤ d) :
    Sim h (r :: (fl ++ fr)) (determineValues E (d + 1) (some r) ⟨s, h⟩)
      ((do
        let l' ← E.determineValuesOperand a
        let r' ← E.determineValuesOperand b
        pure (g l' r') : M σ β) s)
      (fun _ c h' => ∃ a' b', c = g a' b' ∧
        Post2 h (r :: (fl ++ fr)) k r a.height b.height a' b' h') := by
  have hn' := hn
  rw [List.nodup_cons, List.nodup_append] at hn'
  obtain ⟨hrn, hnl, hnr, _⟩ := hn'
  rw [determineValues, determineStep_binary E hx]
  refine two_phase (na := a.height) (nb := b.height) hr hx hn ?_ ?_
  · exact determineOperand_sim E (Par := fun p => .binary k p rp) hx hl
      (List.nodup_cons.mpr ⟨fun hm => hrn (by simp [hm]), hnl⟩) (by omega)
      (fun new s h hx => setLeft_ok hx) (iha hl hnl (by omega))
  · intro s1 h1 lp' hx1 hr1
    rw [bind_ok (infixRight_ok hx1)]
    exact determineOperand_sim E (Par := fun p => .binary k lp' p) hx1 hr1
      (List.nodup_cons.mpr ⟨fun hm => hrn (by simp [hm]), hnr⟩) (by omega)
      (fun new s h hx => setRight_ok hx) (ihb hr1 hnr (by omega))

/-- From the slot of a unary node to the node. -/
theorem neg_post {h r fp e h' n} {p' : Ptr} (hrl : r < h.length) (hrn : r ∉ fp)
    (hx : h'[r]? = some (.unary p')) (hp : Post h fp n p' e h') :
    Post h (r :: fp) (n + 1) (some r) (.neg e) h' := by
  obtain ⟨fp', hr', hn', hw', hh'⟩ := hp
  refine ⟨r :: fp', .neg hx hr', ?_, ?_, by simp only [Expr.height]; omega⟩
  · rw [List.nodup_cons]
    refine ⟨fun hm => ?_, hn'⟩
    rcases hw' _ hm with h3 | h3
    · exact hrn h3
    · exact absurd hrl (Nat.not_lt.mpr h3)
  · intro x hx
    rcases List.mem_cons.mp hx with rfl | hx
    · simp
    · rcases hw' _ hx with h3 | h3
      · simp [h3]
      · exact .inr h3

/-- `DetermineValues` on an expression. -/
theorem determineValues_sim (E : Evaluator σ) (e : Expr) : ∀ {h p fp d s}, Rep h p e fp →
    fp.Nodup → e.height ≤ d →
    Sim h fp (determineValues E d p ⟨s, h⟩) (E.determineValues e s)
      (fun _ e' h' => Post h fp e.height p e' h') := by
  have bin : ∀ (a b : Expr)
      (_ : ∀ {h p fp d s}, Rep h p a fp → fp.Nodup → a.height ≤ d →
        Sim h fp (determineValues E d p ⟨s, h⟩) (E.determineValues a s)
          (fun _ e' h' => Post h fp a.height p e' h'))
      (_ : ∀ {h p fp d s}, Rep h p b fp → fp.Nodup → b.height ≤ d →
        Sim h fp (determineValues E d p ⟨s, h⟩) (E.determineValues b s)
          (fun _ e' h' => Post h fp b.height p e' h'))
      {h : Heap} {r k lp rp fl fr d} {s : St σ} (e : Expr), infixExpr k a b = some e →
      h[r]? = some (.binary k lp rp) → Rep h lp a fl → Rep h rp b fr → (r :: (fl ++ fr)).Nodup →
      max a.height b.height ≤ d →
      Sim h (r :: (fl ++ fr)) (determineValues E (d + 1) (some r) ⟨s, h⟩) (E.determineValues e s)
        (fun _ e' h' => Post h (r :: (fl ++ fr)) e.height (some r) e' h') := by
    intro a b iha ihb h r k lp rp fl fr d s e he hx hl hr hn hd
    obtain ⟨g, hg, heq⟩ := determine_typed_binary E he s
    rw [heq]
    refine Sim.weaken (determineBinary_sim E iha ihb hx hl hr hn hd) ?_
    rintro _ c _ ⟨a', b', rfl, q⟩
    have := q.post (hg a' b')
    rw [infix_height he]
    exact this
  induction e with
  | int v =>
    intro h p fp d s hr hn hd
    obtain ⟨d, rfl⟩ : ∃ d', d = d' + 1 := ⟨d - 1, by simp [Expr.height] at hd; omega⟩
    cases hr with
    | int hx =>
      rw [determineValues, determineValuesStep, deref_bind hx]
      exact Sim.fail (Frame.refl _ _)
    | binary _ he _ _ => rename_i k _ _ _ _ _ _ _ _ _; cases k <;> simp [infixExpr] at he
  | sumRoll ds =>
    intro h p fp d s hr hn hd
    obtain ⟨d, rfl⟩ : ∃ d', d = d' + 1 := ⟨d - 1, by simp [Expr.height] at hd; omega⟩
    cases hr with
    | sumRoll hx =>
      rw [determineValues, determineValuesStep, deref_bind hx]
      exact Sim.fail (Frame.refl _ _)
    | binary _ he _ _ => rename_i k _ _ _ _ _ _ _ _ _; cases k <;> simp [infixExpr] at he
  | neg e ih =>
    intro h p fp d s hr hn hd
    obtain ⟨d, rfl⟩ : ∃ d', d = d' + 1 := ⟨d - 1, by simp [Expr.height] at hd; omega⟩
    cases hr with
    | @neg r p e fp hx hp =>
      have hn2 := List.nodup_cons.mp hn
      simp only [Expr.height] at hd
      rw [determineValues, determineValuesStep, deref_bind hx]
      have hs := determineOperand_sim E (s := s) (Par := fun p => .unary p) hx hp hn
        (by omega : e.height ≤ d) (fun new s h hx => setRight_unary_ok hx)
        (ih hp hn2.2 (by omega))
      have heq : E.determineValues e.neg = ((do
          let r' ← E.determineValuesOperand e
          pure (.neg r') : M σ Expr)) := by
        by_cases he : e.isPrimary = true <;>
          simp [Evaluator.determineValues, Evaluator.determineValuesOperand, he]
      rw [heq]
      have key := Sim.bind' (f := fun _ : Unit => (pure () : H σ Unit))
        (g := fun r' => (pure (.neg r') : M σ Expr))
        (R := fun _ e' h' => Post h (r :: fp) (Expr.neg e).height (some r) e' h') hs (by
          rintro ⟨⟩ r' s1 h1 f1 ⟨p', hx', q⟩
          exact Sim.pure f1 (neg_post (lt_of_get hx) hn2.1 hx' q))
      rw [bind_unit] at key
      exact key
    | binary _ he _ _ => rename_i k _ _ _ _ _ _ _ _ _; cases k <;> simp [infixExpr] at he
  | bin op a b iha ihb =>
    intro h p fp d s hr hn hd
    obtain ⟨d, rfl⟩ : ∃ d', d = d' + 1 := ⟨d - 1, by simp [Expr.height] at hd; omega⟩
    cases hr with
    | @binary r k lp rp a' b' _ fl fr hx he hl hr =>
      have hab : a' = a ∧ b' = b := by
        cases k <;> simp [infixExpr] at he <;> simp [he]
      obtain ⟨rfl, rfl⟩ := hab
      exact bin a' b' iha ihb _ he hx hl hr hn (by simp only [Expr.height] at hd; omega)
  | div m a b iha ihb =>
    intro h p fp d s hr hn hd
    obtain ⟨d, rfl⟩ : ∃ d', d = d' + 1 := ⟨d - 1, by simp [Expr.height] at hd; omega⟩
    cases hr with
    | @binary r k lp rp a' b' _ fl fr hx he hl hr =>
      have hab : a' = a ∧ b' = b := by
        cases k <;> simp [infixExpr] at he <;> simp [he]
      obtain ⟨rfl, rfl⟩ := hab
      exact bin a' b' iha ihb _ he hx hl hr hn (by simp only [Expr.height] at hd; omega)
  | var k a b iha ihb =>
    intro h p fp d s hr hn hd
    obtain ⟨d, rfl⟩ : ∃ d', d = d' + 1 := ⟨d - 1, by simp [Expr.height] at hd; omega⟩
    cases hr with
    | @binary r k lp rp a' b' _ fl fr hx he hl hr =>
      have hab : a' = a ∧ b' = b := by
        cases k <;> simp [infixExpr] at he <;> simp [he]
      obtain ⟨rfl, rfl⟩ := hab
      exact bin a' b' iha ihb _ he hx hl hr hn (by simp only [Expr.height] at hd; omega)

end GoBCDice.Raw
