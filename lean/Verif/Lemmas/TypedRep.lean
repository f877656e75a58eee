import Verif.Lemmas.Typed
import Verif.Spec.Raw

/-! # The commands of the parser make sense -/

namespace GoBCDice.Raw

theorem Rep.typed {h : Heap} {p : Ptr} {e : Expr} {fp : List Ref} (hr : Rep h p e fp) :
    HasType h e.height p .integer := by
  induction hr with
  | int hr => exact .int hr
  | sumRoll hr => exact .sumRoll hr
  | neg hr _ ih => exact .minus hr ih
  | @binary r k lp rp a b e fl fr hr he _ _ ih1 ih2 =>
    have key : ∀ n, a.height ≤ n → b.height ≤ n → HasType h n lp .integer ∧ HasType h n rp .integer :=
      fun n h1 h2 => ⟨ih1.deeper h1, ih2.deeper h2⟩
    have := key (max a.height b.height) (by omega) (by omega)
    cases k <;> simp only [infixExpr, Option.some.injEq, reduceCtorEq] at he <;> subst he
    case div m => exact .division hr this.1 this.2
    all_goals exact .number hr (by decide) this.1 this.2

theorem RepRolls.typed {h : Heap} {k : InfixKind} {ps : List Ptr} {rolls : List Roll} {fs : List Ref}
    (hr : RepRolls h k ps rolls fs) {τ : Ty}
    (hk : ∀ n r x y, h[r]? = some (.binary k x y) → HasType h n x .integer → HasType h n y .integer →
      HasType h (n + 1) (some r) τ) : ∀ p ∈ ps, HasType h (rollsHeight rolls) p τ := by
  induction hr with
  | nil => intro p hp; cases hp
  | @cons r lp rp a b ps rest fl fr fs hr h1 h2 _ ih =>
    intro p hp
    rcases List.mem_cons.mp hp with rfl | hp
    · refine (hk (max a.height b.height) r lp rp hr (h1.typed.deeper (by omega)) (h2.typed.deeper (by omega))).deeper ?_
      simp only [rollsHeight, Roll.height]
      omega
    · exact (ih p hp).deeper (by simp only [rollsHeight]; omega)

theorem RepThreshold.typed {h : Heap} {p : Ptr} {t : Option Expr} {fp : List Ref} (hr : RepThreshold h p t fp) :
    ¬ IsAbsent h p → HasType h (thresholdHeight t) p .integer := by
  cases hr with
  | none hr => exact fun hn => absurd ⟨_, rfl, hr⟩ hn
  | some hr => exact fun _ => hr.typed

theorem Expr.height_pos (e : Expr) : 1 ≤ e.height := by
  cases e <;> simp only [Expr.height] <;> omega

theorem RepThreshold.pos {h : Heap} {p : Ptr} {t : Option Expr} {fp : List Ref} (_ : RepThreshold h p t fp) :
    1 ≤ thresholdHeight t := by
  cases t with
  | none => exact Nat.le_refl 1
  | some e => exact Expr.height_pos e

theorem RepRRollList.isRolls {h : Heap} {k : InfixKind} {p : Ptr} {rl : RRollList} {fp : List Ref}
    (hr : RepRRollList h k p rl fp) : IsRolls h p := by
  cases hr with
  | mk hr _ _ => exact ⟨_, _, rfl, hr, trivial⟩

theorem RepURollExpr.isRolls {h : Heap} {p : Ptr} {u : URollExpr} {fp : List Ref}
    (hr : RepURollExpr h p u fp) : IsRolls h p := by
  cases hr with
  | mk hr _ _ => exact ⟨_, _, rfl, hr, trivial⟩

theorem RepRRollList.typedR {h : Heap} {p : Ptr} {rl : RRollList} {fp : List Ref}
    (hr : RepRRollList h .rRoll p rl fp) : HasType h rl.height p .groups := by
  cases hr with
  | mk hr h1 h2 =>
    refine .rRolls hr ?_ ?_ ?pos
    case pos => have := h2.pos; simp only; omega
    · intro p hp
      exact (h1.typed (fun n r x y hr hx hy => .roll hr (.inr rfl) hx hy) p hp).deeper (by simp only; omega)
    · intro hn
      exact (h2.typed hn).deeper (by simp only; omega)

theorem RepRRollList.typedU {h : Heap} {p : Ptr} {rl : RRollList} {fp : List Ref}
    (hr : RepRRollList h .uRoll p rl fp) : HasType h rl.height p .uList := by
  cases hr with
  | mk hr h1 h2 =>
    refine .uRolls hr ?_ ?_ ?pos
    case pos => have := h2.pos; simp only; omega
    · intro p hp
      exact (h1.typed (fun n r x y hr hx hy => .uRoll hr hx hy) p hp).deeper (by simp only; omega)
    · intro hn
      exact (h2.typed hn).deeper (by simp only; omega)

theorem RepURollExpr.typed {h : Heap} {p : Ptr} {u : URollExpr} {fp : List Ref}
    (hr : RepURollExpr h p u fp) : HasType h u.height p .uResult := by
  cases hr with
  | mk hr h1 h2 =>
    cases h2 with
    | none =>
      exact .uExpr hr h1.typedU (fun h => absurd rfl h) (fun h => absurd rfl h)
    | @some _ b fp h2 =>
      refine .uExpr hr (h1.typedU.deeper (by simp only; omega)) (fun _ => ?_)
        (fun _ => h2.typed.deeper (by simp only; omega))
      obtain ⟨sg, e⟩ := b
      cases sg
      all_goals
        simp only [bonusExpr] at h2
        cases h2 with
        | @binary r k lp rp a b e fl fr hb he _ _ =>
          refine ⟨r, k, lp, rp, rfl, hb, ?_⟩
          cases k <;> simp [infixExpr] at he <;> rfl

theorem CmpOp_mem (op : CmpOp) : op.str ∈ comparisonOperators := by cases op <;> decide

theorem RepItems.strings {h : Heap} {ps : List Ptr} {items : List Str} {fs : List Ref}
    (hr : RepItems h ps items fs) : (∀ p ∈ ps, IsString h p) ∧ ps.length = items.length := by
  induction hr with
  | nil => exact ⟨fun p hp => (by cases hp), rfl⟩
  | cons hr _ ih =>
    refine ⟨?_, by simp [ih.2]⟩
    intro p hp
    rcases List.mem_cons.mp hp with rfl | hp
    · exact ⟨_, _, rfl, hr⟩
    · exact ih.1 p hp

theorem RepNode.typed {h : Heap} {p : Ptr} {n : Node} {fp : List Ref} (hr : RepNode h p n fp)
    (hl : ∀ items, n = .choice items → items.length < 2 ^ 63) : HasType h n.height p (nodeType n) := by
  cases hr with
  | choice hr hi => exact .choice (n := 1) hr hi.strings.1 (by rw [hi.strings.2]; exact hl _ rfl)
  | «calc» hr he => exact .command hr (by simp) ⟨by simp [nodeType], by simp [nodeType], by simp [nodeType]⟩ (by simp [nodeType]) he.typed
  | dRollExpr hr he => exact .command hr (by simp) ⟨by simp [nodeType], by simp [nodeType], by simp [nodeType]⟩ (by simp [nodeType]) he.typed
  | dRollComp hr hc h1 h2 =>
    refine .command hr (by simp) ⟨by simp [nodeType], by simp [nodeType], by simp [nodeType]⟩ (by simp [nodeType]) ?_
    exact .comparison hc (CmpOp_mem _) (h1.typed.deeper (by omega)) (h2.typed.deeper (by omega))
  | bRollList hr h1 => exact .bRolls hr (h1.typed (fun n r x y hr hx hy => .roll hr (.inl rfl) hx hy))
  | bRollComp hr hc hl' h1 h2 =>
    refine .bSuccesses hr (.compared hc (CmpOp_mem _) (by simp) ⟨_, _, rfl, hl', trivial⟩ ?_ (h2.typed.deeper (by omega)))
    exact (HasType.bRolls hl' (h1.typed (fun n r x y hr hx hy => .roll hr (.inl rfl) hx hy))).deeper (by omega)
  | rRollList h1 => exact h1.typedR
  | rRollComp hr hc h1 h2 =>
    exact .rSuccesses hr (.compared hc (CmpOp_mem _) (by simp) h1.isRolls (h1.typedR.deeper (by omega))
      (h2.typed.deeper (by omega)))
  | uRollExpr h1 => exact h1.typed
  | uRollComp hr hc h1 h2 =>
    exact .uSuccesses hr (.compared hc (CmpOp_mem _) (by simp) h1.isRolls (h1.typed.deeper (by omega))
      (h2.typed.deeper (by omega)))

end GoBCDice.Raw
