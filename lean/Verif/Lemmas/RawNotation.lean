import Verif.Lemmas.RawEval

/-! # `InfixNotation` and `SExp` in memory -/

namespace GoBCDice.Raw

variable {σ α β γ δ : Type}

/-- What a child of an infix node looks like. -/
def childStr (prec : Nat) (assoc wl : Bool) (e : Expr) : Str :=
  if e.isPrefix then parenthesize (GoBCDice.infixNotation wl e)
  else
    match e.prec? with
    | some p =>
      if p.rank < prec ∨ (p.rank = prec ∧ assoc = false) then
        parenthesize (GoBCDice.infixNotation true e)
      else GoBCDice.infixNotation wl e
    | none => GoBCDice.infixNotation wl e

theorem childStr_eq (p : Prec) (assoc wl : Bool) (e : Expr) :
    childStr p.rank assoc wl e =
      (if e.isPrefix then parenthesize (GoBCDice.infixNotation wl e)
       else if e.needsParen p assoc then parenthesize (GoBCDice.infixNotation true e)
       else GoBCDice.infixNotation wl e) := by
  unfold childStr Expr.needsParen
  by_cases hp : e.isPrefix = true
  · simp [hp]
  · simp only [hp]
    cases e.prec? with
    | none => simp
    | some q => cases assoc <;> simp

/-- An infix expression knows its precedence. -/
theorem infix_prec {k a b e} (he : infixExpr k a b = some e) :
    ∃ p : Prec, e.prec? = some p ∧ p.rank = k.precedence ∧ e.isPrefix = false := by
  cases k <;> simp [infixExpr] at he <;> subst he <;> exact ⟨_, rfl, rfl, rfl⟩

theorem child_ok {h : Heap} {go : Bool → Ptr → H σ Str} {k : InfixKind} {p e fp} {assoc wl : Bool}
    {s : St σ} (hr : Rep h p e fp)
    (ih : ∀ wl, go wl p ⟨s, h⟩ = (.ok (GoBCDice.infixNotation wl e), ⟨s, h⟩)) :
    childNotation go k p assoc wl ⟨s, h⟩ = (.ok (childStr k.precedence assoc wl e), ⟨s, h⟩) := by
  unfold childNotation
  cases hr with
  | int hx => rw [deref_bind hx]; exact ih wl
  | sumRoll hx => rw [deref_bind hx]; exact ih wl
  | neg hx _ => rw [deref_bind hx]; simp only; rw [bind_ok (ih wl)]; rfl
  | @binary r c lp rp a b e fl fr hx he _ _ =>
    obtain ⟨q, hq, hqr, hpf⟩ := infix_prec he
    rw [deref_bind hx]
    simp only [childStr, hpf, hq, hqr]
    by_cases hc : c.precedence < k.precedence ∨ c.precedence = k.precedence ∧ assoc = false
    · rw [if_pos hc, bind_ok (ih true), if_pos hc]; rfl
    · rw [if_neg hc, if_neg hc]; exact ih wl

theorem prefix_ok {h : Heap} {go : Bool → Ptr → H σ Str} {p e fp} {wl : Bool} {s : St σ}
    (hr : Rep h p e fp)
    (ih : ∀ wl, go wl p ⟨s, h⟩ = (.ok (GoBCDice.infixNotation wl e), ⟨s, h⟩)) :
    prefixNotation go wl p ⟨s, h⟩ = (.ok (GoBCDice.infixNotation wl (.neg e)), ⟨s, h⟩) := by
  obtain ⟨r, o, rfl, ho, hp⟩ : ∃ r o, p = some r ∧ h[r]? = some o ∧ o.isPrimary = e.isPrimary := by
    cases hr with
    | int hx => exact ⟨_, _, rfl, hx, rfl⟩
    | sumRoll hx => exact ⟨_, _, rfl, hx, rfl⟩
    | neg hx _ => exact ⟨_, _, rfl, hx, rfl⟩
    | @binary r k lp rp a b e fl fr hx he _ _ =>
      refine ⟨_, _, rfl, hx, ?_⟩
      cases k <;> simp [infixExpr] at he <;> subst he <;> rfl
  unfold prefixNotation
  rw [deref_bind ho, hp, GoBCDice.infixNotation]
  by_cases hpr : e.isPrimary = true
  · rw [if_pos hpr, if_pos hpr, bind_ok (ih wl)]; rfl
  · rw [if_neg hpr, if_neg hpr, bind_ok (ih true)]; rfl

/-- The left child. -/
def leftStr (k : InfixKind) (wl : Bool) (e : Expr) : Str :=
  if e.isPrefix && (wl && k.leftAssoc) then GoBCDice.infixNotation wl e
  else childStr k.precedence k.leftAssoc wl e

theorem children_ok {h : Heap} {go : Bool → Ptr → H σ Str} {k : InfixKind} {lp rp a b fl fr}
    {wl : Bool} {s : St σ} (hl : Rep h lp a fl) (hr : Rep h rp b fr)
    (ih : ∀ {p e fp} wl, Rep h p e fp → e.height ≤ max a.height b.height →
      go wl p ⟨s, h⟩ = (.ok (GoBCDice.infixNotation wl e), ⟨s, h⟩)) :
    childrenNotations go k lp rp wl ⟨s, h⟩ =
      (.ok (leftStr k wl a, childStr k.precedence k.rightAssoc false b), ⟨s, h⟩) := by
  have hcl : ∀ assoc wl, childNotation go k lp assoc wl ⟨s, h⟩ = _ :=
    fun assoc wl => child_ok hl (fun wl => ih wl hl (by omega))
  have hcr : ∀ assoc wl, childNotation go k rp assoc wl ⟨s, h⟩ = _ :=
    fun assoc wl => child_ok hr (fun wl => ih wl hr (by omega))
  obtain ⟨r, o, rfl, ho⟩ : ∃ r o, lp = some r ∧ h[r]? = some o := by
    cases hl <;> exact ⟨_, _, rfl, by assumption⟩
  unfold childrenNotations
  rw [deref_bind ho]
  have fin : ∀ ls, ((do
      let rs ← childNotation go k rp k.rightAssoc false
      pure (ls, rs) : H σ (Str × Str)) ⟨s, h⟩) =
      (.ok (ls, childStr k.precedence k.rightAssoc false b), ⟨s, h⟩) := by
    intro ls; rw [bind_ok (hcr _ _)]; rfl
  unfold leftStr
  cases hl with
  | int hx =>
    rw [ho] at hx; cases hx
    simp only [Expr.isPrefix, Bool.false_and]
    rw [bind_ok (hcl _ _)]; exact fin _
  | sumRoll hx =>
    rw [ho] at hx; cases hx
    simp only [Expr.isPrefix, Bool.false_and]
    rw [bind_ok (hcl _ _)]; exact fin _
  | neg hx hp =>
    rw [ho] at hx; cases hx
    simp only [Expr.isPrefix, Bool.true_and]
    by_cases hw : (wl && k.leftAssoc) = true
    · rw [if_pos hw, if_pos hw]
      rw [bind_ok (prefix_ok hp (fun wl => ih wl hp (by simp only [Expr.height]; omega)))]
      exact fin _
    · rw [if_neg hw, if_neg hw, bind_ok (hcl _ _)]; exact fin _
  | binary hx he _ _ =>
    rw [ho] at hx; cases hx
    obtain ⟨q, _, _, hpf⟩ := infix_prec he
    simp only [hpf, Bool.false_and]
    rw [bind_ok (hcl _ _)]; exact fin _

/-- `InfixNotation` on memory gives the notation of the tree, and leaves everything as it is. -/
theorem notation_ok {h : Heap} {s : St σ} (d : Nat) : ∀ {p e fp} wl, Rep h p e fp → e.height ≤ d →
    infixNotation d wl p ⟨s, h⟩ = (.ok (GoBCDice.infixNotation wl e), ⟨s, h⟩) := by
  induction d with
  | zero => intro p e fp wl _ hd; have := height_pos e; omega
  | succ d ih =>
    intro p e fp wl hr hd
    rw [infixNotation]
    unfold notationStep
    cases hr with
    | int hx => rw [deref_bind hx]; simp only [GoBCDice.infixNotation]; rfl
    | sumRoll hx => rw [deref_bind hx]; simp only [GoBCDice.infixNotation]; rfl
    | neg hx hp =>
      rw [deref_bind hx]
      simp only [Expr.height] at hd
      exact prefix_ok hp (fun wl => ih wl hp (by omega))
    | @binary r k lp rp a b e fl fr hx he hl hr =>
      rw [infix_height he] at hd
      have hch := fun wl => children_ok (k := k) (wl := wl) (s := s) (go := infixNotation d) hl hr
        (fun wl hr' hh => ih wl hr' (by omega))
      rw [deref_bind hx]
      have hP := fun (p : Prec) assoc wl e => childStr_eq p assoc wl e
      cases k <;> simp [infixExpr] at he <;> subst he
      · simp only
        rw [bind_ok (hch wl)]
        have h1 : childStr (InfixKind.precedence .add) = childStr (Prec.rank .additive) := rfl
        cases wl <;> cases hpa : a.isPrefix <;>
          simp [GoBCDice.infixNotation, leftStr, h1, hP, hpa, pure, H.ret,
            InfixKind.leftAssoc, InfixKind.rightAssoc, InfixKind.operator, BinOp.str, BinOp.prec,
            BinOp.rightAssoc] <;> rfl
      · simp only
        rw [bind_ok (hch wl)]
        have h1 : childStr (InfixKind.precedence .sub) = childStr (Prec.rank .additive) := rfl
        cases wl <;> cases hpa : a.isPrefix <;>
          simp [GoBCDice.infixNotation, leftStr, h1, hP, hpa, pure, H.ret,
            InfixKind.leftAssoc, InfixKind.rightAssoc, InfixKind.operator, BinOp.str, BinOp.prec,
            BinOp.rightAssoc] <;> rfl
      · simp only
        rw [bind_ok (hch wl)]
        have h1 : childStr (InfixKind.precedence .mul) = childStr (Prec.rank .multitive) := rfl
        cases wl <;> cases hpa : a.isPrefix <;>
          simp [GoBCDice.infixNotation, leftStr, h1, hP, hpa, pure, H.ret,
            InfixKind.leftAssoc, InfixKind.rightAssoc, InfixKind.operator, BinOp.str, BinOp.prec,
            BinOp.rightAssoc] <;> rfl
      · simp only
        rw [bind_ok (hch wl)]
        rename_i m
        have h1 : childStr (InfixKind.precedence (.div m)) = childStr (Prec.rank .multitive) := rfl
        cases wl <;> cases hpa : a.isPrefix <;>
          simp [GoBCDice.infixNotation, leftStr, h1, hP, hpa, pure, H.ret,
            InfixKind.leftAssoc, InfixKind.rightAssoc] <;> rfl
      · simp only
        rw [bind_ok (hch wl)]
        have h1 : childStr (InfixKind.precedence .dRoll) = childStr (Prec.rank .roll) := rfl
        simp [GoBCDice.infixNotation, leftStr, h1, hP, pure, H.ret,
            InfixKind.leftAssoc, InfixKind.rightAssoc, InfixKind.operator] <;> rfl
      · simp only
        rw [bind_ok (hch true)]
        have h1 : childStr (InfixKind.precedence .random) = childStr (Prec.rank .dots) := rfl
        simp [GoBCDice.infixNotation, leftStr, h1, hP, pure, H.ret,
            InfixKind.leftAssoc, InfixKind.rightAssoc] <;> rfl

/-- The letter of a roll list. -/
theorem roll_notation {h : Heap} {s : St σ} {d r lp rp a b fl fr k}
    (hk : k = .bRoll ∨ k = .rRoll ∨ k = .uRoll)
    (hx : h[r]? = some (.binary k lp rp)) (hl : Rep h lp a fl) (hr : Rep h rp b fr)
    (hd : max a.height b.height ≤ d) :
    infixNotation (d + 1) true (some r) ⟨s, h⟩ = (.ok (rollNotation k.operator ⟨a, b⟩), ⟨s, h⟩) := by
  have hch := fun wl => children_ok (k := k) (wl := wl) (s := s) (go := infixNotation d) hl hr
    (fun wl hr' hh => notation_ok d wl hr' (by omega))
  rw [infixNotation]
  unfold notationStep
  rw [deref_bind hx]
  have h1 : childStr k.precedence = childStr (Prec.rank .roll) := by
    rcases hk with rfl | rfl | rfl <;> rfl
  have hla : k.leftAssoc = false := by rcases hk with rfl | rfl | rfl <;> rfl
  have hra : k.rightAssoc = false := by rcases hk with rfl | rfl | rfl <;> rfl
  have main : ((do
      let (ls, rs) ← childrenNotations (infixNotation d) k lp rp true
      pure (ls ++ k.operator ++ rs) : H σ Str) ⟨s, h⟩) =
      (.ok (rollNotation k.operator ⟨a, b⟩), ⟨s, h⟩) := by
    rw [bind_ok (hch true)]
    simp [rollNotation, rollOperandNotation, leftStr, h1, childStr_eq, pure, H.ret, hla, hra]
  rcases hk with rfl | rfl | rfl <;> exact main

theorem rolls_notation {h : Heap} {s : St σ} {d k} (hk : k = .bRoll ∨ k = .rRoll ∨ k = .uRoll) :
    ∀ {ps rolls fp}, RepRolls h k ps rolls fp → rollsHeight rolls ≤ d →
    notations (infixNotation d) ps ⟨s, h⟩ = (.ok (rolls.map (rollNotation k.operator)), ⟨s, h⟩) := by
  intro ps rolls fp hr
  induction hr with
  | nil => intro _; rfl
  | @cons r lp rp a b ps rest fl fr fs hx hl hr _ ih =>
    intro hd
    simp only [rollsHeight, Roll.height] at hd
    obtain ⟨d, rfl⟩ : ∃ d', d = d' + 1 := ⟨d - 1, by omega⟩
    rw [notations, bind_ok (roll_notation hk hx hl hr (by omega)), bind_ok (ih (by omega))]
    rfl

theorem bRollList_notation {h : Heap} {s : St σ} {d r ps rolls fp} (wl : Bool)
    (hx : h[r]? = some (.bRollList ps)) (hr : RepRolls h .bRoll ps rolls fp)
    (hd : rollsHeight rolls + 1 ≤ d) :
    infixNotation d wl (some r) ⟨s, h⟩ = (.ok (rollsNotation chars!"B" rolls), ⟨s, h⟩) := by
  obtain ⟨d, rfl⟩ : ∃ d', d = d' + 1 := ⟨d - 1, by omega⟩
  rw [infixNotation]
  unfold notationStep
  rw [deref_bind hx]
  simp only
  rw [bind_ok (rolls_notation (.inl rfl) hr (by omega))]
  rfl

theorem rRollList_notation {h : Heap} {s : St σ} {d p k rl fp} (wl : Bool)
    (hk : k = .rRoll ∨ k = .uRoll) (hr : RepRRollList h k p rl fp) (hd : rl.height ≤ d) :
    infixNotation d wl p ⟨s, h⟩ = (.ok (GoBCDice.rRollListNotation k.operator rl), ⟨s, h⟩) := by
  cases hr with
  | @mk r ps tp rolls t fs ft hx hs ht =>
    simp only [RRollList.height] at hd
    obtain ⟨d, rfl⟩ : ∃ d', d = d' + 1 := ⟨d - 1, by omega⟩
    rw [infixNotation]
    unfold notationStep
    rw [deref_bind hx]
    simp only [rRollListNotation]
    obtain ⟨o, ho, hnil⟩ := ht.deref (Frame.refl h []) (s := s)
    rw [bind_ok (rolls_notation (hk.elim (fun h => .inr (.inl h)) (fun h => .inr (.inr h))) hs
      (by omega)), bind_ok ho, hnil]
    cases t with
    | none =>
      simp [GoBCDice.rRollListNotation, rollsNotation, pure, H.ret]
    | some t =>
      cases ht with
      | some ht =>
        simp only [thresholdHeight] at hd
        simp only [Option.isNone, Bool.false_eq_true, if_false]
        rw [bind_ok (notation_ok d true ht (by omega))]
        simp [GoBCDice.rRollListNotation, rollsNotation, pure, H.ret]

/-- The child of a copied bonus: the roll list itself. -/
theorem list_child {h : Heap} {s : St σ} {d p k rl fp} {parent : InfixKind} {assoc wl : Bool}
    (hk : k = .rRoll ∨ k = .uRoll) (hr : RepRRollList h k p rl fp) (hd : rl.height ≤ d) :
    childNotation (infixNotation d) parent p assoc wl ⟨s, h⟩ =
      (.ok (GoBCDice.rRollListNotation k.operator rl), ⟨s, h⟩) := by
  have main := rRollList_notation (s := s) wl hk hr hd
  cases hr with
  | mk hx _ _ =>
    unfold childNotation
    rw [deref_bind hx]
    exact main

/-- The node of a bonus. -/
def signKind : Sign → InfixKind
  | .plus => .add
  | .minus => .sub

theorem Rep.bonus {h p b fp} (hr : Rep h p (bonusExpr b) fp) :
    ∃ r lp rp fl fr, p = some r ∧ h[r]? = some (.binary (signKind b.1) lp rp) ∧
      Rep h lp (.int 0) fl ∧ Rep h rp b.2 fr ∧ fp = r :: (fl ++ fr) := by
  obtain ⟨sg, e⟩ := b
  generalize hb : bonusExpr (sg, e) = e' at hr
  cases hr with
  | int => cases sg <;> simp [bonusExpr] at hb
  | sumRoll => cases sg <;> simp [bonusExpr] at hb
  | neg => cases sg <;> simp [bonusExpr] at hb
  | @binary r k lp rp a b e2 fl fr hx he hl hr =>
    cases sg <;> simp only [bonusExpr] at hb <;> subst hb <;> cases k <;>
      simp [infixExpr] at he <;> obtain ⟨rfl, rfl⟩ := he <;>
      exact ⟨_, _, _, _, _, rfl, hx, hl, hr, rfl⟩

theorem uRollExpr_notation {h : Heap} {s : St σ} {d p u fp} (wl : Bool) (hr : RepURollExpr h p u fp)
    (hd : u.height ≤ d) :
    ∃ h', infixNotation d wl p ⟨s, h⟩ = (.ok (GoBCDice.uRollExprNotation u), ⟨s, h'⟩) ∧
      Frame h [] h' := by
  have hl1 := uHeight_list u
  cases hr with
  | @mk r lp bp list bonus fl fb hx hl hb =>
    obtain ⟨d, rfl⟩ : ∃ d', d = d' + 1 := ⟨d - 1, by omega⟩
    simp only at hl1
    rw [infixNotation]
    unfold notationStep
    rw [deref_bind hx]
    simp only [uRollExprNotation]
    cases hb with
    | none =>
      refine ⟨h, ?_, Frame.refl _ _⟩
      simp only [if_true]
      exact rRollList_notation true (.inr rfl) hl (by exact Nat.le_of_lt_succ (Nat.lt_of_lt_of_le hl1 hd))
    | @some p b fp hb =>
      obtain ⟨q, zp, rp, fz, fr, rfl, hq, hz, hrp, rfl⟩ := hb.bonus
      obtain ⟨sg, e⟩ := b
      simp only at hq hrp
      simp only [reduceCtorEq, if_false]
      rw [deref_bind hq]
      have hbasic : (signKind sg).isBasicInfix = true := by cases sg <;> rfl
      simp only [hbasic, if_true]
      have hcopy : (h ++ [Obj.binary (signKind sg) zp rp])[h.length]? =
          some (.binary (signKind sg) zp rp) := by simp
      let h2 := (h ++ [Obj.binary (signKind sg) zp rp]).set h.length (.binary (signKind sg) lp rp)
      have hset : setLeft (some h.length) lp ⟨s, h ++ [Obj.binary (signKind sg) zp rp]⟩ =
          (.ok (), (⟨s, h2⟩ : HSt σ)) := by
        unfold setLeft; rw [deref_bind hcopy]; rfl
      have halloc : alloc (.binary (signKind sg) zp rp) ⟨s, h⟩ =
          (.ok (some h.length), (⟨s, h ++ [Obj.binary (signKind sg) zp rp]⟩ : HSt σ)) := rfl
      have f2 : Frame h [] h2 :=
        (Frame.append h [] _).trans (Frame.set _ _ _) (by simp)
      have hc2 : h2[h.length]? = some (.binary (signKind sg) lp rp) := get_set_self hcopy
      refine ⟨h2, ?_, f2⟩
      rw [bind_ok halloc, bind_ok hset]
      simp only [URollExpr.height] at hd
      obtain ⟨d, rfl⟩ : ∃ d', d = d' + 1 := ⟨d - 1, by omega⟩
      rw [infixNotation]
      unfold notationStep
      rw [deref_bind hc2]
      have hl2 := hl.frame f2 (by simp) (by simp [NotNil])
      have hr2 := hrp.frame f2 (by simp)
      have hbh : e.height + 1 ≤ d + 1 := by
        have : (bonusExpr (sg, e)).height = max 1 e.height + 1 := by
          cases sg <;> simp [bonusExpr, Expr.height]
        omega
      have hll := list_child (s := s) (d := d) (parent := signKind sg)
        (assoc := (signKind sg).leftAssoc) (wl := true) (.inr rfl) hl2 (by omega)
      have hrr := child_ok (s := s) (k := signKind sg) (assoc := (signKind sg).rightAssoc)
        (wl := false) (go := infixNotation d) hr2
        (fun wl => notation_ok d wl hr2 (by omega))
      have hch : childrenNotations (infixNotation d) (signKind sg) lp rp true ⟨s, h2⟩ =
          (.ok (GoBCDice.rRollListNotation chars!"U" list,
            childStr (signKind sg).precedence (signKind sg).rightAssoc false e), ⟨s, h2⟩) := by
        unfold childrenNotations
        cases hl2 with
        | mk hlx _ _ =>
          rw [deref_bind hlx]
          simp only
          rw [bind_ok hll, bind_ok hrr]
          rfl
      cases sg
      · simp only [signKind] at hch ⊢
        rw [bind_ok hch]
        have h1 : childStr (InfixKind.precedence .add) = childStr (Prec.rank .additive) := rfl
        simp [GoBCDice.uRollExprNotation, bonusOperandNotation, h1, childStr_eq, pure, H.ret,
          InfixKind.operator, Sign.str, InfixKind.rightAssoc]
      · simp only [signKind] at hch ⊢
        rw [bind_ok hch]
        have h1 : childStr (InfixKind.precedence .sub) = childStr (Prec.rank .additive) := rfl
        simp [GoBCDice.uRollExprNotation, bonusOperandNotation, h1, childStr_eq, pure, H.ret,
          InfixKind.operator, Sign.str, InfixKind.rightAssoc]

/-- A comparison, given its left side. -/
theorem compare_notation {h : Heap} {s : St σ} {d c lp rp b fr h1} {op : Str} {ls : Str} (wl : Bool)
    (hc : h[c]? = some (.binary (.compare op) lp rp)) (hr : Rep h rp b fr) (hd : b.height ≤ d)
    (hl : infixNotation d true lp ⟨s, h⟩ = (.ok ls, ⟨s, h1⟩)) (f : Frame h [] h1) :
    infixNotation (d + 1) wl (some c) ⟨s, h⟩ =
      (.ok (ls ++ op ++ GoBCDice.infixNotation true b), ⟨s, h1⟩) := by
  rw [infixNotation]
  unfold notationStep
  rw [deref_bind hc]
  simp only
  rw [bind_ok hl, bind_ok (notation_ok d true (hr.frame0 f) hd)]
  rfl

/-- A command other than `C(...)`. -/
theorem command_notation {h : Heap} {s : St σ} {d r e ty} {o : Out Str × HSt σ} (wl : Bool)
    (hx : h[r]? = some (.command ty e)) (hty : ty ≠ .calc)
    (he : infixNotation d wl e ⟨s, h⟩ = o) :
    infixNotation (d + 1) wl (some r) ⟨s, h⟩ = o := by
  rw [infixNotation]
  unfold notationStep
  rw [deref_bind hx]
  cases ty <;> first | exact he | exact absurd rfl hty

theorem items_ok {h : Heap} {s : St σ} : ∀ {ps items fs}, RepItems h ps items fs →
    itemValues ps ⟨s, h⟩ = (.ok items, ⟨s, h⟩) := by
  intro ps items fs hr
  induction hr with
  | nil => rfl
  | cons hx _ ih => rw [itemValues, deref_bind hx]; simp only; rw [bind_ok ih]; rfl

/-- `InfixNotation` of any command in memory is the notation of the command. -/
theorem nodeNotation_ok {h : Heap} {s : St σ} {d p n fp} (hr : RepNode h p n fp)
    (hd : n.height ≤ d) :
    ∃ h', infixNotation d true p ⟨s, h⟩ = (.ok (nodeNotation n), ⟨s, h'⟩) ∧ Frame h [] h' := by
  cases hr with
  | choice hx hi =>
    obtain ⟨d, rfl⟩ : ∃ d', d = d' + 1 := ⟨d - 1, by simp [Node.height] at hd; omega⟩
    refine ⟨h, ?_, Frame.refl _ _⟩
    rw [infixNotation]; unfold notationStep; rw [deref_bind hx]; simp only
    rw [bind_ok (items_ok hi)]; rfl
  | «calc» hx he =>
    simp only [Node.height] at hd
    obtain ⟨d, rfl⟩ : ∃ d', d = d' + 1 := ⟨d - 1, by omega⟩
    refine ⟨h, ?_, Frame.refl _ _⟩
    rw [infixNotation]; unfold notationStep; rw [deref_bind hx]; simp only
    rw [bind_ok (notation_ok d true he (by omega))]; rfl
  | dRollExpr hx he =>
    simp only [Node.height] at hd
    obtain ⟨d, rfl⟩ : ∃ d', d = d' + 1 := ⟨d - 1, by omega⟩
    exact ⟨h, command_notation true hx (by simp) (notation_ok d true he (by omega)), Frame.refl _ _⟩
  | dRollComp hx hc hl hr =>
    simp only [Node.height] at hd
    obtain ⟨d, rfl⟩ : ∃ d', d = d' + 2 := ⟨d - 2, by omega⟩
    exact ⟨h, command_notation true hx (by simp) (compare_notation true hc hr (by omega)
      (notation_ok d true hl (by omega)) (Frame.refl _ _)), Frame.refl _ _⟩
  | bRollList hx hs =>
    simp only [Node.height] at hd
    exact ⟨h, bRollList_notation true hx hs hd, Frame.refl _ _⟩
  | bRollComp hx hc hl hs hr =>
    simp only [Node.height] at hd
    obtain ⟨d, rfl⟩ : ∃ d', d = d' + 2 := ⟨d - 2, by omega⟩
    exact ⟨h, command_notation true hx (by simp) (compare_notation true hc hr (by omega)
      (bRollList_notation true hl hs (by omega)) (Frame.refl _ _)), Frame.refl _ _⟩
  | rRollList hl =>
    simp only [Node.height] at hd
    exact ⟨h, rRollList_notation true (.inl rfl) hl hd, Frame.refl _ _⟩
  | rRollComp hx hc hl hr =>
    simp only [Node.height] at hd
    obtain ⟨d, rfl⟩ : ∃ d', d = d' + 2 := ⟨d - 2, by omega⟩
    exact ⟨h, command_notation true hx (by simp) (compare_notation true hc hr (by omega)
      (rRollList_notation true (.inl rfl) hl (by omega)) (Frame.refl _ _)), Frame.refl _ _⟩
  | uRollExpr hu =>
    simp only [Node.height] at hd
    exact uRollExpr_notation true hu hd
  | uRollComp hx hc hl hr =>
    simp only [Node.height] at hd
    obtain ⟨d, rfl⟩ : ∃ d', d = d' + 2 := ⟨d - 2, by omega⟩
    obtain ⟨h1, he, f1⟩ := uRollExpr_notation (s := s) (d := d) true hl (by omega)
    exact ⟨h1, command_notation true hx (by simp) (compare_notation true hc hr (by omega)
      he f1), f1⟩

/-! ## S-expressions -/

section
variable (isPrint : Char → Bool)

theorem operandSExp_ok {go : Ptr → H σ Str} {p : Ptr} {S : HSt σ} {o} (hp : p ≠ none)
    (hg : go p S = o) : operandSExp go p S = o := by
  unfold operandSExp; rw [if_neg hp]; exact hg

/-- `SExp` on memory gives the S-expression of the tree, and leaves everything as it is. -/
theorem sexp_ok {h : Heap} {s : St σ} (d : Nat) : ∀ {p e fp}, Rep h p e fp → e.height ≤ d →
    sexp isPrint d p ⟨s, h⟩ = (.ok e.sexp, ⟨s, h⟩) := by
  induction d with
  | zero => intro p e fp _ hd; have := height_pos e; omega
  | succ d ih =>
    intro p e fp hr hd
    rw [sexp]
    unfold sexpStep
    cases hr with
    | int hx => rw [deref_bind hx]; rfl
    | sumRoll hx => rw [deref_bind hx]; rfl
    | neg hx hp =>
      rw [deref_bind hx]
      simp only [Expr.height] at hd
      simp only
      rw [bind_ok (operandSExp_ok hp.ptr_ne (ih hp (by omega)))]
      rfl
    | @binary r k lp rp a b e fl fr hx he hl hr =>
      rw [infix_height he] at hd
      rw [deref_bind hx]
      simp only
      rw [bind_ok (operandSExp_ok hl.ptr_ne (ih hl (by omega))),
        bind_ok (operandSExp_ok hr.ptr_ne (ih hr (by omega)))]
      cases k <;> simp [infixExpr] at he <;> subst he <;> rfl

theorem roll_sexp {h : Heap} {s : St σ} {d r lp rp a b fl fr k}
    (hk : k.isVariableInfix = true)
    (hx : h[r]? = some (.binary k lp rp)) (hl : Rep h lp a fl) (hr : Rep h rp b fr)
    (hd : max a.height b.height ≤ d) :
    sexp isPrint (d + 1) (some r) ⟨s, h⟩ = (.ok (Roll.sexp k.typeName ⟨a, b⟩), ⟨s, h⟩) := by
  rw [sexp]
  unfold sexpStep
  rw [deref_bind hx]
  simp only
  rw [bind_ok (operandSExp_ok hl.ptr_ne (sexp_ok isPrint d hl (by omega))),
    bind_ok (operandSExp_ok hr.ptr_ne (sexp_ok isPrint d hr (by omega)))]
  simp [InfixKind.sexpOp, hk, Roll.sexp, pure, H.ret]

theorem rolls_sexp {h : Heap} {s : St σ} {d k} (hk : k.isVariableInfix = true) :
    ∀ {ps rolls fp}, RepRolls h k ps rolls fp → rollsHeight rolls ≤ d →
    sexps (sexp isPrint d) ps ⟨s, h⟩ = (.ok (rolls.map (Roll.sexp k.typeName)), ⟨s, h⟩) := by
  intro ps rolls fp hr
  induction hr with
  | nil => intro _; rfl
  | @cons r lp rp a b ps rest fl fr fs hx hl hr _ ih =>
    intro hd
    simp only [rollsHeight, Roll.height] at hd
    obtain ⟨d, rfl⟩ : ∃ d', d = d' + 1 := ⟨d - 1, by omega⟩
    rw [sexps, bind_ok (roll_sexp isPrint hk hx hl hr (by omega)), bind_ok (ih (by omega))]
    rfl

theorem bRollList_sexp {h : Heap} {s : St σ} {d r ps rolls fp}
    (hx : h[r]? = some (.bRollList ps)) (hr : RepRolls h .bRoll ps rolls fp)
    (hd : rollsHeight rolls + 1 ≤ d) :
    sexp isPrint d (some r) ⟨s, h⟩ = (.ok (bRollListSExp rolls), ⟨s, h⟩) := by
  obtain ⟨d, rfl⟩ : ∃ d', d = d' + 1 := ⟨d - 1, by omega⟩
  rw [sexp]
  unfold sexpStep
  rw [deref_bind hx]
  simp only
  rw [bind_ok (rolls_sexp isPrint rfl hr (by omega))]
  rfl

theorem threshold_sexp {h : Heap} {s : St σ} {d p t fp} (hr : RepThreshold h p t fp)
    (hd : thresholdHeight t ≤ d) :
    sexp isPrint d p ⟨s, h⟩ = (.ok (thresholdSExp t), ⟨s, h⟩) := by
  cases hr with
  | none hx =>
    obtain ⟨d, rfl⟩ : ∃ d', d = d' + 1 := ⟨d - 1, by simp [thresholdHeight] at hd; omega⟩
    rw [sexp]; unfold sexpStep; rw [deref_bind hx]; rfl
  | some hr => exact sexp_ok isPrint d hr hd

theorem rRollList_sexp {h : Heap} {s : St σ} {d p k rl fp} (hk : k.isVariableInfix = true)
    (hr : RepRRollList h k p rl fp) (hd : rl.height ≤ d) :
    sexp isPrint d p ⟨s, h⟩ = (.ok (rRollListSExp k.typeName rl), ⟨s, h⟩) := by
  cases hr with
  | @mk r ps tp rolls t fs ft hx hs ht =>
    simp only [RRollList.height] at hd
    obtain ⟨d, rfl⟩ : ∃ d', d = d' + 1 := ⟨d - 1, by omega⟩
    rw [sexp]
    unfold sexpStep
    rw [deref_bind hx]
    simp only
    rw [bind_ok (rolls_sexp isPrint hk hs (by omega)),
      bind_ok (threshold_sexp isPrint ht (by omega))]
    rfl

theorem uRollExpr_sexp {h : Heap} {s : St σ} {d p u fp} (hr : RepURollExpr h p u fp)
    (hd : u.height ≤ d) :
    ∃ h', sexp isPrint d p ⟨s, h⟩ = (.ok (GoBCDice.uRollExprSExp u), ⟨s, h'⟩) ∧
      Frame h [] h' := by
  have hl1 := uHeight_list u
  cases hr with
  | @mk r lp bp list bonus fl fb hx hl hb =>
    obtain ⟨d, rfl⟩ : ∃ d', d = d' + 1 := ⟨d - 1, by omega⟩
    simp only at hl1
    rw [sexp]
    unfold sexpStep
    rw [deref_bind hx]
    simp only [uRollExprSExp]
    cases hb with
    | none =>
      refine ⟨h, ?_, Frame.refl _ _⟩
      simp only [if_true]
      have hle : list.height ≤ d := Nat.le_of_lt_succ (Nat.lt_of_lt_of_le hl1 hd)
      rw [bind_ok (rRollList_sexp isPrint rfl hl hle)]
      rfl
    | @some p b fp hb =>
      obtain ⟨q, zp, rp, fz, fr, rfl, hq, hz, hrp, rfl⟩ := hb.bonus
      obtain ⟨sg, e⟩ := b
      simp only at hq hrp
      simp only [reduceCtorEq, if_false]
      rw [deref_bind hq]
      have hbasic : (signKind sg).isBasicInfix = true := by cases sg <;> rfl
      simp only [hbasic, if_true]
      have hcopy : (h ++ [Obj.binary (signKind sg) zp rp])[h.length]? =
          some (.binary (signKind sg) zp rp) := by simp
      let h2 := (h ++ [Obj.binary (signKind sg) zp rp]).set h.length (.binary (signKind sg) lp rp)
      have hset : setLeft (some h.length) lp ⟨s, h ++ [Obj.binary (signKind sg) zp rp]⟩ =
          (.ok (), (⟨s, h2⟩ : HSt σ)) := by
        unfold setLeft; rw [deref_bind hcopy]; rfl
      have halloc : alloc (.binary (signKind sg) zp rp) ⟨s, h⟩ =
          (.ok (some h.length), (⟨s, h ++ [Obj.binary (signKind sg) zp rp]⟩ : HSt σ)) := rfl
      have f2 : Frame h [] h2 :=
        (Frame.append h [] _).trans (Frame.set _ _ _) (by simp)
      have hc2 : h2[h.length]? = some (.binary (signKind sg) lp rp) := get_set_self hcopy
      refine ⟨h2, ?_, f2⟩
      rw [bind_ok halloc, bind_ok hset]
      simp only [URollExpr.height] at hd
      obtain ⟨d, rfl⟩ : ∃ d', d = d' + 1 := ⟨d - 1, by omega⟩
      have hl2 := hl.frame f2 (by simp) (by simp [NotNil])
      have hr2 := hrp.frame f2 (by simp)
      have hbh : e.height + 1 ≤ d + 1 := by
        have : (bonusExpr (sg, e)).height = max 1 e.height + 1 := by
          cases sg <;> simp [bonusExpr, Expr.height]
        omega
      have hlp : lp ≠ none := by cases hl; simp
      have hin : sexp isPrint (d + 1) (some h.length) ⟨s, h2⟩ =
          (.ok (infixSExp (signKind sg).sexpOp (rRollListSExp chars!"URoll" list) e.sexp),
            ⟨s, h2⟩) := by
        rw [sexp]
        unfold sexpStep
        rw [deref_bind hc2]
        simp only
        rw [bind_ok (operandSExp_ok hlp (rRollList_sexp isPrint rfl hl2 (by omega))),
          bind_ok (operandSExp_ok hr2.ptr_ne (sexp_ok isPrint d hr2 (by omega)))]
        rfl
      rw [bind_ok hin]
      cases sg <;> rfl

/-- A comparison, given its left side. -/
theorem compare_sexp {h : Heap} {s : St σ} {d c lp rp b fr h1} {op : CmpOp} {ls : Str}
    (hc : h[c]? = some (.binary (.compare op.str) lp rp)) (hr : Rep h rp b fr) (hd : b.height ≤ d)
    (hlp : lp ≠ none) (hl : sexp isPrint d lp ⟨s, h⟩ = (.ok ls, ⟨s, h1⟩)) (f : Frame h [] h1) :
    sexp isPrint (d + 1) (some c) ⟨s, h⟩ = (.ok (compareSExp ls op b), ⟨s, h1⟩) := by
  rw [sexp]
  unfold sexpStep
  rw [deref_bind hc]
  simp only
  rw [bind_ok (operandSExp_ok hlp hl),
    bind_ok (operandSExp_ok hr.ptr_ne (sexp_ok isPrint d (hr.frame0 f) hd))]
  rfl

theorem command_sexp {h : Heap} {s : St σ} {d r e ty h1} {es : Str}
    (hx : h[r]? = some (.command ty e)) (he : sexp isPrint d e ⟨s, h⟩ = (.ok es, ⟨s, h1⟩)) :
    sexp isPrint (d + 1) (some r) ⟨s, h⟩ = (.ok (commandSExp ty.name es), ⟨s, h1⟩) := by
  rw [sexp]
  unfold sexpStep
  rw [deref_bind hx]
  simp only
  rw [bind_ok he]
  rfl

theorem items_sexp {h : Heap} {s : St σ} {d} : ∀ {ps items fs}, RepItems h ps items fs →
    sexps (sexp isPrint (d + 1)) ps ⟨s, h⟩ = (.ok (items.map (quote isPrint)), ⟨s, h⟩) := by
  intro ps items fs hr
  induction hr with
  | nil => rfl
  | @cons r str ps rest fs hx _ ih =>
    have h1 : sexp isPrint (d + 1) (some r) ⟨s, h⟩ = (.ok (quote isPrint str), ⟨s, h⟩) := by
      rw [sexp]; unfold sexpStep; rw [deref_bind hx]; rfl
    rw [sexps, bind_ok h1, bind_ok ih]
    rfl

/-- `SExp` of any command in memory is the S-expression of the command. -/
theorem nodeSExp_ok {h : Heap} {s : St σ} {d p n fp} (hr : RepNode h p n fp)
    (hd : n.height ≤ d) :
    ∃ h', sexp isPrint d p ⟨s, h⟩ = (.ok (n.sexp isPrint), ⟨s, h'⟩) ∧ Frame h [] h' := by
  cases hr with
  | choice hx hi =>
    obtain ⟨d, rfl⟩ : ∃ d', d = d' + 2 := ⟨d - 2, by simp [Node.height] at hd; omega⟩
    refine ⟨h, ?_, Frame.refl _ _⟩
    rw [sexp]; unfold sexpStep; rw [deref_bind hx]; simp only
    rw [bind_ok (items_sexp isPrint hi)]
    simp [Node.sexp, choiceSExp, List.flatMap_map, pure, H.ret]
  | «calc» hx he =>
    simp only [Node.height] at hd
    obtain ⟨d, rfl⟩ : ∃ d', d = d' + 1 := ⟨d - 1, by omega⟩
    exact ⟨h, command_sexp isPrint hx (sexp_ok isPrint d he (by omega)), Frame.refl _ _⟩
  | dRollExpr hx he =>
    simp only [Node.height] at hd
    obtain ⟨d, rfl⟩ : ∃ d', d = d' + 1 := ⟨d - 1, by omega⟩
    exact ⟨h, command_sexp isPrint hx (sexp_ok isPrint d he (by omega)), Frame.refl _ _⟩
  | dRollComp hx hc hl hr =>
    simp only [Node.height] at hd
    obtain ⟨d, rfl⟩ : ∃ d', d = d' + 2 := ⟨d - 2, by omega⟩
    exact ⟨h, command_sexp isPrint hx (compare_sexp isPrint hc hr (by omega) hl.ptr_ne
      (sexp_ok isPrint d hl (by omega)) (Frame.refl _ _)), Frame.refl _ _⟩
  | bRollList hx hs =>
    simp only [Node.height] at hd
    exact ⟨h, bRollList_sexp isPrint hx hs hd, Frame.refl _ _⟩
  | bRollComp hx hc hl hs hr =>
    simp only [Node.height] at hd
    obtain ⟨d, rfl⟩ : ∃ d', d = d' + 2 := ⟨d - 2, by omega⟩
    exact ⟨h, command_sexp isPrint hx (compare_sexp isPrint hc hr (by omega) (by simp)
      (bRollList_sexp isPrint hl hs (by omega)) (Frame.refl _ _)), Frame.refl _ _⟩
  | rRollList hl =>
    simp only [Node.height] at hd
    exact ⟨h, rRollList_sexp (k := .rRoll) isPrint rfl hl hd, Frame.refl _ _⟩
  | rRollComp hx hc hl hr =>
    simp only [Node.height] at hd
    obtain ⟨d, rfl⟩ : ∃ d', d = d' + 2 := ⟨d - 2, by omega⟩
    exact ⟨h, command_sexp isPrint hx (compare_sexp isPrint hc hr (by omega)
      (by cases hl; simp) (rRollList_sexp (k := .rRoll) isPrint rfl hl (by omega)) (Frame.refl _ _)),
      Frame.refl _ _⟩
  | uRollExpr hu =>
    simp only [Node.height] at hd
    exact uRollExpr_sexp isPrint hu hd
  | uRollComp hx hc hl hr =>
    simp only [Node.height] at hd
    obtain ⟨d, rfl⟩ : ∃ d', d = d' + 2 := ⟨d - 2, by omega⟩
    obtain ⟨h1, he, f1⟩ := uRollExpr_sexp isPrint (s := s) (d := d) hl (by omega)
    exact ⟨h1, command_sexp isPrint hx (compare_sexp isPrint hc hr (by omega)
      (by cases hl; simp) he f1), f1⟩

end

end GoBCDice.Raw
