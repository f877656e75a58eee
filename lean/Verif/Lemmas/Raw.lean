import Verif.Spec.Raw

/-! # Trees in memory: frames, simulation, and the refinement of `Eval` on expressions -/

namespace GoBCDice.Raw

variable {σ : Type}

/-! ## Frames -/

theorem Frame.refl (h : Heap) (fp : List Ref) : Frame h fp h := ⟨Nat.le_refl _, fun _ _ _ => rfl⟩

theorem Frame.mono {h fp fp' h'} (f : Frame h fp h') (hs : ∀ x ∈ fp, x ∈ fp' ∨ h.length ≤ x) :
    Frame h fp' h' :=
  ⟨f.1, fun r hr hn => f.2 r hr (fun hm => by
    rcases hs r hm with h1 | h1
    · exact hn h1
    · omega)⟩

theorem Frame.nil {h fp h'} (f : Frame h [] h') : Frame h fp h' := f.mono (by simp)

theorem Frame.trans {h fp h1 fp1 h2} (f : Frame h fp h1) (g : Frame h1 fp1 h2)
    (hs : ∀ x ∈ fp1, x ∈ fp ∨ h.length ≤ x) : Frame h fp h2 := by
  refine ⟨Nat.le_trans f.1 g.1, fun r hr hn => ?_⟩
  rw [g.2 r (Nat.lt_of_lt_of_le hr f.1) (fun hm => ?_), f.2 r hr hn]
  rcases hs r hm with h1 | h1
  · exact hn h1
  · omega

theorem Frame.append (h : Heap) (fp extra) : Frame h fp (h ++ extra) :=
  ⟨by simp, fun r hr _ => by rw [List.getElem?_append_left hr]⟩

theorem Frame.set (h : Heap) (r : Ref) (o : Obj) : Frame h [r] (h.set r o) :=
  ⟨by simp, fun x _ hn => by
    rw [List.getElem?_set_ne]; intro hx; subst hx; exact hn (by simp)⟩

theorem lt_of_get {h : Heap} {r : Ref} {o : Obj} (hr : h[r]? = some o) : r < h.length :=
  (List.getElem?_eq_some_iff.mp hr).1

theorem get_set_self {h : Heap} {r : Ref} {o o' : Obj} (hr : h[r]? = some o') :
    (h.set r o)[r]? = some o := List.getElem?_set_self (lt_of_get hr)

/-- None of the nodes is the node `Nil`. -/
def NotNil (h : Heap) (fp : List Ref) : Prop := ∀ x ∈ fp, h[x]? ≠ some .nilNode

/-! ## Footprints -/

theorem Rep.lt {h p e fp} (hr : Rep h p e fp) : ∀ x ∈ fp, x < h.length := by
  induction hr with
  | int hx => intro x hm; simp at hm; subst hm; exact lt_of_get hx
  | sumRoll hx => intro x hm; simp at hm; subst hm; exact lt_of_get hx
  | neg hx _ ih =>
    intro x hm
    rcases List.mem_cons.mp hm with rfl | hm
    · exact lt_of_get hx
    · exact ih x hm
  | binary hx _ _ _ ihl ihr =>
    intro x hm
    rcases List.mem_cons.mp hm with rfl | hm
    · exact lt_of_get hx
    · rcases List.mem_append.mp hm with hm | hm
      · exact ihl x hm
      · exact ihr x hm

theorem Rep.congr {h h' p e fp} (hr : Rep h p e fp) (hc : ∀ x ∈ fp, h'[x]? = h[x]?) :
    Rep h' p e fp := by
  induction hr with
  | int hx => exact .int ((hc _ (by simp)).trans hx)
  | sumRoll hx => exact .sumRoll ((hc _ (by simp)).trans hx)
  | neg hx _ ih => exact .neg ((hc _ (by simp)).trans hx) (ih (fun x hm => hc x (by simp [hm])))
  | binary hx he _ _ ihl ihr =>
    exact .binary ((hc _ (by simp)).trans hx) he (ihl (fun x hm => hc x (by simp [hm])))
      (ihr (fun x hm => hc x (by simp [hm])))

/-- A tree disjoint from what was overwritten is still there. -/
theorem Rep.frame {h h' p e fp fp2} (hr : Rep h p e fp) (f : Frame h fp2 h')
    (hd : ∀ x ∈ fp, x ∉ fp2) : Rep h' p e fp :=
  hr.congr (fun x hm => f.2 x (hr.lt x hm) (hd x hm))

theorem Rep.frame0 {h h' p e fp} (hr : Rep h p e fp) (f : Frame h [] h') : Rep h' p e fp :=
  hr.frame f (by simp)

theorem RepRolls.lt {h k ps rs fp} (hr : RepRolls h k ps rs fp) : ∀ x ∈ fp, x < h.length := by
  induction hr with
  | nil => simp
  | cons hx hl hr _ ih =>
    intro x hm
    simp only [List.cons_append, List.mem_cons, List.mem_append] at hm
    rcases hm with rfl | (hm | hm) | hm
    · exact lt_of_get hx
    · exact hl.lt x hm
    · exact hr.lt x hm
    · exact ih x hm

theorem RepRolls.congr {h h' k ps rs fp} (hr : RepRolls h k ps rs fp)
    (hc : ∀ x ∈ fp, h'[x]? = h[x]?) : RepRolls h' k ps rs fp := by
  induction hr with
  | nil => exact .nil
  | cons hx hl hr _ ih =>
    exact .cons ((hc _ (by simp)).trans hx) (hl.congr (fun x hm => hc x (by simp [hm])))
      (hr.congr (fun x hm => hc x (by simp [hm]))) (ih (fun x hm => hc x (by simp [hm])))

theorem RepRolls.frame {h h' k ps rs fp fp2} (hr : RepRolls h k ps rs fp) (f : Frame h fp2 h')
    (hd : ∀ x ∈ fp, x ∉ fp2) : RepRolls h' k ps rs fp :=
  hr.congr (fun x hm => f.2 x (hr.lt x hm) (hd x hm))

theorem RepThreshold.lt {h p t fp} (hr : RepThreshold h p t fp) : ∀ x ∈ fp, x < h.length := by
  cases hr with
  | none _ => simp
  | some hr => exact hr.lt

/-- A threshold is preserved if neither its nodes nor the node `Nil` were overwritten. -/
theorem RepThreshold.frame {h h' p t fp fp2} (hr : RepThreshold h p t fp) (f : Frame h fp2 h')
    (hd : ∀ x ∈ fp, x ∉ fp2) (hn : NotNil h fp2) : RepThreshold h' p t fp := by
  cases hr with
  | none hx => exact .none ((f.2 _ (lt_of_get hx) (fun hm => hn _ hm hx)).trans hx)
  | some hr => exact .some (hr.frame f hd)

theorem RepRRollList.lt {h k p rl fp} (hr : RepRRollList h k p rl fp) : ∀ x ∈ fp, x < h.length := by
  cases hr with
  | mk hx hs ht =>
    intro x hm
    simp only [List.mem_cons, List.mem_append] at hm
    rcases hm with rfl | hm | hm
    · exact lt_of_get hx
    · exact ht.lt x hm
    · exact hs.lt x hm

theorem RepRRollList.frame {h h' k p rl fp fp2} (hr : RepRRollList h k p rl fp)
    (f : Frame h fp2 h') (hd : ∀ x ∈ fp, x ∉ fp2) (hn : NotNil h fp2) :
    RepRRollList h' k p rl fp := by
  cases hr with
  | mk hx hs ht =>
    exact .mk ((f.2 _ (lt_of_get hx) (hd _ (by simp))).trans hx)
      (hs.frame f (fun x hm => hd x (by simp [hm])))
      (ht.frame f (fun x hm => hd x (by simp [hm])) hn)

theorem RepBonus.lt {h p b fp} (hr : RepBonus h p b fp) : ∀ x ∈ fp, x < h.length := by
  cases hr with
  | none => simp
  | some hr => exact hr.lt

theorem RepBonus.frame {h h' p b fp fp2} (hr : RepBonus h p b fp)
    (f : Frame h fp2 h') (hd : ∀ x ∈ fp, x ∉ fp2) : RepBonus h' p b fp := by
  cases hr with
  | none => exact .none
  | some hr => exact .some (hr.frame f hd)

theorem RepURollExpr.lt {h p u fp} (hr : RepURollExpr h p u fp) : ∀ x ∈ fp, x < h.length := by
  cases hr with
  | mk hx hl hb =>
    intro x hm
    simp only [List.mem_cons, List.mem_append] at hm
    rcases hm with rfl | hm | hm
    · exact lt_of_get hx
    · exact hl.lt x hm
    · exact hb.lt x hm

theorem RepURollExpr.frame {h h' p u fp fp2} (hr : RepURollExpr h p u fp)
    (f : Frame h fp2 h') (hd : ∀ x ∈ fp, x ∉ fp2) (hn : NotNil h fp2) :
    RepURollExpr h' p u fp := by
  cases hr with
  | mk hx hl hb =>
    exact .mk ((f.2 _ (lt_of_get hx) (hd _ (by simp))).trans hx)
      (hl.frame f (fun x hm => hd x (by simp [hm])) hn)
      (hb.frame f (fun x hm => hd x (by simp [hm])))

/-- No node of an expression is the node `Nil`. -/
theorem Rep.not_nil {h p e fp} (hr : Rep h p e fp) : NotNil h fp := by
  induction hr with
  | int hx => intro x hm; simp at hm; subst hm; rw [hx]; simp
  | sumRoll hx => intro x hm; simp at hm; subst hm; rw [hx]; simp
  | neg hx _ ih =>
    intro x hm
    rcases List.mem_cons.mp hm with rfl | hm
    · rw [hx]; simp
    · exact ih x hm
  | binary hx _ _ _ ihl ihr =>
    intro x hm
    rcases List.mem_cons.mp hm with rfl | hm
    · rw [hx]; simp
    · rcases List.mem_append.mp hm with hm | hm
      · exact ihl x hm
      · exact ihr x hm

theorem RepRolls.not_nil {h k ps rs fp} (hr : RepRolls h k ps rs fp) : NotNil h fp := by
  induction hr with
  | nil => simp [NotNil]
  | cons hx hl hr _ ih =>
    intro x hm
    simp only [List.cons_append, List.mem_cons, List.mem_append] at hm
    rcases hm with rfl | (hm | hm) | hm
    · rw [hx]; simp
    · exact hl.not_nil x hm
    · exact hr.not_nil x hm
    · exact ih x hm

/-! ## Simulation -/

/-- The run `x` on memory behaves as the run `y` on values: same state, same kind of outcome with
the same message, only nodes of `fp` overwritten, and on success the results are related. -/
def Sim {α β : Type} (h : Heap) (fp : List Ref) (x : Out α × HSt σ) (y : Out β × St σ)
    (Q : α → β → Heap → Prop) : Prop :=
  x.2.st = y.2 ∧ Frame h fp x.2.heap ∧
    match x.1, y.1 with
    | .ok a, .ok b => Q a b x.2.heap
    | .err m, .err m' => m = m'
    | .panic m, .panic m' => m = m'
    | _, _ => False

variable {α β γ δ : Type}

theorem Sim.intro_ok {h fp a b} {s : St σ} {h' : Heap} {Q : α → β → Heap → Prop}
    (f : Frame h fp h') (q : Q a b h') :
    Sim h fp ((.ok a, ⟨s, h'⟩) : Out α × HSt σ) ((.ok b, s) : Out β × St σ) Q := ⟨rfl, f, q⟩

theorem Sim.pure {h fp a b} {s : St σ} {h' : Heap} {Q : α → β → Heap → Prop}
    (f : Frame h fp h') (q : Q a b h') :
    Sim h fp ((Pure.pure a : H σ α) ⟨s, h'⟩) ((Pure.pure b : M σ β) s) Q := ⟨rfl, f, q⟩

theorem Sim.fail {h fp m} {s : St σ} {h' : Heap} {Q : α → β → Heap → Prop}
    (f : Frame h fp h') :
    Sim h fp ((H.fail m : H σ α) ⟨s, h'⟩) ((M.fail m : M σ β) s) Q := ⟨rfl, f, rfl⟩

theorem Sim.crash {h fp m} {s : St σ} {h' : Heap} {Q : α → β → Heap → Prop}
    (f : Frame h fp h') :
    Sim h fp ((H.crash m : H σ α) ⟨s, h'⟩) ((M.crash m : M σ β) s) Q := ⟨rfl, f, rfl⟩

theorem Sim.weaken {h fp} {x : Out α × HSt σ} {y : Out β × St σ} {Q R : α → β → Heap → Prop}
    (hx : Sim h fp x y Q) (hq : ∀ a b, Frame h fp x.2.heap → Q a b x.2.heap → R a b x.2.heap) :
    Sim h fp x y R := by
  obtain ⟨xo, xs⟩ := x
  obtain ⟨yo, ys⟩ := y
  obtain ⟨h1, h2, h3⟩ := hx
  refine ⟨h1, h2, ?_⟩
  cases xo <;> cases yo <;> simp_all

/-- A step starting in a later memory. -/
theorem Sim.from {h fp h1 fp1} {x : Out α × HSt σ} {y : Out β × St σ} {Q : α → β → Heap → Prop}
    (hx : Sim h1 fp1 x y Q) (f : Frame h fp h1) (hs : ∀ x ∈ fp1, x ∈ fp ∨ h.length ≤ x) :
    Sim h fp x y Q :=
  ⟨hx.1, f.trans hx.2.1 hs, hx.2.2⟩

theorem Sim.bind {h fp} {x : H σ α} {y : M σ β} {f : α → H σ γ} {g : β → M σ δ}
    {S : HSt σ} {s : St σ} {Q : α → β → Heap → Prop} {R : γ → δ → Heap → Prop}
    (hx : Sim h fp (x S) (y s) Q)
    (hf : ∀ a b s' h', (x S) = (.ok a, ⟨s', h'⟩) → (y s) = (.ok b, s') → Frame h fp h' → Q a b h' →
      Sim h fp (f a ⟨s', h'⟩) (g b s') R) :
    Sim h fp ((x >>= f) S) ((y >>= g) s) R := by
  show Sim h fp (H.bnd x f S) (M.bnd y g s) R
  unfold H.bnd M.bnd
  generalize hxs : x S = xr at hx
  generalize hys : y s = yr at hx
  obtain ⟨xo, ⟨xs, xh⟩⟩ := xr
  obtain ⟨yo, ys⟩ := yr
  obtain ⟨h1, h2, h3⟩ := hx
  cases h1
  cases xo <;> cases yo <;> simp only at h3
  · exact hf _ _ _ _ hxs hys h2 h3
  · exact ⟨rfl, h2, h3⟩
  · exact ⟨rfl, h2, h3⟩

/-- A step on memory only. -/
theorem Sim.bindL {h fp} {x : H σ α} {f : α → H σ γ} {y : Out δ × St σ}
    {S S' : HSt σ} {a : α} {R : γ → δ → Heap → Prop}
    (hx : x S = (.ok a, S')) (hf : Sim h fp (f a S') y R) :
    Sim h fp ((x >>= f) S) y R := by
  show Sim h fp (H.bnd x f S) y R
  unfold H.bnd
  rw [hx]
  exact hf

/-- A step on values only. -/
theorem Sim.bindR {h fp} {x : Out γ × HSt σ} {y : M σ β} {g : β → M σ δ}
    {s s' : St σ} {b : β} {R : γ → δ → Heap → Prop}
    (hy : y s = (.ok b, s')) (hg : Sim h fp x (g b s') R) :
    Sim h fp x ((y >>= g) s) R := by
  show Sim h fp x (M.bnd y g s) R
  unfold M.bnd
  rw [hy]
  exact hg

theorem Sim.lift {h fp} {y : M σ α} {s : St σ} {h' : Heap} (f : Frame h fp h') :
    Sim h fp (H.lift y ⟨s, h'⟩) (y s) (fun a b h2 => a = b ∧ h2 = h') := by
  unfold H.lift
  generalize hys : y s = yr
  obtain ⟨yo, ys⟩ := yr
  refine ⟨by simp, by simpa using f, ?_⟩
  cases yo <;> simp

theorem bind_ok {x : H σ α} {f : α → H σ γ} {S S' : HSt σ} {a : α} (hx : x S = (.ok a, S')) :
    (x >>= f) S = f a S' := by
  show H.bnd x f S = _
  unfold H.bnd
  rw [hx]

theorem mbind_ok {x : M σ α} {f : α → M σ γ} {S S' : St σ} {a : α} (hx : x S = (.ok a, S')) :
    (x >>= f) S = f a S' := by
  show M.bnd x f S = _
  unfold M.bnd
  rw [hx]

theorem deref_ok {r : Ref} {o : Obj} {s : St σ} {h : Heap} (hr : h[r]? = some o) :
    deref (some r) ⟨s, h⟩ = (.ok o, ⟨s, h⟩) := by
  simp [deref, hr]

theorem deref_bind {r : Ref} {o : Obj} {s : St σ} {h : Heap} {f : Obj → H σ γ}
    (hr : h[r]? = some o) : (deref (some r) >>= f) ⟨s, h⟩ = f o ⟨s, h⟩ := bind_ok (deref_ok hr)

theorem Rep.ptr {h p e fp} (hr : Rep h p e fp) : ∃ r, p = some r := by
  cases hr <;> exact ⟨_, rfl⟩

theorem Rep.ptr_ne {h p e fp} (hr : Rep h p e fp) : p ≠ none := by
  cases hr <;> simp

/-! ## `Eval` on expressions -/

/-- What `evalInfix` computes once the operands are integers. -/
def infixCore (E : Evaluator σ) (k : InfixKind) (x y : Int64) : H σ Value :=
  match k with
  | .div m => evalIntegerDivide m x y
  | k => evalIntegerInfix E k.operator x y

theorem evalInfix_sim {E : Evaluator σ} {ev : Ptr → H σ Value} {k : InfixKind} {lp rp : Ptr}
    {a b : Expr} {h0 h : Heap} {s : St σ} {g : Int64 → Int64 → M σ β} {fl fr : List Ref}
    {Q : Value → β → Heap → Prop}
    (f : Frame h0 [] h) (hl : Rep h lp a fl) (hr : Rep h rp b fr)
    (evl : ∀ s h', Frame h [] h' →
      Sim h' [] (ev lp ⟨s, h'⟩) (E.eval a s) (fun v n _ => v = .integer n))
    (evr : ∀ s h', Frame h [] h' →
      Sim h' [] (ev rp ⟨s, h'⟩) (E.eval b s) (fun v n _ => v = .integer n))
    (core : ∀ x y s h', Frame h0 [] h' → Sim h0 [] (infixCore E k x y ⟨s, h'⟩) (g x y s) Q) :
    Sim h0 [] (evalInfix E ev k lp rp ⟨s, h⟩)
      ((do let x ← E.eval a; let y ← E.eval b; g x y) s) Q := by
  have hop : ∀ s, Sim h0 [] (evalOperands ev k.operator lp rp ⟨s, h⟩)
      ((do let x ← E.eval a; let y ← E.eval b; pure (x, y)) s)
      (fun v n _ => v = (.integer n.1, .integer n.2)) := by
    intro s
    unfold evalOperands
    rw [if_neg hl.ptr_ne, if_neg hr.ptr_ne]
    refine Sim.bind ((evl s h (Frame.refl _ _)).from f (by simp)) ?_
    intro v x s1 h1 hv _ f1 q1
    subst q1
    have f01 : Frame h [] h1 := by
      have := (evl s h (Frame.refl _ _)).2.1
      rw [hv] at this; exact this
    refine Sim.bind ((evr s1 h1 f01).from f1 (by simp)) ?_
    intro w y s2 h2 _ _ f2 q2
    subst q2
    exact Sim.pure f2 rfl
  have heq : ((do let x ← E.eval a; let y ← E.eval b; g x y) : M σ β) s =
      ((do let xy ← (do let x ← E.eval a; let y ← E.eval b; pure (x, y)); g xy.1 xy.2) : M σ β) s := by
    simp only [bind, M.bnd]
    cases E.eval a s with
    | mk o s1 =>
      cases o with
      | ok x =>
        simp only
        cases E.eval b s1 with
        | mk o s2 => cases o <;> rfl
      | err => rfl
      | panic => rfl
  rw [heq]
  unfold evalInfix
  refine Sim.bind (hop s) ?_
  rintro ⟨v, w⟩ ⟨x, y⟩ s1 h1 _ _ f1 q
  cases q
  exact core x y s1 h1 f1

/-- The result of an expression: an integer, and memory as it was. -/
theorem infix_height {k a b e} (he : infixExpr k a b = some e) :
    e.height = max a.height b.height + 1 := by
  cases k <;> simp [infixExpr] at he <;> subst he <;> rfl

theorem lift_pure_bind (x : M σ α) (f : α → H σ β) (s : St σ) (h : Heap) :
    (H.lift x >>= f) ⟨s, h⟩ =
      match x s with
      | (.ok a, s') => f a ⟨s', h⟩
      | (.err m, s') => (.err m, ⟨s', h⟩)
      | (.panic m, s') => (.panic m, ⟨s', h⟩) := by
  show H.bnd (H.lift x) f ⟨s, h⟩ = _
  simp only [H.bnd, H.lift]
  cases x s with
  | mk o s' => cases o <;> rfl

/-- The integer operation of an infix expression, on both sides. -/
theorem infixCore_sim (E : Evaluator σ) {k : InfixKind} {a b e : Expr}
    (he : infixExpr k a b = some e) :
    ∃ g : Int64 → Int64 → M σ Int64,
      (∀ s, E.eval e s = ((do let x ← E.eval a; let y ← E.eval b; g x y) : M σ Int64) s) ∧
      (∀ h0 h x y s, Frame h0 [] h →
        Sim h0 [] (infixCore E k x y ⟨s, h⟩) (g x y s) (fun v n _ => v = .integer n)) := by
  cases k <;> simp [infixExpr] at he <;> subst he
  · exact ⟨fun x y => pure (x + y), fun _ => rfl, fun h0 h x y s f => ⟨rfl, f, rfl⟩⟩
  · exact ⟨fun x y => pure (x - y), fun _ => rfl, fun h0 h x y s f => ⟨rfl, f, rfl⟩⟩
  · exact ⟨fun x y => pure (x * y), fun _ => rfl, fun h0 h x y s f => ⟨rfl, f, rfl⟩⟩
  · refine ⟨fun x y => Evaluator.evalIntegerDivide _ x y, fun _ => rfl, fun h0 h x y s f => ?_⟩
    simp only [infixCore, evalIntegerDivide, Evaluator.evalIntegerDivide]
    by_cases hy : y = 0
    · simp only [hy, if_true]; exact Sim.fail f
    · simp only [hy, if_false]; exact Sim.pure f rfl
  · refine ⟨fun x y => E.evalSumRoll x y, fun _ => rfl, fun h0 h x y s f => ?_⟩
    have hc : infixCore E .dRoll x y =
        (do let ds ← H.lift (E.rollDice x y); pure (.integer (sumDice ds)) : H σ Value) := rfl
    rw [hc]
    unfold Evaluator.evalSumRoll
    refine Sim.bind (Sim.lift f) ?_
    rintro ds ds' s1 h1 _ _ f1 ⟨rfl, rfl⟩
    exact Sim.pure f1 rfl
  · refine ⟨fun x y => E.evalRandomNumber x y, fun _ => rfl, fun h0 h x y s f => ?_⟩
    have hc : infixCore E .random x y =
        (if x ≥ y then H.fail (Evaluator.randomNumberMsg x y)
         else do
          let ds ← H.lift (E.rollDice 1 (y - x + 1))
          let d ← H.lift (Evaluator.firstDie ds)
          pure (.integer ((x - 1) + d.value)) : H σ Value) := rfl
    rw [hc]
    show Sim h0 [] _ (Evaluator.evalRandomNumber E x y s) _
    unfold Evaluator.evalRandomNumber
    by_cases hxy : y ≤ x
    · rw [if_pos hxy, if_pos hxy]; exact Sim.fail f
    · rw [if_neg hxy, if_neg hxy]
      refine Sim.bind (Sim.lift f) ?_
      rintro ds ds' s1 h1 _ _ f1 ⟨rfl, rfl⟩
      refine Sim.bind (Sim.lift f1) ?_
      rintro d d' s2 h2 _ _ f2 ⟨rfl, rfl⟩
      exact Sim.pure f2 rfl

/-- `Eval` on memory computes what `Eval` on the tree computes. -/
theorem eval_sim (E : Evaluator σ) {h p e fp} (hr : Rep h p e fp) :
    ∀ d, e.height ≤ d → ∀ s h', Frame h [] h' →
      Sim h' [] (eval E d p ⟨s, h'⟩) (E.eval e s) (fun v n _ => v = .integer n) := by
  induction hr with
  | @int r v hx =>
    intro d hd s h' f
    obtain ⟨d, rfl⟩ : ∃ d', d = d' + 1 := ⟨d - 1, by simp [Expr.height] at hd; omega⟩
    have hx' := (f.2 r (lt_of_get hx) (by simp)).trans hx
    simp only [eval, evalStep]
    rw [deref_bind hx']
    exact Sim.pure (Frame.refl _ _) rfl
  | @sumRoll r ds hx =>
    intro d hd s h' f
    obtain ⟨d, rfl⟩ : ∃ d', d = d' + 1 := ⟨d - 1, by simp [Expr.height] at hd; omega⟩
    have hx' := (f.2 r (lt_of_get hx) (by simp)).trans hx
    simp only [eval, evalStep]
    rw [deref_bind hx']
    exact Sim.pure (Frame.refl _ _) rfl
  | @neg r p e fp hx hp ih =>
    intro d hd s h' f
    obtain ⟨d, rfl⟩ : ∃ d', d = d' + 1 := ⟨d - 1, by simp [Expr.height] at hd; omega⟩
    have hx' := (f.2 r (lt_of_get hx) (by simp)).trans hx
    simp only [eval, evalStep]
    rw [deref_bind hx']
    simp only [evalPrefix]
    rw [if_neg hp.ptr_ne]
    show Sim h' [] _ ((do let v ← E.eval e; pure (-v) : M σ Int64) s) _
    refine Sim.bind (ih d (by simp [Expr.height] at hd; omega) s h' f) ?_
    rintro v n s1 h1 _ _ f1 rfl
    exact Sim.pure f1 rfl
  | @binary r k lp rp a b e fl fr hx he hl hr ihl ihr =>
    intro d hd s h' f
    rw [infix_height he] at hd
    obtain ⟨d, rfl⟩ : ∃ d', d = d' + 1 := ⟨d - 1, by omega⟩
    have hx' := (f.2 r (lt_of_get hx) (by simp)).trans hx
    simp only [eval, evalStep]
    rw [deref_bind hx']
    obtain ⟨g, hg, hcore⟩ := infixCore_sim E he
    rw [hg]
    exact evalInfix_sim (Frame.refl _ _) (hl.frame0 f) (hr.frame0 f)
      (fun s h2 f2 => ihl d (by omega) s h2 (f.trans f2 (by simp)))
      (fun s h2 f2 => ihr d (by omega) s h2 (f.trans f2 (by simp)))
      (fun x y s h2 f2 => hcore h' h2 x y s f2)

end GoBCDice.Raw
