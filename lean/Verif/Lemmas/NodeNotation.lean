import Verif.Lemmas.Redisplay
import Verif.Spec.Display

/-!
# The notation of whole commands
-/

namespace GoBCDice

open Expr

/-! ## The command denoted by the notation -/

/-- Normal form of the operands of a roll. -/
def Roll.norm (r : Roll) : Roll := { num := r.num.norm, sides := r.sides.norm }

/-- Normal form of a roll list. -/
def RRollList.norm (rl : RRollList) : RRollList :=
  { rolls := rl.rolls.map Roll.norm, threshold := rl.threshold.map Expr.norm }

/-- Normal form of a U roll. -/
def URollExpr.norm (u : URollExpr) : URollExpr :=
  { list := u.list.norm, bonus := u.bonus.map (fun b => (b.1, b.2.norm)) }

/-- Normal form of a command. -/
def Node.norm : Node → Node
  | .choice items => .choice items
  | .calc e => .calc e.norm
  | .dRollExpr e => .dRollExpr e.norm
  | .dRollComp l op r => .dRollComp l.norm op r.norm
  | .bRollList rs => .bRollList (rs.map Roll.norm)
  | .bRollComp rs op r => .bRollComp (rs.map Roll.norm) op r.norm
  | .rRollList rl => .rRollList rl.norm
  | .rRollComp rl op r => .rRollComp rl.norm op r.norm
  | .uRollExpr u => .uRollExpr u.norm
  | .uRollComp u op r => .uRollComp u.norm op r.norm

/-! ## Same text -/

theorem rollOperandNotation_norm (wl : Bool) (e : Expr) :
    rollOperandNotation wl e.norm = rollOperandNotation wl e := by
  simp only [rollOperandNotation, norm_isPrefix, norm_needsParen, infixNotation_norm]

theorem rollsNotation_norm (op : Str) (rs : List Roll) :
    rollsNotation op (rs.map Roll.norm) = rollsNotation op rs := by
  unfold rollsNotation
  rw [List.map_map]
  congr 1
  apply List.map_congr_left
  intro r _
  simp only [Function.comp, rollNotation, Roll.norm, rollOperandNotation_norm]

theorem rRollListNotation_norm (op : Str) (rl : RRollList) :
    rRollListNotation op rl.norm = rRollListNotation op rl := by
  unfold rRollListNotation RRollList.norm
  rw [rollsNotation_norm]
  cases rl.threshold with
  | none => rfl
  | some t => simp only [Option.map, infixNotation_norm]

theorem uRollExprNotation_norm (u : URollExpr) : uRollExprNotation u.norm = uRollExprNotation u := by
  unfold uRollExprNotation URollExpr.norm
  rw [rRollListNotation_norm]
  cases u.bonus with
  | none => rfl
  | some b =>
    simp only [Option.map, bonusOperandNotation, norm_isPrefix, norm_needsParen, infixNotation_norm]

theorem nodeNotation_norm (node : Node) : nodeNotation node.norm = nodeNotation node := by
  cases node <;> simp only [Node.norm, nodeNotation, calcNotation, infixNotation_norm,
    rollsNotation_norm, rRollListNotation_norm, uRollExprNotation_norm]

/-! ## The text denotes the normal form -/

theorem rollsText_notation {c c' : Char} {s : Str} {rs : List Roll} (h : RollsText (c, c') s rs) :
    RollsText (c, c') (rollsNotation [c] rs) (rs.map Roll.norm) := by
  have one : ∀ {s : Str} {r : Roll}, RollText (c, c') s r →
      RollText (c, c') (rollNotation [c] r) r.norm := by
    rintro s r ⟨a, b, l, -, -, h1, h2⟩
    exact ⟨_, _, c, rfl, .inl rfl, der_rollOperand true h1.shape, der_rollOperand false h2.shape⟩
  induction h with
  | one h => exact .one (one h)
  | @cons s t r rs h hr ih =>
    cases hr with
    | one _ => exact .cons (one h) ih
    | cons _ _ => exact .cons (one h) ih

theorem rRollsText_notation {c c' : Char} {s : Str} {rl : RRollList}
    (h : RRollsText (c, c') s rl) : RRollsText (c, c') (rRollListNotation [c] rl) rl.norm := by
  obtain ⟨rolls, th⟩ := rl
  obtain ⟨a, b, -, h1, h2⟩ := h
  refine ⟨_, _, rfl, rollsText_notation h1, ?_⟩
  dsimp only at h2
  cases h2 with
  | absent => exact .absent
  | given h => exact .given (der_notation true h.shape)

theorem bonus_notation {s : Sign} {e : Expr} (h : e.Shape .int) :
    Der (.add .int) (bonusOperandNotation s e) e.norm := by
  unfold bonusOperandNotation
  generalize e.needsParen _ _ = b
  split
  · have := der_notation (k := .int) false h
    exact .addMul (.mulPrim (.paren this))
  · split
    · have := der_notation (k := .int) true h
      exact .addMul (.mulPrim (.paren this))
    · exact der_notation false h

theorem uRollText_notation {s : Str} {u : URollExpr} (h : URollText s u) :
    URollText (uRollExprNotation u) u.norm := by
  obtain ⟨a, b, -, h1, h2⟩ := h
  obtain ⟨rl, bo⟩ := u
  cases h2 with
  | absent => exact ⟨rRollListNotation chars!"U" rl, [], (List.append_nil _).symm, rRollsText_notation h1, .absent⟩
  | plus h => exact ⟨_, _, List.append_assoc .., rRollsText_notation h1, .plus (bonus_notation h.shape)⟩
  | minus h => exact ⟨_, _, List.append_assoc .., rRollsText_notation h1, .minus (bonus_notation h.shape)⟩

theorem compareText_notation {t : Str} {op : CmpOp} {e : Expr} (h : CompareText t op e) :
    CompareText (op.str ++ infixNotation true e) op e.norm := by
  cases h with | mk h => exact .mk (der_notation true h.shape)

/-- The notation of a parsed command is a command: its normal form. -/
theorem commandText_notation {s : Str} {node : Node} (h : CommandText s node)
    (hi : ∀ items, node = .choice items → SameWord chars!"choice" chars!"CHOICE" ∧
      ItemsText (join chars!"," items) items) : CommandText (nodeNotation node) node.norm := by
  cases h with
  | @choice kw body seps rest items _ h _ =>
    have := CommandText.choice (seps := []) (rest := [])
      (hi _ rfl).1 (hi _ rfl).2 (.inl rfl)
    simpa [nodeNotation, choiceNotation, Node.norm] using this
  | «calc» _ h =>
    have := CommandText.calc (c := 'C') (rest := []) (.inl rfl) (der_notation true h.shape)
    simpa [nodeNotation, calcNotation, Node.norm] using this
  | bRollList h => exact .bRollList (rollsText_notation h)
  | bRollComp h hc =>
    simp only [nodeNotation, List.append_assoc]
    exact .bRollComp (rollsText_notation h) (compareText_notation hc)
  | rRollList h => exact .rRollList (rRollsText_notation h)
  | rRollComp h hc =>
    simp only [nodeNotation, List.append_assoc]
    exact .rRollComp (rRollsText_notation h) (compareText_notation hc)
  | uRollExpr h => exact .uRollExpr (uRollText_notation h)
  | uRollComp h hc =>
    simp only [nodeNotation, List.append_assoc]
    exact .uRollComp (uRollText_notation h) (compareText_notation hc)
  | dRollExpr h hr =>
    exact .dRollExpr (der_notation true h.shape) (by rw [rands_norm]; exact hr)
  | dRollComp h hr hc =>
    simp only [nodeNotation, List.append_assoc]
    exact .dRollComp (der_notation true h.shape) (by rw [rands_norm]; exact hr)
      (compareText_notation hc)

/-! ## D rolls -/

theorem DArgs.isSum {e e' : Expr} {as : List Die} (h : DArgs e as e') : e'.isSum = e.isSum := by
  cases h with
  | @bin op => cases op <;> rfl
  | _ => rfl

theorem DArgs.isProd {e e' : Expr} {as : List Die} (h : DArgs e as e') : e'.isProd = e.isProd := by
  cases h with
  | @bin op => cases op <;> rfl
  | _ => rfl

theorem DDice.isSum {e e' : Expr} {as : List Die} (h : DDice e as e') : e'.isSum = e.isSum := by
  cases h with
  | @bin op => cases op <;> rfl
  | _ => rfl

theorem DDice.isProd {e e' : Expr} {as : List Die} (h : DDice e as e') : e'.isProd = e.isProd := by
  cases h with
  | @bin op => cases op <;> rfl
  | _ => rfl

theorem DArgs.addTo_inv {a b f : Expr} {ds : List Die} (h : DArgs (Expr.addTo a b) ds f) :
    ∃ as bs a' b', ds = as ++ bs ∧ DArgs a as a' ∧ DArgs b bs b' ∧ f = Expr.addTo a' b' := by
  have base : ∀ {b f : Expr} {ds : List Die}, b.isSum = false → DArgs (.bin .add a b) ds f →
      ∃ as bs a' b', ds = as ++ bs ∧ DArgs a as a' ∧ DArgs b bs b' ∧ f = Expr.addTo a' b' := by
    intro b f ds hb h
    cases h with
    | bin h1 h2 => exact ⟨_, _, _, _, rfl, h1, h2, (addTo_base _ _ (by rw [h2.isSum, hb])).symm⟩
  induction b generalizing f ds with
  | bin op l r ihl _ =>
    cases op with
    | add =>
      cases h with
      | bin h1 h2 =>
        obtain ⟨as, bs, a', b', rfl, ha, hb, rfl⟩ := ihl h1
        exact ⟨_, _, _, _, List.append_assoc .., ha, .bin hb h2, rfl⟩
    | sub =>
      cases h with
      | bin h1 h2 =>
        obtain ⟨as, bs, a', b', rfl, ha, hb, rfl⟩ := ihl h1
        exact ⟨_, _, _, _, List.append_assoc .., ha, .bin hb h2, rfl⟩
    | mul => exact base rfl h
  | _ => exact base rfl h

theorem DArgs.mulTo_inv {a b f : Expr} {ds : List Die} (h : DArgs (Expr.mulTo a b) ds f) :
    ∃ as bs a' b', ds = as ++ bs ∧ DArgs a as a' ∧ DArgs b bs b' ∧ f = Expr.mulTo a' b' := by
  have base : ∀ {b f : Expr} {ds : List Die}, b.isProd = false → DArgs (.bin .mul a b) ds f →
      ∃ as bs a' b', ds = as ++ bs ∧ DArgs a as a' ∧ DArgs b bs b' ∧ f = Expr.mulTo a' b' := by
    intro b f ds hb h
    cases h with
    | bin h1 h2 => exact ⟨_, _, _, _, rfl, h1, h2, (mulTo_base _ _ (by rw [h2.isProd, hb])).symm⟩
  induction b generalizing f ds with
  | bin op l r ihl _ =>
    cases op with
    | mul =>
      cases h with
      | bin h1 h2 =>
        obtain ⟨as, bs, a', b', rfl, ha, hb, rfl⟩ := ihl h1
        exact ⟨_, _, _, _, List.append_assoc .., ha, .bin hb h2, rfl⟩
    | add => exact base rfl h
    | sub => exact base rfl h
  | div m l r ihl _ =>
    cases h with
    | div h1 h2 =>
      obtain ⟨as, bs, a', b', rfl, ha, hb, rfl⟩ := ihl h1
      exact ⟨_, _, _, _, List.append_assoc .., ha, .div hb h2, rfl⟩
  | _ => exact base rfl h

theorem DDice.addTo_inv {a b f : Expr} {ds : List Die} (h : DDice (Expr.addTo a b) ds f) :
    ∃ as bs a' b', ds = as ++ bs ∧ DDice a as a' ∧ DDice b bs b' ∧ f = Expr.addTo a' b' := by
  have base : ∀ {b f : Expr} {ds : List Die}, b.isSum = false → DDice (.bin .add a b) ds f →
      ∃ as bs a' b', ds = as ++ bs ∧ DDice a as a' ∧ DDice b bs b' ∧ f = Expr.addTo a' b' := by
    intro b f ds hb h
    cases h with
    | bin h1 h2 => exact ⟨_, _, _, _, rfl, h1, h2, (addTo_base _ _ (by rw [h2.isSum, hb])).symm⟩
  induction b generalizing f ds with
  | bin op l r ihl _ =>
    cases op with
    | add =>
      cases h with
      | bin h1 h2 =>
        obtain ⟨as, bs, a', b', rfl, ha, hb, rfl⟩ := ihl h1
        exact ⟨_, _, _, _, List.append_assoc .., ha, .bin hb h2, rfl⟩
    | sub =>
      cases h with
      | bin h1 h2 =>
        obtain ⟨as, bs, a', b', rfl, ha, hb, rfl⟩ := ihl h1
        exact ⟨_, _, _, _, List.append_assoc .., ha, .bin hb h2, rfl⟩
    | mul => exact base rfl h
  | _ => exact base rfl h

theorem DDice.mulTo_inv {a b f : Expr} {ds : List Die} (h : DDice (Expr.mulTo a b) ds f) :
    ∃ as bs a' b', ds = as ++ bs ∧ DDice a as a' ∧ DDice b bs b' ∧ f = Expr.mulTo a' b' := by
  have base : ∀ {b f : Expr} {ds : List Die}, b.isProd = false → DDice (.bin .mul a b) ds f →
      ∃ as bs a' b', ds = as ++ bs ∧ DDice a as a' ∧ DDice b bs b' ∧ f = Expr.mulTo a' b' := by
    intro b f ds hb h
    cases h with
    | bin h1 h2 => exact ⟨_, _, _, _, rfl, h1, h2, (mulTo_base _ _ (by rw [h2.isProd, hb])).symm⟩
  induction b generalizing f ds with
  | bin op l r ihl _ =>
    cases op with
    | mul =>
      cases h with
      | bin h1 h2 =>
        obtain ⟨as, bs, a', b', rfl, ha, hb, rfl⟩ := ihl h1
        exact ⟨_, _, _, _, List.append_assoc .., ha, .bin hb h2, rfl⟩
    | add => exact base rfl h
    | sub => exact base rfl h
  | div m l r ihl _ =>
    cases h with
    | div h1 h2 =>
      obtain ⟨as, bs, a', b', rfl, ha, hb, rfl⟩ := ihl h1
      exact ⟨_, _, _, _, List.append_assoc .., ha, .div hb h2, rfl⟩
  | _ => exact base rfl h

theorem DArgs.norm {e e' : Expr} {as : List Die} (hs : e.mulSafe) (h : DArgs e as e') :
    DArgs e.norm as e'.norm := by
  induction h with
  | int v => exact .int v
  | sumRoll ds => exact .sumRoll ds
  | neg _ ih => exact .neg (ih hs)
  | @bin op _ _ _ _ _ _ _ _ ih1 ih2 =>
    cases op with
    | add => exact (ih1 hs.1).addTo (ih2 hs.2)
    | sub => exact .bin (ih1 hs.1) (ih2 hs.2)
    | mul => exact (ih1 hs.1).mulTo (ih2 hs.2.1)
  | div _ _ ih1 ih2 => exact .div (ih1 hs.1) (ih2 hs.2)
  | roll h1 h2 => exact .roll ((ev_norm hs.1 _ _).mpr h1) ((ev_norm hs.2 _ _).mpr h2)

theorem DArgs.norm_inv {e f : Expr} {as : List Die} (hs : e.mulSafe) (h : DArgs e.norm as f) :
    ∃ e', DArgs e as e' ∧ f = e'.norm := by
  induction e generalizing as f with
  | int v => cases h; exact ⟨_, .int v, rfl⟩
  | sumRoll ds => cases h; exact ⟨_, .sumRoll ds, rfl⟩
  | neg r ih =>
    cases h with
    | neg h => obtain ⟨e', h1, rfl⟩ := ih hs h; exact ⟨_, .neg h1, rfl⟩
  | bin op l r ihl ihr =>
    cases op with
    | add =>
      obtain ⟨as, bs, a', b', rfl, h1, h2, rfl⟩ := DArgs.addTo_inv h
      obtain ⟨l', k1, rfl⟩ := ihl hs.1 h1
      obtain ⟨r', k2, rfl⟩ := ihr hs.2 h2
      exact ⟨_, .bin k1 k2, rfl⟩
    | sub =>
      cases h with
      | bin h1 h2 =>
        obtain ⟨l', k1, rfl⟩ := ihl hs.1 h1
        obtain ⟨r', k2, rfl⟩ := ihr hs.2 h2
        exact ⟨_, .bin k1 k2, rfl⟩
    | mul =>
      obtain ⟨as, bs, a', b', rfl, h1, h2, rfl⟩ := DArgs.mulTo_inv h
      obtain ⟨l', k1, rfl⟩ := ihl hs.1 h1
      obtain ⟨r', k2, rfl⟩ := ihr hs.2.1 h2
      exact ⟨_, .bin k1 k2, rfl⟩
  | div m l r ihl ihr =>
    cases h with
    | div h1 h2 =>
      obtain ⟨l', k1, rfl⟩ := ihl hs.1 h1
      obtain ⟨r', k2, rfl⟩ := ihr hs.2 h2
      exact ⟨_, .div k1 k2, rfl⟩
  | var k l r ihl ihr =>
    cases h with
    | roll h1 h2 => exact ⟨_, .roll ((ev_norm hs.1 _ _).mp h1) ((ev_norm hs.2 _ _).mp h2), rfl⟩

theorem DDice.norm_inv {e f : Expr} {as : List Die} (h : DDice e.norm as f) (hl : DArgs e [] e) :
    ∃ e', DDice e as e' ∧ f = e'.norm := by
  generalize hnil : ([] : List Die) = x at hl
  induction e generalizing as f x with
  | int v => cases h; exact ⟨_, .int v, rfl⟩
  | sumRoll ds => cases h; exact ⟨_, .sumRoll ds, rfl⟩
  | neg r ih =>
    cases hl with | neg hl =>
    cases h with
    | neg h => obtain ⟨e', h1, rfl⟩ := ih h _ hnil hl; exact ⟨_, .neg h1, rfl⟩
  | bin op l r ihl ihr =>
    cases hl with | bin hl hr =>
    obtain ⟨e1, e2⟩ := List.append_eq_nil_iff.mp hnil.symm
    cases op with
    | add =>
      obtain ⟨as, bs, a', b', rfl, h1, h2, rfl⟩ := DDice.addTo_inv h
      obtain ⟨l', k1, rfl⟩ := ihl h1 _ e1.symm hl
      obtain ⟨r', k2, rfl⟩ := ihr h2 _ e2.symm hr
      exact ⟨_, .bin k1 k2, rfl⟩
    | sub =>
      cases h with
      | bin h1 h2 =>
        obtain ⟨l', k1, rfl⟩ := ihl h1 _ e1.symm hl
        obtain ⟨r', k2, rfl⟩ := ihr h2 _ e2.symm hr
        exact ⟨_, .bin k1 k2, rfl⟩
    | mul =>
      obtain ⟨as, bs, a', b', rfl, h1, h2, rfl⟩ := DDice.mulTo_inv h
      obtain ⟨l', k1, rfl⟩ := ihl h1 _ e1.symm hl
      obtain ⟨r', k2, rfl⟩ := ihr h2 _ e2.symm hr
      exact ⟨_, .bin k1 k2, rfl⟩
  | div m l r ihl ihr =>
    cases hl with | div hl hr =>
    obtain ⟨e1, e2⟩ := List.append_eq_nil_iff.mp hnil.symm
    cases h with
    | div h1 h2 =>
      obtain ⟨l', k1, rfl⟩ := ihl h1 _ e1.symm hl
      obtain ⟨r', k2, rfl⟩ := ihr h2 _ e2.symm hr
      exact ⟨_, .div k1 k2, rfl⟩
  | var k l r ihl ihr =>
    generalize hx : Expr.var k l r = z at hl
    cases hl with
    | roll _ _ =>
      cases hx
      cases h with
      | roll h => exact ⟨_, .roll h, rfl⟩
    | _ => cases hx

theorem addTo_dCompLeft (a b : Expr) : DCompLeft (Expr.addTo a b) := by
  unfold Expr.addTo; split <;> trivial

theorem mulTo_dCompLeft (a b : Expr) : DCompLeft (Expr.mulTo a b) := by
  unfold Expr.mulTo; split <;> trivial

theorem norm_int_iff {e : Expr} {v : Int64} : e.norm = .int v ↔ e = .int v := by
  cases e with
  | bin op l r =>
    have h1 : ∀ a b, Expr.addTo a b ≠ .int v := by intro a b; unfold Expr.addTo; split <;> simp
    have h2 : ∀ a b, Expr.mulTo a b ≠ .int v := by intro a b; unfold Expr.mulTo; split <;> simp
    cases op <;> simp [Expr.norm, h1, h2]
  | _ => simp [Expr.norm]

theorem dCompLeft_norm_iff (l : Expr) : DCompLeft l.norm ↔ DCompLeft l := by
  cases l with
  | bin op l r =>
    cases op
    · exact iff_of_true (addTo_dCompLeft _ _) trivial
    · exact iff_of_true trivial trivial
    · exact iff_of_true (mulTo_dCompLeft _ _) trivial
  | var k l r =>
    cases k with
    | rand => exact .rfl
    | d =>
      have key : ∀ x y : Expr, DCompLeft (.var .d x y) ↔ ∃ a b, x = .int a ∧ y = .int b := by
        intro x y
        constructor
        · intro h; cases x <;> cases y <;> first | exact ⟨_, _, rfl, rfl⟩ | exact h.elim
        · rintro ⟨a, b, rfl, rfl⟩; trivial
      simp only [Expr.norm, key, norm_int_iff]
  | _ => exact .rfl

/-! ## Same outcomes -/

theorem args_norm {rs : List Roll} (hs : ∀ r ∈ rs, r.All Expr.mulSafe) :
    ∀ as ps, Args (rs.map Roll.norm) as ps ↔ Args rs as ps := by
  induction rs with
  | nil => exact fun _ _ => .rfl
  | cons r rs ih =>
    have ih := ih (fun r hr => hs r (by simp [hr]))
    have h0 := hs r (by simp)
    intro as ps
    constructor
    · intro h
      cases h with
      | cons h1 h2 h3 =>
        exact .cons ((ev_norm h0.1 _ _).mp h1) ((ev_norm h0.2 _ _).mp h2) ((ih _ _).mp h3)
    · intro h
      cases h with
      | cons h1 h2 h3 =>
        exact .cons (r := r.norm) ((ev_norm h0.1 _ _).mpr h1) ((ev_norm h0.2 _ _).mpr h2)
          ((ih _ _).mpr h3)

theorem threshold_norm {t : Option Expr} (hs : ∀ e ∈ t, Expr.mulSafe e) :
    ∀ ds v, Threshold (t.map Expr.norm) ds v ↔ Threshold t ds v := by
  intro ds v
  cases t with
  | none => exact .rfl
  | some e =>
    have h0 := hs e rfl
    constructor
    · intro h; cases h with | given h => exact .given ((ev_norm h0 _ _).mp h)
    · intro h; cases h with | given h => exact .given ((ev_norm h0 _ _).mpr h)

theorem bonus_norm {b : Option (Sign × Expr)} (hs : ∀ p ∈ b, Expr.mulSafe p.2) :
    ∀ ds v, Bonus (b.map (fun p => (p.1, p.2.norm))) ds v ↔ Bonus b ds v := by
  intro ds v
  cases b with
  | none => exact .rfl
  | some p =>
    obtain ⟨s, e⟩ := p
    have h0 : e.mulSafe := hs _ rfl
    constructor
    · intro h
      cases s with
      | plus => cases h with | plus h => exact .plus ((ev_norm h0 _ _).mp h)
      | minus => cases h with | minus h => exact .minus ((ev_norm h0 _ _).mp h)
    · intro h
      cases h with
      | plus h => exact .plus ((ev_norm h0 _ _).mpr h)
      | minus h => exact .minus ((ev_norm h0 _ _).mpr h)

theorem staged_norm {e : Expr} (hs : e.mulSafe) (as rs : List Die) (v : Int64) (a b : Str) :
    (∃ f1 f2, DArgs e.norm as f1 ∧ DDice f1 rs f2 ∧ Ev f2 [] v ∧ infixNotation true f1 = a ∧
      infixNotation true f2 = b) ↔
    (∃ f1 f2, DArgs e as f1 ∧ DDice f1 rs f2 ∧ Ev f2 [] v ∧ infixNotation true f1 = a ∧
      infixNotation true f2 = b) := by
  constructor
  · rintro ⟨f1, f2, h1, h2, h3, rfl, rfl⟩
    obtain ⟨e1, k1, rfl⟩ := h1.norm_inv hs
    obtain ⟨e2, k2, rfl⟩ := h2.norm_inv k1.literal
    refine ⟨e1, e2, k1, k2, (ev_norm (k2.mulSafe (k1.mulSafe hs)) _ _).mp h3, ?_, ?_⟩ <;>
      rw [infixNotation_norm]
  · rintro ⟨e1, e2, h1, h2, h3, rfl, rfl⟩
    refine ⟨_, _, h1.norm hs, h2.norm, (ev_norm (h2.mulSafe (h1.mulSafe hs)) _ _).mpr h3, ?_, ?_⟩ <;>
      rw [infixNotation_norm]

theorem outcome_norm {limit : Nat} {g : Str} {node : Node} (hs : node.All Expr.mulSafe)
    (ds : List Die) (r : Result) : Outcome limit g node.norm ds r ↔ Outcome limit g node ds r := by
  cases node with
  | choice items => exact .rfl
  | «calc» e =>
    constructor
    · intro h
      cases h with
      | «calc» h => rw [infixNotation_norm]; exact .calc ((ev_norm hs _ _).mp h)
    · intro h
      cases h with
      | «calc» h => rw [← infixNotation_norm]; exact .calc ((ev_norm hs _ _).mpr h)
  | dRollExpr e =>
    constructor
    · intro h
      cases h with
      | dRollExpr h1 h2 h3 =>
        obtain ⟨f1, f2, h1, h2, h3, h4, h5⟩ := (staged_norm hs _ _ _ _ _).mp ⟨_, _, h1, h2, h3, rfl, rfl⟩
        rw [← h4, ← h5]
        exact .dRollExpr h1 h2 h3
    · intro h
      cases h with
      | dRollExpr h1 h2 h3 =>
        obtain ⟨f1, f2, h1, h2, h3, h4, h5⟩ := (staged_norm hs _ _ _ _ _).mpr ⟨_, _, h1, h2, h3, rfl, rfl⟩
        rw [← h4, ← h5]
        exact .dRollExpr h1 h2 h3
  | dRollComp l op t =>
    constructor
    · intro h
      cases h with
      | dRollComp h0 h1 ht h2 h3 =>
        obtain ⟨f1, f2, h1, h2, h3, h4, h5⟩ := (staged_norm hs.1 _ _ _ _ _).mp ⟨_, _, h1, h2, h3, rfl, rfl⟩
        rw [← h4, ← h5]
        exact .dRollComp ((dCompLeft_norm_iff l).mp h0) h1 ((ev_norm hs.2 _ _).mp ht) h2 h3
    · intro h
      cases h with
      | dRollComp h0 h1 ht h2 h3 =>
        obtain ⟨f1, f2, h1, h2, h3, h4, h5⟩ := (staged_norm hs.1 _ _ _ _ _).mpr ⟨_, _, h1, h2, h3, rfl, rfl⟩
        rw [← h4, ← h5]
        exact .dRollComp ((dCompLeft_norm_iff l).mpr h0) h1 ((ev_norm hs.2 _ _).mpr ht) h2 h3
  | bRollList rs =>
    constructor
    · intro h; cases h with | bRollList h1 h2 => exact .bRollList ((args_norm hs _ _).mp h1) h2
    · intro h; cases h with | bRollList h1 h2 => exact .bRollList ((args_norm hs _ _).mpr h1) h2
  | bRollComp rs op e =>
    constructor
    · intro h
      cases h with
      | bRollComp h1 h2 h3 => exact .bRollComp ((args_norm hs.1 _ _).mp h1) ((ev_norm hs.2 _ _).mp h2) h3
    · intro h
      cases h with
      | bRollComp h1 h2 h3 => exact .bRollComp ((args_norm hs.1 _ _).mpr h1) ((ev_norm hs.2 _ _).mpr h2) h3
  | rRollList rl =>
    constructor
    · intro h
      cases h with
      | rRollRefused h1 h2 h3 =>
        exact .rRollRefused ((threshold_norm hs.2 _ _).mp h1) ((args_norm hs.1 _ _).mp h2) h3
      | rRollList h1 h2 h3 h4 =>
        exact .rRollList ((threshold_norm hs.2 _ _).mp h1) ((args_norm hs.1 _ _).mp h2) h3 h4
    · intro h
      cases h with
      | rRollRefused h1 h2 h3 =>
        exact .rRollRefused (rl := rl.norm) ((threshold_norm hs.2 _ _).mpr h1) ((args_norm hs.1 _ _).mpr h2) h3
      | rRollList h1 h2 h3 h4 =>
        exact .rRollList (rl := rl.norm) ((threshold_norm hs.2 _ _).mpr h1) ((args_norm hs.1 _ _).mpr h2) h3 h4
  | rRollComp rl op e =>
    obtain ⟨hs, he⟩ := hs
    constructor
    · intro h
      cases h with
      | rRollCompRefused h1 h2 h3 h4 =>
        exact .rRollCompRefused ((threshold_norm hs.2 _ _).mp h1) ((args_norm hs.1 _ _).mp h2)
          ((ev_norm he _ _).mp h3) h4
      | rRollComp h1 h2 h3 h4 h5 h6 =>
        exact .rRollComp ((threshold_norm hs.2 _ _).mp h1) ((args_norm hs.1 _ _).mp h2)
          ((ev_norm he _ _).mp h3) h4 h5 h6
    · intro h
      cases h with
      | rRollCompRefused h1 h2 h3 h4 =>
        exact .rRollCompRefused (rl := rl.norm) ((threshold_norm hs.2 _ _).mpr h1) ((args_norm hs.1 _ _).mpr h2)
          ((ev_norm he _ _).mpr h3) h4
      | rRollComp h1 h2 h3 h4 h5 h6 =>
        exact .rRollComp (rl := rl.norm) ((threshold_norm hs.2 _ _).mpr h1) ((args_norm hs.1 _ _).mpr h2)
          ((ev_norm he _ _).mpr h3) h4 h5 h6
  | uRollExpr u =>
    constructor
    · intro h
      cases h with
      | uRollRefused h1 h2 h3 h4 =>
        exact .uRollRefused ((threshold_norm hs.1.2 _ _).mp h1) ((args_norm hs.1.1 _ _).mp h2)
          ((bonus_norm hs.2 _ _).mp h3) h4
      | uRollExpr h1 h2 h3 h4 h5 h6 =>
        exact .uRollExpr ((threshold_norm hs.1.2 _ _).mp h1) ((args_norm hs.1.1 _ _).mp h2)
          ((bonus_norm hs.2 _ _).mp h3) h4 h5 h6
    · intro h
      cases h with
      | uRollRefused h1 h2 h3 h4 =>
        exact .uRollRefused (u := u.norm) ((threshold_norm hs.1.2 _ _).mpr h1) ((args_norm hs.1.1 _ _).mpr h2)
          ((bonus_norm hs.2 _ _).mpr h3) h4
      | uRollExpr h1 h2 h3 h4 h5 h6 =>
        exact .uRollExpr (u := u.norm) ((threshold_norm hs.1.2 _ _).mpr h1) ((args_norm hs.1.1 _ _).mpr h2)
          ((bonus_norm hs.2 _ _).mpr h3) h4 h5 h6
  | uRollComp u op e =>
    obtain ⟨hs, he⟩ := hs
    constructor
    · intro h
      cases h with
      | uRollCompRefused h1 h2 h3 h4 h5 =>
        exact .uRollCompRefused ((threshold_norm hs.1.2 _ _).mp h1) ((args_norm hs.1.1 _ _).mp h2)
          ((bonus_norm hs.2 _ _).mp h3) ((ev_norm he _ _).mp h4) h5
      | uRollComp h1 h2 h3 h4 h5 h6 =>
        exact .uRollComp ((threshold_norm hs.1.2 _ _).mp h1) ((args_norm hs.1.1 _ _).mp h2)
          ((bonus_norm hs.2 _ _).mp h3) ((ev_norm he _ _).mp h4) h5 h6
    · intro h
      cases h with
      | uRollCompRefused h1 h2 h3 h4 h5 =>
        exact .uRollCompRefused (u := u.norm) ((threshold_norm hs.1.2 _ _).mpr h1) ((args_norm hs.1.1 _ _).mpr h2)
          ((bonus_norm hs.2 _ _).mpr h3) ((ev_norm he _ _).mpr h4) h5
      | uRollComp h1 h2 h3 h4 h5 h6 =>
        exact .uRollComp (u := u.norm) ((threshold_norm hs.1.2 _ _).mpr h1) ((args_norm hs.1.1 _ _).mpr h2)
          ((bonus_norm hs.2 _ _).mpr h3) ((ev_norm he _ _).mpr h4) h5 h6

end GoBCDice
