import Verif.Spec.Better
import Verif.Lemmas.Average
import Verif.Props.Easier
import Verif.Props.DivideOrder

/-!
# Better dice never give a worse total (C102)
-/

namespace GoBCDice

variable {σ τ : Type}

theorem sum_le {vs vs' : List Int64} (h : List.Forall₂ (fun v v' : Int64 => v ≤ v') vs vs') :
    (vs.map Int64.toInt).sum ≤ (vs'.map Int64.toInt).sum := by
  induction h with
  | nil => simp
  | cons h _ ih =>
    rw [Int64.le_iff_toInt_le] at h
    simp only [List.map_cons, List.sum_cons]
    omega

theorem exact_mono {e : Expr} (hw : Whole e) {s : Bool} (ht : Tends s e) : ∀ {vs vs' : List Int64},
    List.Forall₂ (fun v v' : Int64 => v ≤ v') vs vs' →
    (s = true → e.exact vs ≤ e.exact vs') ∧ (s = false → e.exact vs' ≤ e.exact vs) := by
  have hz : (0 : Int64).toInt = 0 := by decide
  induction ht with
  | int => intro vs vs' _; simp [Expr.exact]
  | roll => intro vs vs' h; exact ⟨fun _ => sum_le h, fun h => by cases h⟩
  | @neg s r _ ih =>
    intro vs vs' h
    cases hw with | neg hw =>
    have := ih hw h
    cases s <;> simp [Expr.exact] at this ⊢ <;> omega
  | @add s l r _ _ ih1 ih2 =>
    intro vs vs' h
    cases hw with | bin h1 h2 =>
    have a := ih1 h1 (List.forall₂_take l.dice.length h)
    have b := ih2 h2 (List.forall₂_drop l.dice.length h)
    cases s <;> simp [Expr.exact] at a b ⊢ <;> omega
  | @sub s l r _ _ ih1 ih2 =>
    intro vs vs' h
    cases hw with | bin h1 h2 =>
    have a := ih1 h1 (List.forall₂_take l.dice.length h)
    have b := ih2 h2 (List.forall₂_drop l.dice.length h)
    cases s <;> simp [Expr.exact] at a b ⊢ <;> omega
  | @times s l n hn _ ih =>
    intro vs vs' h
    cases hw with | bin h1 h2 =>
    have a := ih h1 (List.forall₂_take l.dice.length h)
    rw [Int64.le_iff_toInt_le, hz] at hn
    cases s <;> simp [Expr.exact] at a ⊢ <;> exact Int.mul_le_mul_of_nonneg_right a hn
  | @ntimes s l n hn _ ih =>
    intro vs vs' h
    cases hw with | bin h1 h2 =>
    have a := ih h1 (List.forall₂_take l.dice.length h)
    rw [Int64.le_iff_toInt_le, hz] at hn
    cases s <;> simp [Expr.exact] at a ⊢ <;> exact Int.mul_le_mul_of_nonpos_right a hn
  | @timesL s r n hn _ ih =>
    intro vs vs' h
    cases hw with | bin h1 h2 =>
    have a := ih h2 h
    rw [Int64.le_iff_toInt_le, hz] at hn
    cases s <;> simp [Expr.exact, Expr.dice] at a ⊢ <;> exact Int.mul_le_mul_of_nonneg_left a hn
  | @ntimesL s r n hn _ ih =>
    intro vs vs' h
    cases hw with | bin h1 h2 =>
    have a := ih h2 h
    rw [Int64.le_iff_toInt_le, hz] at hn
    cases s <;> simp [Expr.exact, Expr.dice] at a ⊢ <;> exact Int.mul_le_mul_of_nonpos_left hn a
  | div _ _ _ => cases hw
  | ndiv _ _ _ => cases hw

theorem Better.values {ds ds' : List Die} (h : Better ds ds') :
    List.Forall₂ (fun v v' : Int64 => v ≤ v') (ds.map Die.value) (ds'.map Die.value) := by
  unfold Better at h
  induction h with
  | nil => exact .nil
  | cons h _ ih => exact .cons h.2 ih

theorem faces_of {ds : List Die} {ss : List Int64} (h : ds.map Die.sides = ss) (hf : ∀ d ∈ ds, d.Fair) :
    ds.map Die.value ∈ allFaces ss := by
  refine mem_allFaces.mpr ⟨by rw [← h]; simp, ?_⟩
  have : diceShowing ss (ds.map Die.value) = ds := by
    subst h
    clear hf
    induction ds with
    | nil => rfl
    | cons d ds ih => simp only [diceShowing, List.map_cons, List.zipWith_cons_cons] at ih ⊢; rw [ih]
  rw [this]
  exact hf

/-- The total with fair dice is the exact one. -/
theorem dval_toInt {e : Expr} (hw : Whole e) (hf : e.Fits) {as rs : List Die} {v : Int64} (h : DVal e as rs v)
    (hd : ∀ d ∈ rs, d.Fair) : v.toInt = e.exact (rs.map Die.value) := by
  have hb := hw.between _ (faces_of (h.dice hw.ordinary).2 hd)
  obtain ⟨f1, f2⟩ := hf
  rw [h.exact hw, Int64.toInt_ofInt_of_le (by omega) (by omega)]

/-- **C102.** If rolls are only added (and multiplied by numbers that are not negative), better dice give at least
the same total; if they are only subtracted, at most the same total. -/
theorem C102_total (E : Evaluator σ) (E' : Evaluator τ) (g g' : Str) {e : Expr} (hw : Whole e) (hf : e.Fits)
    {s : Bool} (ht : Tends s e) {f f1 : σ} {f' f1' : τ} {log log' : List Die} {res res' : Result}
    (h : E.execute g (.dRollExpr e) ⟨f, []⟩ = (.ok res, ⟨f1, log⟩))
    (h' : E'.execute g' (.dRollExpr e) ⟨f', []⟩ = (.ok res', ⟨f1', log'⟩))
    (hd : ∀ d ∈ res.rolledDice, d.Fair) (hd' : ∀ d ∈ res'.rolledDice, d.Fair)
    (hb : Better res.rolledDice res'.rolledDice) :
    ∃ v v' : Int64, res.parts[2]? = some (intStr v) ∧ res'.parts[2]? = some (intStr v') ∧
      (s = true → v ≤ v') ∧ (s = false → v' ≤ v) := by
  obtain ⟨ds, hO, -⟩ := (C78_execute E g _ f f1 res).mp ⟨log, h⟩
  obtain ⟨ds', hO', -⟩ := (C78_execute E' g' _ f' f1' res').mp ⟨log', h'⟩
  cases hO with | @dRollExpr _ e1 e2 as rs v a1 a2 a3 =>
  cases hO' with | @dRollExpr _ e1' e2' as' rs' v' b1 b2 b3 =>
  have hv := (staged_iff_DVal ..).mp ⟨_, _, a1, a2, a3⟩
  have hv' := (staged_iff_DVal ..).mp ⟨_, _, b1, b2, b3⟩
  obtain ⟨rfl, -⟩ := hv.dice hw.ordinary
  obtain ⟨rfl, -⟩ := hv'.dice hw.ordinary
  have hm := exact_mono hw ht (Better.values hb)
  simp only [List.nil_append] at hd hd' hm
  rw [← dval_toInt hw hf hv hd, ← dval_toInt hw hf hv' hd', ← Int64.le_iff_toInt_le, ← Int64.le_iff_toInt_le] at hm
  exact ⟨v, v', by simp, by simp, hm⟩

/-- **C102.** So a comparison that asks for a high total (or for a low one of rolls that are subtracted) still succeeds
with better dice. -/
theorem C102_success (E : Evaluator σ) (E' : Evaluator τ) (g g' : Str) {l r : Expr} (hw : Whole l) (hf : l.Fits)
    {s : Bool} (ht : Tends s l) {op : CmpOp} (hop : if s then op.AsksHigh else op.AsksLow) {t : Int64} (hr : Ev r [] t)
    {f f1 : σ} {f' f1' : τ} {log log' : List Die} {res res' : Result}
    (h : E.execute g (.dRollComp l op r) ⟨f, []⟩ = (.ok res, ⟨f1, log⟩))
    (h' : E'.execute g' (.dRollComp l op r) ⟨f', []⟩ = (.ok res', ⟨f1', log'⟩))
    (hd : ∀ d ∈ res.rolledDice, d.Fair) (hd' : ∀ d ∈ res'.rolledDice, d.Fair)
    (hb : Better res.rolledDice res'.rolledDice) (hs : res.success = .success) : res'.success = .success := by
  obtain ⟨ds, hO, -⟩ := (C78_execute E g _ f f1 res).mp ⟨log, h⟩
  obtain ⟨ds', hO', -⟩ := (C78_execute E' g' _ f' f1' res').mp ⟨log', h'⟩
  cases hO with | @dRollComp _ l1 l2 _ _ as bs rs v target a0 a1 a2 a3 a4 =>
  cases hO' with | @dRollComp _ l1' l2' _ _ as' bs' rs' v' target' b0 b1 b2 b3 b4 =>
  have hv := (staged_iff_DVal ..).mp ⟨_, _, a1, a3, a4⟩
  have hv' := (staged_iff_DVal ..).mp ⟨_, _, b1, b3, b4⟩
  obtain ⟨rfl, -⟩ := hv.dice hw.ordinary
  obtain ⟨rfl, -⟩ := hv'.dice hw.ordinary
  obtain ⟨rfl, e1⟩ := hr.const rfl _ _ a2
  obtain ⟨rfl, e2⟩ := hr.const rfl _ _ b2
  subst e1 e2
  have hm := exact_mono hw ht (Better.values hb)
  simp only [List.nil_append] at hd hd' hm
  rw [← dval_toInt hw hf hv hd, ← dval_toInt hw hf hv' hd'] at hm
  by_cases hR : op.Rel v.toInt target'.toInt
  · have : op.Rel v'.toInt target'.toInt := by
      cases s
      · have := hm.2 rfl
        rcases hop with rfl | rfl <;> simp only [CmpOp.Rel] at hR ⊢ <;> omega
      · have := hm.1 rfl
        rcases hop with rfl | rfl <;> simp only [CmpOp.Rel] at hR ⊢ <;> omega
    simp [this]
  · simp [hR] at hs

theorem successes_better {op : CmpOp} {t : Int64} {vs vs' : List Int64}
    (h : List.Forall₂ (fun v v' : Int64 => v ≤ v') vs vs') :
    (op.AsksHigh → successes op t vs ≤ successes op t vs') ∧ (op.AsksLow → successes op t vs' ≤ successes op t vs) := by
  unfold successes
  induction h with
  | nil => simp
  | @cons v v' vs vs' h _ ih =>
    rw [Int64.le_iff_toInt_le] at h
    constructor
    · intro hop
      have := ih.1 hop
      have hR : op.Rel v.toInt t.toInt → op.Rel v'.toInt t.toInt := by
        rcases hop with rfl | rfl <;> simp only [CmpOp.Rel] <;> omega
      simp only [List.filter_cons]
      split <;> split <;> (simp_all; try omega)
    · intro hop
      have := ih.2 hop
      have hR : op.Rel v'.toInt t.toInt → op.Rel v.toInt t.toInt := by
        rcases hop with rfl | rfl <;> simp only [CmpOp.Rel] <;> omega
      simp only [List.filter_cons]
      split <;> split <;> (simp_all; try omega)

/-- **C102.** B rolls: better dice show at least as many successes of `>=` and `>`, at most as many of `<=` and `<`. -/
theorem C102_B (E : Evaluator σ) (E' : Evaluator τ) (g g' : Str) {rolls : List Roll} (ho : ∀ r ∈ rolls, OrdinaryRoll r)
    {op : CmpOp} {r : Expr} {t : Int64} (hr : Ev r [] t) {f f1 : σ} {f' f1' : τ} {log log' : List Die} {res res' : Result}
    (h : E.execute g (.bRollComp rolls op r) ⟨f, []⟩ = (.ok res, ⟨f1, log⟩))
    (h' : E'.execute g' (.bRollComp rolls op r) ⟨f', []⟩ = (.ok res', ⟨f1', log'⟩))
    (hb : Better res.rolledDice res'.rolledDice) :
    ∃ k k', CountShown res k ∧ CountShown res' k' ∧ (op.AsksHigh → k ≤ k') ∧ (op.AsksLow → k' ≤ k) := by
  obtain ⟨ds, hO, -⟩ := (C78_execute E g _ f f1 res).mp ⟨log, h⟩
  obtain ⟨ds', hO', -⟩ := (C78_execute E' g' _ f' f1' res').mp ⟨log', h'⟩
  cases hO with | @bRollComp _ _ _ as bs ps gs target a0 a1 a2 =>
  cases hO' with | @bRollComp _ _ _ as' bs' ps' gs' target' b0 b1 b2 =>
  obtain ⟨rfl, e1⟩ := hr.const rfl _ _ a1
  obtain ⟨rfl, e2⟩ := hr.const rfl _ _ b1
  subst e1 e2
  obtain ⟨rfl, -⟩ := a0.literal ho
  obtain ⟨rfl, -⟩ := b0.literal ho
  exact ⟨_, _, CountShown.third _, CountShown.third _, successes_better (Better.values hb)⟩

/-! ### Division -/

theorem divValue_order (m : Rounding) {a a' b : Int64} (ha : a ≤ a') (hb : b ≠ 0) (hf : DivisionFits m a b)
    (hf' : DivisionFits m a' b) :
    (0 < b → divValue m a b ≤ divValue m a' b) ∧ (b < 0 → divValue m a' b ≤ divValue m a b) := by
  obtain ⟨q, q', h1, h2, h3⟩ := C110_dividend (newEvaluator queueFeeder) (newEvaluator queueFeeder) m
    (.int a) (.int b) (.int a') (.int b) ⟨[], []⟩ _ _ ⟨[], []⟩ _ _ a a' b rfl rfl rfl rfl hb ha hf hf'
  rw [eval_div_eq _ _ _ _ _ _ _ a b rfl rfl, if_neg hb] at h1
  rw [eval_div_eq _ _ _ _ _ _ _ a' b rfl rfl, if_neg hb] at h2
  cases h1
  cases h2
  exact h3

theorem fits_of_small (m : Rounding) {a b : Int64} (ha : a.toInt.natAbs < 2 ^ 52) : DivisionFits m a b := by
  have hmin : Int64.minValue.toInt = -2 ^ 63 := rfl
  cases m with
  | down => rintro ⟨rfl, _⟩; rw [hmin] at ha; revert ha; decide
  | up => rintro (⟨_, h⟩ | ⟨_, h⟩) <;> omega
  | round => rintro (⟨_, h⟩ | ⟨_, h⟩) <;> omega

theorem divValue_small (m : Rounding) {a b : Int64} (hb : b ≠ 0) (ha : a.toInt.natAbs < 2 ^ 52)
    (hb' : b.toInt.natAbs < 2 ^ 52) : (divValue m a b).toInt.natAbs ≤ a.toInt.natAbs := by
  have hbz : b.toInt ≠ 0 := fun h => hb (Int64.toInt_inj.mp (by rw [h]; decide))
  have h1 := abs_quot_le (a := a.toInt) hbz
  rw [← Int.cast_abs, Int.abs_eq_natAbs] at h1
  have h2 := abs_le.mp h1
  have hA : |a.toInt| < 2 ^ 52 := by rw [Int.abs_eq_natAbs]; exact_mod_cast ha
  have hB : |b.toInt| < 2 ^ 53 := by rw [Int.abs_eq_natAbs]; omega
  cases m with
  | down =>
    obtain ⟨q, e, h, -⟩ := (C17_division (newEvaluator queueFeeder) .down (.int a) (.int b) ⟨[], []⟩ _ _ a b rfl rfl).2 hb
    rw [eval_div_eq _ _ _ _ _ _ _ a b rfl rfl, if_neg hb] at e
    cases e
    rw [h rfl (fits_of_small .down ha), Int.natAbs_tdiv]
    exact Nat.div_le_self _ _
  | up =>
    rw [divValue_up a b hb (by omega) hB]
    have l1 : ⌈(a.toInt : Rat) / b.toInt⌉ ≤ (a.toInt.natAbs : Int) := Int.ceil_le.mpr (by exact_mod_cast h2.2)
    have l2 : -(a.toInt.natAbs : Int) ≤ ⌈(a.toInt : Rat) / b.toInt⌉ := by
      have := Int.le_ceil ((a.toInt : Rat) / b.toInt)
      have l : ((-(a.toInt.natAbs : Int) : Int) : Rat) ≤ ⌈(a.toInt : Rat) / b.toInt⌉ := by
        push_cast at h2 ⊢
        linarith [h2.1]
      exact_mod_cast l
    omega
  | round =>
    have hn := abs_le.mp (divValue_round a b hb hA hB).1
    generalize (divValue .round a b).toInt = q at *
    push_cast at h2
    have l1 : (q : Rat) < ((a.toInt.natAbs : Int) + 1 : Int) := by push_cast; linarith [hn.2, h2.2]
    have l2 : ((-(a.toInt.natAbs : Int) - 1 : Int) : Rat) < q := by push_cast; linarith [hn.1, h2.1]
    have l1 : q < (a.toInt.natAbs : Int) + 1 := by exact_mod_cast l1
    have l2 : -(a.toInt.natAbs : Int) - 1 < q := by exact_mod_cast l2
    omega

theorem bmod_small {z : Int} (h : z.natAbs < 2 ^ 52) : z.bmod (2 ^ 64) = z := by
  rw [Int.bmod_eq_of_le] <;> omega

theorem add_small {a b : Int64} {x y : Nat} (ha : a.toInt.natAbs ≤ x) (hb : b.toInt.natAbs ≤ y) (h : x + y < 2 ^ 52) :
    (a + b).toInt = a.toInt + b.toInt := by
  rw [Int64.toInt_add, bmod_small (by omega)]

theorem sub_small {a b : Int64} {x y : Nat} (ha : a.toInt.natAbs ≤ x) (hb : b.toInt.natAbs ≤ y) (h : x + y < 2 ^ 52) :
    (a - b).toInt = a.toInt - b.toInt := by
  rw [Int64.toInt_sub, bmod_small (by omega)]

theorem neg_small {a : Int64} {x : Nat} (ha : a.toInt.natAbs ≤ x) (h : x < 2 ^ 52) : (-a).toInt = -a.toInt := by
  rw [Int64.toInt_neg, bmod_small (by omega)]

theorem mul_small {a b : Int64} {x y : Nat} (ha : a.toInt.natAbs ≤ x) (hb : b.toInt.natAbs ≤ y)
    (h : max x 1 * max y 1 < 2 ^ 52) :
    (a * b).toInt = a.toInt * b.toInt ∧ (a * b).toInt.natAbs ≤ max x 1 * max y 1 := by
  have hm : (a.toInt * b.toInt).natAbs ≤ max x 1 * max y 1 := by
    rw [Int.natAbs_mul]
    exact Nat.mul_le_mul (by omega) (by omega)
  have : (a * b).toInt = a.toInt * b.toInt := by
    rw [Int64.toInt_mul, bmod_small (by omega)]
  exact ⟨this, by rw [this]; exact hm⟩

theorem le_max_mul (x y : Nat) : x ≤ max x 1 * max y 1 ∧ y ≤ max x 1 * max y 1 := by
  have h1 : max x 1 * 1 ≤ max x 1 * max y 1 := Nat.mul_le_mul_left _ (by omega)
  have h2 : 1 * max y 1 ≤ max x 1 * max y 1 := Nat.mul_le_mul_right _ (by omega)
  omega

theorem Better.append {a b a' b' : List Die} (h : Better (a ++ b) (a' ++ b')) (hl : a.length = a'.length) :
    Better a a' ∧ Better b b' := by
  have h1 := List.forall₂_take a.length h
  have h2 := List.forall₂_drop a.length h
  rw [List.take_left, hl, List.take_left] at h1
  rw [List.drop_left, hl, List.drop_left] at h2
  exact ⟨h1, h2⟩

/-- The value of an expression with fair dice, and with better ones. -/
theorem dval_better {e : Expr} (ho : Ordinary e) {s : Bool} (ht : Tends s e) (hr : e.reach < 2 ^ 52) :
    ∀ {as rs as' rs' : List Die} {v v' : Int64}, DVal e as rs v → DVal e as' rs' v' →
    (∀ d ∈ rs, d.Fair) → (∀ d ∈ rs', d.Fair) → Better rs rs' →
    v.toInt.natAbs ≤ e.reach ∧ v'.toInt.natAbs ≤ e.reach ∧
      (s = true → v.toInt ≤ v'.toInt) ∧ (s = false → v'.toInt ≤ v.toInt) := by
  have hz : (0 : Int64).toInt = 0 := by decide
  induction ht with
  | int =>
    intro as rs as' rs' v v' h h' _ _ _
    cases h
    cases h'
    simp [Expr.reach]
  | @roll x y =>
    intro as rs as' rs' v v' h h' hf hf' hb
    cases ho with | roll h1 h2 h3 =>
    have hx : x.toInt.natAbs * y.toInt.natAbs < 2 ^ 52 := hr
    have e1 : x.toInt * y.toInt = ((x.toInt.natAbs * y.toInt.natAbs : Nat) : Int) := by
      rw [Int64.le_iff_toInt_le, show (1 : Int64).toInt = 1 from rfl] at h1 h3
      push_cast
      rw [abs_of_nonneg (by omega), abs_of_nonneg (by omega)]
    have hx0 : 1 ≤ x.toInt := by rw [Int64.le_iff_toInt_le, show (1 : Int64).toInt = 1 from rfl] at h1; exact h1
    have hw : Whole (.var .d (.int x) (.int y)) := .roll h1 h2 h3
    have hfit : (Expr.var .d (.int x) (.int y)).Fits := by
      constructor
      · show -2 ^ 63 ≤ x.toInt
        omega
      · show x.toInt * y.toInt < 2 ^ 63
        rw [e1]; omega
    have b1 := hw.between _ (faces_of (h.dice hw.ordinary).2 hf)
    have b2 := hw.between _ (faces_of (h'.dice hw.ordinary).2 hf')
    rw [← dval_toInt hw hfit h hf] at b1
    rw [← dval_toInt hw hfit h' hf'] at b2
    simp only [Expr.limits, e1] at b1 b2
    have hm := (exact_mono hw .roll (Better.values hb)).1 rfl
    rw [← dval_toInt hw hfit h hf, ← dval_toInt hw hfit h' hf'] at hm
    simp only [Expr.reach]
    refine ⟨by omega, by omega, fun _ => hm, fun h => (by cases h)⟩
  | @neg s r _ ih =>
    intro as rs as' rs' v v' h h' hf hf' hb
    cases ho with | neg ho =>
    cases h with | neg h =>
    cases h' with | neg h' =>
    have hr : r.reach < 2 ^ 52 := hr
    obtain ⟨b1, b2, m1, m2⟩ := ih ho hr h h' hf hf' hb
    rw [neg_small b1 hr, neg_small b2 hr]
    simp only [Expr.reach]
    refine ⟨by omega, by omega, ?_, ?_⟩ <;> intro hs <;> subst hs
    · have := m2 rfl; omega
    · have := m1 rfl; omega
  | @add s l r _ _ ih1 ih2 =>
    intro as rs as' rs' v v' h h' hf hf' hb
    cases ho with | bin h1 h2 =>
    cases h with | @add _ _ as rs bs ss a b g1 g2 =>
    cases h' with | @add _ _ as' rs' bs' ss' a' b' k1 k2 =>
    have hr : l.reach + r.reach < 2 ^ 52 := hr
    have hlen : rs.length = rs'.length := by
      have e1 := congrArg List.length (g1.dice h1).2
      have e2 := congrArg List.length (k1.dice h1).2
      simp only [List.length_map] at e1 e2
      omega
    obtain ⟨hb1, hb2⟩ := Better.append hb hlen
    simp only [List.mem_append] at hf hf'
    obtain ⟨b1, b2, m1, m2⟩ := ih1 h1 (by omega) g1 k1 (fun d h => hf d (.inl h)) (fun d h => hf' d (.inl h)) hb1
    obtain ⟨c1, c2, n1, n2⟩ := ih2 h2 (by omega) g2 k2 (fun d h => hf d (.inr h)) (fun d h => hf' d (.inr h)) hb2
    rw [add_small b1 c1 hr, add_small b2 c2 hr]
    simp only [Expr.reach]
    refine ⟨by omega, by omega, ?_, ?_⟩ <;> intro hs <;> subst hs
    · have := m1 rfl; have := n1 rfl; omega
    · have := m2 rfl; have := n2 rfl; omega
  | @sub s l r _ _ ih1 ih2 =>
    intro as rs as' rs' v v' h h' hf hf' hb
    cases ho with | bin h1 h2 =>
    cases h with | @sub _ _ as rs bs ss a b g1 g2 =>
    cases h' with | @sub _ _ as' rs' bs' ss' a' b' k1 k2 =>
    have hr : l.reach + r.reach < 2 ^ 52 := hr
    have hlen : rs.length = rs'.length := by
      have e1 := congrArg List.length (g1.dice h1).2
      have e2 := congrArg List.length (k1.dice h1).2
      simp only [List.length_map] at e1 e2
      omega
    obtain ⟨hb1, hb2⟩ := Better.append hb hlen
    simp only [List.mem_append] at hf hf'
    obtain ⟨b1, b2, m1, m2⟩ := ih1 h1 (by omega) g1 k1 (fun d h => hf d (.inl h)) (fun d h => hf' d (.inl h)) hb1
    obtain ⟨c1, c2, n1, n2⟩ := ih2 h2 (by omega) g2 k2 (fun d h => hf d (.inr h)) (fun d h => hf' d (.inr h)) hb2
    rw [sub_small b1 c1 hr, sub_small b2 c2 hr]
    simp only [Expr.reach]
    refine ⟨by omega, by omega, ?_, ?_⟩ <;> intro hs <;> subst hs
    · have := m1 rfl; have := n2 rfl; omega
    · have := m2 rfl; have := n1 rfl; omega
  | @times s l n hn _ ih =>
    intro as rs as' rs' v v' h h' hf hf' hb
    cases ho with | bin h1 h2 =>
    cases h with | @mul _ _ as rs bs ss a b g1 g2 =>
    cases h' with | @mul _ _ as' rs' bs' ss' a' b' k1 k2 =>
    cases g2; cases k2
    have hr : max l.reach 1 * max n.toInt.natAbs 1 < 2 ^ 52 := hr
    have hle := le_max_mul l.reach n.toInt.natAbs
    simp only [List.append_nil] at hf hf' hb
    obtain ⟨b1, b2, m1, m2⟩ := ih h1 (by omega) g1 k1 hf hf' hb
    obtain ⟨e1, l1⟩ := mul_small b1 (Nat.le_refl _) hr
    obtain ⟨e2, l2⟩ := mul_small b2 (Nat.le_refl _) hr
    refine ⟨l1, l2, ?_⟩
    rw [e1, e2]
    rw [Int64.le_iff_toInt_le, hz] at hn
    exact ⟨fun h => Int.mul_le_mul_of_nonneg_right (m1 h) hn, fun h => Int.mul_le_mul_of_nonneg_right (m2 h) hn⟩
  | @ntimes s l n hn _ ih =>
    intro as rs as' rs' v v' h h' hf hf' hb
    cases ho with | bin h1 h2 =>
    cases h with | @mul _ _ as rs bs ss a b g1 g2 =>
    cases h' with | @mul _ _ as' rs' bs' ss' a' b' k1 k2 =>
    cases g2; cases k2
    have hr : max l.reach 1 * max n.toInt.natAbs 1 < 2 ^ 52 := hr
    have hle := le_max_mul l.reach n.toInt.natAbs
    simp only [List.append_nil] at hf hf' hb
    obtain ⟨b1, b2, m1, m2⟩ := ih h1 (by omega) g1 k1 hf hf' hb
    obtain ⟨e1, l1⟩ := mul_small b1 (Nat.le_refl _) hr
    obtain ⟨e2, l2⟩ := mul_small b2 (Nat.le_refl _) hr
    refine ⟨l1, l2, ?_⟩
    rw [e1, e2]
    rw [Int64.le_iff_toInt_le, hz] at hn
    exact ⟨fun h => Int.mul_le_mul_of_nonpos_right (m2 (by subst h; rfl)) hn,
      fun h => Int.mul_le_mul_of_nonpos_right (m1 (by subst h; rfl)) hn⟩
  | @timesL s r n hn _ ih =>
    intro as rs as' rs' v v' h h' hf hf' hb
    cases ho with | bin h1 h2 =>
    cases h with | @mul _ _ as rs bs ss a b g1 g2 =>
    cases h' with | @mul _ _ as' rs' bs' ss' a' b' k1 k2 =>
    cases g1; cases k1
    have hr : max n.toInt.natAbs 1 * max r.reach 1 < 2 ^ 52 := hr
    have hle := le_max_mul n.toInt.natAbs r.reach
    simp only [List.nil_append] at hf hf' hb
    obtain ⟨b1, b2, m1, m2⟩ := ih h2 (by omega) g2 k2 hf hf' hb
    obtain ⟨e1, l1⟩ := mul_small (Nat.le_refl _) b1 hr
    obtain ⟨e2, l2⟩ := mul_small (Nat.le_refl _) b2 hr
    refine ⟨l1, l2, ?_⟩
    rw [e1, e2]
    rw [Int64.le_iff_toInt_le, hz] at hn
    exact ⟨fun h => Int.mul_le_mul_of_nonneg_left (m1 h) hn, fun h => Int.mul_le_mul_of_nonneg_left (m2 h) hn⟩
  | @ntimesL s r n hn _ ih =>
    intro as rs as' rs' v v' h h' hf hf' hb
    cases ho with | bin h1 h2 =>
    cases h with | @mul _ _ as rs bs ss a b g1 g2 =>
    cases h' with | @mul _ _ as' rs' bs' ss' a' b' k1 k2 =>
    cases g1; cases k1
    have hr : max n.toInt.natAbs 1 * max r.reach 1 < 2 ^ 52 := hr
    have hle := le_max_mul n.toInt.natAbs r.reach
    simp only [List.nil_append] at hf hf' hb
    obtain ⟨b1, b2, m1, m2⟩ := ih h2 (by omega) g2 k2 hf hf' hb
    obtain ⟨e1, l1⟩ := mul_small (Nat.le_refl _) b1 hr
    obtain ⟨e2, l2⟩ := mul_small (Nat.le_refl _) b2 hr
    refine ⟨l1, l2, ?_⟩
    rw [e1, e2]
    rw [Int64.le_iff_toInt_le, hz] at hn
    exact ⟨fun h => Int.mul_le_mul_of_nonpos_left hn (m2 (by subst h; rfl)),
      fun h => Int.mul_le_mul_of_nonpos_left hn (m1 (by subst h; rfl))⟩
  | @div s m l n hn _ ih =>
    intro as rs as' rs' v v' h h' hf hf' hb
    cases ho with | div h1 h2 =>
    cases h with | @div _ _ _ as rs bs ss a b g1 g2 g3 =>
    cases h' with | @div _ _ _ as' rs' bs' ss' a' b' k1 k2 k3 =>
    cases g2; cases k2
    have hr : max l.reach n.toInt.natAbs < 2 ^ 52 := hr
    simp only [List.append_nil] at hf hf' hb
    obtain ⟨b1, b2, m1, m2⟩ := ih h1 (by omega) g1 k1 hf hf' hb
    have l1 := divValue_small m (a := a) h2 (by omega) (by omega)
    have l2 := divValue_small m (a := a') h2 (by omega) (by omega)
    simp only [Expr.reach]
    refine ⟨by omega, by omega, fun h => ?_, fun h => ?_⟩
    · exact Int64.le_iff_toInt_le.mp ((divValue_order m (Int64.le_iff_toInt_le.mpr (m1 h)) h2
        (fits_of_small m (by omega)) (fits_of_small m (by omega))).1 hn)
    · exact Int64.le_iff_toInt_le.mp ((divValue_order m (Int64.le_iff_toInt_le.mpr (m2 h)) h2
        (fits_of_small m (by omega)) (fits_of_small m (by omega))).1 hn)
  | @ndiv s m l n hn _ ih =>
    intro as rs as' rs' v v' h h' hf hf' hb
    cases ho with | div h1 h2 =>
    cases h with | @div _ _ _ as rs bs ss a b g1 g2 g3 =>
    cases h' with | @div _ _ _ as' rs' bs' ss' a' b' k1 k2 k3 =>
    cases g2; cases k2
    have hr : max l.reach n.toInt.natAbs < 2 ^ 52 := hr
    simp only [List.append_nil] at hf hf' hb
    obtain ⟨b1, b2, m1, m2⟩ := ih h1 (by omega) g1 k1 hf hf' hb
    have l1 := divValue_small m (a := a) h2 (by omega) (by omega)
    have l2 := divValue_small m (a := a') h2 (by omega) (by omega)
    simp only [Expr.reach]
    refine ⟨by omega, by omega, fun h => ?_, fun h => ?_⟩
    · exact Int64.le_iff_toInt_le.mp ((divValue_order m (Int64.le_iff_toInt_le.mpr (m2 (by subst h; rfl))) h2
        (fits_of_small m (by omega)) (fits_of_small m (by omega))).2 hn)
    · exact Int64.le_iff_toInt_le.mp ((divValue_order m (Int64.le_iff_toInt_le.mpr (m1 (by subst h; rfl))) h2
        (fits_of_small m (by omega)) (fits_of_small m (by omega))).2 hn)

/-- **C102.** The same with division by numbers, if the numbers stay below 2^52. -/
theorem C102_division (E : Evaluator σ) (E' : Evaluator τ) (g g' : Str) {e : Expr} (ho : Ordinary e) (hr : e.reach < 2 ^ 52)
    {s : Bool} (ht : Tends s e) {f f1 : σ} {f' f1' : τ} {log log' : List Die} {res res' : Result}
    (h : E.execute g (.dRollExpr e) ⟨f, []⟩ = (.ok res, ⟨f1, log⟩))
    (h' : E'.execute g' (.dRollExpr e) ⟨f', []⟩ = (.ok res', ⟨f1', log'⟩))
    (hd : ∀ d ∈ res.rolledDice, d.Fair) (hd' : ∀ d ∈ res'.rolledDice, d.Fair)
    (hb : Better res.rolledDice res'.rolledDice) :
    ∃ v v' : Int64, res.parts[2]? = some (intStr v) ∧ res'.parts[2]? = some (intStr v') ∧
      (s = true → v ≤ v') ∧ (s = false → v' ≤ v) := by
  obtain ⟨ds, hO, -⟩ := (C78_execute E g _ f f1 res).mp ⟨log, h⟩
  obtain ⟨ds', hO', -⟩ := (C78_execute E' g' _ f' f1' res').mp ⟨log', h'⟩
  cases hO with | @dRollExpr _ e1 e2 as rs v a1 a2 a3 =>
  cases hO' with | @dRollExpr _ e1' e2' as' rs' v' b1 b2 b3 =>
  have hv := (staged_iff_DVal ..).mp ⟨_, _, a1, a2, a3⟩
  have hv' := (staged_iff_DVal ..).mp ⟨_, _, b1, b2, b3⟩
  obtain ⟨rfl, -⟩ := hv.dice ho
  obtain ⟨rfl, -⟩ := hv'.dice ho
  simp only [List.nil_append] at hd hd' hb
  have hm := (dval_better ho ht hr hv hv' hd hd' hb).2.2
  rw [← Int64.le_iff_toInt_le, ← Int64.le_iff_toInt_le] at hm
  exact ⟨v, v', by simp, by simp, hm⟩

/-- **C102.** Comparisons of such expressions. -/
theorem C102_division_success (E : Evaluator σ) (E' : Evaluator τ) (g g' : Str) {l r : Expr} (ho : Ordinary l)
    (hl : l.reach < 2 ^ 52) {s : Bool} (ht : Tends s l) {op : CmpOp} (hop : if s then op.AsksHigh else op.AsksLow)
    {t : Int64} (hr : Ev r [] t)
    {f f1 : σ} {f' f1' : τ} {log log' : List Die} {res res' : Result}
    (h : E.execute g (.dRollComp l op r) ⟨f, []⟩ = (.ok res, ⟨f1, log⟩))
    (h' : E'.execute g' (.dRollComp l op r) ⟨f', []⟩ = (.ok res', ⟨f1', log'⟩))
    (hd : ∀ d ∈ res.rolledDice, d.Fair) (hd' : ∀ d ∈ res'.rolledDice, d.Fair)
    (hb : Better res.rolledDice res'.rolledDice) (hs : res.success = .success) : res'.success = .success := by
  obtain ⟨ds, hO, -⟩ := (C78_execute E g _ f f1 res).mp ⟨log, h⟩
  obtain ⟨ds', hO', -⟩ := (C78_execute E' g' _ f' f1' res').mp ⟨log', h'⟩
  cases hO with | @dRollComp _ l1 l2 _ _ as bs rs v target a0 a1 a2 a3 a4 =>
  cases hO' with | @dRollComp _ l1' l2' _ _ as' bs' rs' v' target' b0 b1 b2 b3 b4 =>
  have hv := (staged_iff_DVal ..).mp ⟨_, _, a1, a3, a4⟩
  have hv' := (staged_iff_DVal ..).mp ⟨_, _, b1, b3, b4⟩
  obtain ⟨rfl, -⟩ := hv.dice ho
  obtain ⟨rfl, -⟩ := hv'.dice ho
  obtain ⟨rfl, e1⟩ := hr.const rfl _ _ a2
  obtain ⟨rfl, e2⟩ := hr.const rfl _ _ b2
  subst e1 e2
  simp only [List.nil_append] at hd hd' hb
  have hm := (dval_better ho ht hl hv hv' hd hd' hb).2.2
  by_cases hR : op.Rel v.toInt target'.toInt
  · have : op.Rel v'.toInt target'.toInt := by
      cases s
      · have := hm.2 rfl
        rcases hop with rfl | rfl <;> simp only [CmpOp.Rel] at hR ⊢ <;> omega
      · have := hm.1 rfl
        rcases hop with rfl | rfl <;> simp only [CmpOp.Rel] at hR ⊢ <;> omega
    simp [this]
  · simp [hR] at hs

/-- `3D6/2R` with 1, 2, 3 and with 1, 4, 4. -/
example : ∃ v v' : Int64, intStr v = intStr 3 ∧ intStr v' = intStr 5 ∧ v ≤ v' := by
  obtain ⟨res, log, hx, hp, hd⟩ : ∃ res log, (newEvaluator queueFeeder).execute chars!"DiceBot"
      (.dRollExpr (.div .round (.var .d (.int 3) (.int 6)) (.int 2))) ⟨[⟨1, 6⟩, ⟨2, 6⟩, ⟨3, 6⟩], []⟩ = (.ok res, ⟨[], log⟩) ∧
      res.parts[2]? = some (intStr 3) ∧ res.rolledDice = [⟨1, 6⟩, ⟨2, 6⟩, ⟨3, 6⟩] :=
    ⟨⟨chars!"DiceBot", [chars!"(3D6/2R)", chars!"6[1,2,3]/2R", chars!"3"], [⟨1, 6⟩, ⟨2, 6⟩, ⟨3, 6⟩], .unspecified, false⟩,
      [⟨1, 6⟩, ⟨2, 6⟩, ⟨3, 6⟩], by decide +kernel, by decide +kernel, rfl⟩
  obtain ⟨res', log', hx', hp', hd'⟩ : ∃ res log, (newEvaluator queueFeeder).execute chars!"DiceBot"
      (.dRollExpr (.div .round (.var .d (.int 3) (.int 6)) (.int 2))) ⟨[⟨1, 6⟩, ⟨4, 6⟩, ⟨4, 6⟩], []⟩ = (.ok res, ⟨[], log⟩) ∧
      res.parts[2]? = some (intStr 5) ∧ res.rolledDice = [⟨1, 6⟩, ⟨4, 6⟩, ⟨4, 6⟩] :=
    ⟨⟨chars!"DiceBot", [chars!"(3D6/2R)", chars!"9[1,4,4]/2R", chars!"5"], [⟨1, 6⟩, ⟨4, 6⟩, ⟨4, 6⟩], .unspecified, false⟩,
      [⟨1, 6⟩, ⟨4, 6⟩, ⟨4, 6⟩], by decide +kernel, by decide +kernel, rfl⟩
  obtain ⟨v, v', h1, h2, h, -⟩ := C102_division _ _ _ _ (.div (.roll (by decide) (by decide) (by decide)) (by decide)) (by decide)
    (s := true) (.div (by decide) .roll) hx hx' (by rw [hd]; decide) (by rw [hd']; decide)
    (by rw [hd, hd']; exact .cons (by decide) (.cons (by decide) (.cons (by decide) .nil)))
  rw [hp] at h1
  rw [hp'] at h2
  exact ⟨v, v', by injection h1 with h1; exact h1.symm, by injection h2 with h2; exact h2.symm, h rfl⟩

/-- `2D6+1` shows 6 with 2 and 3, and 8 with 2 and 5. -/
example : ∃ v v' : Int64, intStr v = intStr 6 ∧ intStr v' = intStr 8 ∧ v ≤ v' := by
  obtain ⟨res, log, hx, hp, hd⟩ : ∃ res log, (newEvaluator queueFeeder).execute chars!"DiceBot"
      (.dRollExpr (.bin .add (.var .d (.int 2) (.int 6)) (.int 1))) ⟨[⟨2, 6⟩, ⟨3, 6⟩], []⟩ = (.ok res, ⟨[], log⟩) ∧
      res.parts[2]? = some (intStr 6) ∧ res.rolledDice = [⟨2, 6⟩, ⟨3, 6⟩] := ⟨_, _, rfl, by simp; rfl, rfl⟩
  obtain ⟨res', log', hx', hp', hd'⟩ : ∃ res log, (newEvaluator queueFeeder).execute chars!"DiceBot"
      (.dRollExpr (.bin .add (.var .d (.int 2) (.int 6)) (.int 1))) ⟨[⟨2, 6⟩, ⟨5, 6⟩], []⟩ = (.ok res, ⟨[], log⟩) ∧
      res.parts[2]? = some (intStr 8) ∧ res.rolledDice = [⟨2, 6⟩, ⟨5, 6⟩] := ⟨_, _, rfl, by simp; rfl, rfl⟩
  obtain ⟨v, v', h1, h2, h, -⟩ := C102_total _ _ _ _ (.bin (.roll (by decide) (by decide) (by decide)) .int) (by constructor <;> decide)
    (s := true) (.add .roll .int) hx hx' (by rw [hd]; decide) (by rw [hd']; decide)
    (by rw [hd, hd']; exact .cons (by decide) (.cons (by decide) .nil))
  rw [hp] at h1
  rw [hp'] at h2
  exact ⟨v, v', by injection h1 with h1; exact h1.symm, by injection h2 with h2; exact h2.symm, h rfl⟩

/-- `10-1D6<=8` succeeds with a 2, so it does with a 5. -/
example : ∃ res log, (newEvaluator queueFeeder).execute chars!"DiceBot"
      (.dRollComp (.bin .sub (.int 10) (.var .d (.int 1) (.int 6))) .le (.int 8)) ⟨[⟨5, 6⟩], []⟩ = (.ok res, ⟨[], log⟩) ∧
      res.success = .success := by
  obtain ⟨res, log, hx, hs, hd⟩ : ∃ res log, (newEvaluator queueFeeder).execute chars!"DiceBot"
      (.dRollComp (.bin .sub (.int 10) (.var .d (.int 1) (.int 6))) .le (.int 8)) ⟨[⟨2, 6⟩], []⟩ = (.ok res, ⟨[], log⟩) ∧
      res.success = .success ∧ res.rolledDice = [⟨2, 6⟩] := ⟨_, _, rfl, rfl, rfl⟩
  obtain ⟨res', log', hx', hd'⟩ : ∃ res log, (newEvaluator queueFeeder).execute chars!"DiceBot"
      (.dRollComp (.bin .sub (.int 10) (.var .d (.int 1) (.int 6))) .le (.int 8)) ⟨[⟨5, 6⟩], []⟩ = (.ok res, ⟨[], log⟩) ∧
      res.rolledDice = [⟨5, 6⟩] := ⟨_, _, rfl, rfl⟩
  exact ⟨res', log', hx', C102_success _ _ _ _ (.bin .int (.roll (by decide) (by decide) (by decide))) (by constructor <;> decide)
    (s := false) (.sub .int .roll) (.inl rfl) (.int 8) hx hx' (by rw [hd]; decide) (by rw [hd']; decide)
    (by rw [hd, hd']; exact .cons (by decide) .nil) hs⟩

/-- `2B6>=4` with 3 and 4, and with 5 and 4. -/
example : ∃ res res' : Result, ∃ k k', CountShown res k ∧ CountShown res' k' ∧ k ≤ k' ∧ res.rolledDice = [⟨3, 6⟩, ⟨4, 6⟩] := by
  obtain ⟨res, log, hx, hd⟩ : ∃ res log, (newEvaluator queueFeeder).execute chars!"DiceBot"
      (.bRollComp [⟨.int 2, .int 6⟩] .ge (.int 4)) ⟨[⟨3, 6⟩, ⟨4, 6⟩], []⟩ = (.ok res, ⟨[], log⟩) ∧
      res.rolledDice = [⟨3, 6⟩, ⟨4, 6⟩] := ⟨_, _, rfl, rfl⟩
  obtain ⟨res', log', hx', hd'⟩ : ∃ res log, (newEvaluator queueFeeder).execute chars!"DiceBot"
      (.bRollComp [⟨.int 2, .int 6⟩] .ge (.int 4)) ⟨[⟨5, 6⟩, ⟨4, 6⟩], []⟩ = (.ok res, ⟨[], log⟩) ∧
      res.rolledDice = [⟨5, 6⟩, ⟨4, 6⟩] := ⟨_, _, rfl, rfl⟩
  obtain ⟨k, k', h1, h2, h, -⟩ := C102_B _ _ _ _ (by intro r hr; simp at hr; subst hr; exact .mk (by decide) (by decide) (by decide)) (.int 4) hx hx'
    (by rw [hd, hd']; exact .cons (by decide) (.cons (by decide) .nil))
  exact ⟨res, res', k, k', h1, h2, h (.inl rfl), hd⟩

/-- The condition on the command is needed: `1D6*(1-1D6)` is 1·(1-2) = -1 with 1 and 2, and 3·(1-2) = -3 with 3 and 2. -/
theorem C102_product_falls : ∃ res res' log log',
    (newEvaluator queueFeeder).execute chars!"DiceBot"
      (.dRollExpr (.bin .mul (.var .d (.int 1) (.int 6)) (.bin .sub (.int 1) (.var .d (.int 1) (.int 6))))) ⟨[⟨1, 6⟩, ⟨2, 6⟩], []⟩ =
        (.ok res, ⟨[], log⟩) ∧
    (newEvaluator queueFeeder).execute chars!"DiceBot"
      (.dRollExpr (.bin .mul (.var .d (.int 1) (.int 6)) (.bin .sub (.int 1) (.var .d (.int 1) (.int 6))))) ⟨[⟨3, 6⟩, ⟨2, 6⟩], []⟩ =
        (.ok res', ⟨[], log'⟩) ∧
    Better res.rolledDice res'.rolledDice ∧ res.parts[2]? = some (intStr (-1)) ∧ res'.parts[2]? = some (intStr (-3)) :=
  ⟨_, _, _, _, rfl, rfl, .cons (by decide) (.cons (by decide) .nil), by simp; rfl, by simp; rfl⟩

end GoBCDice
