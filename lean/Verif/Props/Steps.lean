import Verif.Spec.Steps
import Verif.Props.TypedAlike
import Verif.Props.Arith

/-!
# C113: calculations can be done step by step
-/

namespace GoBCDice

/-- The outcome of evaluating `e`, whatever the evaluator. -/
structure Expr.Gives (e : Expr) (o : Out Int64) : Prop where
  eval : ∀ {τ : Type} (E : Evaluator τ) (s : St τ), E.eval e s = (o, s)

theorem Expr.Gives.unique {e : Expr} {o o' : Out Int64} (h : e.Gives o) (h' : e.Gives o') : o = o' := by
  have := (h.eval (newEvaluator queueFeeder) ⟨[], []⟩).symm.trans (h'.eval (newEvaluator queueFeeder) ⟨[], []⟩)
  exact congrArg Prod.fst this

theorem Der.gives {s : Str} {e : Expr} (h : Der (.add .int) s e) : ∃ o : Out Int64, o.isPanic = false ∧ e.Gives o := by
  obtain ⟨o, h1, h2⟩ := eval_const e (h.int_rands (by simp))
  exact ⟨o, h1, ⟨h2⟩⟩

/-- What `C(a)` is answered. -/
def calcAnswer (e : Expr) (secret : Bool) (o : Out Int64) : Out Result :=
  o.map fun v => (mkResult chars!"DiceBot" [calcNotation e, chars!"計算結果", intStr v] []).withSecret secret

theorem calc_typed {a input : Str} {e : Expr} {o : Out Int64} (ha : Der (.add .int) a e) (ho : e.Gives o) (hi : CalcTyped a input) :
    ∃ secret, ∀ {σ : Type} (F : DieFeeder σ) (usage : Str) (f : σ),
      executeCommand F (basicBot usage) input f = (calcAnswer e secret o, f) := by
  obtain ⟨mark, c, rest, hm, hc, rfl⟩ := hi
  have hs : checkSecret (mark ++ [c] ++ chars!"(" ++ a ++ chars!")" ++ rest) =
      ([c] ++ chars!"(" ++ a ++ chars!")" ++ rest, !mark.isEmpty) := by
    rcases hm with rfl | rfl | rfl <;> rcases hc with rfl | rfl <;> simp [checkSecret]
  have hfp : firstPart ([c] ++ chars!"(" ++ a ++ chars!")" ++ rest) = [c] ++ chars!"(" ++ a ++ chars!")" ++ firstPart rest := by
    unfold firstPart
    rw [List.takeWhile_append_of_pos]
    intro x hx
    have hx' : x = c ∨ x = '(' ∨ x ∈ a ∨ x = ')' := by simpa [or_assoc] using hx
    rcases hx' with rfl | rfl | h | rfl
    · rcases hc with rfl | rfl <;> decide
    · decide
    · simp [rollChars_no_space (ha.chars x h)]
    · decide
  refine ⟨!mark.isEmpty, fun {σ} F usage f => ?_⟩
  have hb : ∀ t, executeBasicCommand F chars!"DiceBot" ([c] ++ chars!"(" ++ a ++ chars!")" ++ t) f =
      (o.map (fun v => mkResult chars!"DiceBot" [calcNotation e, chars!"計算結果", intStr v] []), f) := by
    intro t
    have hp : parse ([c] ++ chars!"(" ++ a ++ chars!")" ++ t) = some (.calc e) := (parse_iff _ _).mpr (.calc hc ha)
    simp only [executeBasicCommand, hp, runFresh, Evaluator.execute, Evaluator.executeCalc]
    have hx : ((do
        let v ← (newEvaluator F).eval e
        pure (mkResult chars!"DiceBot" [calcNotation e, chars!"計算結果", intStr v] []) : M σ Result)) ⟨f, []⟩ =
        (o.map (fun v => mkResult chars!"DiceBot" [calcNotation e, chars!"計算結果", intStr v] []), ⟨f, []⟩) := by
      show M.bnd ((newEvaluator F).eval e) _ _ = _
      unfold M.bnd
      rw [ho.eval]
      cases o <;> rfl
    rw [hx]
  rw [executeCommand_basic, hs]
  simp only [hfp, hb, calcAnswer]
  cases o with
  | ok v => rfl
  | err m => simp only [Out.map, hb]
  | panic m => rfl

theorem calc_text (a : Str) : CalcTyped a (chars!"C(" ++ a ++ chars!")") :=
  ⟨[], 'C', [], .inl rfl, .inl rfl, by simp⟩

theorem Der.calculates {a : Str} {e : Expr} (ha : Der (.add .int) a e) {v : Int64} : Calculates a v ↔ e.Gives (.ok v) := by
  constructor
  · intro h
    obtain ⟨o, h1, h2⟩ := ha.gives
    obtain ⟨secret, h3⟩ := calc_typed ha h2 (calc_text a)
    obtain ⟨r, h4, h5⟩ := h queueFeeder [] _ [] (calc_text a)
    rw [h3] at h4
    cases o with
    | ok w =>
      simp only [calcAnswer, Out.map, Prod.mk.injEq, Out.ok.injEq, and_true] at h4
      subst h4
      have : w = v := intStr_inj (by simpa [mkResult, Result.withSecret] using h5)
      subst this
      exact h2
    | err m => simp [calcAnswer, Out.map] at h4
    | panic m => simp [calcAnswer, Out.map] at h4
  · intro h σ F usage input f hi
    obtain ⟨secret, h3⟩ := calc_typed ha h hi
    exact ⟨_, h3 F usage f, by simp [mkResult, Result.withSecret]⟩

theorem Der.calcFails {a : Str} {e : Expr} (ha : Der (.add .int) a e) {m : Str} : CalcFails a m ↔ e.Gives (.err m) := by
  constructor
  · intro h
    obtain ⟨o, h1, h2⟩ := ha.gives
    obtain ⟨secret, h3⟩ := calc_typed ha h2 (calc_text a)
    have h4 := h queueFeeder [] _ [] (calc_text a)
    rw [h3] at h4
    cases o with
    | ok w => simp [calcAnswer, Out.map] at h4
    | err m' =>
      simp only [calcAnswer, Out.map, Prod.mk.injEq, Out.err.injEq, and_true] at h4
      subst h4
      exact h2
    | panic m => simp [calcAnswer, Out.map] at h4
  · intro h σ F usage input f hi
    obtain ⟨secret, h3⟩ := calc_typed ha h hi
    exact h3 F usage f

theorem IsCalculation.der {a : Str} (h : IsCalculation a) : ∃ e, Der (.add .int) a e := by
  obtain ⟨ha, node, ht⟩ := h
  have nostart : ∀ {nt : NT} {s t : Str} {e : Expr}, Der nt s e → s ++ t = chars!"C(" ++ a ++ chars!")" → False := by
    intro nt s t e h he
    obtain ⟨x, s', rfl, hx⟩ := h.start
    simp only [List.cons_append, List.nil_append, List.cons.injEq] at he
    rw [he.1] at hx
    revert hx
    decide
  have noroll : ∀ {letters : Char × Char} {s t : Str} {rs : List Roll}, RollsText letters s rs →
      s ++ t = chars!"C(" ++ a ++ chars!")" → False := by
    intro letters s t rs h he
    cases h with
    | one h => obtain ⟨x, y, l, rfl, -, h, -⟩ := h; exact nostart h (by simpa using he)
    | cons h => obtain ⟨x, y, l, rfl, -, h, -⟩ := h; exact nostart h (by simpa using he)
  generalize hs : chars!"C(" ++ a ++ chars!")" = s at ht
  cases ht with
  | @choice kw body seps rest items hk =>
    exfalso
    cases kw with
    | nil => exact hk
    | cons x kw =>
      cases kw with
      | nil => exact hk.2
      | cons y kw =>
        have h1 := hk.2.1
        simp only [List.cons_append, List.nil_append, List.cons.injEq] at hs
        rw [← hs.2.1] at h1
        rcases h1 with h1 | ⟨h1, h2, -⟩ | ⟨h1, -⟩
        · revert h1; decide
        · revert h2; decide
        · revert h1; decide
  | @«calc» t rest e c hc he =>
    have : t = a := by
      refine wrap_unique (rest := rest) he.balanced ha ?_
      simp only [List.cons_append, List.nil_append, List.append_assoc, List.cons.injEq] at hs ⊢
      exact ⟨trivial, hs.2.2.symm⟩
    subst this
    exact ⟨e, he⟩
  | bRollList h => exact (noroll (t := []) h (by simpa using hs.symm)).elim
  | bRollComp h => exact (noroll h hs.symm).elim
  | rRollList h => obtain ⟨a, b, rfl, h, -⟩ := h; exact (noroll h (by simpa using hs.symm)).elim
  | rRollComp h => obtain ⟨a, b, rfl, h, -⟩ := h; exact (noroll h (by simpa using hs.symm)).elim
  | uRollExpr h => obtain ⟨a, b, rfl, ⟨c, d, rfl, h, -⟩, -⟩ := h; exact (noroll h (by simpa using hs.symm)).elim
  | uRollComp h => obtain ⟨a, b, rfl, ⟨c, d, rfl, h, -⟩, -⟩ := h; exact (noroll h (by simpa using hs.symm)).elim
  | dRollExpr h => exact (nostart (t := []) h (by simpa using hs.symm)).elim
  | dRollComp h => exact (nostart h hs.symm).elim

theorem Der.isCalculation {a : Str} {e : Expr} (h : Der (.add .int) a e) : IsCalculation a :=
  ⟨h.balanced, .calc e, by simpa using CommandText.calc (rest := []) (.inl rfl) h⟩

theorem Der.op {a b : Str} {e e' : Expr} (h : Der (.add .int) a e) (h' : Der (.add .int) b e') :
    Der (.add .int) (chars!"(" ++ a ++ chars!")+(" ++ b ++ chars!")") (.bin .add e e') ∧
    Der (.add .int) (chars!"(" ++ a ++ chars!")-(" ++ b ++ chars!")") (.bin .sub e e') ∧
    Der (.add .int) (chars!"(" ++ a ++ chars!")*(" ++ b ++ chars!")") (.bin .mul e e') ∧
    (∀ {m : Rounding} {t : Str}, RoundingText m t →
      Der (.add .int) (chars!"(" ++ a ++ chars!")/(" ++ b ++ chars!")" ++ t) (.div m e e')) ∧
    Der (.add .int) (chars!"-(" ++ a ++ chars!")") (.neg e) ∧
    Der (.add .int) (chars!"+(" ++ a ++ chars!")") e ∧
    Der (.add .int) (chars!"(" ++ a ++ chars!")") e := by
  refine ⟨?_, ?_, ?_, ?_, ?_, ?_, ?_⟩
  · simpa using Der.addAdd (.addMul (.mulPrim (.paren h))) (.mulPrim (.paren h'))
  · simpa using Der.addSub (.addMul (.mulPrim (.paren h))) (.mulPrim (.paren h'))
  · simpa using Der.addMul (Der.mulMul (.mulPrim (.paren h)) (.paren h'))
  · intro m t ht
    cases ht with
    | down => simpa using Der.addMul (Der.mulDiv (.mulPrim (.paren h)) (.paren h'))
    | up hc => simpa using Der.addMul (Der.mulDivUp hc (.mulPrim (.paren h)) (.paren h'))
    | round hc => simpa using Der.addMul (Der.mulDivRound hc (.mulPrim (.paren h)) (.paren h'))
  · simpa using Der.addMul (.mulPrim (.minus (.paren h)))
  · simpa using Der.addMul (.mulPrim (.plus (.paren h)))
  · simpa using Der.addMul (.mulPrim (.paren h))

/-- The outcomes of a computation with two operands. -/
def calcBoth (k : Int64 → Int64 → Out Int64) : Out Int64 → Out Int64 → Out Int64
  | .ok a, .ok b => k a b
  | .ok _, .err m => .err m
  | .ok _, .panic m => .panic m
  | .err m, _ => .err m
  | .panic m, _ => .panic m

theorem Expr.Gives.bin {op : BinOp} {e e' : Expr} {o o' : Out Int64} (h : e.Gives o) (h' : e'.Gives o') :
    (Expr.bin op e e').Gives (calcBoth (fun a b => .ok (op.apply a b)) o o') := by
  refine ⟨fun {τ} E s => ?_⟩
  show M.bnd (E.eval e) (fun a => M.bnd (E.eval e') (fun b => pure (op.apply a b))) s = _
  have g := h'.eval E s
  unfold M.bnd
  rw [h.eval]
  cases o
  · simp only [g]; cases o' <;> rfl
  · rfl
  · rfl

theorem Expr.Gives.neg {e : Expr} {o : Out Int64} (h : e.Gives o) : (Expr.neg e).Gives (o.map (- ·)) := by
  refine ⟨fun {τ} E s => ?_⟩
  show M.bnd (E.eval e) _ s = _
  unfold M.bnd
  rw [h.eval]
  cases o <;> rfl

theorem Expr.Gives.div {m : Rounding} {e e' : Expr} {o o' : Out Int64} (h : e.Gives o) (h' : e'.Gives o') :
    (Expr.div m e e').Gives (calcBoth (fun a b => if b = 0 then .err (intStr a ++ chars!" divided by zero") else .ok (divValue m a b)) o o') := by
  refine ⟨fun {τ} E s => ?_⟩
  show M.bnd (E.eval e) (fun a => M.bnd (E.eval e') (fun b => Evaluator.evalIntegerDivide m a b)) s = _
  have g := h'.eval E s
  unfold M.bnd
  rw [h.eval]
  cases o
  · simp only [g]
    cases o'
    · simp only [Evaluator.evalIntegerDivide, calcBoth]
      split <;> rfl
    · rfl
    · rfl
  · rfl
  · rfl

variable {a b : Str}

theorem calcBoth_ok {k : Int64 → Int64 → Out Int64} {o o' : Out Int64} {z : Int64} :
    calcBoth k o o' = .ok z ↔ ∃ x y, o = .ok x ∧ o' = .ok y ∧ k x y = .ok z := by
  cases o <;> cases o' <;> simp [calcBoth]

theorem calcBoth_err {k : Int64 → Int64 → Out Int64} {o o' : Out Int64} {m : Str} (h : o'.isPanic = false) :
    calcBoth k o o' = .err m ↔ o = .err m ∨ ∃ x, o = .ok x ∧ (o' = .err m ∨ ∃ y, o' = .ok y ∧ k x y = .err m) := by
  cases o <;> cases o' <;> simp_all [calcBoth, Out.isPanic]

theorem Expr.Gives.iff {e : Expr} {o o' : Out Int64} (h : e.Gives o) : e.Gives o' ↔ o = o' :=
  ⟨fun h' => h.unique h', fun h' => h' ▸ h⟩

theorem const_err {e : Expr} (hr : e.rands = 0) {m : Str} (h2 : e.Gives (.err m)) :
    ∃ x : Int64, m = intStr x ++ chars!" divided by zero" := by
  induction e with
  | int v => cases h2.unique (o' := .ok v) ⟨fun _ _ => rfl⟩
  | sumRoll ds => cases h2.unique (o' := .ok (sumDice ds)) ⟨fun _ _ => rfl⟩
  | neg r ih =>
    obtain ⟨o', -, h'⟩ := eval_const r hr
    have h3 := (Expr.Gives.neg (o := o') ⟨h'⟩).unique h2
    cases o' with
    | err m' => cases h3; exact ih hr ⟨h'⟩
    | ok v => cases h3
    | panic m => cases h3
  | bin op l r i j =>
    simp only [Expr.rands, Nat.add_eq_zero_iff] at hr
    obtain ⟨o1, -, h1⟩ := eval_const l hr.1
    obtain ⟨o2, h4, h2'⟩ := eval_const r hr.2
    have h3 := (Expr.Gives.bin (op := op) (o := o1) (o' := o2) ⟨h1⟩ ⟨h2'⟩).unique h2
    rcases (calcBoth_err h4).mp h3 with rfl | ⟨x, rfl, rfl | ⟨y, rfl, h⟩⟩
    · exact i hr.1 ⟨h1⟩
    · exact j hr.2 ⟨h2'⟩
    · cases h
  | div k l r i j =>
    simp only [Expr.rands, Nat.add_eq_zero_iff] at hr
    obtain ⟨o1, -, h1⟩ := eval_const l hr.1
    obtain ⟨o2, h4, h2'⟩ := eval_const r hr.2
    have h3 := (Expr.Gives.div (m := k) (o := o1) (o' := o2) ⟨h1⟩ ⟨h2'⟩).unique h2
    rcases (calcBoth_err h4).mp h3 with rfl | ⟨x, rfl, rfl | ⟨y, rfl, h⟩⟩
    · exact i hr.1 ⟨h1⟩
    · exact j hr.2 ⟨h2'⟩
    · split at h
      · exact ⟨x, (Out.err.inj h).symm⟩
      · cases h
  | var k l r => simp [Expr.rands] at hr

/-- **C113.** Every calculation has one outcome, a value or an error, and the only errors are divisions by zero. -/
theorem C113_outcome (ha : IsCalculation a) :
    (∃ v, Calculates a v ∧ (∀ w, Calculates a w → w = v) ∧ ∀ m, ¬ CalcFails a m) ∨
    ∃ x : Int64, CalcFails a (intStr x ++ chars!" divided by zero") ∧
      (∀ m, CalcFails a m → m = intStr x ++ chars!" divided by zero") ∧ ∀ v, ¬ Calculates a v := by
  obtain ⟨e, he⟩ := ha.der
  obtain ⟨o, h1, h2⟩ := he.gives
  simp only [he.calculates, he.calcFails, h2.iff]
  cases o with
  | ok v => exact .inl ⟨v, rfl, fun w h => (Out.ok.inj h).symm, fun m h => by cases h⟩
  | panic m => simp [Out.isPanic] at h1
  | err m =>
    refine .inr ?_
    obtain ⟨x, rfl⟩ := const_err (he.int_rands (by simp)) h2
    exact ⟨x, rfl, fun m h => (Out.err.inj h).symm, fun v h => by cases h⟩

/-- **C113.** What is made of two calculations is a calculation. -/
theorem C113_calculation (ha : IsCalculation a) (hb : IsCalculation b) :
    IsCalculation (chars!"(" ++ a ++ chars!")+(" ++ b ++ chars!")") ∧
    IsCalculation (chars!"(" ++ a ++ chars!")-(" ++ b ++ chars!")") ∧
    IsCalculation (chars!"(" ++ a ++ chars!")*(" ++ b ++ chars!")") ∧
    (∀ {m : Rounding} {t : Str}, RoundingText m t → IsCalculation (chars!"(" ++ a ++ chars!")/(" ++ b ++ chars!")" ++ t)) ∧
    IsCalculation (chars!"-(" ++ a ++ chars!")") ∧ IsCalculation (chars!"+(" ++ a ++ chars!")") ∧
    IsCalculation (chars!"(" ++ a ++ chars!")") := by
  obtain ⟨e, he⟩ := ha.der
  obtain ⟨e', he'⟩ := hb.der
  obtain ⟨h1, h2, h3, h4, h5, h6, h7⟩ := he.op he'
  exact ⟨h1.isCalculation, h2.isCalculation, h3.isCalculation, fun h => (h4 h).isCalculation, h5.isCalculation,
    h6.isCalculation, h7.isCalculation⟩

/-- **C113.** Sums, differences, products, quotients and signs are computed from the values of their parts, modulo 2^64. -/
theorem C113_steps (ha : IsCalculation a) (hb : IsCalculation b) (z : Int64) :
    (Calculates (chars!"(" ++ a ++ chars!")+(" ++ b ++ chars!")") z ↔ ∃ x y, Calculates a x ∧ Calculates b y ∧ z = x + y) ∧
    (Calculates (chars!"(" ++ a ++ chars!")-(" ++ b ++ chars!")") z ↔ ∃ x y, Calculates a x ∧ Calculates b y ∧ z = x - y) ∧
    (Calculates (chars!"(" ++ a ++ chars!")*(" ++ b ++ chars!")") z ↔ ∃ x y, Calculates a x ∧ Calculates b y ∧ z = x * y) ∧
    (Calculates (chars!"(" ++ a ++ chars!")/(" ++ b ++ chars!")") z ↔
      ∃ x y, Calculates a x ∧ Calculates b y ∧ y ≠ 0 ∧ z = x / y) ∧
    (Calculates (chars!"-(" ++ a ++ chars!")") z ↔ ∃ x, Calculates a x ∧ z = -x) ∧
    (Calculates (chars!"+(" ++ a ++ chars!")") z ↔ Calculates a z) ∧
    (Calculates (chars!"(" ++ a ++ chars!")") z ↔ Calculates a z) := by
  obtain ⟨e, he⟩ := ha.der
  obtain ⟨e', he'⟩ := hb.der
  obtain ⟨h1, h2, h3, h4, h5, h6, h7⟩ := he.op he'
  obtain ⟨o, p1, p2⟩ := he.gives
  obtain ⟨o', p3, p4⟩ := he'.gives
  have h4 := h4 .down
  simp only [List.append_nil] at h4
  simp only [h1.calculates, h2.calculates, h3.calculates, h4.calculates, h5.calculates, h6.calculates, h7.calculates,
    he.calculates, he'.calculates, (Expr.Gives.bin p2 p4).iff, (Expr.Gives.div p2 p4).iff, p2.neg.iff, p2.iff, p4.iff, calcBoth_ok,
    BinOp.apply, Out.ok.injEq, divValue, and_true]
  refine ⟨?_, ?_, ?_, ?_, ?_⟩
  · simp only [eq_comm]
  · simp only [eq_comm]
  · simp only [eq_comm]
  · constructor
    · rintro ⟨x, y, rfl, rfl, h⟩
      split at h
      · cases h
      · exact ⟨x, y, rfl, rfl, ‹_›, (Out.ok.inj h).symm⟩
    · rintro ⟨x, y, rfl, rfl, h, rfl⟩
      exact ⟨x, y, rfl, rfl, by simp [h]⟩
  · cases o <;> simp [Out.map, eq_comm]

/-- **C113.** An error of the first part is the error of the whole, then one of the second part, then a division by zero. -/
theorem C113_errors (ha : IsCalculation a) (hb : IsCalculation b) (msg : Str) :
    (∀ s ∈ [chars!"+", chars!"-", chars!"*"], CalcFails (chars!"(" ++ a ++ chars!")" ++ s ++ chars!"(" ++ b ++ chars!")") msg ↔
      CalcFails a msg ∨ ∃ x, Calculates a x ∧ CalcFails b msg) ∧
    (∀ {m : Rounding} {t : Str}, RoundingText m t → (CalcFails (chars!"(" ++ a ++ chars!")/(" ++ b ++ chars!")" ++ t) msg ↔
      CalcFails a msg ∨ ∃ x, Calculates a x ∧ (CalcFails b msg ∨ Calculates b 0 ∧ msg = intStr x ++ chars!" divided by zero"))) ∧
    (CalcFails (chars!"-(" ++ a ++ chars!")") msg ↔ CalcFails a msg) := by
  obtain ⟨e, he⟩ := ha.der
  obtain ⟨e', he'⟩ := hb.der
  obtain ⟨h1, h2, h3, h4, h5, h6, h7⟩ := he.op he'
  obtain ⟨o, p1, p2⟩ := he.gives
  obtain ⟨o', p3, p4⟩ := he'.gives
  refine ⟨?_, ?_, ?_⟩
  · have key : ∀ op, (Expr.bin op e e').Gives (.err msg) ↔ CalcFails a msg ∨ ∃ x, Calculates a x ∧ CalcFails b msg := by
      intro op
      simp only [he.calculates, he.calcFails, he'.calcFails, (Expr.Gives.bin p2 p4).iff, p2.iff, p4.iff, calcBoth_err p3]
      simp
    intro s hs
    simp only [List.mem_cons, List.not_mem_nil, or_false] at hs
    rcases hs with rfl | rfl | rfl
    · rw [← key .add, ← h1.calcFails]; simp
    · rw [← key .sub, ← h2.calcFails]; simp
    · rw [← key .mul, ← h3.calcFails]; simp
  · intro m t ht
    simp only [(h4 ht).calcFails, he.calculates, he.calcFails, he'.calcFails, he'.calculates, (Expr.Gives.div p2 p4).iff, p2.iff,
      p4.iff, calcBoth_err p3]
    refine or_congr Iff.rfl (exists_congr fun x => and_congr Iff.rfl (or_congr Iff.rfl ?_))
    constructor
    · rintro ⟨y, rfl, h⟩
      split at h
      · subst y; exact ⟨rfl, (Out.err.inj h).symm⟩
      · cases h
    · rintro ⟨rfl, rfl⟩
      exact ⟨0, rfl, by simp⟩
  · simp only [h5.calcFails, he.calcFails, p2.neg.iff, p2.iff]
    cases o <;> simp [Out.map]

/-- **C113.** Divisions with `U` and `R`: the least integer not below, and the nearest integer to, the exact quotient. -/
theorem C113_rounding (ha : IsCalculation a) (hb : IsCalculation b) {x y : Int64} (hx : Calculates a x) (hy : Calculates b y)
    (h0 : y ≠ 0) (hx' : |x.toInt| < 2 ^ 52) (hy' : |y.toInt| < 2 ^ 53) {t : Str} :
    (RoundingText .up t → ∃ z, Calculates (chars!"(" ++ a ++ chars!")/(" ++ b ++ chars!")" ++ t) z ∧
      z.toInt = ⌈(x.toInt : Rat) / y.toInt⌉) ∧
    (RoundingText .round t → ∃ z, Calculates (chars!"(" ++ a ++ chars!")/(" ++ b ++ chars!")" ++ t) z ∧
      IsNearest ((x.toInt : Rat) / y.toInt) z.toInt) := by
  obtain ⟨e, he⟩ := ha.der
  obtain ⟨e', he'⟩ := hb.der
  have p := he.calculates.mp hx
  have q := he'.calculates.mp hy
  have h4 : ∀ m, RoundingText m t → _ := fun m h => (he.op he').2.2.2.1 h
  have key : ∀ {m z}, RoundingText m t → (newEvaluator queueFeeder).eval (.div m e e') ⟨[], []⟩ = (.ok z, ⟨[], []⟩) →
      Calculates (chars!"(" ++ a ++ chars!")/(" ++ b ++ chars!")" ++ t) z := by
    intro m z hm hz
    rw [(h4 m hm).calculates]
    have hd := Expr.Gives.div (m := m) p q
    rw [hd.eval] at hz
    have hz' := congrArg Prod.fst hz
    dsimp only at hz'
    exact ⟨fun E s => (hd.eval E s).trans (by rw [hz'])⟩
  constructor
  · intro ht
    obtain ⟨z, h5, h6⟩ := C18_div_up (newEvaluator queueFeeder) e e' ⟨[], []⟩ ⟨[], []⟩ ⟨[], []⟩ x y (p.eval _ _) (q.eval _ _) h0 (by omega) hy'
    exact ⟨z, key ht h5, h6⟩
  · intro ht
    obtain ⟨z, h5, h6⟩ := C19_div_round (newEvaluator queueFeeder) e e' ⟨[], []⟩ ⟨[], []⟩ ⟨[], []⟩ x y (p.eval _ _) (q.eval _ _) h0 hx' hy'
    exact ⟨z, key ht h5, h6⟩

/-- **C113.** A number is a calculation of its own value (or the greatest 64-bit number). -/
theorem C113_number {ds : Str} (h0 : ds ≠ []) (hd : ∀ c ∈ ds, '0' ≤ c ∧ c ≤ '9') :
    ∃ v : Int64, IsCalculation ds ∧ Calculates ds v ∧ v.toInt = min (decimal ds) (2 ^ 63 - 1 : Nat) := by
  have h1 : Der (.add .int) ds (.int (atoiSat ds)) :=
    .addMul (.mulPrim (.primNum (.number h0 fun c hc => by have := hd c hc; simp [isDigit, this.1, this.2])))
  exact ⟨atoiSat ds, h1.isCalculation, h1.calculates.mpr ⟨fun _ _ => rfl⟩, atoiSat_toInt ds⟩

/-- **C113.** The laws of school algebra, even if the values leave 64 bits (they hold modulo 2^64). -/
theorem C113_laws {c : Str} (ha : IsCalculation a) (hb : IsCalculation b) (hc : IsCalculation c) (z : Int64) :
    let add := fun x y : Str => chars!"(" ++ x ++ chars!")+(" ++ y ++ chars!")"
    let sub := fun x y : Str => chars!"(" ++ x ++ chars!")-(" ++ y ++ chars!")"
    let mul := fun x y : Str => chars!"(" ++ x ++ chars!")*(" ++ y ++ chars!")"
    let neg := fun x : Str => chars!"-(" ++ x ++ chars!")"
    (Calculates (add a b) z ↔ Calculates (add b a) z) ∧ (Calculates (mul a b) z ↔ Calculates (mul b a) z) ∧
    (Calculates (add a (add b c)) z ↔ Calculates (add (add a b) c) z) ∧
    (Calculates (mul a (mul b c)) z ↔ Calculates (mul (mul a b) c) z) ∧
    (Calculates (mul a (add b c)) z ↔ Calculates (add (mul a b) (mul a c)) z) ∧
    (Calculates (sub a b) z ↔ Calculates (add a (neg b)) z) ∧
    (Calculates (sub a (sub b c)) z ↔ Calculates (add (sub a b) c) z) ∧
    (Calculates (neg (neg a)) z ↔ Calculates a z) ∧
    (Calculates (mul (neg a) b) z ↔ Calculates (neg (mul a b)) z) := by
  obtain ⟨e1, h1⟩ := ha.der
  obtain ⟨e2, h2⟩ := hb.der
  obtain ⟨e3, h3⟩ := hc.der
  intro add sub mul neg
  have da : ∀ {x y : Str} {e e' : Expr}, Der (.add .int) x e → Der (.add .int) y e' → Der (.add .int) (add x y) (.bin .add e e') :=
    fun h h' => (h.op h').1
  have ds : ∀ {x y : Str} {e e' : Expr}, Der (.add .int) x e → Der (.add .int) y e' → Der (.add .int) (sub x y) (.bin .sub e e') :=
    fun h h' => (h.op h').2.1
  have dm : ∀ {x y : Str} {e e' : Expr}, Der (.add .int) x e → Der (.add .int) y e' → Der (.add .int) (mul x y) (.bin .mul e e') :=
    fun h h' => (h.op h').2.2.1
  have dn : ∀ {x : Str} {e : Expr}, Der (.add .int) x e → Der (.add .int) (neg x) (.neg e) :=
    fun h => (h.op h).2.2.2.2.1
  obtain ⟨o1, -, g1⟩ := h1.gives
  obtain ⟨o2, -, g2⟩ := h2.gives
  obtain ⟨o3, -, g3⟩ := h3.gives
  have key : ∀ {x y : Str} {e e' : Expr} {o o' : Out Int64}, Der (.add .int) x e → Der (.add .int) y e' → e.Gives o → e'.Gives o' →
      (o = .ok z ↔ o' = .ok z) → (Calculates x z ↔ Calculates y z) := fun h h' g g' hz => by
    rw [h.calculates, h'.calculates, g.iff, g'.iff, hz]
  refine ⟨key (da h1 h2) (da h2 h1) (g1.bin g2) (g2.bin g1) ?_, key (dm h1 h2) (dm h2 h1) (g1.bin g2) (g2.bin g1) ?_,
    key (da h1 (da h2 h3)) (da (da h1 h2) h3) (g1.bin (g2.bin g3)) ((g1.bin g2).bin g3) ?_,
    key (dm h1 (dm h2 h3)) (dm (dm h1 h2) h3) (g1.bin (g2.bin g3)) ((g1.bin g2).bin g3) ?_,
    key (dm h1 (da h2 h3)) (da (dm h1 h2) (dm h1 h3)) (g1.bin (g2.bin g3)) ((g1.bin g2).bin (g1.bin g3)) ?_,
    key (ds h1 h2) (da h1 (dn h2)) (g1.bin g2) (g1.bin g2.neg) ?_,
    key (ds h1 (ds h2 h3)) (da (ds h1 h2) h3) (g1.bin (g2.bin g3)) ((g1.bin g2).bin g3) ?_,
    key (dn (dn h1)) h1 g1.neg.neg g1 ?_, key (dm (dn h1) h2) (dn (dm h1 h2)) (g1.neg.bin g2) (g1.bin g2).neg ?_⟩
  all_goals clear key da ds dm dn g1 g2 g3 h1 h2 h3 ha hb hc
  · cases o1 <;> cases o2 <;> simp [calcBoth, BinOp.apply, Int64.add_comm]
  · cases o1 <;> cases o2 <;> simp [calcBoth, BinOp.apply, Int64.mul_comm]
  · cases o1 <;> cases o2 <;> cases o3 <;> simp [calcBoth, BinOp.apply, Int64.add_assoc]
  · cases o1 <;> cases o2 <;> cases o3 <;> simp [calcBoth, BinOp.apply, Int64.mul_assoc]
  · cases o1 <;> cases o2 <;> cases o3 <;> simp [calcBoth, BinOp.apply, Int64.mul_add]
  · cases o1 <;> cases o2 <;> simp [calcBoth, BinOp.apply, Out.map, Int64.sub_eq_add_neg]
  · cases o1 <;> cases o2 <;> cases o3 <;> simp [calcBoth, BinOp.apply, Int64.sub_eq_add_neg, Int64.neg_add, Int64.add_assoc]
  · cases o1 <;> simp [Out.map]
  · cases o1 <;> cases o2 <;> simp [calcBoth, BinOp.apply, Out.map, Int64.neg_mul]

/-- `C((1+2)*3)` from `C(1+2)` and `C(3)`; `C((1/0)+(2))` fails; sums wrap. -/
example : Calculates chars!"(1+2)*(3)" 9 ∧ CalcFails chars!"(1/0)+(2)" chars!"1 divided by zero" ∧
    Calculates chars!"(9223372036854775807)+(1)" (-9223372036854775808) := by
  have num : ∀ {ds : Str}, ds ≠ [] → (∀ c ∈ ds, isDigit c = true) → Der (.add .int) ds (.int (atoiSat ds)) :=
    fun h0 h => .addMul (.mulPrim (.primNum (.number h0 h)))
  have h1 := num (ds := chars!"1") (by decide) (by decide)
  have h2 := num (ds := chars!"2") (by decide) (by decide)
  have h3 := num (ds := chars!"3") (by decide) (by decide)
  have h0 := num (ds := chars!"0") (by decide) (by decide)
  have hm := num (ds := chars!"9223372036854775807") (by decide) (by decide)
  have h12 : Der (.add .int) chars!"1+2" _ := .addAdd h1 (.mulPrim (.primNum (.number (by decide) (by decide))))
  have h10 : Der (.add .int) chars!"1/0" _ :=
    .addMul (.mulDiv (.mulPrim (.primNum (.number (ds := chars!"1") (by decide) (by decide)))) (.primNum (.number (by decide) (by decide))))
  refine ⟨(C113_steps h12.isCalculation h3.isCalculation 9).2.2.1.mpr ⟨3, 3, h12.calculates.mpr ⟨fun _ _ => rfl⟩,
    h3.calculates.mpr ⟨fun _ _ => rfl⟩, by decide⟩, ?_, (C113_steps hm.isCalculation h1.isCalculation _).1.mpr
    ⟨9223372036854775807, 1, hm.calculates.mpr ⟨fun _ _ => rfl⟩, h1.calculates.mpr ⟨fun _ _ => rfl⟩, by decide⟩⟩
  exact ((C113_errors h10.isCalculation h2.isCalculation _).1 chars!"+" (by simp)).mpr (.inl (h10.calcFails.mpr ⟨fun _ _ => rfl⟩))

end GoBCDice
