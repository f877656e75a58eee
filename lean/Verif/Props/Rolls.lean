import Verif.Props.Commands
import Verif.BCDice

/-!
# Single rolls, Calc, staging, and the commands that cannot be executed (C09, C16, C23, C41-C43)
-/

namespace GoBCDice
variable {σ : Type} (E : Evaluator σ)

theorem executeBasicCommand_ok (F : DieFeeder σ) (g c : Str) (f f' : σ) (r : Result) :
    executeBasicCommand F g c f = (.ok r, f') ↔
      ∃ node s', parse c = some node ∧
        (newEvaluator F).execute g node ⟨f, []⟩ = (.ok r, s') ∧ s'.feeder = f' := by
  unfold executeBasicCommand
  cases hp : parse c with
  | none => simp
  | some node =>
    simp only [runFresh, Prod.mk.injEq, Option.some.injEq]
    constructor
    · rintro ⟨h1, h2⟩
      exact ⟨node, ((newEvaluator F).execute g node ⟨f, []⟩).2, rfl, Prod.ext h1 rfl, h2⟩
    · rintro ⟨_, s', rfl, h1, h2⟩
      rw [h1]
      exact ⟨rfl, h2⟩

/-! ### Fair feeders -/

/-- Dice drawn (with at least one side requested) from a feeder that delivers only dice showing one
of their faces are such dice. -/
theorem Draws.fair {F : DieFeeder σ} {I : σ → Prop} (hF : F.FairOn I) {f f' : σ} {ds : List Die}
    (h : Draws F f ds f') (hI : I f) (hs : ∀ d ∈ ds, 1 ≤ d.sides) : (∀ d ∈ ds, d.Fair) ∧ I f' := by
  induction h with
  | nil => exact ⟨by simp, hI⟩
  | @cons s s₁ s₂ d ds hn _ ih =>
    obtain ⟨h1, -, h3⟩ := hF s d.sides (hs d (by simp)) hI
    rw [hn] at h1 h3
    obtain ⟨h4, h5⟩ := ih h1 (fun x hx => hs x (by simp [hx]))
    refine ⟨?_, h5⟩
    intro x hx
    rcases List.mem_cons.mp hx with rfl | hx
    · exact h3 _ rfl
    · exact h4 x hx

theorem toInt_one : (1 : Int64).toInt = 1 := by decide

/-- Sum of values in the mathematical integers. -/
theorem sum_toInt_bounds (ds : List Die) (y : Int) (h : ∀ d ∈ ds, 1 ≤ d.value.toInt ∧ d.value.toInt ≤ y)
    (hb : ds.length * y < 2 ^ 63) :
    (ds.length : Int) ≤ (ds.map Die.value).sum.toInt ∧ (ds.map Die.value).sum.toInt ≤ ds.length * y ∧
      (ds.map Die.value).sum.toInt = (ds.map (fun d => d.value.toInt)).sum := by
  induction ds with
  | nil => simp
  | cons d ds ih =>
    have hd := h d (by simp)
    simp only [List.length_cons, Int.natCast_add, Int.cast_ofNat_Int, Int.add_mul, Int.one_mul] at hb
    obtain ⟨h1, h2, h3⟩ := ih (fun x hx => h x (by simp [hx])) (by omega)
    simp only [List.map_cons, List.sum_cons, List.length_cons, Int.natCast_add, Int.cast_ofNat_Int,
      Int.add_mul, Int.one_mul]
    rw [Int64.toInt_add, Int.bmod_eq_of_le (by omega) (by omega)]
    omega

theorem Rolled.sides_pos {x y : Int64} {rs : List Die} (h : Rolled x y rs) :
    ∀ d ∈ rs, 1 ≤ d.sides := by
  intro d hd
  rw [h.2.2.2.2 d hd]
  exact h.1

theorem forall_mem_append {α : Type} {P : α → Prop} {as bs : List α} (h1 : ∀ d ∈ as, P d)
    (h2 : ∀ d ∈ bs, P d) : ∀ d ∈ as ++ bs, P d := by
  intro d hd
  rcases List.mem_append.mp hd with hd | hd
  · exact h1 d hd
  · exact h2 d hd

/-- Every die an expression uses was asked for with at least one side. -/
theorem Ev.sides_pos {e : Expr} {ds : List Die} {v : Int64} (h : Ev e ds v) :
    ∀ d ∈ ds, 1 ≤ d.sides := by
  induction h with
  | int => simp
  | sumRoll => simp
  | neg _ ih => exact ih
  | add _ _ ih1 ih2 => exact forall_mem_append ih1 ih2
  | sub _ _ ih1 ih2 => exact forall_mem_append ih1 ih2
  | mul _ _ ih1 ih2 => exact forall_mem_append ih1 ih2
  | div _ _ _ ih1 ih2 => exact forall_mem_append ih1 ih2
  | d _ _ h3 ih1 ih2 => exact forall_mem_append (forall_mem_append ih1 ih2) h3.sides_pos
  | rand _ _ _ h3 ih1 ih2 => exact forall_mem_append (forall_mem_append ih1 ih2) h3.sides_pos

/-! ### C09 -/

/-- **C09.** With dice showing one of their faces, a successful `xDy` is worth between `x` and
`x*y`, whatever arithmetic is written for `x` and `y`, provided `x*y` fits. -/
theorem C09_sum_roll_bounds {I : σ → Prop} (hF : E.F.FairOn I) (l r : Expr) (s s' : St σ) (v : Int64)
    (hI : I s.feeder) (h : E.eval (.var .d l r) s = (.ok v, s')) :
    ∃ x y as bs rs, Ev l as x ∧ Ev r bs y ∧ s'.log = s.log ++ (as ++ bs ++ rs) ∧
      (rs.length : Int) = x.toInt ∧
      (x.toInt * y.toInt < 2 ^ 63 → x.toInt ≤ v.toInt ∧ v.toInt ≤ x.toInt * y.toInt ∧
        v.toInt = (rs.map (fun d => d.value.toInt)).sum) := by
  obtain ⟨ds, hev, hd, hl⟩ := (realizes_eval E _ _ _ _).mp h
  cases hev with
  | @d _ _ as bs rs x y h1 h2 h3 =>
    refine ⟨x, y, as, bs, rs, h1, h2, hl, h3.2.2.2.1, fun hb => ?_⟩
    have hsides := (Ev.d h1 h2 h3).sides_pos
    obtain ⟨hf, -⟩ := hd.fair hF hI hsides
    have := sum_toInt_bounds rs y.toInt (fun d hd => by
      have := hf d (by simp [hd])
      have h4 := h3.2.2.2.2 d hd
      simp only [Die.Fair, Int64.le_iff_toInt_le, toInt_one, h4] at this
      exact this) (by rw [h3.2.2.2.1]; exact hb)
    rw [h3.2.2.2.1] at this
    exact this

/-- Queues whose dice all show one of their faces are fair feeders. -/
theorem queue_fairOn : queueFeeder.FairOn (fun q => ∀ d ∈ q, d.Fair) := by
  intro q sides _ hq
  cases q with
  | nil => simp [queueFeeder, queueNext]
  | cons d q =>
    refine ⟨fun x hx => hq x (by simp [queueFeeder, queueNext] at hx; simp [hx]), by
      simp [queueFeeder, queueNext], ?_⟩
    intro d' h
    simp only [queueFeeder, queueNext, Out.ok.injEq] at h
    exact hq d' (by simp [h])

/-- The random feeder is fair, for every generator obeying the contract of `Intn`. -/
theorem mt_fairOn {ρ : Type} (r : Rng ρ) (hr : r.Lawful) : (mtFeeder r).FairOn (fun _ => True) := by
  intro s sides hs _
  have hpos : ¬ sides ≤ 0 := by grind
  obtain ⟨h1, h2⟩ := hr s sides (by grind)
  refine ⟨trivial, by simp [mtFeeder, hpos], ?_⟩
  intro d h
  simp only [mtFeeder, hpos, if_false, Out.ok.injEq] at h
  subst h
  have h3 := Int64.toInt_lt sides
  generalize (r.intn s sides).1 = v at h1 h2
  simp only [Die.Fair, Int64.le_iff_toInt_le, Int64.lt_iff_toInt_lt] at *
  have h0 : (0 : Int64).toInt = 0 := by decide
  rw [Int64.toInt_add, toInt_one, Int.bmod_eq_of_le (by omega) (by omega)]
  omega

-- non-vacuity: (1D2)D6 on a fair queue
example : (newEvaluator queueFeeder).eval (.var .d (.var .d (.int 1) (.int 2)) (.int 6))
    ⟨[⟨2, 2⟩, ⟨3, 6⟩, ⟨6, 6⟩], []⟩ = (.ok 9, ⟨[], [⟨2, 2⟩, ⟨3, 6⟩, ⟨6, 6⟩]⟩) ∧
    ∀ d ∈ [(⟨2, 2⟩ : Die), ⟨3, 6⟩, ⟨6, 6⟩], d.Fair := by decide

/-! ### C16: random numbers -/

/-- **C16.** A random number that succeeds has `lo < hi`, uses (after its operands) exactly one die
with `hi - lo + 1` sides, a quantity that did not overflow, and is worth `lo - 1` plus the die;
if the die shows one of its faces the result lies in the interval. -/
theorem C16_random_number (l r : Expr) (s s' : St σ) (v : Int64)
    (h : E.eval (.var .rand l r) s = (.ok v, s')) :
    ∃ lo hi as bs d, Ev l as lo ∧ Ev r bs hi ∧ lo < hi ∧
      Draws E.F s.feeder (as ++ bs ++ [d]) s'.feeder ∧ s'.log = s.log ++ (as ++ bs ++ [d]) ∧
      d.sides.toInt = hi.toInt - lo.toInt + 1 ∧ v = lo - 1 + d.value ∧
      (d.Fair → lo ≤ v ∧ v ≤ hi ∧ v.toInt = lo.toInt - 1 + d.value.toInt) := by
  obtain ⟨ds, hev, hd, hl⟩ := (realizes_eval E _ _ _ _).mp h
  cases hev with
  | @rand _ _ as bs lo hi d h1 h2 h3 h4 =>
    have hs : d.sides = hi - lo + 1 := h4.2.2.2.2 d (by simp)
    have hge := h4.1
    have a1 := Int64.toInt_lt hi
    have a2 := Int64.le_toInt hi
    have a3 := Int64.toInt_lt lo
    have a4 := Int64.le_toInt lo
    simp only [Int64.lt_iff_toInt_lt] at h3
    have hsi : d.sides.toInt = hi.toInt - lo.toInt + 1 := by
      rw [hs]
      simp only [Int64.le_iff_toInt_le, Int64.toInt_add, Int64.toInt_sub, toInt_one,
        Int.bmod_add_bmod] at hge ⊢
      by_cases hb : hi.toInt - lo.toInt + 1 < 2 ^ 63
      · rw [Int.bmod_eq_of_le] <;> omega
      · exfalso
        have : Int.bmod (hi.toInt - lo.toInt + 1) (2 ^ 64) = hi.toInt - lo.toInt + 1 - 2 ^ 64 := by
          rw [← Int.sub_bmod_right, Int.bmod_eq_of_le] <;> omega
        omega
    refine ⟨lo, hi, as, bs, d, h1, h2, by rw [Int64.lt_iff_toInt_lt]; exact h3, hd, hl, hsi, rfl, ?_⟩
    intro hf
    simp only [Die.Fair, Int64.le_iff_toInt_le, toInt_one] at hf
    have hv : (lo - 1 + d.value).toInt = lo.toInt - 1 + d.value.toInt := by
      rw [Int64.toInt_add, Int64.toInt_sub, Int.bmod_add_bmod, toInt_one, Int.bmod_eq_of_le] <;> omega
    simp only [Int64.le_iff_toInt_le]
    omega

/-- **C16, errors.** An empty or one-point interval is an error and costs nothing beyond its bounds; so
is an interval too wide for 64 bits. -/
theorem C16_random_number_errors (l r : Expr) (lo hi : Int64) (s s1 s2 : St σ)
    (hl : E.eval l s = (.ok lo, s1)) (hr : E.eval r s1 = (.ok hi, s2)) :
    (hi ≤ lo → E.eval (.var .rand l r) s =
      (.err (chars!"evalRandomNumber: min (" ++ intStr lo ++ chars!") must be less than max (" ++
        intStr hi ++ chars!")"), s2)) ∧
    (2 ^ 63 ≤ hi.toInt - lo.toInt + 1 →
      E.eval (.var .rand l r) s =
        (.err (chars!"RollDice(num: 1, sides: " ++ intStr (hi - lo + 1) ++
          chars!"): ダイスの面数が少なすぎます"), s2)) := by
  constructor
  · intro h
    simp only [Evaluator.eval, M.bind_eq, hl, hr, Evaluator.evalRandomNumber, h, if_true, M.fail]
    rfl
  · intro h
    have a1 := Int64.toInt_lt hi
    have a2 := Int64.le_toInt hi
    have a3 := Int64.toInt_lt lo
    have a4 := Int64.le_toInt lo
    have h1 : ¬ hi ≤ lo := by rw [Int64.le_iff_toInt_le]; omega
    have h2 : hi - lo + 1 < 1 := by
      simp only [Int64.lt_iff_toInt_lt, Int64.toInt_add, Int64.toInt_sub, toInt_one,
        Int.bmod_add_bmod]
      have : Int.bmod (hi.toInt - lo.toInt + 1) (2 ^ 64) = hi.toInt - lo.toInt + 1 - 2 ^ 64 := by
        rw [← Int.sub_bmod_right, Int.bmod_eq_of_le] <;> omega
      omega
    simp only [Evaluator.eval, M.bind_eq, hl, hr, Evaluator.evalRandomNumber, h1, if_false,
      Evaluator.rollDice, GoBCDice.rollDice, h2, if_true, sidesTooSmallMsg, rollDicePrefix]
    rw [show intStr 1 = chars!"1" by decide]
    simp

-- non-vacuity
example : (newEvaluator queueFeeder).eval (.var .rand (.int 3) (.int 7)) ⟨[⟨5, 5⟩], []⟩ =
    (.ok 7, ⟨[], [⟨5, 5⟩]⟩) := by decide
example : (2 : Int) ^ 63 ≤ (Int64.maxValue).toInt - (-1 : Int64).toInt + 1 := by decide

/-! ### C23: Calc is pure (at the level of trees) -/

/-- Evaluating an expression without rolls has an outcome that depends on nothing and changes
nothing. -/
theorem eval_pure (e : Expr) (he : e.isVariable = false) :
    ∃ o : Out Int64, ∀ {τ : Type} (E : Evaluator τ) (s : St τ), E.eval e s = (o, s) := by
  induction e with
  | int v => exact ⟨.ok v, fun _ _ => rfl⟩
  | sumRoll ds => exact ⟨.ok (sumDice ds), fun _ _ => rfl⟩
  | neg r ih =>
    obtain ⟨o, h⟩ := ih he
    refine ⟨o.map (fun v => -v), fun E s => ?_⟩
    simp only [Evaluator.eval, M.bind_eq, h]
    cases o <;> rfl
  | bin op l r ih1 ih2 =>
    simp only [Expr.isVariable, Bool.or_eq_false_iff] at he
    obtain ⟨o1, h1⟩ := ih1 he.1
    obtain ⟨o2, h2⟩ := ih2 he.2
    refine ⟨match o1, o2 with
      | .ok a, .ok b => .ok (op.apply a b)
      | .ok _, .err e => .err e
      | .ok _, .panic e => .panic e
      | .err e, _ => .err e
      | .panic e, _ => .panic e, fun E s => ?_⟩
    simp only [Evaluator.eval, M.bind_eq, h1, h2]
    cases o1 <;> cases o2 <;> rfl
  | div m l r ih1 ih2 =>
    simp only [Expr.isVariable, Bool.or_eq_false_iff] at he
    obtain ⟨o1, h1⟩ := ih1 he.1
    obtain ⟨o2, h2⟩ := ih2 he.2
    refine ⟨match o1, o2 with
      | .ok a, .ok b =>
        if b = 0 then .err (intStr a ++ chars!" divided by zero") else .ok (divValue m a b)
      | .ok _, .err e => .err e
      | .ok _, .panic e => .panic e
      | .err e, _ => .err e
      | .panic e, _ => .panic e, fun E s => ?_⟩
    simp only [Evaluator.eval, M.bind_eq, h1, h2]
    cases o1 <;> cases o2 <;> try rfl
    simp only [Evaluator.evalIntegerDivide]
    split <;> rfl
  | var k l r => simp [Expr.isVariable] at he

/-- **C23 (trees).** Executing a Calc command without rolls neither changes the feeder nor depends
on it, and reports no dice.  (`C23_calc_pure` removes the hypothesis for parsed commands.) -/
theorem C23_calc_pure_tree (g : Str) (e : Expr) (he : e.isVariable = false) :
    ∃ o : Out Result, (∀ r, o = .ok r → r.rolledDice = []) ∧
      ∀ {τ : Type} (E : Evaluator τ) (s : St τ), E.execute g (.calc e) s = (o, s) := by
  obtain ⟨o, h⟩ := eval_pure e he
  refine ⟨o.map (fun v => mkResult g [calcNotation e, chars!"計算結果", intStr v] []), ?_, ?_⟩
  · intro r hr
    cases o with
    | ok v => simp only [Out.map, Out.ok.injEq] at hr; subst hr; rfl
    | err => simp [Out.map] at hr
    | panic => simp [Out.map] at hr
  · intro τ E s
    simp only [Evaluator.execute, Evaluator.executeCalc, M.bind_eq, h]
    cases o <;> rfl

/-! ### C41: staging -/

/-- Every roll occurring as a term has literal operands, and there is no random number term. -/
def LiteralRolls : Expr → Prop
  | .int _ => True
  | .sumRoll _ => True
  | .neg r => LiteralRolls r
  | .bin _ l r => LiteralRolls l ∧ LiteralRolls r
  | .div _ l r => LiteralRolls l ∧ LiteralRolls r
  | .var .d l r => (∃ x, l = .int x) ∧ ∃ y, r = .int y
  | .var .rand _ _ => False

/-- **C41.** After a successful first stage every roll has literal operands; after a successful
second stage nothing variable is left, and evaluating what remains draws no dice. -/
theorem C41_staging (e e1 e2 : Expr) (s s1 s2 : St σ)
    (h1 : E.evalVarArgsInCommand e s = (.ok e1, s1))
    (h2 : E.determineValuesOperand e1 s1 = (.ok e2, s2)) :
    LiteralRolls e1 ∧ e2.isVariable = false ∧ ∀ s3, (E.eval e2 s3).2 = s3 := by
  obtain ⟨ds, hd1, -, -⟩ := (realizes_evalVarArgsInCommand E e s s1 e1).mp h1
  obtain ⟨es, hd2, -, -⟩ := (realizes_determineValuesOperand E e1 s1 s2 e2).mp h2
  have hv := hd2.not_variable
  refine ⟨?_, hv, ?_⟩
  · clear h1 h2 hd2
    induction hd1 with
    | int => trivial
    | sumRoll => trivial
    | neg _ ih => exact ih
    | bin _ _ ih1 ih2 => exact ⟨ih1, ih2⟩
    | div _ _ ih1 ih2 => exact ⟨ih1, ih2⟩
    | roll => exact ⟨⟨_, rfl⟩, _, rfl⟩
  · intro s3
    obtain ⟨o, h⟩ := eval_pure e2 hv
    rw [h]

example : ∃ s1 e2 s2, (newEvaluator queueFeeder).evalVarArgsInCommand
      (.neg (.var .d (.bin .add (.int 1) (.int 1)) (.int 6))) ⟨[⟨3, 6⟩, ⟨6, 6⟩], []⟩ =
        (.ok (.neg (.var .d (.int 2) (.int 6))), s1) ∧
    (newEvaluator queueFeeder).determineValuesOperand (.neg (.var .d (.int 2) (.int 6))) s1 =
      (.ok e2, s2) := ⟨_, _, _, rfl, rfl⟩

/-! ### C42, C43: commands that can never be executed -/

/-- **C42 (what holds).** A D comparison succeeds exactly when its left side is of one of the
supported shapes (a compound expression, or a single roll with literal operands) and the values
exist on dice the feeder can deliver. -/
theorem C42_dRollComp_executes_iff (g : Str) (l : Expr) (op : CmpOp) (t : Expr) (f f' : σ)
    (ds : List Die) :
    (∃ r, E.execute g (.dRollComp l op t) ⟨f, []⟩ = (.ok r, ⟨f', ds⟩)) ↔
      DCompLeft l ∧ (∃ as bs rs v target, DVal l as rs v ∧ Ev t bs target ∧ ds = as ++ bs ++ rs) ∧
        Draws E.F f ds f' := by
  constructor
  · rintro ⟨r, h⟩
    obtain ⟨ds', ho, hd, hl⟩ := (execute_ok_iff E g _ f _ r).mp h
    have hl' : ds = ds' := hl
    subst hl'
    cases ho with | dRollComp h0 h1 h2 h3 h4 =>
    exact ⟨h0, ⟨_, _, _, _, _, (staged_iff_DVal ..).mp ⟨_, _, h1, h3, h4⟩, h2, rfl⟩, hd⟩
  · rintro ⟨h0, ⟨as, bs, rs, v, target, hv, h2, rfl⟩, hd⟩
    obtain ⟨e1, e2, h1, h3, h4⟩ := (staged_iff_DVal ..).mpr hv
    exact ⟨_, (execute_ok_iff E g _ f _ _).mpr ⟨_, .dRollComp h0 h1 h2 h3 h4, hd, rfl⟩⟩

/-- **C42 (refutation).** A comparison whose left side is a single roll with a computed number or
computed sides never succeeds, whatever the dice. -/
theorem C42_computed_left_never_executes (g : Str) (l r : Expr) (op : CmpOp) (t : Expr) (f : σ)
    (hlit : ¬ ∃ x y, l = .int x ∧ r = .int y) (s' : St σ) (res : Result) :
    E.execute g (.dRollComp (.var .d l r) op t) ⟨f, []⟩ ≠ (.ok res, s') := by
  intro h
  obtain ⟨f', ds⟩ := s'
  obtain ⟨h0, -⟩ := (C42_dRollComp_executes_iff E g _ op t f f' ds).mp ⟨res, h⟩
  cases l <;> cases r <;> first | exact hlit ⟨_, _, rfl, rfl⟩ | exact h0

/-- The example from the usage text is such a command: it parses, and no feeder makes it succeed. -/
theorem C42_usage_example_never_executes (F : DieFeeder σ) (g : Str) (f : σ) (res : Result) (f' : σ) :
    executeBasicCommand F g chars!"(8/2)D(4+6)<=(5*3)" f ≠ (.ok res, f') := by
  have hp : parse chars!"(8/2)D(4+6)<=(5*3)" = some (.dRollComp (.var .d (.div .down (.int 8) (.int 2))
      (.bin .add (.int 4) (.int 6))) .le (.bin .mul (.int 5) (.int 3))) := by decide
  intro h
  obtain ⟨node, s', hn, h, -⟩ := (executeBasicCommand_ok F g _ f f' res).mp h
  obtain rfl := Option.some.inj (hp.symm.trans hn)
  exact C42_computed_left_never_executes (newEvaluator F) g _ _ .le _ f
    (by rintro ⟨x, y, h1, -⟩; cases h1) s' res h

/-- A random number occurs as a term (not inside the operand of a roll). -/
def HasRandTerm : Expr → Prop
  | .int _ => False
  | .sumRoll _ => False
  | .neg r => HasRandTerm r
  | .bin _ l r => HasRandTerm l ∨ HasRandTerm r
  | .div _ l r => HasRandTerm l ∨ HasRandTerm r
  | .var .d _ _ => False
  | .var .rand _ _ => True

theorem DVal.no_randTerm {e : Expr} {as rs : List Die} {v : Int64} (h : DVal e as rs v) :
    ¬ HasRandTerm e := by
  induction h with
  | int => exact id
  | sumRoll => exact id
  | neg _ ih => exact ih
  | add _ _ ih1 ih2 => exact fun h => h.elim ih1 ih2
  | sub _ _ ih1 ih2 => exact fun h => h.elim ih1 ih2
  | mul _ _ ih1 ih2 => exact fun h => h.elim ih1 ih2
  | div _ _ _ ih1 ih2 => exact fun h => h.elim ih1 ih2
  | roll => exact id

/-- **C43 (refutation).** A D command in which a random number occurs as a term never succeeds. -/
theorem C43_random_term_never_executes (g : Str) (e : Expr) (he : HasRandTerm e) (f : σ) (s' : St σ)
    (res : Result) :
    E.execute g (.dRollExpr e) ⟨f, []⟩ ≠ (.ok res, s') ∧
    ∀ op t, E.execute g (.dRollComp e op t) ⟨f, []⟩ ≠ (.ok res, s') := by
  constructor
  · intro h
    obtain ⟨f', ds⟩ := s'
    obtain ⟨as, rs, v, hv, -⟩ := (C08_dRoll_value E g e f f').1 res ds h
    exact hv.no_randTerm he
  · intro op t h
    obtain ⟨f', ds⟩ := s'
    obtain ⟨-, ⟨as, bs, rs, v, target, hv, -⟩, -⟩ :=
      (C42_dRollComp_executes_iff E g e op t f f' ds).mp ⟨res, h⟩
    exact hv.no_randTerm he

/-- `[1...3]+2D6` parses, but no feeder makes it succeed. -/
theorem C43_example_never_executes (F : DieFeeder σ) (g : Str) (f : σ) (res : Result) (f' : σ) :
    executeBasicCommand F g chars!"[1...3]+2D6" f ≠ (.ok res, f') := by
  have hp : parse chars!"[1...3]+2D6" = some (.dRollExpr (.bin .add (.var .rand (.int 1) (.int 3))
      (.var .d (.int 2) (.int 6)))) := by decide
  intro h
  obtain ⟨node, s', hn, h, -⟩ := (executeBasicCommand_ok F g _ f f' res).mp h
  obtain rfl := Option.some.inj (hp.symm.trans hn)
  refine (C43_random_term_never_executes (newEvaluator F) g _ ?_ f s' res).1 h
  exact Or.inl trivial

end GoBCDice
