import Verif.Lemmas.Average

/-!
# Averages (C91)

With perfect random numbers: what totals and numbers of successes are to be expected?
-/

namespace GoBCDice
open MeasureTheory

variable {usage input body : Str} {secret : Bool} {e : Expr}

theorem shows_eq (hm : Marked input body secret) (ht : CommandText body (.dRollExpr e)) (hw : Whole e)
    (hf : e.Fits) (i : ℕ) {t : Int} (hlo : -2 ^ 63 ≤ t) (hhi : t < 2 ^ 63) :
    chance (Shows usage input i t) =
      ((allFaces e.dice).countP (fun vs => e.exact vs = t) : ENNReal) / ((allFaces e.dice).length : ENNReal) := by
  rw [Shows, C85_expression hm ht hw.ordinary]
  congr 2
  apply List.countP_congr
  intro vs hv
  simp only [decide_eq_true_eq]
  rw [dval_faces hw hv]
  have hb := hw.between vs hv
  obtain ⟨f1, f2⟩ := hf
  constructor
  · intro h
    have := congrArg Int64.toInt h
    rw [Int64.toInt_ofInt_of_le (by omega) (by omega), Int64.toInt_ofInt_of_le (by omega) (by omega)] at this
    exact this.symm
  · rintro rfl; rfl

theorem shows_toReal (hm : Marked input body secret) (ht : CommandText body (.dRollExpr e)) (hw : Whole e)
    (hf : e.Fits) (i : ℕ) {t : Int} (h : t ∈ Finset.Icc e.limits.1 e.limits.2) :
    (chance (Shows usage input i t)).toReal =
      (((allFaces e.dice).countP (fun vs => e.exact vs = t) / (allFaces e.dice).length : Rat) : ℝ) := by
  have := Finset.mem_Icc.mp h
  have f1 := hf.1
  have f2 := hf.2
  rw [shows_eq hm ht hw hf i (by omega) (by omega), ENNReal.toReal_div, ENNReal.toReal_natCast, ENNReal.toReal_natCast]
  push_cast
  rfl

theorem expectation (hm : Marked input body secret) (ht : CommandText body (.dRollExpr e)) (hw : Whole e)
    (hf : e.Fits) (i : ℕ) (g : Int → Rat) :
    ∑ t ∈ Finset.Icc e.limits.1 e.limits.2, (g t : ℝ) * (chance (Shows usage input i t)).toReal =
      ((avg e.dice fun vs => g (e.exact vs) : Rat) : ℝ) := by
  rw [Finset.sum_congr rfl (fun t h => by rw [shows_toReal hm ht hw hf i h])]
  unfold avg
  rw [← sum_countP _ _ _ _ hw.between, Finset.sum_div]
  push_cast
  apply Finset.sum_congr rfl
  intro t _
  rw [mul_div_assoc]

/-- **C91.** The total always lies between the limits. -/
theorem C91_limits (hm : Marked input body secret) (ht : CommandText body (.dRollExpr e)) (hw : Whole e)
    (hf : e.Fits) (i : ℕ) :
    ∑ t ∈ Finset.Icc e.limits.1 e.limits.2, (chance (Shows usage input i t)).toReal = 1 := by
  have h := expectation (usage := usage) hm ht hw hf i (fun _ => 1)
  rw [avg_const hw.dice_pos] at h
  simpa using h

/-- **C91.** The average total. -/
theorem C91_mean (hm : Marked input body secret) (ht : CommandText body (.dRollExpr e)) (hw : Whole e)
    (hf : e.Fits) (i : ℕ) :
    ∑ t ∈ Finset.Icc e.limits.1 e.limits.2, (t : ℝ) * (chance (Shows usage input i t)).toReal = e.mean := by
  have h := expectation (usage := usage) hm ht hw hf i (fun t => t)
  rw [hw.moments.1] at h
  simpa using h

/-- **C91.** The average square of the distance from the average total. -/
theorem C91_variance (hm : Marked input body secret) (ht : CommandText body (.dRollExpr e)) (hw : Whole e)
    (hf : e.Fits) (i : ℕ) :
    ∑ t ∈ Finset.Icc e.limits.1 e.limits.2, ((t : ℝ) - e.mean) ^ 2 * (chance (Shows usage input i t)).toReal =
      e.variance := by
  have h := expectation (usage := usage) hm ht hw hf i (fun t => ((t : Rat) - e.mean) ^ 2)
  rw [avg_congr (g := fun vs => ((e.exact vs : Rat) ^ 2 + (-2 * e.mean) * (e.exact vs : Rat)) + e.mean ^ 2)
    (fun vs _ => by ring), avg_add, avg_add, avg_smul, avg_const hw.dice_pos, hw.moments.1, hw.moments.2] at h
  push_cast at h ⊢
  rw [h]
  ring

/-- **C91.** High and low totals are equally likely: totals at the same distance above and below the
average have the same probability, unless rolls are multiplied with each other. -/
theorem C91_symmetric (hm : Marked input body secret) (ht : CommandText body (.dRollExpr e)) (hw : Whole e)
    (hl : e.Linear) (hf : e.Fits) (i : ℕ) (t t' : Int) (h : (t : Rat) + t' = 2 * e.mean)
    (h1 : -2 ^ 63 ≤ t ∧ t < 2 ^ 63) (h2 : -2 ^ 63 ≤ t' ∧ t' < 2 ^ 63) :
    chance (Shows usage input i t) = chance (Shows usage input i t') := by
  rw [shows_eq hm ht hw hf i h1.1 h1.2, shows_eq hm ht hw hf i h2.1 h2.2]
  congr 2
  rw [← (turned_perm e.dice).countP_eq (fun vs => e.exact vs = t), List.countP_map]
  apply List.countP_congr
  intro vs hv
  simp only [Function.comp, decide_eq_true_eq]
  have := hw.turned hl vs hv
  constructor
  · intro h'
    rw [h'] at this
    have : (e.exact vs : Rat) = t' := by linarith
    exact_mod_cast this
  · intro h'
    rw [h'] at this
    have : (e.exact (GoBCDice.turned e.dice vs) : Rat) = t := by linarith
    exact_mod_cast this

/-! ### Success or failure -/

theorem opposite_rel (op : CmpOp) (a b : Int) : op.opposite.Rel a b ↔ ¬ op.Rel a b := by
  cases op <;> simp [CmpOp.opposite, CmpOp.Rel]

/-- **C91.** A comparison succeeds as often as the opposite comparison fails. -/
theorem C91_opposite {l r : Expr} {op : CmpOp} {input' body' : Str} {secret' : Bool}
    (hm : Marked input body secret) (ht : CommandText body (.dRollComp l op r))
    (hm' : Marked input' body' secret') (ht' : CommandText body' (.dRollComp l op.opposite r))
    (hl : Ordinary l) (hn : 1 ≤ l.rands) (hr : Ordinary r) (i : ℕ) :
    chance (Answered usage input i fun r => r.success = .success) +
      chance (Answered usage input' i fun r => r.success = .success) = 1 := by
  have ho : OrdinaryCommand (.dRollComp l op r) := .dRollComp hl hn hr
  have ho' : OrdinaryCommand (.dRollComp l op.opposite r) := .dRollComp hl hn hr
  have hmeas : MeasurableSet (Answered usage input i fun r => r.success = .success) := by
    rw [answered_iff hm ht ho]
    exact measurable_some _ i
  have hc : Answered usage input' i (fun r => r.success = .success) =
      (Answered usage input i fun r => r.success = .success)ᶜ := by
    ext ω
    have hex : ω ∈ Answered usage input i (fun _ => True) := by
      obtain ⟨r, i', h, -⟩ := C80_answer (mtFeeder (fated ω)) (mt_generous _ (fated_lawful ω)) usage input body
        secret _ hm ht ho i
      exact ⟨r, i', h, trivial⟩
    rw [answered_iff hm ht ho i] at hex
    obtain ⟨ds, ⟨r0, hO, -⟩, hd⟩ := hex
    rw [Set.mem_compl_iff, answered_iff hm ht ho i, answered_iff hm' ht' ho' i]
    cases hO with | @dRollComp _ l1 l2 _ _ as bs rs v target a0 a1 a2 a3 a4 =>
    have hO := Outcome.dRollComp (limit := 10000) (gameID := chars!"DiceBot") (op := op) a0 a1 a2 a3 a4
    have hO' := Outcome.dRollComp (limit := 10000) (gameID := chars!"DiceBot") (op := op.opposite) a0 a1 a2 a3 a4
    constructor
    · rintro ⟨ds', ⟨r', h', hs'⟩, hd'⟩ ⟨ds'', ⟨r'', h'', hs''⟩, hd''⟩
      have e1 := outcome_separate _ _ (fun _ => True) ω i ds' _ ⟨r', h', trivial⟩ ⟨_, hO', trivial⟩ hd' hd
      have e2 := outcome_separate _ _ (fun _ => True) ω i ds'' _ ⟨r'', h'', trivial⟩ ⟨_, hO, trivial⟩ hd'' hd
      subst e1 e2
      obtain ⟨-, rfl⟩ := C78_unique 10000 (by decide) _ _ _ [] _ _ h' (by rw [List.append_nil]; exact hO')
      obtain ⟨-, rfl⟩ := C78_unique 10000 (by decide) _ _ _ [] _ _ h'' (by rw [List.append_nil]; exact hO)
      simp only [opposite_rel] at hs'
      by_cases hR : op.Rel v.toInt target.toInt
      · simp [hR] at hs'
      · simp [hR] at hs''
    · intro hno
      refine ⟨_, ⟨_, hO', ?_⟩, hd⟩
      by_cases hR : op.Rel v.toInt target.toInt
      · exact absurd ⟨_, ⟨_, hO, by simp [hR]⟩, hd⟩ hno
      · simp [opposite_rel, hR]
  rw [hc, prob_compl_eq_one_sub hmeas]
  exact add_tsub_cancel_of_le prob_le_one

/-! ### Numbers of successes -/

theorem args_of {rolls : List Roll} (ho : ∀ r ∈ rolls, OrdinaryRoll r) : ∀ ds : List Die,
    ds.map Die.sides = rolls.flatMap Roll.dice →
    ∃ ps gs, Args rolls [] ps ∧ GroupsFor ps gs ∧ gs.flatten = ds := by
  induction rolls with
  | nil => intro ds h; exact ⟨[], [], .nil, .nil, by simpa using h.symm⟩
  | cons r rolls ih =>
    intro ds h
    have hr := ho r (by simp)
    cases hr with | @mk x y a b c =>
    rw [List.flatMap_cons] at h
    obtain ⟨as, bs, rfl, h1, h2⟩ := List.map_eq_append_iff.mp h
    obtain ⟨ps, gs, g1, g2, rfl⟩ := ih (fun r hr => ho r (by simp [hr])) bs h2
    exact ⟨(x, y) :: ps, as :: gs, .cons (r := ⟨.int x, .int y⟩) (.int x) (.int y) g1,
      .cons (rolled_of a b c h1) g2, rfl⟩

theorem successes_eq {rolls : List Roll} {op : CmpOp} {t : Int64} (hm : Marked input body secret)
    (ht : CommandText body (.bRollComp rolls op (.int t))) (ho : ∀ r ∈ rolls, OrdinaryRoll r)
    (hn : (rolls.flatMap Roll.dice).length < 2 ^ 63) (i k : ℕ) (hk : k < 2 ^ 63) :
    chance (ShowsSuccesses usage input i k) =
      ((allFaces (rolls.flatMap Roll.dice)).countP
        (fun vs => (vs.countP fun v => decide (op.Rel v.toInt t.toInt)) = k) : ENNReal) /
      ((allFaces (rolls.flatMap Roll.dice)).length : ENNReal) := by
  have hs : Node.dice (.bRollComp rolls op (.int t)) = some (rolls.flatMap Roll.dice) := by
    simp [Node.dice, Expr.dice]
  refine favourable_of hm ht (.bRollComp ho .int) hs i _ fun vs hvs => ?_
  rw [decide_eq_true_iff]
  obtain ⟨hl, -⟩ := mem_allFaces.mp hvs
  obtain ⟨hval, hsid⟩ := diceShowing_values hl
  have hsucc : successes op t vs = vs.countP fun v => decide (op.Rel v.toInt t.toInt) := by
    rw [successes, List.countP_eq_length_filter]
  have hfl : (vs.countP fun v => decide (op.Rel v.toInt t.toInt)) < 2 ^ 63 :=
    lt_of_le_of_lt List.countP_le_length (by omega)
  constructor
  · rintro ⟨r, h, hr⟩
    generalize hds : diceShowing _ vs = ds at h hval
    cases h with | @bRollComp _ _ _ as bs ps gs target a1 a2 a3 =>
    cases a2
    obtain ⟨rfl, -⟩ := a1.literal ho
    simp only [List.append_nil, List.nil_append] at hval
    rw [hval] at hr
    have : intStr (Int64.ofNat (successes op t vs)) = intStr (Int64.ofNat k) := by simpa using hr
    rw [hsucc] at this
    exact ofNat_inj_of_lt hfl hk (intStr_inj this)
  · intro h
    obtain ⟨ps, gs, g1, g2, g3⟩ := args_of ho _ hsid
    have := Outcome.bRollComp (limit := 10000) (gameID := chars!"DiceBot") (op := op) g1 (Ev.int t) g2
    rw [List.nil_append, List.nil_append, g3, hval] at this
    refine ⟨_, this, ?_⟩
    simp [hsucc, h]

theorem avg_count (op : CmpOp) (t : Int) (ss : List Int64) (h : ∀ s ∈ ss, 1 ≤ s) :
    avg ss (fun vs => ((vs.countP fun v => decide (op.Rel v.toInt t) : ℕ) : Rat)) =
      (ss.map fun s => (winningFaces op t s.toInt.toNat : Rat) / s.toInt).sum := by
  induction ss with
  | nil => simp [avg, allFaces]
  | cons s ss ih =>
    have hs := h s (by simp)
    have ht : ∀ x ∈ ss, 1 ≤ x := fun x hx => h x (by simp [hx])
    have hs1 : (1 : Int) ≤ s.toInt := Int64.le_iff_toInt_le.mp hs
    have hlt := s.toInt_lt
    obtain ⟨n, hn⟩ : ∃ n : ℕ, s.toInt = n := ⟨s.toInt.toNat, by omega⟩
    have hone : avg [s] (fun vs => ((vs.countP fun v => decide (op.Rel v.toInt t) : ℕ) : Rat)) =
        (winningFaces op t s.toInt.toNat : Rat) / s.toInt := by
      unfold avg
      have hf : allFaces [s] = (List.range n).map fun v => [Int64.ofNat (v + 1)] := by
        simp only [allFaces, List.map_cons, List.map_nil]
        rw [← List.map_eq_flatMap, hn, Int.toNat_natCast]
      rw [hf, List.map_map, List.length_map, List.length_range, hn, Int.cast_natCast, Int.toNat_natCast]
      congr 1
      unfold winningFaces
      have : ∀ m : ℕ, m ≤ n → ((List.range m).map ((fun vs : List Int64 => ((vs.countP fun v => decide (op.Rel v.toInt t) : ℕ) : Rat)) ∘
          fun v => [Int64.ofNat (v + 1)])).sum = (((List.range m).countP fun v : ℕ => op.Rel ((v : Int) + 1) t : ℕ) : Rat) := by
        intro m hm
        induction m with
        | zero => simp
        | succ m ih =>
          rw [List.range_succ, List.map_append, List.sum_append, ih (by omega), List.countP_append]
          simp only [List.map_cons, List.map_nil, List.sum_cons, List.sum_nil, Function.comp, List.countP_cons,
            List.countP_nil]
          rw [Int64.toInt_ofNat_of_lt (by omega)]
          push_cast
          simp
      exact this n (le_refl _)
    obtain ⟨e1, -⟩ := avg_sum (ss := [s]) (by simpa using hs) ht
      (fun vs => ((vs.countP fun v => decide (op.Rel v.toInt t) : ℕ) : Rat))
      (fun vs => ((vs.countP fun v => decide (op.Rel v.toInt t) : ℕ) : Rat))
    rw [← List.singleton_append, List.map_append, List.sum_append, ← ih ht]
    rw [avg_congr (g := fun vs => (((vs.take [s].length).countP fun v => decide (op.Rel v.toInt t) : ℕ) : Rat) +
      (((vs.drop [s].length).countP fun v => decide (op.Rel v.toInt t) : ℕ) : Rat)) (fun vs _ => by
        rw [← Nat.cast_add, ← List.countP_append, List.take_append_drop]), e1, hone]
    simp

/-- **C91.** The average number of successes of B rolls: the sum over all dice of the chance of one die. -/
theorem C91_successes {rolls : List Roll} {op : CmpOp} {t : Int64} (hm : Marked input body secret)
    (ht : CommandText body (.bRollComp rolls op (.int t))) (ho : ∀ r ∈ rolls, OrdinaryRoll r)
    (hn : (rolls.flatMap Roll.dice).length < 2 ^ 63) (i : ℕ) :
    ∑ k ∈ Finset.range ((rolls.flatMap Roll.dice).length + 1),
        (k : ℝ) * (chance (ShowsSuccesses usage input i k)).toReal =
      ((((rolls.flatMap Roll.dice).map fun y => (winningFaces op t.toInt y.toInt.toNat : Rat) / y.toInt).sum : Rat) : ℝ) := by
  have hp : ∀ s ∈ rolls.flatMap Roll.dice, 1 ≤ s := by
    intro s hs
    obtain ⟨r, hr, hs⟩ := List.mem_flatMap.mp hs
    have := ho r hr
    cases this with | mk a b c =>
    rw [(List.mem_replicate.mp hs).2]
    exact c
  rw [← avg_count op t.toInt _ hp]
  rw [Finset.sum_congr rfl (g := fun k : ℕ => (((k : Rat) * ((allFaces (rolls.flatMap Roll.dice)).countP
        (fun vs => (vs.countP fun v => decide (op.Rel v.toInt t.toInt)) = k) : Rat) /
      (allFaces (rolls.flatMap Roll.dice)).length : Rat) : ℝ))]
  · have := sum_countP (allFaces (rolls.flatMap Roll.dice))
      (fun vs => ((vs.countP fun v => decide (op.Rel v.toInt t.toInt) : ℕ) : Int)) 0 (rolls.flatMap Roll.dice).length
      (fun vs hv => ⟨by omega, by
        have : vs.countP (fun v => decide (op.Rel v.toInt t.toInt)) ≤ vs.length := List.countP_le_length
        have := length_of_mem_allFaces hv
        omega⟩) (fun z => z)
    unfold avg
    rw [← Rat.cast_sum, ← Finset.sum_div]
    congr 2
    refine Eq.trans ?_ (this.trans (by simp))
    refine Finset.sum_bij (fun k _ => (k : Int)) ?_ ?_ ?_ ?_
    · intro k hk
      have := Finset.mem_range.mp hk
      exact Finset.mem_Icc.mpr ⟨by omega, by omega⟩
    · intro a _ b _ h
      exact_mod_cast h
    · intro b hb
      have := Finset.mem_Icc.mp hb
      exact ⟨b.toNat, Finset.mem_range.mpr (by omega), by omega⟩
    · intro k _
      simp
  · intro k hk
    have := Finset.mem_range.mp hk
    rw [successes_eq hm ht ho hn i k (by omega), ENNReal.toReal_div, ENNReal.toReal_natCast, ENNReal.toReal_natCast]
    push_cast
    rw [mul_div_assoc]

/-! ### Examples -/

section Examples
set_option maxRecDepth 20000

/-- `2D6`: 7 on average, with variance 35/6; 2 is as likely as 12. -/
example (usage : Str) (i : ℕ) :
    ∑ t ∈ Finset.Icc (2 : Int) 12, (t : ℝ) * (chance (Shows usage chars!"2D6" i t)).toReal = 7 ∧
    ∑ t ∈ Finset.Icc (2 : Int) 12, ((t : ℝ) - 7) ^ 2 * (chance (Shows usage chars!"2D6" i t)).toReal = ((35 / 6 : ℚ) : ℝ) ∧
    chance (Shows usage chars!"2D6" i 2) = chance (Shows usage chars!"2D6" i 12) := by
  have ht : CommandText chars!"2D6" (.dRollExpr (.var .d (.int 2) (.int 6))) := (C27_language _ _).mp (by decide)
  have hm : Marked chars!"2D6" chars!"2D6" false := .plain (by decide)
  have hw : Whole (.var .d (.int 2) (.int 6)) := .roll (by decide) (by decide) (by decide)
  have hl : (Expr.var .d (.int 2) (.int 6)).limits = (2, 12) := by decide
  have hf : (Expr.var .d (.int 2) (.int 6)).Fits := by rw [Expr.Fits, hl]; decide
  have hmean : (Expr.var .d (.int 2) (.int 6)).mean = 7 := by
    have h2 : (2 : Int64).toInt = 2 := by decide
    have h6 : (6 : Int64).toInt = 6 := by decide
    rw [Expr.mean, h2, h6]; norm_num
  have hvar : (Expr.var .d (.int 2) (.int 6)).variance = 35 / 6 := by
    have h2 : (2 : Int64).toInt = 2 := by decide
    have h6 : (6 : Int64).toInt = 6 := by decide
    rw [Expr.variance, h2, h6]; norm_num
  have h1 := C91_mean (usage := usage) hm ht hw hf i
  have h2 := C91_variance (usage := usage) hm ht hw hf i
  have h3 := C91_symmetric (usage := usage) hm ht hw trivial hf i 2 12 (by rw [hmean]; norm_num) (by decide) (by decide)
  rw [hl, hmean] at h1 h2
  rw [hvar] at h2
  refine ⟨by simpa using h1, by simpa using h2, h3⟩

/-- `2*1D6-1D8*1D4`: limits, mean and hypotheses of an expression with products. -/
example (usage : Str) (i : ℕ) :
    ∑ t ∈ Finset.Icc (-30 : Int) 11, (t : ℝ) * (chance (Shows usage chars!"2*1D6-1D8*1D4" i t)).toReal = ((-17 / 4 : ℚ) : ℝ) := by
  let e : Expr := .bin .sub (.bin .mul (.int 2) (.var .d (.int 1) (.int 6)))
    (.bin .mul (.var .d (.int 1) (.int 8)) (.var .d (.int 1) (.int 4)))
  have ht : CommandText chars!"2*1D6-1D8*1D4" (.dRollExpr e) := (C27_language _ _).mp (by decide)
  have hw : Whole e := .bin (.bin .int (.roll (by decide) (by decide) (by decide)))
    (.bin (.roll (by decide) (by decide) (by decide)) (.roll (by decide) (by decide) (by decide)))
  have hl : e.limits = (-30, 11) := by decide
  have hmean : e.mean = -17 / 4 := by decide +kernel
  have h1 := C91_mean (usage := usage) (.plain (by decide)) ht hw (by rw [Expr.Fits, hl]; decide) i
  rw [hl, hmean] at h1
  exact h1

/-- `2D6>=7` and `2D6<7`. -/
example (usage : Str) (i : ℕ) :
    chance (Answered usage chars!"2D6>=7" i fun r => r.success = .success) +
      chance (Answered usage chars!"S2D6<7" i fun r => r.success = .success) = 1 :=
  C91_opposite (op := .ge) (.plain (by decide)) ((C27_language _ (.dRollComp (.var .d (.int 2) (.int 6)) .ge (.int 7))).mp (by decide))
    (.secret (.inl rfl)) ((C27_language _ (.dRollComp (.var .d (.int 2) (.int 6)) .lt (.int 7))).mp (by decide))
    (.roll (by decide) (by decide) (by decide)) (by decide) .int i

/-- `3B6+2B10>=5`: 3 · 2/6 + 2 · 6/10 = 11/5 successes on average. -/
example (usage : Str) (i : ℕ) :
    ∑ k ∈ Finset.range 6, (k : ℝ) * (chance (ShowsSuccesses usage chars!"3B6+2B10>=5" i k)).toReal = ((11 / 5 : ℚ) : ℝ) := by
  have h := C91_successes (usage := usage) (rolls := [⟨.int 3, .int 6⟩, ⟨.int 2, .int 10⟩]) (op := .ge) (t := 5)
    (.plain (by decide)) ((C27_language chars!"3B6+2B10>=5" _).mp (by decide))
    (by
      intro r hr
      rcases List.mem_cons.mp hr with rfl | hr
      · exact .mk (by decide) (by decide) (by decide)
      · rw [List.mem_singleton.mp hr]; exact .mk (by decide) (by decide) (by decide))
    (by decide) i
  rw [show ((([⟨.int 3, .int 6⟩, ⟨.int 2, .int 10⟩] : List Roll).flatMap Roll.dice).map fun y =>
    (winningFaces .ge (5 : Int64).toInt y.toInt.toNat : Rat) / y.toInt).sum = 11 / 5 by decide +kernel,
    show (([⟨.int 3, .int 6⟩, ⟨.int 2, .int 10⟩] : List Roll).flatMap Roll.dice).length + 1 = 6 by decide] at h
  exact h

end Examples

end GoBCDice
