import Verif.Spec.Signs
import Verif.Props.TypedAlike

/-!
# C114: the six comparisons of one roll fit together
-/

namespace GoBCDice

section
variable {σ : Type} (E : Evaluator σ)

/-- The runs of the six comparisons fit together. -/
def Fitting (g : Str) (X : CmpOp → M σ Result) (s : St σ) : Prop :=
  ∃ A s', FitTogether g false A ∧ ∀ op, X op s = (A op, s')

theorem Fitting.bind {g : Str} {α : Type} {x : M σ α} {k : CmpOp → α → M σ Result} {s : St σ}
    (h : ∀ a s, Fitting g (fun op => k op a) s) : Fitting g (fun op => x >>= k op) s := by
  rcases hx : x s with ⟨o, s1⟩
  cases o with
  | ok a =>
    obtain ⟨A, s', h1, h2⟩ := h a s1
    exact ⟨A, s', h1, fun op => by show (x >>= k op) s = _; rw [M.bind_eq, hx]; exact h2 op⟩
  | err m => exact ⟨_, s1, .err m, fun op => by show (x >>= k op) s = _; rw [M.bind_eq, hx]⟩
  | panic m => exact ⟨_, s1, .panic m, fun op => by show (x >>= k op) s = _; rw [M.bind_eq, hx]⟩

theorem Fitting.ret {g : Str} {R : CmpOp → Result} {s : St σ} (h : FitTogether g false fun op => .ok (R op)) :
    Fitting g (fun op => pure (R op)) s := ⟨_, s, h, fun _ => rfl⟩

theorem Fitting.of_eq {g : Str} {X Y : CmpOp → M σ Result} {s : St σ} (h : ∀ op, X op = Y op) (hY : Fitting g Y s) : Fitting g X s := by
  obtain ⟨A, s', h1, h2⟩ := hY
  exact ⟨A, s', h1, fun op => by rw [h op, h2 op]⟩

theorem successes_count (op : CmpOp) (t : Int64) (vs : List Int64) :
    successes op t vs = vs.countP fun v => op.Rel v.toInt t.toInt := by
  simp [successes, List.countP_eq_length_filter]

theorem eval_int_bind {α : Type} (v : Int64) (k : Int64 → M σ α) : E.eval (.int v) >>= k = k v := by
  funext s
  rfl

theorem fitting_d (g : Str) (l r : Expr) (s : St σ) : Fitting g (fun op => E.executeDRollComp g l op r) s := by
  unfold Evaluator.executeDRollComp
  simp only [eval_int_bind]
  refine .bind fun p s => ?_
  refine .bind fun q s => ?_
  refine .bind fun v s => ?_
  refine .bind fun b s => ?_
  refine .bind fun dice s => ?_
  refine .ret ?_
  have h := FitTogether.verdict (gameID := g) (secret := false) (infixNotation true p.1) (infixNotation true p.2)
    (infixNotation true q.1) v b dice
  simpa only [mkResult, holds_eq_rel, parenthesize, decide_eq_true_eq] using h

theorem fitting_b (g : Str) (rolls : List Roll) (r : Expr) (s : St σ) : Fitting g (fun op => E.executeBRollComp g rolls op r) s := by
  unfold Evaluator.executeBRollComp Evaluator.evalBRollComp
  simp only [eval_int_bind, bind_assoc, pure_bind]
  refine .bind fun p s => ?_
  refine .bind fun b s => ?_
  refine .bind fun vs s => ?_
  refine .bind fun dice s => ?_
  refine .ret ?_
  have h := FitTogether.count (gameID := g) (secret := false) (rollsNotation chars!"B" p) (infixNotation true (.int b))
    (joinedElements vs) vs b dice
  simpa only [mkResult, countNumOfSuccesses_eq, successes_count, parenthesize, successCountPart] using h

theorem fitting_r (g : Str) (rl : RRollList) (r : Expr) (s : St σ) : Fitting g (fun op => E.executeRRollComp g rl op r) s := by
  unfold Evaluator.executeRRollComp Evaluator.evalRRollComp
  simp only [eval_int_bind, bind_assoc, pure_bind]
  refine .bind fun p s => ?_
  refine .bind fun b s => ?_
  refine .bind fun rl2 s => ?_
  refine .bind fun c s => ?_
  cases c with
  | some msg => exact .ret (.refused (rRollListNotation chars!"R" rl2) (infixNotation true (.int b)) msg)
  | none =>
    simp only []
    refine .bind fun gs s => ?_
    refine .bind fun dice s => ?_
    refine .ret ?_
    have h := FitTogether.count (gameID := g) (secret := false) (rRollListNotation chars!"R" rl2) (infixNotation true (.int b))
      (formatRRollValues gs) gs.flatten b dice
    have h0 : ∀ n : Int64, 0 + n = n := fun n => by simp
    simpa only [mkResult, count_groups, h0, successes_count, parenthesize, successCountPart] using h

theorem fitting_u (g : Str) (u : URollExpr) (r : Expr) (s : St σ) : Fitting g (fun op => E.executeURollComp g u op r) s := by
  unfold Evaluator.executeURollComp Evaluator.evalURollComp
  simp only [eval_int_bind, bind_assoc, pure_bind]
  refine .bind fun p s => ?_
  refine .bind fun b s => ?_
  refine .bind fun c s => ?_
  cases c with
  | some msg => exact .ret (.refused (uRollExprNotation p) (infixNotation true (.int b)) msg)
  | none =>
    simp only []
    refine .bind fun res s => ?_
    refine .bind fun dice s => ?_
    refine .ret ?_
    have h := FitTogether.count (gameID := g) (secret := false) (uRollExprNotation p) (infixNotation true (.int b))
      (formatURollExprValueGroupsAndModifier res.sumOfGroups.2) (res.sumOfGroups.1.map (fun x => x + res.sumOfGroups.2.modifier)) b dice
    simpa only [mkResult, countNumOfSuccesses_eq, successes_count, parenthesize, successCountPart] using h

end

/-! ### Texts -/

theorem sign_split {s t s' t' : Str} {op op' : CmpOp} (hs : ∀ c ∈ s, isCompareSign c = false) (ht : ∀ c ∈ t, isCompareSign c = false)
    (hs' : ∀ c ∈ s', isCompareSign c = false) (ht' : ∀ c ∈ t', isCompareSign c = false)
    (h : s ++ op.str ++ t = s' ++ op'.str ++ t') : s = s' ∧ op = op' ∧ t = t' := by
  have key : ∀ {s t : Str} {op : CmpOp}, (∀ c ∈ s, isCompareSign c = false) →
      (s ++ op.str ++ t).takeWhile (fun c => !isCompareSign c) = s := by
    intro s t op h
    rw [List.append_assoc, List.takeWhile_append_of_pos (fun c hc => by simp [h c hc])]
    cases op <;> simp [CmpOp.str, isCompareSign]
  have h1 : s = s' := by rw [← key (t := t) (op := op) hs, h, key hs']
  subst h1
  simp only [List.append_assoc, List.append_cancel_left_eq] at h
  refine ⟨rfl, ?_⟩
  cases op <;> cases op' <;> simp [CmpOp.str] at h ⊢ <;> first
    | exact h
    | (subst h; simp [isCompareSign] at ht ht')

theorem RollsText.noSign {letters : Char × Char} (hl : isCompareSign letters.1 = false ∧ isCompareSign letters.2 = false) {s : Str}
    {rs : List Roll} (h : RollsText letters s rs) : ∀ c ∈ s, isCompareSign c = false := by
  have one : ∀ {s : Str} {r : Roll}, RollText letters s r → ∀ c ∈ s, isCompareSign c = false := by
    rintro s r ⟨a, b, l, rfl, hl', ha, hb⟩ c hc
    simp only [List.mem_append, List.mem_singleton] at hc
    rcases hc with (hc | rfl) | hc
    · exact ha.noSign c hc
    · rcases hl' with rfl | rfl
      · exact hl.1
      · exact hl.2
    · exact hb.noSign c hc
  induction h with
  | one h => exact one h
  | cons h _ ih =>
    intro c hc
    simp only [List.mem_append, List.mem_singleton] at hc
    rcases hc with (hc | rfl) | hc
    · exact one h c hc
    · decide
    · exact ih c hc

theorem RRollsText.noSign {letters : Char × Char} (hl : isCompareSign letters.1 = false ∧ isCompareSign letters.2 = false) {s : Str}
    {rl : RRollList} (h : RRollsText letters s rl) : ∀ c ∈ s, isCompareSign c = false := by
  obtain ⟨a, b, rfl, ha, hb⟩ := h
  intro c hc
  rcases List.mem_append.mp hc with hc | hc
  · exact ha.noSign hl c hc
  · generalize rl.threshold = th at hb
    cases hb with
    | absent => simp at hc
    | given he =>
      simp only [List.mem_append, List.mem_singleton] at hc
      rcases hc with (rfl | hc) | rfl
      · decide
      · exact he.noSign c hc
      · decide

theorem URollText.noSign {s : Str} {u : URollExpr} (h : URollText s u) : ∀ c ∈ s, isCompareSign c = false := by
  obtain ⟨a, b, rfl, ha, hb⟩ := h
  intro c hc
  rcases List.mem_append.mp hc with hc | hc
  · exact ha.noSign (by decide) c hc
  · generalize u.bonus = bo at hb
    cases hb with
    | absent => simp at hc
    | plus he | minus he =>
      simp only [List.mem_append, List.mem_singleton] at hc
      rcases hc with rfl | hc
      · decide
      · exact he.noSign c hc

/-- A comparison with its sign left open. -/
inductive OpenNode : (CmpOp → Node) → Prop where
  | d (l r : Expr) : OpenNode fun op => .dRollComp l op r
  | b (rolls : List Roll) (r : Expr) : OpenNode fun op => .bRollComp rolls op r
  | r (rl : RRollList) (r : Expr) : OpenNode fun op => .rRollComp rl op r
  | u (u : URollExpr) (r : Expr) : OpenNode fun op => .uRollComp u op r

theorem OpenNode.fitting {N : CmpOp → Node} (h : OpenNode N) {σ : Type} (E : Evaluator σ) (g : Str) (s : St σ) :
    Fitting g (fun op => E.execute g (N op)) s := by
  cases h with
  | d l r => exact fitting_d E g l r s
  | b rolls r => exact fitting_b E g rolls r s
  | r rl r => exact fitting_r E g rl r s
  | u u r => exact fitting_u E g u r s

theorem OpenNode.roll {N : CmpOp → Node} (h : OpenNode N) (op : CmpOp) : (N op).isRollCommand = true := by
  cases h <;> rfl

theorem open_text {s t : Str} {op₀ : CmpOp} {node : Node} (hs : ∀ c ∈ s ++ t, c ≠ '=' ∧ c ≠ '<' ∧ c ≠ '>')
    (h : CommandText (s ++ op₀.str ++ t) node) (hr : node.isRollCommand = true) :
    ∃ N, OpenNode N ∧ ∀ op, CommandText (s ++ op.str ++ t) (N op) := by
  have hx : ∀ c ∈ s ++ t, isCompareSign c = false := fun c hc => by
    have := hs c hc
    simp [isCompareSign, this.1, this.2.1, this.2.2]
  have h1 : ∀ c ∈ s, isCompareSign c = false := fun c hc => hx c (by simp [hc])
  have h2 : ∀ c ∈ t, isCompareSign c = false := fun c hc => hx c (by simp [hc])
  have hc : ∃ c ∈ s ++ op₀.str ++ t, isCompareSign c = true := by
    have : ∃ c ∈ op₀.str, isCompareSign c = true := by cases op₀ <;> decide
    obtain ⟨c, h1, h2⟩ := this
    exact ⟨c, by simp [h1], h2⟩
  have no : ∀ {P : Prop}, (∀ c ∈ s ++ op₀.str ++ t, isCompareSign c = false) → P := fun h => by
    obtain ⟨c, hc, h'⟩ := hc
    rw [h c hc] at h'
    cases h'
  have comp : ∀ {s' t' : Str} {op : CmpOp} {e : Expr}, (∀ c ∈ s', isCompareSign c = false) → CompareText t' op e →
      s' ++ t' = s ++ op₀.str ++ t → s' = s ∧ op = op₀ ∧ Der (.add .int) t e := by
    intro s' t' op e h3 h4 h5
    cases h4 with
    | @mk t'' _ _ he =>
      rw [← List.append_assoc] at h5
      obtain ⟨rfl, rfl, rfl⟩ := sign_split h3 he.noSign h1 h2 h5
      exact ⟨rfl, rfl, he⟩
  generalize hz : s ++ op₀.str ++ t = z at h
  cases h with
  | choice => cases hr
  | «calc» => cases hr
  | bRollList h => exact no (hz ▸ h.noSign (by decide))
  | rRollList h => exact no (hz ▸ h.noSign (by decide))
  | uRollExpr h => exact no (hz ▸ h.noSign)
  | dRollExpr h => exact no (hz ▸ h.noSign)
  | bRollComp h h' =>
    obtain ⟨rfl, rfl, he⟩ := comp (h.noSign (by decide)) h' hz.symm
    exact ⟨_, .b _ _, fun op => by simpa using CommandText.bRollComp h (.mk (op := op) he)⟩
  | rRollComp h h' =>
    obtain ⟨rfl, rfl, he⟩ := comp (h.noSign (by decide)) h' hz.symm
    exact ⟨_, .r _ _, fun op => by simpa using CommandText.rRollComp h (.mk (op := op) he)⟩
  | uRollComp h h' =>
    obtain ⟨rfl, rfl, he⟩ := comp h.noSign h' hz.symm
    exact ⟨_, .u _ _, fun op => by simpa using CommandText.uRollComp h (.mk (op := op) he)⟩
  | dRollComp h hl h' =>
    obtain ⟨rfl, rfl, he⟩ := comp h.noSign h' hz.symm
    exact ⟨_, .d _ _, fun op => by simpa using CommandText.dRollComp h hl (.mk (op := op) he)⟩

theorem FitTogether.withSecret {g : Str} {A : CmpOp → Out Result} (h : FitTogether g false A) (b : Bool) :
    FitTogether g b fun op => (A op).map (·.withSecret b) := by
  cases h with
  | err m => exact .err m
  | panic m => exact .panic m
  | refused x y z => exact .refused x y z
  | verdict x y z v t d => exact .verdict x y z v t d
  | count x y z v t d => exact .count x y z v t d

/-- **C114.** If a roll is compared with a target, then it may be compared with any of the six signs, and what is answered fits together:
with the same feeder the same dice are drawn, the same is shown, and verdicts and numbers of successes are those of the same
values and the same target. -/
theorem C114_signs {σ : Type} (F : DieFeeder σ) (usage mark s t rest : Str) (op₀ : CmpOp) (node : Node) (hm : IsMark mark)
    (hr : IsComment rest) (hs : ∀ c ∈ s ++ t, c ≠ '=' ∧ c ≠ '<' ∧ c ≠ '>') (h : CommandText (s ++ op₀.str ++ t) node)
    (hn : node.isRollCommand = true) (f : σ) :
    ∃ A f', FitTogether chars!"DiceBot" (!mark.isEmpty) A ∧
      ∀ op, executeCommand F (basicBot usage) (mark ++ (s ++ op.str ++ t) ++ rest) f = (A op, f') := by
  obtain ⟨N, hN, ht⟩ := open_text hs h hn
  have hb : ∀ f, ∃ A f', FitTogether chars!"DiceBot" false A ∧
      ∀ op, executeBasicCommand F chars!"DiceBot" (s ++ CmpOp.str op ++ t) f = (A op, f') := by
    intro f
    obtain ⟨A, s', h1, h2⟩ := hN.fitting (newEvaluator F) chars!"DiceBot" ⟨f, []⟩
    refine ⟨A, s'.feeder, h1, fun op => ?_⟩
    have := h2 op
    simp only [executeBasicCommand, (parse_iff _ _).mpr (ht op), runFresh] at this ⊢
    rw [this]
  have ht' : ∀ op : CmpOp, executeCommand F (basicBot usage) (mark ++ (s ++ op.str ++ t) ++ rest) f =
      typedAnswer (!mark.isEmpty) rest.isEmpty (executeBasicCommand F chars!"DiceBot" (s ++ op.str ++ t)) f := fun op =>
    typed_roll F usage hm ((parse_iff _ _).mpr (ht op)) (hN.roll op) hr f
  obtain ⟨A, f1, h1, h2⟩ := hb f
  obtain ⟨B, f2, h3, h4⟩ := hb f1
  simp only [ht', typedAnswer, h2]
  have h5 := h1.withSecret (!mark.isEmpty)
  cases h1 with
  | err m =>
    cases hre : rest.isEmpty with
    | false => exact ⟨_, f1, .err m, fun op => rfl⟩
    | true => exact ⟨_, f2, h3.withSecret (!mark.isEmpty), fun op =>
      congrArg (fun p => (p.1.map (·.withSecret (!mark.isEmpty)), p.2)) (h4 op)⟩
  | panic m => exact ⟨_, f1, .panic m, fun op => rfl⟩
  | refused x y z => exact ⟨_, f1, h5, fun op => rfl⟩
  | verdict x y z v t d => exact ⟨_, f1, h5, fun op => rfl⟩
  | count x y z v t d => exact ⟨_, f1, h5, fun op => rfl⟩

theorem CmpOp.Opposite.rel {op op' : CmpOp} (h : op.Opposite op') (a b : Int) : op'.Rel a b ↔ ¬ op.Rel a b := by
  simp only [CmpOp.Opposite, List.mem_cons, Prod.mk.injEq, List.not_mem_nil, or_false] at h
  rcases h with ⟨rfl, rfl⟩ | ⟨rfl, rfl⟩ | ⟨rfl, rfl⟩ | ⟨rfl, rfl⟩ | ⟨rfl, rfl⟩ | ⟨rfl, rfl⟩ <;> simp only [CmpOp.Rel] <;> omega

/-- **C114.** With the same dice a comparison succeeds exactly if the opposite comparison fails. -/
theorem C114_opposite {σ : Type} (F : DieFeeder σ) (usage mark s t rest : Str) (op op' : CmpOp) (node : Node) (hm : IsMark mark)
    (hr : IsComment rest) (hs : ∀ c ∈ s ++ t, c ≠ '=' ∧ c ≠ '<' ∧ c ≠ '>') (h : CommandText (s ++ op.str ++ t) node)
    (hn : node.isRollCommand = true) (ho : op.Opposite op') (f f' : σ) (r : Result)
    (he : executeCommand F (basicBot usage) (mark ++ (s ++ op.str ++ t) ++ rest) f = (.ok r, f')) :
    ∃ r', executeCommand F (basicBot usage) (mark ++ (s ++ op'.str ++ t) ++ rest) f = (.ok r', f') ∧
      r'.rolledDice = r.rolledDice ∧ r'.isSecret = r.isSecret ∧ r'.parts[1]? = r.parts[1]? ∧
      (r.success = .success ↔ r'.success = .failure) ∧ (r.success = .failure ↔ r'.success = .success) := by
  obtain ⟨A, f1, h1, h2⟩ := C114_signs F usage mark s t rest op node hm hr hs h hn f
  have e1 := h2 op
  have e2 := h2 op'
  rw [he] at e1
  rw [e2]
  cases h1 with
  | err m => cases e1
  | panic m => cases e1
  | refused x y z =>
    cases e1
    exact ⟨_, rfl, rfl, rfl, rfl, by simp, by simp⟩
  | count x y z v u d =>
    cases e1
    exact ⟨_, rfl, rfl, rfl, rfl, by simp, by simp⟩
  | verdict x y z v u d =>
    cases e1
    refine ⟨_, rfl, rfl, rfl, rfl, ?_, ?_⟩ <;> simp only [ho.rel] <;> by_cases hx : op.Rel v.toInt u.toInt <;> simp [hx]

theorem split_ind (a b : Int) :
    (if decide (CmpOp.ge.Rel a b) = true then 1 else 0) =
      (if decide (CmpOp.gt.Rel a b) = true then 1 else 0) + (if decide (CmpOp.eq.Rel a b) = true then 1 else 0) ∧
    (if decide (CmpOp.le.Rel a b) = true then 1 else 0) =
      (if decide (CmpOp.lt.Rel a b) = true then 1 else 0) + (if decide (CmpOp.eq.Rel a b) = true then 1 else 0) := by
  rcases Int.lt_trichotomy a b with h | h | h
  · simp [CmpOp.Rel, h, Int.le_of_lt h, Int.not_lt.mpr (Int.le_of_lt h), Int.ne_of_lt h, Int.not_le.mpr h]
  · simp [CmpOp.Rel, h]
  · simp [CmpOp.Rel, h, Int.le_of_lt h, Int.not_lt.mpr (Int.le_of_lt h), (Int.ne_of_lt h).symm, Int.not_le.mpr h]

/-- **C114.** With the same dice the numbers of successes of opposite comparisons add up to the number of values, and those of `>=`
are those of `>` and `=` together (and likewise for `<=`). -/
theorem C114_counts (values : List Int64) (target : Int64) :
    let k := fun op : CmpOp => values.countP fun v => op.Rel v.toInt target.toInt
    (∀ op op', op.Opposite op' → k op + k op' = values.length) ∧ k .ge = k .gt + k .eq ∧ k .le = k .lt + k .eq := by
  intro k
  refine ⟨fun op op' ho => ?_, ?_, ?_⟩
  · show values.countP _ + values.countP _ = _
    induction values with
    | nil => rfl
    | cons v vs ih =>
      simp only [List.countP_cons, List.length_cons, ho.rel] at ih ⊢
      by_cases hx : op.Rel v.toInt target.toInt <;> simp [hx] at ih ⊢ <;> omega
  · show values.countP _ = values.countP _ + values.countP _
    induction values with
    | nil => rfl
    | cons v vs ih =>
      simp only [List.countP_cons] at ih ⊢
      rw [ih]
      have := split_ind v.toInt target.toInt
      omega
  · show values.countP _ = values.countP _ + values.countP _
    induction values with
    | nil => rfl
    | cons v vs ih =>
      simp only [List.countP_cons] at ih ⊢
      rw [ih]
      have := split_ind v.toInt target.toInt
      omega

/-- Cases met: `S2D6>=7 x` and `3R6<(1+2)`. -/
example {σ : Type} (F : DieFeeder σ) (usage : Str) (f : σ) :
    (∃ A f', FitTogether chars!"DiceBot" true A ∧
      ∀ op, executeCommand F (basicBot usage) (chars!"S" ++ (chars!"2D6" ++ op.str ++ chars!"7") ++ chars!" x") f = (A op, f')) ∧
    ∃ A f', FitTogether chars!"DiceBot" false A ∧
      ∀ op, executeCommand F (basicBot usage) (chars!"" ++ (chars!"3R6" ++ op.str ++ chars!"(1+2)") ++ chars!"") f = (A op, f') :=
  ⟨C114_signs F usage chars!"S" chars!"2D6" chars!"7" chars!" x" .ge (.dRollComp (.var .d (.int 2) (.int 6)) .ge (.int 7))
      (.inr (.inl rfl)) (.inr ⟨_, _, rfl, .inr (.inr (.inr (.inr rfl)))⟩) (by decide) ((parse_iff _ _).mp rfl) rfl f,
    C114_signs F usage chars!"" chars!"3R6" chars!"(1+2)" chars!"" .lt (.rRollComp ⟨[⟨.int 3, .int 6⟩], none⟩ .lt (.bin .add (.int 1) (.int 2)))
      (.inl rfl) (.inl rfl) (by decide) ((parse_iff _ _).mp rfl) rfl f⟩

end GoBCDice
