import Verif.Lemmas.CommandRealize

/-!
# `Execute` realises the outcome specification
-/

namespace GoBCDice

/-! The texts of the specification are those of the program. -/

@[simp] theorem inParens_eq (s : Str) : inParens s = parenthesize s := rfl

@[simp] theorem valuesText_eq (vs : List Int64) : valuesText vs = joinedElements vs := rfl

@[simp] theorem rGroupsText_eq (gs : List (List Die)) :
    rGroupsText gs = formatRRollValues (valuesOf gs) := by
  simp only [rGroupsText, formatRRollValues, valuesOf, List.map_map, valuesText_eq]; rfl

theorem modifierText_eq (m : Int64) : modifierText m = formatModifier m := rfl

@[simp] theorem calcNotation_eq (e : Expr) :
    calcNotation e = chars!"C(" ++ infixNotation true e ++ chars!")" := rfl

@[simp] theorem choiceNotation_eq (items : List Str) :
    choiceNotation items = chars!"CHOICE[" ++ join chars!"," items ++ chars!"]" := rfl

theorem holds_eq_rel (op : CmpOp) (a b : Int64) : op.holds a b = decide (op.Rel a.toInt b.toInt) := by
  cases op <;> simp [CmpOp.holds, CmpOp.Rel, Int64.lt_iff_toInt_lt, Int64.le_iff_toInt_le,
    Int64.toInt_inj]

theorem int64_ofNat_add (a b : Nat) : Int64.ofNat (a + b) = Int64.ofNat a + Int64.ofNat b := by
  simp

theorem count_foldl (vs : List Int64) (op : CmpOp) (t n : Int64) :
    vs.foldl (fun n v => if op.holds v t then n + 1 else n) n =
      n + Int64.ofNat (successes op t vs) := by
  induction vs generalizing n with
  | nil => simp [successes]
  | cons v vs ih =>
    simp only [List.foldl_cons, ih]
    unfold successes
    by_cases h : op.holds v t = true
    · have h' : decide (op.Rel v.toInt t.toInt) = true := by rw [← holds_eq_rel]; exact h
      rw [if_pos h, List.filter_cons_of_pos (p := fun v : Int64 => decide (op.Rel v.toInt t.toInt)) h', List.length_cons, int64_ofNat_add]
      rw [show Int64.ofNat 1 = 1 from rfl]
      grind
    · have h' : ¬ decide (op.Rel v.toInt t.toInt) = true := by rw [← holds_eq_rel]; exact h
      rw [if_neg h, List.filter_cons_of_neg (p := fun v : Int64 => decide (op.Rel v.toInt t.toInt)) h']

theorem countNumOfSuccesses_eq (vs : List Int64) (op : CmpOp) (t : Int64) :
    Evaluator.countNumOfSuccesses vs op t = Int64.ofNat (successes op t vs) := by
  rw [Evaluator.countNumOfSuccesses, count_foldl]; simp

theorem count_groups (gs : List (List Int64)) (op : CmpOp) (t n : Int64) :
    gs.foldl (fun n vs => n + Evaluator.countNumOfSuccesses vs op t) n =
      n + Int64.ofNat (successes op t gs.flatten) := by
  induction gs generalizing n with
  | nil => simp [successes]
  | cons g gs ih =>
    rw [List.foldl_cons, ih, countNumOfSuccesses_eq, List.flatten_cons]
    have : successes op t (g ++ gs.flatten) = successes op t g + successes op t gs.flatten := by
      simp [successes]
    rw [this, int64_ofNat_add]
    grind

theorem valuesOf_flatten (gs : List (List Die)) :
    (valuesOf gs).flatten = gs.flatten.map Die.value := by
  simp [valuesOf, List.map_flatten]

theorem rollsNotation_lit (letter : Str) (ps : List (Int64 × Int64)) :
    rollsNotation letter (ps.map litRoll) = rollsText letter ps := by
  simp only [rollsNotation, rollsText, List.map_map]
  rfl

theorem rRollListNotation_lit (letter : Str) (ps : List (Int64 × Int64)) (th : Option Int64) :
    rRollListNotation letter { rolls := ps.map litRoll, threshold := th.map .int } =
      rollsText letter ps ++ thresholdText th := by
  simp only [rRollListNotation, rollsNotation_lit]
  cases th <;> rfl

variable {σ : Type} (E : Evaluator σ)

/-- Computations without dice. -/
theorem checkThreshold_lit (nilMsg : Str) (th : Option Int64) :
    E.checkThreshold nilMsg (th.map .int) =
      pure (match th with
        | none => some nilMsg
        | some v => if v < 2 then some Evaluator.thresholdTooSmallMsg else none) := by
  cases th <;> rfl

theorem realizes_threshold (t : Option Expr) :
    Realizes E.F (E.evalVarArgsOfThreshold t)
      (fun ds a => ∃ th, Threshold t ds th ∧ a = th.map .int) := by
  cases t with
  | none =>
    refine Realizes.congr (m := E.evalVarArgsOfThreshold none) (Realizes.pure none) ?_
    intro ds a
    constructor
    · rintro ⟨rfl, rfl⟩; exact ⟨none, .absent, rfl⟩
    · rintro ⟨th, ⟨⟩, rfl⟩; exact ⟨rfl, rfl⟩
  | some e =>
    refine Realizes.congr (m := E.evalVarArgsOfThreshold (some e))
      (Realizes.bind (realizes_eval E e) (fun v => Realizes.pure (some (Expr.int v)))) ?_
    intro ds a
    constructor
    · rintro ⟨d1, _, v, rfl, h, rfl, rfl⟩; exact ⟨some v, by simpa using Threshold.given h, rfl⟩
    · rintro ⟨th, h, rfl⟩
      cases h with | given h =>
      exact ⟨_, [], _, by simp, h, rfl, rfl⟩

theorem realizes_evalVarArgsInRRollList (rl : RRollList) :
    Realizes E.F (E.evalVarArgsInRRollList rl)
      (fun ds a => ∃ ts as th ps, ds = ts ++ as ∧ Threshold rl.threshold ts th ∧
        Args rl.rolls as ps ∧ a = { rolls := ps.map litRoll, threshold := th.map .int }) := by
  refine Realizes.congr (m := E.evalVarArgsInRRollList rl)
    (Realizes.bind (realizes_threshold E rl.threshold) (fun t =>
      Realizes.bind (realizes_evalVarArgsInRolls E rl.rolls) (fun rolls =>
        Realizes.pure ({ rolls := rolls, threshold := t } : RRollList)))) ?_
  intro ds a
  constructor
  · rintro ⟨ts, _, _, rfl, ⟨th, ht, rfl⟩, as, _, _, rfl, ⟨ps, hp, rfl⟩, rfl, rfl⟩
    exact ⟨ts, as, th, ps, by simp, ht, hp, rfl⟩
  · rintro ⟨ts, as, th, ps, rfl, ht, hp, rfl⟩
    exact ⟨ts, as, _, rfl, ⟨th, ht, rfl⟩, as, [], _, by simp, ⟨ps, hp, rfl⟩, rfl, rfl⟩

theorem ev_bonusExpr (b : Sign × Expr) (ds : List Die) (v : Int64) :
    Ev (bonusExpr b) ds v ↔ Bonus (some b) ds v := by
  obtain ⟨s, e⟩ := b
  cases s with
  | plus =>
    constructor
    · intro h
      cases h with | add h1 h2 =>
      cases h1
      rw [List.nil_append, show (0 : Int64) + _ = _ from Int64.zero_add _]
      exact .plus h2
    · intro h
      cases h with | plus h =>
      have := Ev.add (.int 0) h
      rw [List.nil_append, show (0 : Int64) + _ = _ from Int64.zero_add _] at this
      exact this
  | minus =>
    constructor
    · intro h
      cases h with | sub h1 h2 =>
      cases h1
      rw [List.nil_append, show (0 : Int64) - _ = _ from Int64.zero_sub _]
      exact .minus h2
    · intro h
      cases h with | minus h =>
      have := Ev.sub (.int 0) h
      rw [List.nil_append, show (0 : Int64) - _ = _ from Int64.zero_sub _] at this
      exact this

theorem realizes_evalVarArgsInURollExpr (u : URollExpr) :
    Realizes E.F (E.evalVarArgsInURollExpr u)
      (fun ds a => ∃ ts as ms th ps m, ds = ts ++ as ++ ms ∧ Threshold u.list.threshold ts th ∧
        Args u.list.rolls as ps ∧ Bonus u.bonus ms m ∧
        a = { list := { rolls := ps.map litRoll, threshold := th.map .int },
              bonus := Evaluator.normalizeBonus m }) := by
  obtain ⟨rl, b⟩ := u
  cases b with
  | none =>
    refine Realizes.congr (m := E.evalVarArgsInURollExpr ⟨rl, none⟩)
      (Realizes.bind (realizes_evalVarArgsInRRollList E rl) (fun list =>
        Realizes.pure ({ list := list, bonus := none } : URollExpr))) ?_
    intro ds a
    constructor
    · rintro ⟨_, _, _, rfl, ⟨ts, as, th, ps, rfl, ht, hp, rfl⟩, rfl, rfl⟩
      exact ⟨ts, as, [], th, ps, 0, rfl, ht, hp, .absent, rfl⟩
    · rintro ⟨ts, as, ms, th, ps, m, rfl, ht, hp, hb, rfl⟩
      cases hb
      exact ⟨ts ++ as, [], _, rfl, ⟨ts, as, th, ps, rfl, ht, hp, rfl⟩, rfl, rfl⟩
  | some b =>
    refine Realizes.congr (m := E.evalVarArgsInURollExpr ⟨rl, some b⟩)
      (Realizes.bind (realizes_evalVarArgsInRRollList E rl) (fun list =>
        Realizes.bind (realizes_eval E (bonusExpr b)) (fun v =>
        Realizes.pure ({ list := list, bonus := Evaluator.normalizeBonus v } : URollExpr)))) ?_
    intro ds a
    constructor
    · rintro ⟨_, _, _, rfl, ⟨ts, as, th, ps, rfl, ht, hp, rfl⟩, ms, _, m, rfl, hb, rfl, rfl⟩
      exact ⟨ts, as, ms, th, ps, m, by simp, ht, hp, (ev_bonusExpr _ _ _).mp hb, rfl⟩
    · rintro ⟨ts, as, ms, th, ps, m, rfl, ht, hp, hb, rfl⟩
      exact ⟨ts ++ as, ms, _, rfl, ⟨ts, as, th, ps, rfl, ht, hp, rfl⟩, ms, [], m, by simp,
        (ev_bonusExpr _ _ _).mpr hb, rfl, rfl⟩

theorem evalBonus_normalize (m : Int64) : E.evalBonus (Evaluator.normalizeBonus m) = pure m := by
  unfold Evaluator.normalizeBonus
  split
  · rename_i h; subst h; rfl
  · split
    · show (pure (0 + m) : M σ Int64) = _
      rw [Int64.zero_add]
    · show (pure (0 - (-m)) : M σ Int64) = _
      congr 1; grind

theorem uRollExprNotation_lit (ps : List (Int64 × Int64)) (th : Option Int64) (m : Int64) :
    uRollExprNotation { list := { rolls := ps.map litRoll, threshold := th.map .int },
                        bonus := Evaluator.normalizeBonus m } =
      rollsText chars!"U" ps ++ thresholdText th ++ bonusText m := by
  unfold uRollExprNotation bonusText Evaluator.normalizeBonus
  by_cases h0 : m = 0
  · simp only [if_pos h0, rRollListNotation_lit, List.append_nil]
  · by_cases h1 : m > 0
    · simp only [if_neg h0, if_pos h1, rRollListNotation_lit, List.append_assoc]
      rfl
    · simp only [if_neg h0, if_neg h1, rRollListNotation_lit, List.append_assoc]
      rfl

theorem realizes_evalURollExpr (ps : List (Int64 × Int64)) (th m : Int64) :
    Realizes E.F (E.evalURollExpr
        { list := { rolls := ps.map litRoll, threshold := (some th).map .int },
          bonus := Evaluator.normalizeBonus m })
      (fun ds a => ∃ gs, UGroups (loopCount E.maxRerolls) th ps gs ∧ ds = gs.flatten ∧
        a = URollExprResult.new (valuesOf gs) m) := by
  unfold Evaluator.evalURollExpr
  rw [evalBonus_normalize]
  rw [pure_bind]
  refine Realizes.congr (Realizes.bind (realizes_evalURollList E th ps)
    (fun g => Realizes.pure (URollExprResult.new g m))) ?_
  intro ds a
  constructor
  · rintro ⟨_, _, _, rfl, ⟨gs, hg, rfl, rfl⟩, rfl, rfl⟩
    exact ⟨gs, hg, by simp, rfl⟩
  · rintro ⟨gs, hg, rfl, rfl⟩
    exact ⟨_, [], _, by simp, ⟨gs, hg, rfl, rfl⟩, rfl, rfl⟩

theorem maxInteger_isMax (vs : List Int64) :
    (vs = [] ∧ URollExprResult.maxInteger vs = 0) ∨ IsMax (URollExprResult.maxInteger vs) vs := by
  cases vs with
  | nil => exact .inl ⟨rfl, rfl⟩
  | cons v vs =>
    right
    have key : ∀ (vs : List Int64) (m : Int64),
        let r := vs.foldl (fun m e => if e > m then e else m) m
        (r = m ∨ r ∈ vs) ∧ m ≤ r ∧ ∀ w ∈ vs, w ≤ r := by
      intro vs
      induction vs with
      | nil => intro m; simp
      | cons v vs ih =>
        intro m
        simp only [List.foldl_cons]
        obtain ⟨h1, h2, h3⟩ := ih (if v > m then v else m)
        generalize vs.foldl (fun m e => if e > m then e else m) (if v > m then v else m) = r at h1 h2 h3
        refine ⟨?_, by grind, ?_⟩
        · rcases h1 with h1 | h1
          · by_cases hv : v > m <;> simp_all
          · right; simp [h1]
        · intro w hw
          rcases List.mem_cons.mp hw with rfl | hw
          · grind
          · exact h3 w hw
    obtain ⟨h1, h2, h3⟩ := key vs v
    refine ⟨?_, ?_⟩
    · rcases h1 with h1 | h1
      · exact List.mem_cons.mpr (.inl h1)
      · exact List.mem_cons.mpr (.inr h1)
    · intro w hw
      rcases List.mem_cons.mp hw with rfl | hw
      · exact h2
      · exact h3 w hw

theorem isMax_unique {v w : Int64} {vs : List Int64} (h : IsMax v vs) (h' : IsMax w vs) : v = w := by
  have := h.2 w h'.1
  have := h'.2 v h.1
  grind

theorem groupSums_eq (gs : List (List Die)) : (valuesOf gs).map sumInts = groupSums gs := by
  simp [valuesOf, groupSums, sumInts_eq]

theorem zipWith_groups (gs : List (List Die)) :
    List.zipWith formatUGroup ((valuesOf gs).map sumInts) (valuesOf gs) =
      gs.map (fun g => formatUGroup (g.map Die.value).sum (g.map Die.value)) := by
  induction gs with
  | nil => rfl
  | cons g gs ih =>
    simp only [valuesOf, List.map_cons, List.zipWith_cons_cons] at ih ⊢
    rw [ih, sumInts_eq]

theorem sum_groupSums (gs : List (List Die)) :
    (groupSums gs).sum = (gs.flatten.map Die.value).sum := by
  induction gs with
  | nil => rfl
  | cons g gs ih =>
    simp only [groupSums, List.map_cons, List.sum_cons, List.flatten_cons, List.map_append] at ih ⊢
    rw [ih]
    have : ∀ (a b : List Int64), (a ++ b).sum = a.sum + b.sum := by
      intro a b
      induction a with
      | nil => simp
      | cons x a iha => simp only [List.cons_append, List.sum_cons, iha]; grind
    rw [this]

theorem formatU_eq (gs : List (List Die)) (m : Int64) :
    formatURollExprValueGroupsAndModifier (URollExprResult.new (valuesOf gs) m) = groupsText gs m := by
  unfold formatURollExprValueGroupsAndModifier groupsText URollExprResult.sumOfGroups
    URollExprResult.new
  simp only [zipWith_groups, modifierText_eq, formatUGroup, inspectWithoutSpaces, valuesText_eq,
    List.length_map, gt_iff_lt]

theorem formatU_cached_eq (gs : List (List Die)) (m : Int64) :
    formatURollExprValueGroupsAndModifier (URollExprResult.new (valuesOf gs) m).sumOfGroups.2 =
      groupsText gs m := by
  unfold formatURollExprValueGroupsAndModifier groupsText URollExprResult.sumOfGroups
    URollExprResult.new
  simp only [zipWith_groups, modifierText_eq, formatUGroup, inspectWithoutSpaces, valuesText_eq,
    List.length_map, gt_iff_lt]

theorem formatMaxAndSum_eq (gs : List (List Die)) (m : Int64) :
    formatMaxAndSum (URollExprResult.new (valuesOf gs) m) =
      intStr (URollExprResult.maxInteger (groupSums gs) + m) ++ chars!"/" ++
        intStr ((gs.flatten.map Die.value).sum + m) ++ chars!" (最大/合計)" := by
  unfold formatMaxAndSum URollExprResult.maxValue URollExprResult.sumOfValues
    URollExprResult.sumOfGroups URollExprResult.new
  simp only [sumInts_eq, ← sum_groupSums, ← groupSums_eq]

/-! ## One theorem per command -/

/-- Weakening of `From` under `bind` when the continuation reads no log. -/
theorem from_executeChoice (g : Str) (items : List Str) :
    From E.F [] (E.executeChoice g items) (Outcome (loopCount E.maxRerolls) g (.choice items)) := by
  have hpick : ∀ d : Die, Realizes E.F
      (if d.value - 1 < 0 then (M.crash chars!"runtime error: index out of range" : M σ Str)
        else match items[(d.value - 1).toInt.toNat]? with
          | some item => pure item
          | none => M.crash chars!"runtime error: index out of range")
      (fun ds a => ds = [] ∧ 0 ≤ d.value - 1 ∧ items[(d.value - 1).toInt.toNat]? = some a) := by
    intro d
    split
    · exact (Realizes.crash _).congr (by grind)
    · rename_i h
      split
      · rename_i item hi
        refine (Realizes.pure item).congr ?_
        intro ds a
        rw [hi]
        constructor
        · rintro ⟨rfl, rfl⟩; exact ⟨rfl, by grind, rfl⟩
        · rintro ⟨rfl, -, h⟩; cases h; exact ⟨rfl, rfl⟩
      · rename_i hi
        exact (Realizes.crash _).congr (by intro ds a; rw [hi]; simp)
  have hev : Realizes E.F (E.evalChoice items)
      (fun ds a => ∃ d, ds = [d] ∧ Rolled 1 (Int64.ofNat items.length) [d] ∧
        0 ≤ d.value - 1 ∧ items[(d.value - 1).toInt.toNat]? = some a) := by
    refine Realizes.congr (m := E.evalChoice items) (realizes_firstOfOne E _ _ hpick) ?_
    intro ds a
    constructor
    · rintro ⟨d, es, rfl, h1, h2, rfl, h3, h4⟩
      exact ⟨d, rfl, ⟨h1, by decide, by decide, by simp, by simpa using h2⟩, h3, h4⟩
    · rintro ⟨d, rfl, h1, h3, h4⟩
      exact ⟨d, [], rfl, h1.1, h1.2.2.2.2 d (by simp), rfl, h3, h4⟩
  refine From.congr (m := E.executeChoice g items) (From.bind hev (fun v d1 _ => From.logged _)) ?_
  intro ds r
  constructor
  · rintro ⟨d1, d2, a, rfl, ⟨d, rfl, h1, h2, h3⟩, rfl, rfl⟩
    exact .choice h1 h2 h3
  · intro h
    cases h with | choice h1 h2 h3 =>
    exact ⟨_, [], _, by simp, ⟨_, rfl, h1, h2, h3⟩, rfl, rfl⟩

theorem from_executeCalc (g : Str) (e : Expr) :
    From E.F [] (E.executeCalc g e) (Outcome (loopCount E.maxRerolls) g (.calc e)) := by
  refine From.congr (m := E.executeCalc g e) (From.bind (realizes_eval E e)
    (fun v d1 _ => From.of_realizes (Realizes.pure _))) ?_
  intro ds r
  constructor
  · rintro ⟨d1, d2, a, rfl, h, rfl, rfl⟩
    simpa [mkResult] using Outcome.calc (limit := loopCount E.maxRerolls) (gameID := g) h
  · intro h
    cases h
    rename_i h
    exact ⟨_, [], _, by simp, h, rfl, rfl⟩

theorem from_executeDRollExpr (g : Str) (e : Expr) :
    From E.F [] (E.executeDRollExpr g e) (Outcome (loopCount E.maxRerolls) g (.dRollExpr e)) := by
  refine From.congr (m := E.executeDRollExpr g e)
    (From.bind (realizes_evalVarArgsInCommand E e) (fun e1 d1 _ =>
      From.bind (realizes_determineValuesOperand E e1) (fun e2 d2 _ =>
        From.bind (realizes_eval E e2) (fun v d3 _ => From.logged _)))) ?_
  intro ds r
  constructor
  · rintro ⟨d1, _, e1, rfl, h1, d2, _, e2, rfl, h2, d3, _, v, rfl, h3, rfl, rfl⟩
    have := h3.no_dice h2.not_variable
    subst this
    simpa [mkResult] using Outcome.dRollExpr (limit := loopCount E.maxRerolls) (gameID := g) h1 h2 h3
  · intro h
    cases h with | dRollExpr h1 h2 h3 =>
    exact ⟨_, _, _, rfl, h1, _, [], _, by simp, h2, [], [], _, rfl, h3, rfl, by simp [mkResult]⟩

theorem realizes_evalVarArgs_determine (l : Expr) :
    Realizes E.F (E.evalVarArgs l)
      (fun as l1 => (match l with
        | .int _ => False
        | .sumRoll _ => False
        | .var k a b => ∃ d1 d2 a' b', as = d1 ++ d2 ∧ DArgs a d1 a' ∧ DArgs b d2 b' ∧
            l1 = .var k a' b'
        | l => DArgs l as l1)) := by
  cases l with
  | int v => exact (Realizes.fail _).congr (by simp)
  | sumRoll v => exact (Realizes.fail _).congr (by simp)
  | neg r => exact realizes_evalVarArgsInCommand E (.neg r)
  | bin op l r => exact realizes_evalVarArgsInCommand E (.bin op l r)
  | div m l r => exact realizes_evalVarArgsInCommand E (.div m l r)
  | var k l r =>
    rw [evalVarArgs_var]
    refine (Realizes.bind (realizes_evalVarArgsInCommand E l) (fun l' =>
      Realizes.bind (realizes_evalVarArgsInCommand E r) (fun r' =>
        Realizes.pure (Expr.var k l' r')))).congr ?_
    intro ds a
    constructor
    · rintro ⟨d1, _, l', rfl, h1, d2, _, r', rfl, h2, rfl, rfl⟩
      exact ⟨d1, d2, l', r', by simp, h1, h2, rfl⟩
    · rintro ⟨d1, d2, l', r', rfl, h1, h2, rfl⟩
      exact ⟨d1, d2, l', rfl, h1, d2, [], r', by simp, h2, rfl, rfl⟩

theorem dCompLeft_iff (l l1 l2 : Expr) (as rs : List Die) :
    ((match l with
        | .int _ => False
        | .sumRoll _ => False
        | .var k a b => ∃ d1 d2 a' b', as = d1 ++ d2 ∧ DArgs a d1 a' ∧ DArgs b d2 b' ∧
            l1 = .var k a' b'
        | l => DArgs l as l1) ∧ DDice l1 rs l2) ↔ DCompLeft l ∧ DArgs l as l1 ∧ DDice l1 rs l2 := by
  cases l with
  | int v => simp [DCompLeft]
  | sumRoll v => simp [DCompLeft]
  | neg r => simp [DCompLeft]
  | bin op l r => simp [DCompLeft]
  | div m l r => simp [DCompLeft]
  | var k a b =>
    constructor
    · rintro ⟨⟨d1, d2, a', b', rfl, h1, h2, rfl⟩, h3⟩
      cases h3 with | roll hr =>
      cases h1
      cases h2
      exact ⟨trivial, .roll (.int _) (.int _), .roll hr⟩
    · rintro ⟨h1, h2, h3⟩
      cases h2 with | roll ha hb =>
      rename_i d1 d2 x y
      cases a <;> try (exact h1.elim)
      cases b <;> try (exact h1.elim)
      cases ha; cases hb
      exact ⟨⟨[], [], _, _, rfl, .int _, .int _, rfl⟩, h3⟩

theorem executeDRollComp_eq (g : Str) (l : Expr) (op : CmpOp) (r : Expr) :
    E.executeDRollComp g l op r = (do
      let l1 ← E.evalVarArgs l
      let b ← E.eval r
      let l2 ← E.determineValuesOperand l1
      let v ← E.eval l2
      let dice ← Evaluator.rolledDice
      pure (mkResult g
        [parenthesize (infixNotation true l1 ++ op.str ++ infixNotation true (.int b)),
          infixNotation true l2, intStr v,
          if op.holds v b then chars!"成功" else chars!"失敗"]
        dice (if op.holds v b then .success else .failure))) := by
  unfold Evaluator.executeDRollComp Evaluator.evalVarArgsInDCompare
    Evaluator.determineValuesInCompare
  simp only [bind_assoc, pure_bind]
  rfl

theorem from_executeDRollComp (g : Str) (l : Expr) (op : CmpOp) (r : Expr) :
    From E.F [] (E.executeDRollComp g l op r)
      (Outcome (loopCount E.maxRerolls) g (.dRollComp l op r)) := by
  rw [executeDRollComp_eq]
  refine From.congr
    (From.bind (realizes_evalVarArgs_determine E l) (fun l1 d1 _ =>
      From.bind (realizes_eval E r) (fun b d2 _ =>
      From.bind (realizes_determineValuesOperand E l1) (fun l2 d3 _ =>
        From.bind (realizes_eval E l2) (fun v d4 _ => From.logged _))))) ?_
  intro ds res
  constructor
  · rintro ⟨d1, _, l1, rfl, h1, d2, _, b, rfl, h2, d3, _, l2, rfl, h3, d4, _, v, rfl, h4, rfl, rfl⟩
    obtain ⟨hc, h1, h3⟩ := (dCompLeft_iff l l1 l2 d1 d3).mp ⟨h1, h3⟩
    have := h4.no_dice h3.not_variable
    subst this
    have := Outcome.dRollComp (limit := loopCount E.maxRerolls) (gameID := g) (op := op) hc h1 h2 h3 h4
    simpa [mkResult, holds_eq_rel, infixNotation] using this
  · intro h
    cases h with | @dRollComp _ l1 l2 _ _ d1 d2 d3 v b hc h1 h2 h3 h4 =>
    obtain ⟨h1, h3⟩ := (dCompLeft_iff l l1 l2 d1 d3).mpr ⟨hc, h1, h3⟩
    exact ⟨d1, d2 ++ d3, l1, by simp, h1, d2, d3, b, rfl, h2, d3, [], l2, by simp, h3, [], [], v, rfl, h4,
      rfl, by simp [mkResult, holds_eq_rel, infixNotation]⟩

theorem from_executeBRollList (g : Str) (rolls : List Roll) :
    From E.F [] (E.executeBRollList g rolls)
      (Outcome (loopCount E.maxRerolls) g (.bRollList rolls)) := by
  refine From.congr (m := E.executeBRollList g rolls)
    (From.bindW (realizes_evalVarArgsInRolls E rolls) (fun ps as _ =>
      From.bindW (R := fun ds gs => GroupsFor ps gs ∧ ds = gs.flatten)
        (v := fun gs => gs.flatten.map Die.value)
        ((realizes_evalBRollList E ps).congr (by
          intro ds a
          constructor
          · rintro ⟨gs, h, rfl, rfl⟩; exact ⟨gs, ⟨h, rfl⟩, rfl⟩
          · rintro ⟨gs, ⟨h, rfl⟩, rfl⟩; exact ⟨gs, h, rfl, rfl⟩))
        (fun gs d2 _ => From.logged _))) ?_
  intro ds r
  constructor
  · rintro ⟨as, _, ps, rfl, hp, _, _, gs, rfl, ⟨hg, rfl⟩, rfl, rfl⟩
    simpa [mkResult, rollsNotation_lit] using
      Outcome.bRollList (limit := loopCount E.maxRerolls) (gameID := g) hp hg
  · intro h
    cases h with | bRollList hp hg =>
    exact ⟨_, _, _, rfl, hp, _, [], _, by simp, ⟨hg, rfl⟩, rfl, by simp [mkResult, rollsNotation_lit]⟩

theorem from_executeBRollComp (g : Str) (rolls : List Roll) (op : CmpOp) (r : Expr) :
    From E.F [] (E.executeBRollComp g rolls op r)
      (Outcome (loopCount E.maxRerolls) g (.bRollComp rolls op r)) := by
  refine From.congr (m := E.executeBRollComp g rolls op r)
    (From.bindW (realizes_evalVarArgsInRolls E rolls) (fun ps as _ =>
      From.bind (realizes_eval E r) (fun b bs _ =>
      From.bindW (R := fun ds gs => GroupsFor ps gs ∧ ds = gs.flatten)
        (v := fun gs => (gs.flatten.map Die.value,
          Int64.ofNat (successes op b (gs.flatten.map Die.value))))
        (Realizes.congr (m := E.evalBRollComp (ps.map litRoll) op (.int b))
          (Realizes.bind (realizes_evalBRollList E ps)
            (fun vs => Realizes.pure (vs, Evaluator.countNumOfSuccesses vs op b))) (by
          intro ds a
          constructor
          · rintro ⟨_, _, _, rfl, ⟨gs, h, rfl, rfl⟩, rfl, rfl⟩
            exact ⟨gs, ⟨h, by simp⟩, by simp [countNumOfSuccesses_eq]⟩
          · rintro ⟨gs, ⟨h, rfl⟩, rfl⟩
            exact ⟨_, [], _, by simp, ⟨gs, h, rfl, rfl⟩, rfl, by simp [countNumOfSuccesses_eq]⟩))
        (fun gs d2 _ => From.logged _)))) ?_
  intro ds res
  constructor
  · rintro ⟨as, _, ps, rfl, hp, bs, _, b, rfl, hb, _, _, gs, rfl, ⟨hg, rfl⟩, rfl, rfl⟩
    simpa [mkResult, rollsNotation_lit, infixNotation, successCountPart] using
      Outcome.bRollComp (limit := loopCount E.maxRerolls) (gameID := g) (op := op) hp hb hg
  · intro h
    cases h with | @bRollComp _ _ _ as bs ps gs b hp hb hg =>
    exact ⟨as, bs ++ gs.flatten, ps, by simp, hp, bs, _, b, rfl, hb, _, [], _, by simp, ⟨hg, rfl⟩, rfl,
      by simp [mkResult, rollsNotation_lit, infixNotation, successCountPart]⟩

/-- the threshold check on literal thresholds -/
def thCheck (nilMsg : Str) : Option Int64 → Option Str
  | none => some nilMsg
  | some v => if v < 2 then some Evaluator.thresholdTooSmallMsg else none

theorem checkThreshold_eq (nilMsg : Str) (th : Option Int64) :
    E.checkThreshold nilMsg (th.map .int) = pure (thCheck nilMsg th) := by
  cases th <;> rfl

theorem thCheck_some {nilMsg msg : Str} {th : Option Int64} :
    thCheck nilMsg th = some msg ↔ Refused nilMsg th msg := by
  cases th with
  | none =>
    constructor
    · intro h; cases h; exact .absent
    · rintro ⟨⟩; rfl
  | some v =>
    show (if v < 2 then some Evaluator.thresholdTooSmallMsg else none) = some msg ↔ _
    constructor
    · intro h
      split at h
      · cases h; exact .small (by assumption)
      · simp at h
    · intro h
      cases h with | small h =>
      rw [if_pos h]; rfl

theorem thCheck_none {nilMsg : Str} {th : Option Int64} :
    thCheck nilMsg th = none ↔ ∃ v, th = some v ∧ 2 ≤ v := by
  cases th with
  | none => simp [thCheck]
  | some v =>
    unfold thCheck
    by_cases h : v < 2 <;> simp [h] <;> grind

theorem from_check {α : Type} {log : List Die} (c : Option Str) (bad : Str → M σ α) (good : M σ α)
    {R : Str → List Die → α → Prop} {S : List Die → α → Prop}
    (hb : ∀ msg, c = some msg → From E.F log (bad msg) (R msg))
    (hg : c = none → From E.F log good S) :
    From E.F log (match c with | some msg => bad msg | none => good)
      (fun ds a => (∃ msg, c = some msg ∧ R msg ds a) ∨ (c = none ∧ S ds a)) := by
  cases c with
  | some msg =>
    refine From.congr (hb msg rfl) ?_
    intro ds a
    constructor
    · intro h; exact .inl ⟨msg, rfl, h⟩
    · rintro (⟨_, h, h'⟩ | ⟨h, _⟩)
      · cases h; exact h'
      · cases h
  | none =>
    refine From.congr (hg rfl) ?_
    intro ds a
    constructor
    · intro h; exact .inr ⟨rfl, h⟩
    · rintro (⟨_, h, _⟩ | ⟨_, h⟩)
      · cases h
      · exact h

/-- Witness form of stage 1 on R and U lists. -/
theorem realizes_listArgs (rl : RRollList) :
    Realizes E.F (E.evalVarArgsInRRollList rl)
      (fun ds a => ∃ w : Option Int64 × List (Int64 × Int64),
        (∃ ts as, ds = ts ++ as ∧ Threshold rl.threshold ts w.1 ∧ Args rl.rolls as w.2) ∧
        a = { rolls := w.2.map litRoll, threshold := w.1.map .int }) := by
  refine (realizes_evalVarArgsInRRollList E rl).congr ?_
  intro ds a
  constructor
  · rintro ⟨ts, as, th, ps, rfl, h1, h2, rfl⟩
    exact ⟨(th, ps), ⟨ts, as, rfl, h1, h2⟩, rfl⟩
  · rintro ⟨⟨th, ps⟩, ⟨ts, as, rfl, h1, h2⟩, rfl⟩
    exact ⟨ts, as, th, ps, rfl, h1, h2, rfl⟩

/-- Evaluation of the R roll once the threshold has been accepted. -/
theorem realizes_rEval (nilMsg : Str) (th : Option Int64) (ps : List (Int64 × Int64))
    (h : thCheck nilMsg th = none) :
    Realizes E.F (E.evalRRollList { rolls := ps.map litRoll, threshold := th.map .int })
      (fun ds a => ∃ gs, (∃ v, th = some v ∧ 2 ≤ v ∧ RGroups v (loopCount E.maxRerolls) ps gs ∧
        ds = gs.flatten) ∧ a = valuesOf gs) := by
  obtain ⟨v, rfl, hv⟩ := thCheck_none.mp h
  refine (realizes_evalRRollList E v ps).congr ?_
  intro ds a
  constructor
  · rintro ⟨gs, h1, rfl, rfl⟩; exact ⟨gs, ⟨v, rfl, hv, h1, rfl⟩, rfl⟩
  · rintro ⟨gs, ⟨v', h0, _, h1, rfl⟩, rfl⟩; cases h0; exact ⟨gs, h1, rfl, rfl⟩

theorem executeRRollList_eq (g : Str) (rl : RRollList) :
    E.executeRRollList g rl = (do
      let rl1 ← E.evalVarArgsInRRollList rl
      let check ← E.checkThreshold Evaluator.rThresholdNilMsg rl1.threshold
      match check with
      | some msg =>
        pure (mkResult g [parenthesize (rRollListNotation chars!"R" rl1), msg] [])
      | none => do
        let groups ← E.evalRRollList rl1
        let dice ← Evaluator.rolledDice
        pure (mkResult g [parenthesize (rRollListNotation chars!"R" rl1),
          formatRRollValues groups] dice)) := rfl

theorem from_executeRRollList (g : Str) (rl : RRollList) :
    From E.F [] (E.executeRRollList g rl)
      (Outcome (loopCount E.maxRerolls) g (.rRollList rl)) := by
  rw [executeRRollList_eq]
  refine From.congr
    (From.bindW (realizes_listArgs E rl) (fun w d1 _ => by
      simp only [checkThreshold_eq, pure_bind]
      exact from_check E _ _ _
        (fun msg _ => From.of_realizes (Realizes.pure _))
        (fun hc => From.bindW (realizes_rEval E _ w.1 w.2 hc) (fun gs d2 _ => From.logged _)))) ?_
  intro ds res
  constructor
  · rintro ⟨_, _, ⟨th, ps⟩, rfl, ⟨ts, as, rfl, ht, hp⟩, h⟩
    rcases h with ⟨msg, hc, rfl, rfl⟩ | ⟨hc, _, _, gs, rfl, ⟨v, rfl, hv, hg, rfl⟩, rfl, rfl⟩
    · have := Outcome.rRollRefused (limit := loopCount E.maxRerolls) (gameID := g) ht hp
        (thCheck_some.mp hc)
      simpa [mkResult, rRollListNotation_lit] using this
    · have := Outcome.rRollList (limit := loopCount E.maxRerolls) (gameID := g) ht hp hv hg
      have e := rRollListNotation_lit chars!"R" ps (some v)
      simp only [Option.map_some] at e
      simpa [mkResult, e] using this
  · intro h
    cases h with
    | @rRollRefused _ ts as th ps msg ht hp hr =>
      exact ⟨ts ++ as, [], (th, ps), by simp, ⟨ts, as, rfl, ht, hp⟩,
        .inl ⟨msg, thCheck_some.mpr hr, rfl, by simp [mkResult, rRollListNotation_lit]⟩⟩
    | @rRollList _ ts as th ps gs ht hp hv hg =>
      refine ⟨ts ++ as, gs.flatten, (some th, ps), by simp, ⟨ts, as, rfl, ht, hp⟩,
        .inr ⟨thCheck_none.mpr ⟨th, rfl, hv⟩, gs.flatten, [], gs, by simp, ⟨th, rfl, hv, hg, rfl⟩,
          rfl, ?_⟩⟩
      have e := rRollListNotation_lit chars!"R" ps (some th)
      simp only [Option.map_some] at e
      simp [mkResult, e]

theorem setRerollThreshold_lit (th : Option Int64) (ps : List (Int64 × Int64)) (b : Int64) :
    E.setRerollThreshold { rolls := ps.map litRoll, threshold := th.map .int } (.int b) =
      pure { rolls := ps.map litRoll, threshold := (orTarget th b).map .int } := by
  cases th <;> rfl

theorem executeRRollComp_eq (g : Str) (rl : RRollList) (op : CmpOp) (r : Expr) :
    E.executeRRollComp g rl op r = (do
      let rl1 ← E.evalVarArgsInRRollList rl
      let b ← E.eval r
      let rl2 ← E.setRerollThreshold rl1 (.int b)
      let check ← E.checkThreshold Evaluator.rThresholdNilMsg rl2.threshold
      match check with
      | some msg => pure (mkResult g [parenthesize (rRollListNotation chars!"R" rl2 ++ op.str ++
            infixNotation true (.int b)), msg] [])
      | none => do
        let groups ← E.evalRRollList rl2
        let dice ← Evaluator.rolledDice
        pure (mkResult g [parenthesize (rRollListNotation chars!"R" rl2 ++ op.str ++
            infixNotation true (.int b)), formatRRollValues groups,
            successCountPart (groups.foldl
              (fun n vs => n + Evaluator.countNumOfSuccesses vs op b) 0)] dice)) := by
  unfold Evaluator.executeRRollComp Evaluator.evalRRollComp
  simp only [bind_assoc, pure_bind]
  rfl

theorem from_executeRRollComp (g : Str) (rl : RRollList) (op : CmpOp) (r : Expr) :
    From E.F [] (E.executeRRollComp g rl op r)
      (Outcome (loopCount E.maxRerolls) g (.rRollComp rl op r)) := by
  rw [executeRRollComp_eq]
  refine From.congr
    (From.bindW (realizes_listArgs E rl) (fun w d1 _ =>
      From.bind (realizes_eval E r) (fun b bs _ => by
      simp only [setRerollThreshold_lit, checkThreshold_eq, pure_bind]
      exact from_check E _ _ _
        (fun msg _ => From.of_realizes (Realizes.pure _))
        (fun hc => From.bindW (realizes_rEval E _ _ w.2 hc) (fun gs d2 _ => From.logged _))))) ?_
  intro ds res
  have hn : ∀ ps (th : Option Int64), rRollListNotation chars!"R"
      { rolls := List.map litRoll ps, threshold := th.map .int } =
      rollsText chars!"R" ps ++ thresholdText th := rRollListNotation_lit chars!"R"
  constructor
  · rintro ⟨_, _, ⟨th, ps⟩, rfl, ⟨ts, as, rfl, ht, hp⟩, bs, _, b, rfl, hb, h⟩
    rcases h with ⟨msg, hc, rfl, rfl⟩ | ⟨hc, _, _, gs, rfl, ⟨v, he, hv, hg, rfl⟩, rfl, rfl⟩
    · have := Outcome.rRollCompRefused (limit := loopCount E.maxRerolls) (gameID := g) (op := op)
        ht hp hb (thCheck_some.mp hc)
      simpa only [mkResult, inParens_eq, rGroupsText_eq, hn, List.append_nil, infixNotation, List.append_assoc] using this
    · have := Outcome.rRollComp (limit := loopCount E.maxRerolls) (gameID := g) (op := op)
        ht hp hb he hv hg
      simp only [mkResult, hn, infixNotation, he, count_groups, valuesOf_flatten, successCountPart]
      simpa using this
  · intro h
    cases h with
    | @rRollCompRefused _ _ _ ts as bs th ps b msg ht hp hb hr =>
      exact ⟨ts ++ as, bs, (th, ps), by simp, ⟨ts, as, rfl, ht, hp⟩, bs, [], b, by simp, hb,
        .inl ⟨msg, thCheck_some.mpr hr, rfl, by simp only [mkResult, inParens_eq, hn, infixNotation]⟩⟩
    | @rRollComp _ _ _ ts as bs th v ps gs b ht hp hb he hv hg =>
      refine ⟨ts ++ as, bs ++ gs.flatten, (th, ps), by simp, ⟨ts, as, rfl, ht, hp⟩, bs, gs.flatten, b,
        rfl, hb, .inr ⟨thCheck_none.mpr ⟨v, he, hv⟩, gs.flatten, [], gs, by simp,
          ⟨v, he, hv, hg, rfl⟩, rfl, ?_⟩⟩
      simp only [mkResult, hn, infixNotation, he, count_groups, valuesOf_flatten, successCountPart]
      simp

/-- Witness form of stage 1 on U expressions. -/
theorem realizes_uArgs (u : URollExpr) :
    Realizes E.F (E.evalVarArgsInURollExpr u)
      (fun ds a => ∃ w : Option Int64 × List (Int64 × Int64) × Int64,
        (∃ ts as ms, ds = ts ++ as ++ ms ∧ Threshold u.list.threshold ts w.1 ∧
          Args u.list.rolls as w.2.1 ∧ Bonus u.bonus ms w.2.2) ∧
        a = { list := { rolls := w.2.1.map litRoll, threshold := w.1.map .int },
              bonus := Evaluator.normalizeBonus w.2.2 }) := by
  refine (realizes_evalVarArgsInURollExpr E u).congr ?_
  intro ds a
  constructor
  · rintro ⟨ts, as, ms, th, ps, m, rfl, h1, h2, h3, rfl⟩
    exact ⟨(th, ps, m), ⟨ts, as, ms, rfl, h1, h2, h3⟩, rfl⟩
  · rintro ⟨⟨th, ps, m⟩, ⟨ts, as, ms, rfl, h1, h2, h3⟩, rfl⟩
    exact ⟨ts, as, ms, th, ps, m, rfl, h1, h2, h3, rfl⟩

theorem realizes_uEval (nilMsg : Str) (th : Option Int64) (ps : List (Int64 × Int64)) (m : Int64)
    (h : thCheck nilMsg th = none) :
    Realizes E.F (E.evalURollExpr { list := { rolls := ps.map litRoll, threshold := th.map .int },
                                    bonus := Evaluator.normalizeBonus m })
      (fun ds a => ∃ gs, (∃ v, th = some v ∧ 2 ≤ v ∧ UGroups (loopCount E.maxRerolls) v ps gs ∧
        ds = gs.flatten) ∧ a = URollExprResult.new (valuesOf gs) m) := by
  obtain ⟨v, rfl, hv⟩ := thCheck_none.mp h
  refine (realizes_evalURollExpr E ps v m).congr ?_
  intro ds a
  constructor
  · rintro ⟨gs, h1, rfl, rfl⟩; exact ⟨gs, ⟨v, rfl, hv, h1, rfl⟩, rfl⟩
  · rintro ⟨gs, ⟨v', h0, _, h1, rfl⟩, rfl⟩; cases h0; exact ⟨gs, h1, rfl, rfl⟩

theorem executeURollExpr_eq (g : Str) (u : URollExpr) :
    E.executeURollExpr g u = (do
      let u1 ← E.evalVarArgsInURollExpr u
      let check ← E.checkThreshold Evaluator.uThresholdNilMsg u1.list.threshold
      match check with
      | some msg => pure (mkResult g [parenthesize (uRollExprNotation u1), msg] [])
      | none => do
        let res ← E.evalURollExpr u1
        let dice ← Evaluator.rolledDice
        pure (mkResult g [parenthesize (uRollExprNotation u1),
          formatURollExprValueGroupsAndModifier res, formatMaxAndSum res] dice)) := rfl

theorem from_executeURollExpr (g : Str) (u : URollExpr) :
    From E.F [] (E.executeURollExpr g u)
      (Outcome (loopCount E.maxRerolls) g (.uRollExpr u)) := by
  rw [executeURollExpr_eq]
  refine From.congr
    (From.bindW (realizes_uArgs E u) (fun w d1 _ => by
      simp only [checkThreshold_eq, pure_bind]
      exact from_check E _ _ _
        (fun msg _ => From.of_realizes (Realizes.pure _))
        (fun hc => From.bindW (realizes_uEval E _ w.1 w.2.1 w.2.2 hc)
          (fun gs d2 _ => From.logged _)))) ?_
  intro ds res
  constructor
  · rintro ⟨_, _, ⟨th, ps, m⟩, rfl, ⟨ts, as, ms, rfl, ht, hp, hm⟩, h⟩
    rcases h with ⟨msg, hc, rfl, rfl⟩ | ⟨hc, _, _, gs, rfl, ⟨v, rfl, hv, hg, rfl⟩, rfl, rfl⟩
    · have := Outcome.uRollRefused (limit := loopCount E.maxRerolls) (gameID := g) ht hp hm
        (thCheck_some.mp hc)
      simpa only [mkResult, inParens_eq, rGroupsText_eq, uRollExprNotation_lit, List.append_nil] using this
    · have hmax : gs = [] ∧ URollExprResult.maxInteger (groupSums gs) = 0 ∨
          IsMax (URollExprResult.maxInteger (groupSums gs)) (groupSums gs) := by
        rcases maxInteger_isMax (groupSums gs) with ⟨h1, h2⟩ | h
        · left; exact ⟨by simpa [groupSums] using h1, h2⟩
        · exact .inr h
      have := Outcome.uRollExpr (limit := loopCount E.maxRerolls) (gameID := g) ht hp hm hv hg hmax
      have e := uRollExprNotation_lit ps (some v) m
      simp only [mkResult, e, formatU_eq, formatMaxAndSum_eq]
      simpa using this
  · intro h
    cases h with
    | @uRollRefused _ ts as ms th ps m msg ht hp hm hr =>
      exact ⟨ts ++ as ++ ms, [], (th, ps, m), by simp, ⟨ts, as, ms, rfl, ht, hp, hm⟩,
        .inl ⟨msg, thCheck_some.mpr hr, rfl, by simp only [mkResult, inParens_eq, uRollExprNotation_lit]⟩⟩
    | @uRollExpr _ ts as ms th ps m mx gs ht hp hm hv hg hmax =>
      refine ⟨ts ++ as ++ ms, gs.flatten, (some th, ps, m), by simp, ⟨ts, as, ms, rfl, ht, hp, hm⟩,
        .inr ⟨thCheck_none.mpr ⟨th, rfl, hv⟩, gs.flatten, [], gs, by simp, ⟨th, rfl, hv, hg, rfl⟩,
          rfl, ?_⟩⟩
      have e := uRollExprNotation_lit ps (some th) m
      have : URollExprResult.maxInteger (groupSums gs) = mx := by
        rcases hmax with ⟨rfl, rfl⟩ | hmax
        · rfl
        · rcases maxInteger_isMax (groupSums gs) with ⟨h1, _⟩ | h
          · rw [h1] at hmax; simp [IsMax] at hmax
          · exact isMax_unique h hmax
      subst this
      simp only [mkResult, e, formatU_eq, formatMaxAndSum_eq]
      simp

theorem executeURollComp_eq (g : Str) (u : URollExpr) (op : CmpOp) (r : Expr) :
    E.executeURollComp g u op r = (do
      let u1 ← E.evalVarArgsInURollExpr u
      let b ← E.eval r
      let check ← E.checkThreshold Evaluator.uThresholdNilMsg u1.list.threshold
      match check with
      | some msg => pure (mkResult g [parenthesize (uRollExprNotation u1 ++ op.str ++
          infixNotation true (.int b)), msg] [])
      | none => do
        let res ← E.evalURollExpr u1
        let dice ← Evaluator.rolledDice
        pure (mkResult g [parenthesize (uRollExprNotation u1 ++ op.str ++ infixNotation true (.int b)),
          formatURollExprValueGroupsAndModifier res.sumOfGroups.2,
          successCountPart (Evaluator.countNumOfSuccesses
            (res.sumOfGroups.1.map (fun x => x + res.sumOfGroups.2.modifier)) op b)] dice)) := by
  unfold Evaluator.executeURollComp Evaluator.evalURollComp
  simp only [bind_assoc, pure_bind]
  rfl

theorem from_executeURollComp (g : Str) (u : URollExpr) (op : CmpOp) (r : Expr) :
    From E.F [] (E.executeURollComp g u op r)
      (Outcome (loopCount E.maxRerolls) g (.uRollComp u op r)) := by
  rw [executeURollComp_eq]
  refine From.congr
    (From.bindW (realizes_uArgs E u) (fun w d1 _ =>
      From.bind (realizes_eval E r) (fun b bs _ => by
      simp only [checkThreshold_eq, pure_bind]
      exact from_check E _ _ _
        (fun msg _ => From.of_realizes (Realizes.pure _))
        (fun hc => From.bindW (realizes_uEval E _ w.1 w.2.1 w.2.2 hc)
          (fun gs d2 _ => From.logged _))))) ?_
  intro ds res
  have hs : ∀ gs m, (URollExprResult.new (valuesOf gs) m).sumOfGroups.1 = groupSums gs := by
    intro gs m; exact groupSums_eq gs
  have hm' : ∀ gs m, (URollExprResult.new (valuesOf gs) m).sumOfGroups.2.modifier = m := by
    intro gs m; rfl
  constructor
  · rintro ⟨_, _, ⟨th, ps, m⟩, rfl, ⟨ts, as, ms, rfl, ht, hp, hm⟩, bs, _, b, rfl, hb, h⟩
    rcases h with ⟨msg, hc, rfl, rfl⟩ | ⟨hc, _, _, gs, rfl, ⟨v, rfl, hv, hg, rfl⟩, rfl, rfl⟩
    · have := Outcome.uRollCompRefused (limit := loopCount E.maxRerolls) (gameID := g) (op := op)
        ht hp hm hb (thCheck_some.mp hc)
      simpa only [mkResult, inParens_eq, rGroupsText_eq, uRollExprNotation_lit, List.append_nil, infixNotation] using this
    · have := Outcome.uRollComp (limit := loopCount E.maxRerolls) (gameID := g) (op := op)
        ht hp hm hb hv hg
      have e := uRollExprNotation_lit ps (some v) m
      simp only [mkResult, e, formatU_cached_eq, hs, hm', countNumOfSuccesses_eq, infixNotation,
        successCountPart]
      simpa using this
  · intro h
    cases h with
    | @uRollCompRefused _ _ _ ts as ms bs th ps m b msg ht hp hm hb hr =>
      exact ⟨ts ++ as ++ ms, bs, (th, ps, m), by simp, ⟨ts, as, ms, rfl, ht, hp, hm⟩, bs, [], b,
        by simp, hb,
        .inl ⟨msg, thCheck_some.mpr hr, rfl, by
          simp only [mkResult, inParens_eq, uRollExprNotation_lit, infixNotation]⟩⟩
    | @uRollComp _ _ _ ts as ms bs th ps m b gs ht hp hm hb hv hg =>
      refine ⟨ts ++ as ++ ms, bs ++ gs.flatten, (some th, ps, m), by simp,
        ⟨ts, as, ms, rfl, ht, hp, hm⟩, bs, gs.flatten, b, rfl, hb,
        .inr ⟨thCheck_none.mpr ⟨th, rfl, hv⟩, gs.flatten, [], gs, by simp, ⟨th, rfl, hv, hg, rfl⟩,
          rfl, ?_⟩⟩
      have e := uRollExprNotation_lit ps (some th) m
      simp only [mkResult, e, formatU_cached_eq, hs, hm', countNumOfSuccesses_eq, infixNotation,
        successCountPart]
      simp

/-- **`Execute` meets its specification**: from an empty environment it succeeds with `r` exactly
when the feeder can deliver dice `ds` such that `Outcome … node ds r`. -/
theorem execute_outcome (g : Str) (node : Node) :
    From E.F [] (E.execute g node) (Outcome (loopCount E.maxRerolls) g node) := by
  cases node with
  | choice items => exact from_executeChoice E g items
  | «calc» e => exact from_executeCalc E g e
  | dRollExpr e => exact from_executeDRollExpr E g e
  | dRollComp l op r => exact from_executeDRollComp E g l op r
  | bRollList rolls => exact from_executeBRollList E g rolls
  | bRollComp rolls op r => exact from_executeBRollComp E g rolls op r
  | rRollList rl => exact from_executeRRollList E g rl
  | rRollComp rl op r => exact from_executeRRollComp E g rl op r
  | uRollExpr u => exact from_executeURollExpr E g u
  | uRollComp u op r => exact from_executeURollComp E g u op r

end GoBCDice
