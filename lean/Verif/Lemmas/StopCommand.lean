import Verif.Lemmas.Stop

/-!
# Ends of roll lists, D stages and commands
-/

namespace GoBCDice
variable {σ : Type} (E : Evaluator σ)

/-! ## Roll lists -/

theorem halts_litRoll (p : Int64 × Int64) :
    Halts E.F (E.evalBasicRoll (litRoll p)) (RollStops p.1 p.2) :=
  Halts.andThen (m := E.rollDice p.1 p.2) (halts_rollDice E p.1 p.2) (fun _ _ => rfl)

theorem halts_evalBRollList (ps : List (Int64 × Int64)) :
    Halts E.F (E.evalBRollList (ps.map litRoll)) (GroupsStop ps) := by
  induction ps with
  | nil => exact (Halts.pure []).congr (fun ds c => ⟨False.elim, fun h => nomatch h⟩)
  | cons p ps ih =>
    obtain ⟨x, y⟩ := p
    refine (Halts.bind ((realizes_evalBasicRoll E (litRoll (x, y))).congr (basicRollEv_lit _))
      (halts_litRoll E (x, y)) (fun vs => Halts.andThen (k := fun ws => pure (vs ++ ws)) ih
        (fun _ _ => rfl))).congr ?_
    intro ds c
    constructor
    · rintro (h | ⟨d1, d2, a, rfl, ⟨h1, rfl⟩, h2⟩)
      · exact .first h
      · exact .later h1 h2
    · intro h
      cases h with
      | first h => exact .inl h
      | later h1 h2 => exact .inr ⟨_, _, _, rfl, ⟨h1, rfl⟩, h2⟩

theorem halts_rRollLoop (th : Int64) (n : Nat) (ps : List (Int64 × Int64)) (acc : List (List Int64)) :
    Halts E.F (E.rRollLoop th n (ps.map litRoll) acc) (RGroupsStop th n ps) := by
  induction n generalizing ps acc with
  | zero =>
    unfold Evaluator.rRollLoop
    exact (Halts.pure _).congr (fun ds c => ⟨False.elim, fun h => nomatch h⟩)
  | succ n ih =>
    cases ps with
    | nil =>
      simp only [List.map_nil, Evaluator.rRollLoop]
      exact (Halts.pure _).congr (fun ds c => ⟨False.elim, fun h => nomatch h⟩)
    | cons p ps =>
      obtain ⟨x, y⟩ := p
      simp only [List.map_cons, Evaluator.rRollLoop]
      have key : ∀ vs : List Int64,
          (if (vs.filter (fun v => decide (v ≥ th))).length > 0 then
              ps.map litRoll ++ [{ num := .int (Int64.ofNat (vs.filter (fun v => decide (v ≥ th))).length),
                                   sides := (litRoll (x, y)).sides }]
            else ps.map litRoll) =
          (ps ++ rerolls th y vs).map litRoll := by
        intro vs
        unfold rerolls
        by_cases h : (vs.filter (fun v => decide (v ≥ th))).length = 0
        · rw [if_neg (by omega), if_pos h]; simp
        · rw [if_pos (by omega), if_neg h]; simp [litRoll]
      simp only [key]
      refine (Halts.bind ((realizes_evalBasicRoll E (litRoll (x, y))).congr (basicRollEv_lit _))
        (halts_litRoll E (x, y)) (fun vs => ih (ps ++ rerolls th y vs) (acc ++ [vs]))).congr ?_
      intro ds c
      constructor
      · rintro (h | ⟨d1, d2, a, rfl, ⟨h1, rfl⟩, h2⟩)
        · exact .first h
        · rw [rerolls_map] at h2
          exact .later h1 h2
      · intro h
        cases h with
        | first h => exact .inl h
        | later h1 h2 =>
          rw [← rerolls_map] at h2
          exact .inr ⟨_, _, _, rfl, ⟨h1, rfl⟩, h2⟩

theorem halts_rEval (nilMsg : Str) (th : Option Int64) (ps : List (Int64 × Int64))
    (h : thCheck nilMsg th = none) :
    Halts E.F (E.evalRRollList { rolls := ps.map litRoll, threshold := th.map .int })
      (fun ds c => ∃ v, th = some v ∧ 2 ≤ v ∧ RGroupsStop v (loopCount E.maxRerolls) ps ds c) := by
  obtain ⟨v, rfl, hv⟩ := thCheck_none.mp h
  refine (halts_rRollLoop E v (loopCount E.maxRerolls) ps []).congr ?_
  intro ds c
  constructor
  · intro h; exact ⟨v, rfl, hv, h⟩
  · rintro ⟨_, h0, _, h⟩; cases h0; exact h

theorem halts_uGroup (y th : Int64) (hs : 1 ≤ y) (n : Nat) (acc : List Int64) :
    Halts E.F (E.uGroup y th n acc)
      (fun ds c => ∃ g rs, ds = g ++ rs ∧ g.length < n ∧ (∀ d ∈ g, d.sides = y ∧ th ≤ d.value) ∧
        RollStops 1 y rs c) := by
  induction n generalizing acc with
  | zero =>
    unfold Evaluator.uGroup
    exact (Halts.pure _).congr (by simp)
  | succ n ih =>
    have hk : ∀ d : Die, Halts E.F
        (if d.value < th then pure (acc ++ [d.value])
          else E.uGroup y th n (acc ++ [d.value]))
        (fun ds c => th ≤ d.value ∧ ∃ g rs, ds = g ++ rs ∧ g.length < n ∧
          (∀ d ∈ g, d.sides = y ∧ th ≤ d.value) ∧ RollStops 1 y rs c) := by
      intro d
      by_cases h : d.value < th
      · rw [if_pos h]
        have : ¬ th ≤ d.value := by grind
        exact (Halts.pure _).congr (by simp [this])
      · rw [if_neg h]
        have : th ≤ d.value := by grind
        exact (ih _).congr (by simp [this])
    refine Halts.congr (m := E.uGroup y th (n + 1) acc) (halts_firstOfOne E y _ hk) ?_
    intro ds c
    constructor
    · rintro (h | ⟨d, es, rfl, hr, hd, g, rs, rfl, hl, hg, h⟩)
      · exact ⟨[], ds, rfl, by simp, by simp, h⟩
      · refine ⟨d :: g, rs, rfl, by simpa using hl, ?_, h⟩
        simp only [List.mem_cons, forall_eq_or_imp]
        exact ⟨⟨hr.2.2.2.2 d (by simp), hd⟩, hg⟩
    · rintro ⟨g, rs, rfl, hl, hg, h⟩
      cases g with
      | nil => exact .inl h
      | cons d g =>
        refine .inr ⟨d, g ++ rs, rfl, ⟨hs, by decide, by decide, by rw [show (1 : Int64).toInt = 1 by decide]; rfl, ?_⟩, (hg d (by simp)).2, g, rs,
          rfl, by simpa using hl, fun x hx => hg x (by simp [hx]), h⟩
        simpa using (hg d (by simp)).1

theorem halts_uGroups (y th : Int64) (hs : 1 ≤ y) (n : Nat) (acc : List (List Int64)) :
    Halts E.F (E.uGroups y th n acc)
      (fun ds c => ∃ (gs : List (List Die)) (g rs : List Die), ds = gs.flatten ++ g ++ rs ∧ gs.length < n ∧
        (∀ g ∈ gs, UChain y th (loopCount E.maxRerolls) g) ∧ g.length < loopCount E.maxRerolls ∧
        (∀ d ∈ g, d.sides = y ∧ th ≤ d.value) ∧ RollStops 1 y rs c) := by
  induction n generalizing acc with
  | zero =>
    unfold Evaluator.uGroups
    exact (Halts.pure _).congr (by simp)
  | succ n ih =>
    refine Halts.congr (m := E.uGroups y th (n + 1) acc)
      (Halts.bind (realizes_uGroup E y th hs _ []) (halts_uGroup E y th hs _ [])
        (fun g => ih (acc ++ [g]))) ?_
    intro ds c
    constructor
    · rintro (⟨g, rs, rfl, hl, hg, h⟩ | ⟨d1, _, a, rfl, ⟨h1, rfl⟩, gs, g, rs, rfl, hl, hgs, h⟩)
      · exact ⟨[], g, rs, rfl, by simp, by simp, hl, hg, h⟩
      · refine ⟨d1 :: gs, g, rs, by simp, by simpa using hl, ?_, h⟩
        simpa [h1] using hgs
    · rintro ⟨gs, g, rs, rfl, hl, hgs, h⟩
      cases gs with
      | nil => exact .inl ⟨g, rs, rfl, h⟩
      | cons g0 gs =>
        exact .inr ⟨g0, gs.flatten ++ g ++ rs, _, by simp, ⟨hgs g0 (by simp), rfl⟩, gs, g, rs, rfl,
          by simpa using hl, fun x hx => hgs x (by simp [hx]), h⟩

theorem halts_evalCompoundingRoll (th : Int64) (p : Int64 × Int64) :
    Halts E.F (E.evalCompoundingRoll (litRoll p) th)
      (UOneStops (loopCount E.maxRerolls) th p.1 p.2) := by
  obtain ⟨x, y⟩ := p
  have e : E.evalCompoundingRoll (litRoll (x, y)) th =
      (if y < 1 then M.fail (Evaluator.compoundingMsg x y chars!"ダイスの面数が少なすぎます")
        else if x < 1 then M.fail (Evaluator.compoundingMsg x y chars!"振るダイス数が少なすぎます")
        else if maxMakeCap < x then M.crash makePanicMsg
        else E.uGroups y th (loopCount x) []) := rfl
  rw [e]
  by_cases h1 : y < 1
  · rw [if_pos h1]
    refine (Halts.fail _).congr ?_
    intro ds c
    have hm : Evaluator.compoundingMsg x y chars!"ダイスの面数が少なすぎます" =
        uRollCallText x y ++ chars!": ダイスの面数が少なすぎます" := by
      simp [Evaluator.compoundingMsg, uRollCallText]
    rw [hm]
    constructor
    · rintro ⟨rfl, rfl⟩; exact .sides h1
    · intro h
      cases h with
      | sides => exact ⟨rfl, rfl⟩
      | num h => exact absurd h1 (by grind)
      | memory h => exact absurd h1 (by grind)
      | chain h => exact absurd h1 (by grind)
  · rw [if_neg h1]
    have h1' : 1 ≤ y := by grind
    by_cases h2 : x < 1
    · rw [if_pos h2]
      have h2' : x.toInt < 1 := by simpa [Int64.lt_iff_toInt_lt] using h2
      refine (Halts.fail _).congr ?_
      intro ds c
      have hm : Evaluator.compoundingMsg x y chars!"振るダイス数が少なすぎます" =
          uRollCallText x y ++ chars!": 振るダイス数が少なすぎます" := by
        simp [Evaluator.compoundingMsg, uRollCallText]
      rw [hm]
      constructor
      · rintro ⟨rfl, rfl⟩; exact .num h1' h2
      · intro h
        cases h with
        | sides h => exact absurd h h1
        | num => exact ⟨rfl, rfl⟩
        | memory _ h => simp only at h; omega
        | chain _ _ h => simp only at h; omega
    · rw [if_neg h2]
      have h2' : 1 ≤ x.toInt := by
        have : ¬ x.toInt < 1 := by simpa [Int64.lt_iff_toInt_lt] using h2
        omega
      by_cases h3 : maxMakeCap < x
      · rw [if_pos h3]
        have h3' := cap_lt.mp h3
        refine (Halts.crash _).congr ?_
        intro ds c
        constructor
        · rintro ⟨rfl, rfl⟩; exact .memory h1' h3'
        · intro h
          cases h with
          | sides h => exact absurd h h1
          | num _ h => exact absurd h h2
          | memory => exact ⟨rfl, rfl⟩
          | chain _ h => simp only at h; omega
      · rw [if_neg h3]
        have h3' : x.toInt ≤ 2 ^ 44 := by
          have : ¬ 2 ^ 44 < x.toInt := fun h => h3 (cap_lt.mpr h)
          omega
        refine (halts_uGroups E y th h1' (loopCount x) []).congr ?_
        intro ds c
        constructor
        · rintro ⟨gs, g, rs, rfl, hl, hgs, hg, hd, h⟩
          unfold loopCount at hl
          exact .chain h1' h3' (by simp only; omega) hgs hg hd h
        · intro h
          cases h with
          | sides h => exact absurd h h1
          | num _ h => exact absurd h h2
          | memory _ h => simp only at h; omega
          | chain _ _ hl hgs hg hd h =>
            exact ⟨_, _, _, rfl, by unfold loopCount; simp only at hl; omega, hgs, hg, hd, h⟩

theorem halts_evalCompoundingRolls (th : Int64) (ps : List (Int64 × Int64)) :
    Halts E.F (E.evalCompoundingRolls th (ps.map litRoll))
      (UGroupsStop (loopCount E.maxRerolls) th ps) := by
  induction ps with
  | nil => exact (Halts.pure []).congr (fun ds c => ⟨False.elim, fun h => nomatch h⟩)
  | cons p ps ih =>
    refine (Halts.bind (realizes_evalCompoundingRoll E th p) (halts_evalCompoundingRoll E th p)
      (fun vs => Halts.andThen (k := fun ws => pure (vs ++ ws)) ih (fun _ _ => rfl))).congr ?_
    intro ds c
    constructor
    · rintro (h | ⟨_, d2, _, rfl, ⟨gs, hg, rfl, rfl⟩, h⟩)
      · exact .first h
      · exact .later hg h
    · intro h
      cases h with
      | first h => exact .inl h
      | later hg h => exact .inr ⟨_, _, _, rfl, ⟨_, hg, rfl, rfl⟩, h⟩

theorem halts_uEval (nilMsg : Str) (th : Option Int64) (ps : List (Int64 × Int64)) (m : Int64)
    (h : thCheck nilMsg th = none) :
    Halts E.F (E.evalURollExpr { list := { rolls := ps.map litRoll, threshold := th.map .int },
                                 bonus := Evaluator.normalizeBonus m })
      (fun ds c => ∃ v, th = some v ∧ 2 ≤ v ∧ UGroupsStop (loopCount E.maxRerolls) v ps ds c) := by
  obtain ⟨v, rfl, hv⟩ := thCheck_none.mp h
  unfold Evaluator.evalURollExpr
  rw [evalBonus_normalize, pure_bind]
  refine (Halts.andThen (m := E.evalCompoundingRolls v (ps.map litRoll))
    (halts_evalCompoundingRolls E v ps) (fun _ _ => rfl)).congr ?_
  intro ds c
  constructor
  · intro h; exact ⟨v, rfl, hv, h⟩
  · rintro ⟨_, h0, _, h⟩; cases h0; exact h

/-! ## Stage 1 of lists -/

theorem halts_evalVarArgsInRolls (rolls : List Roll) :
    Halts E.F (E.evalVarArgsInRolls rolls) (ArgsStop rolls) := by
  induction rolls with
  | nil => exact (Halts.pure []).congr (fun ds c => ⟨False.elim, fun h => nomatch h⟩)
  | cons r rest ih =>
    have e : E.evalVarArgsInRolls (r :: rest) = (do
        let a ← E.eval r.num
        let b ← E.eval r.sides
        let rest' ← E.evalVarArgsInRolls rest
        pure ({ num := .int a, sides := .int b } :: rest')) := by
      conv => lhs; unfold Evaluator.evalVarArgsInRolls Evaluator.evalVarArgsOfRoll
      simp only [bind_assoc, pure_bind]
    rw [e]
    refine (Halts.bind (realizes_eval E r.num) (halts_eval E r.num) (fun a =>
      Halts.bind (realizes_eval E r.sides) (halts_eval E r.sides) (fun b =>
        Halts.andThen ih (fun _ _ => rfl)))).congr ?_
    intro ds c
    constructor
    · rintro (h | ⟨d1, _, a, rfl, h1, h | ⟨d2, d3, b, rfl, h2, h⟩⟩)
      · exact .num h
      · exact .sides h1 h
      · simpa using ArgsStop.later h1 h2 h
    · intro h
      cases h with
      | num h => exact .inl h
      | sides h1 h => exact .inr ⟨_, _, _, rfl, h1, .inl h⟩
      | later h1 h2 h =>
        exact .inr ⟨_, _, _, List.append_assoc .., h1, .inr ⟨_, _, _, rfl, h2, h⟩⟩

theorem halts_threshold (t : Option Expr) :
    Halts E.F (E.evalVarArgsOfThreshold t) (OptStops t) := by
  cases t with
  | none =>
    exact Halts.congr (m := E.evalVarArgsOfThreshold none) (Halts.pure none)
      (fun ds c => ⟨False.elim, fun h => nomatch h⟩)
  | some e =>
    exact Halts.congr (m := E.evalVarArgsOfThreshold (some e))
      (Halts.andThen (k := fun v => pure (some (Expr.int v))) (halts_eval E e) (fun _ _ => rfl))
      (fun ds c => ⟨.some, fun h => by cases h; assumption⟩)

theorem halts_evalVarArgsInRRollList (rl : RRollList) :
    Halts E.F (E.evalVarArgsInRRollList rl) (ListStops rl) := by
  refine Halts.congr (m := E.evalVarArgsInRRollList rl)
    (Halts.bindW (v := fun th : Option Int64 => th.map .int)
      (realizes_threshold E rl.threshold) (halts_threshold E rl.threshold) (fun t _ _ =>
      Halts.andThen (k := fun rolls => pure ({ rolls := rolls, threshold := t.map .int } : RRollList))
        (halts_evalVarArgsInRolls E rl.rolls) (fun _ _ => rfl))) ?_
  intro ds c
  constructor
  · rintro (h | ⟨ts, d2, th, rfl, h1, h⟩)
    · exact .threshold h
    · exact .args h1 h
  · intro h
    cases h with
    | threshold h => exact .inl h
    | args h1 h => exact .inr ⟨_, _, _, rfl, h1, h⟩

theorem evStops_bonus (b : Sign × Expr) (ds : List Die) (c : Cause) :
    EvStops (bonusExpr b) ds c ↔ EvStops b.2 ds c := by
  obtain ⟨s, e⟩ := b
  cases s with
  | plus =>
    constructor
    · intro h
      cases h with
      | binLeft h => cases h
      | binRight h1 h => cases h1; exact h
    · intro h; exact EvStops.binRight (ds := []) (.int 0) h
  | minus =>
    constructor
    · intro h
      cases h with
      | binLeft h => cases h
      | binRight h1 h => cases h1; exact h
    · intro h; exact EvStops.binRight (ds := []) (.int 0) h

theorem halts_evalVarArgsInURollExpr (u : URollExpr) :
    Halts E.F (E.evalVarArgsInURollExpr u) (URollStops u) := by
  obtain ⟨rl, b⟩ := u
  cases b with
  | none =>
    refine Halts.congr (m := E.evalVarArgsInURollExpr ⟨rl, none⟩)
      (Halts.andThen (k := fun list => pure ({ list := list, bonus := none } : URollExpr))
        (halts_evalVarArgsInRRollList E rl) (fun _ _ => rfl)) ?_
    intro ds c
    constructor
    · intro h; exact .list h
    · intro h
      cases h with
      | list h => exact h
      | bonus _ _ h => cases h
  | some b =>
    refine Halts.congr (m := E.evalVarArgsInURollExpr ⟨rl, some b⟩)
      (Halts.bindW (realizes_listArgs E rl) (halts_evalVarArgsInRRollList E rl) (fun w _ _ =>
        Halts.andThen (m := E.eval (bonusExpr b)) (halts_eval E (bonusExpr b)) (fun _ _ => rfl))) ?_
    intro ds c
    constructor
    · rintro (h | ⟨_, d2, ⟨th, ps⟩, rfl, ⟨ts, as, rfl, h1, h2⟩, h⟩)
      · exact .list h
      · exact .bonus h1 h2 (.some ((evStops_bonus _ _ _).mp h))
    · intro h
      cases h with
      | list h => exact .inl h
      | bonus h1 h2 h =>
        cases h with | some h =>
        exact .inr ⟨_, _, (_, _), rfl, ⟨_, _, rfl, h1, h2⟩, (evStops_bonus _ _ _).mpr h⟩

/-! ## Stages of D commands -/

theorem halts_evalVarArgsInCommand (e : Expr) :
    Halts E.F (E.evalVarArgsInCommand e) (DArgsStop e) := by
  induction e with
  | int v =>
    exact Halts.congr (m := E.evalVarArgsInCommand (.int v)) (Halts.pure (Expr.int v))
      (fun ds c => ⟨False.elim, fun h => nomatch h⟩)
  | sumRoll rs =>
    exact Halts.congr (m := E.evalVarArgsInCommand (.sumRoll rs)) (Halts.pure (Expr.sumRoll rs))
      (fun ds c => ⟨False.elim, fun h => nomatch h⟩)
  | neg r ih =>
    rw [evalVarArgsInCommand_neg]
    refine (Halts.andThen ih (fun _ _ => rfl)).congr ?_
    intro ds c
    exact ⟨.neg, fun h => by cases h; assumption⟩
  | bin op l r ihl ihr =>
    rw [evalVarArgsInCommand_bin]
    refine (Halts.bind (realizes_evalVarArgsInCommand E l) ihl (fun l' =>
      Halts.andThen ihr (fun _ _ => rfl))).congr ?_
    intro ds c
    constructor
    · rintro (h | ⟨d1, d2, a, rfl, h1, h⟩)
      · exact .binLeft h
      · exact .binRight h1 h
    · intro h
      cases h with
      | binLeft h => exact .inl h
      | binRight h1 h => exact .inr ⟨_, _, _, rfl, h1, h⟩
  | div m l r ihl ihr =>
    rw [evalVarArgsInCommand_div]
    refine (Halts.bind (realizes_evalVarArgsInCommand E l) ihl (fun l' =>
      Halts.andThen ihr (fun _ _ => rfl))).congr ?_
    intro ds c
    constructor
    · rintro (h | ⟨d1, d2, a, rfl, h1, h⟩)
      · exact .divLeft h
      · exact .divRight h1 h
    · intro h
      cases h with
      | divLeft h => exact .inl h
      | divRight h1 h => exact .inr ⟨_, _, _, rfl, h1, h⟩
  | var k l r _ _ =>
    cases k with
    | d =>
      refine Halts.congr (m := E.evalVarArgsInCommand (.var .d l r))
        (Halts.bind (realizes_eval E l) (halts_eval E l) (fun a =>
          Halts.andThen (k := fun b => pure (Expr.var .d (.int a) (.int b))) (halts_eval E r)
            (fun _ _ => rfl))) ?_
      intro ds c
      constructor
      · rintro (h | ⟨d1, d2, a, rfl, h1, h⟩)
        · exact .num h
        · exact .sides h1 h
      · intro h
        cases h with
        | num h => exact .inl h
        | sides h1 h => exact .inr ⟨_, _, _, rfl, h1, h⟩
    | rand =>
      refine Halts.congr (m := E.evalVarArgsInCommand (.var .rand l r))
        (Halts.fail chars!"evalVarArgsOfVariableExpr not implemented: RandomNumber") ?_
      intro ds c
      constructor
      · rintro ⟨rfl, rfl⟩; exact .rand
      · intro h; cases h; exact ⟨rfl, rfl⟩

theorem halts_determineValueOfVariableExpr (k : VarKind) (l r : Expr) :
    Halts E.F (E.determineValueOfVariableExpr (.var k l r)) (DDiceStop (.var k l r)) := by
  cases k with
  | rand =>
    refine Halts.congr (m := E.determineValueOfVariableExpr (.var .rand l r))
      (Halts.fail chars!"determineValueOfVariableExpr not implemented: RandomNumber") ?_
    intro ds c
    constructor
    · rintro ⟨rfl, rfl⟩; exact .rand
    · intro h; cases h; exact ⟨rfl, rfl⟩
  | d =>
    by_cases hl : ∃ x, l = .int x
    · obtain ⟨x, rfl⟩ := hl
      by_cases hr : ∃ y, r = .int y
      · obtain ⟨y, rfl⟩ := hr
        refine Halts.congr (m := E.determineValueOfVariableExpr (.var .d (.int x) (.int y)))
          (Halts.andThen (k := fun ds => pure (Expr.sumRoll ds)) (halts_rollDice E x y)
            (fun _ _ => rfl)) ?_
        intro ds c
        constructor
        · exact .roll
        · intro h
          cases h with
          | roll h => exact h
          | num h => exact absurd rfl (h x)
          | sides h => exact absurd rfl (h y)
      · have e : E.determineValueOfVariableExpr (.var .d (.int x) r) =
            M.fail (chars!"sides is not Int: " ++ r.typeName) := by
          cases r <;> first | rfl | exact absurd ⟨_, rfl⟩ hr
        rw [e]
        refine (Halts.fail _).congr ?_
        intro ds c
        constructor
        · rintro ⟨rfl, rfl⟩; exact .sides (fun y h => hr ⟨y, h⟩)
        · intro h
          cases h with
          | roll h => exact absurd ⟨_, rfl⟩ hr
          | num h => exact absurd rfl (h x)
          | sides h => exact ⟨rfl, rfl⟩
    · have e : E.determineValueOfVariableExpr (.var .d l r) =
          M.fail (chars!"num is not Int: " ++ l.typeName) := by
        cases l <;> first | rfl | exact absurd ⟨_, rfl⟩ hl
      rw [e]
      refine (Halts.fail _).congr ?_
      intro ds c
      constructor
      · rintro ⟨rfl, rfl⟩; exact .num (fun y h => hl ⟨y, h⟩)
      · intro h
        cases h with
        | roll h => exact absurd ⟨_, rfl⟩ hl
        | num h => exact ⟨rfl, rfl⟩
        | sides h => exact absurd ⟨_, rfl⟩ hl

theorem halts_determineValuesOperand (e : Expr) :
    Halts E.F (E.determineValuesOperand e) (DDiceStop e) := by
  induction e with
  | int v =>
    exact Halts.congr (m := E.determineValuesOperand (.int v)) (Halts.pure (Expr.int v))
      (fun ds c => ⟨False.elim, fun h => nomatch h⟩)
  | sumRoll rs =>
    exact Halts.congr (m := E.determineValuesOperand (.sumRoll rs)) (Halts.pure (Expr.sumRoll rs))
      (fun ds c => ⟨False.elim, fun h => nomatch h⟩)
  | neg r ih =>
    rw [determineValuesOperand_neg]
    refine (Halts.andThen ih (fun _ _ => rfl)).congr ?_
    intro ds c
    exact ⟨.neg, fun h => by cases h; assumption⟩
  | bin op l r ihl ihr =>
    rw [determineValuesOperand_bin]
    refine (Halts.bind (realizes_determineValuesOperand E l) ihl (fun l' =>
      Halts.andThen ihr (fun _ _ => rfl))).congr ?_
    intro ds c
    constructor
    · rintro (h | ⟨d1, d2, a, rfl, h1, h⟩)
      · exact .binLeft h
      · exact .binRight h1 h
    · intro h
      cases h with
      | binLeft h => exact .inl h
      | binRight h1 h => exact .inr ⟨_, _, _, rfl, h1, h⟩
  | div m l r ihl ihr =>
    rw [determineValuesOperand_div]
    refine (Halts.bind (realizes_determineValuesOperand E l) ihl (fun l' =>
      Halts.andThen ihr (fun _ _ => rfl))).congr ?_
    intro ds c
    constructor
    · rintro (h | ⟨d1, d2, a, rfl, h1, h⟩)
      · exact .divLeft h
      · exact .divRight h1 h
    · intro h
      cases h with
      | divLeft h => exact .inl h
      | divRight h1 h => exact .inr ⟨_, _, _, rfl, h1, h⟩
  | var k l r _ _ => exact halts_determineValueOfVariableExpr E k l r

theorem realizes_evalVarArgs (l : Expr) : Realizes E.F (E.evalVarArgs l) (DLeftArgs l) := by
  refine (realizes_evalVarArgs_determine E l).congr ?_
  intro ds a
  cases l with
  | int v => exact ⟨False.elim, fun h => nomatch h⟩
  | sumRoll v => exact ⟨False.elim, fun h => nomatch h⟩
  | neg r => exact ⟨.neg, fun h => by cases h; assumption⟩
  | bin op l r => exact ⟨.bin, fun h => by cases h; assumption⟩
  | div m l r => exact ⟨.div, fun h => by cases h; assumption⟩
  | var k l r =>
    constructor
    · rintro ⟨d1, d2, a', b', rfl, h1, h2, rfl⟩; exact .var h1 h2
    · intro h
      cases h with | var h1 h2 => exact ⟨_, _, _, _, rfl, h1, h2, rfl⟩

theorem halts_evalVarArgs (l : Expr) : Halts E.F (E.evalVarArgs l) (DLeftStop l) := by
  cases l with
  | int v =>
    refine Halts.congr (m := E.evalVarArgs (.int v)) (Halts.fail _) ?_
    intro ds c
    constructor
    · rintro ⟨rfl, rfl⟩; exact .int
    · intro h; cases h; exact ⟨rfl, rfl⟩
  | sumRoll v =>
    refine Halts.congr (m := E.evalVarArgs (.sumRoll v)) (Halts.fail _) ?_
    intro ds c
    constructor
    · rintro ⟨rfl, rfl⟩; exact .sumRoll
    · intro h; cases h; exact ⟨rfl, rfl⟩
  | neg r =>
    exact (halts_evalVarArgsInCommand E (.neg r)).congr
      (fun ds c => ⟨.neg, fun h => by cases h; assumption⟩)
  | bin op l r =>
    exact (halts_evalVarArgsInCommand E (.bin op l r)).congr
      (fun ds c => ⟨.bin, fun h => by cases h; assumption⟩)
  | div m l r =>
    exact (halts_evalVarArgsInCommand E (.div m l r)).congr
      (fun ds c => ⟨.div, fun h => by cases h; assumption⟩)
  | var k l r =>
    rw [evalVarArgs_var]
    refine (Halts.bind (realizes_evalVarArgsInCommand E l) (halts_evalVarArgsInCommand E l) (fun l' =>
      Halts.andThen (halts_evalVarArgsInCommand E r) (fun _ _ => rfl))).congr ?_
    intro ds c
    constructor
    · rintro (h | ⟨d1, d2, a, rfl, h1, h⟩)
      · exact .varLeft h
      · exact .varRight h1 h
    · intro h
      cases h with
      | varLeft h => exact .inl h
      | varRight h1 h => exact .inr ⟨_, _, _, rfl, h1, h⟩

theorem EvStops.no_dice {e : Expr} {ds : List Die} {c : Cause} (h : EvStops e ds c)
    (hv : e.isVariable = false) : ds = [] := by
  induction h with
  | neg _ ih => exact ih hv
  | binLeft _ ih => simp only [Expr.isVariable, Bool.or_eq_false_iff] at hv; exact ih hv.1
  | binRight h1 _ ih =>
    simp only [Expr.isVariable, Bool.or_eq_false_iff] at hv
    rw [ih hv.2, h1.no_dice hv.1]; rfl
  | divLeft _ ih => simp only [Expr.isVariable, Bool.or_eq_false_iff] at hv; exact ih hv.1
  | divRight h1 _ ih =>
    simp only [Expr.isVariable, Bool.or_eq_false_iff] at hv
    rw [ih hv.2, h1.no_dice hv.1]; rfl
  | divZero h1 h2 =>
    simp only [Expr.isVariable, Bool.or_eq_false_iff] at hv
    rw [h1.no_dice hv.1, h2.no_dice hv.2]; rfl
  | varLeft => cases hv
  | varRight => cases hv
  | d => cases hv
  | randOrder => cases hv
  | rand => cases hv

/-! ## Commands -/

theorem halts_executeChoice (g : Str) (items : List Str) :
    Halts E.F (E.executeChoice g items) (CommandStops (loopCount E.maxRerolls) (.choice items)) := by
  have hpick : ∀ d : Die, Halts E.F
      (if d.value - 1 < 0 then (M.crash chars!"runtime error: index out of range" : M σ Str)
        else match items[(d.value - 1).toInt.toNat]? with
          | some item => pure item
          | none => M.crash chars!"runtime error: index out of range")
      (fun ds c => (d.value - 1 < 0 ∨ items[(d.value - 1).toInt.toNat]? = none) ∧ ds = [] ∧
        c = .crash) := by
    intro d
    by_cases h : d.value - 1 < 0
    · rw [if_pos h]; exact (Halts.crash _).congr (by simp [h])
    · rw [if_neg h]
      cases hi : items[(d.value - 1).toInt.toNat]? with
      | some item => exact (Halts.pure _).congr (by simp [h])
      | none => exact (Halts.crash _).congr (by simp)
  have e : E.executeChoice g items = (do
      let v ← E.evalChoice items
      let dice ← Evaluator.rolledDice
      pure (mkResult g [parenthesize (choiceNotation items), v] dice)) := rfl
  rw [e]
  refine (Halts.andThen (m := E.evalChoice items) (halts_firstOfOne E _ _ hpick)
    (fun _ _ => rfl)).congr ?_
  intro ds c
  constructor
  · rintro (h | ⟨d, _, rfl, h1, h2, rfl, rfl⟩)
    · exact .choice h
    · exact .choiceItem h1 h2
  · intro h
    cases h with
    | choice h => exact .inl h
    | choiceItem h1 h2 => exact .inr ⟨_, _, rfl, h1, h2, rfl, rfl⟩

theorem halts_executeCalc (g : Str) (e : Expr) :
    Halts E.F (E.executeCalc g e) (CommandStops (loopCount E.maxRerolls) (.calc e)) :=
  Halts.congr (m := E.executeCalc g e) (Halts.andThen (halts_eval E e) (fun _ _ => rfl))
    (fun ds c => ⟨.calc, fun h => by cases h; assumption⟩)

theorem halts_executeDRollExpr (g : Str) (e : Expr) :
    Halts E.F (E.executeDRollExpr g e) (CommandStops (loopCount E.maxRerolls) (.dRollExpr e)) := by
  refine Halts.congr (m := E.executeDRollExpr g e)
    (Halts.bind (realizes_evalVarArgsInCommand E e) (halts_evalVarArgsInCommand E e) (fun e1 =>
      Halts.bind (realizes_determineValuesOperand E e1) (halts_determineValuesOperand E e1) (fun e2 =>
        Halts.andThen (halts_eval E e2) (fun _ _ => rfl)))) ?_
  intro ds c
  constructor
  · rintro (h | ⟨as, _, e1, rfl, h1, h | ⟨rs, d3, e2, rfl, h2, h⟩⟩)
    · exact .dArgs h
    · exact .dDice h1 h
    · have := h.no_dice h2.not_variable
      subst this
      simpa using CommandStops.dValue h1 h2 h
  · intro h
    cases h with
    | dArgs h => exact .inl h
    | dDice h1 h => exact .inr ⟨_, _, _, rfl, h1, .inl h⟩
    | dValue h1 h2 h => exact .inr ⟨_, _, _, rfl, h1, .inr ⟨_, [], _, by simp, h2, h⟩⟩

theorem halts_executeDRollComp (g : Str) (l : Expr) (op : CmpOp) (r : Expr) :
    Halts E.F (E.executeDRollComp g l op r)
      (CommandStops (loopCount E.maxRerolls) (.dRollComp l op r)) := by
  rw [executeDRollComp_eq]
  refine Halts.congr
    (Halts.bind (realizes_evalVarArgs E l) (halts_evalVarArgs E l) (fun l1 =>
      Halts.bind (realizes_eval E r) (halts_eval E r) (fun b =>
      Halts.bind (realizes_determineValuesOperand E l1) (halts_determineValuesOperand E l1) (fun l2 =>
        Halts.andThen (halts_eval E l2) (fun _ _ => rfl))))) ?_
  intro ds c
  constructor
  · rintro (h | ⟨as, _, l1, rfl, h1, h | ⟨bs, _, t, rfl, h2, h | ⟨rs, d3, l2, rfl, h3, h⟩⟩⟩)
    · exact .dcArgs h
    · exact .dcTarget h1 h
    · simpa using CommandStops.dcDice h1 h2 h
    · have := h.no_dice h3.not_variable
      subst this
      simpa using CommandStops.dcValue h1 h2 h3 h
  · intro h
    cases h with
    | dcArgs h => exact .inl h
    | dcTarget h1 h => exact .inr ⟨_, _, _, rfl, h1, .inl h⟩
    | dcDice h1 h2 h =>
      exact .inr ⟨_, _, _, List.append_assoc .., h1, .inr ⟨_, _, _, rfl, h2, .inl h⟩⟩
    | dcValue h1 h2 h3 h =>
      exact .inr ⟨_, _, _, List.append_assoc .., h1, .inr ⟨_, _, _, rfl, h2,
        .inr ⟨_, [], _, by simp, h3, h⟩⟩⟩

theorem halts_executeBRollList (g : Str) (rolls : List Roll) :
    Halts E.F (E.executeBRollList g rolls)
      (CommandStops (loopCount E.maxRerolls) (.bRollList rolls)) := by
  refine Halts.congr (m := E.executeBRollList g rolls)
    (Halts.bindW (realizes_evalVarArgsInRolls E rolls) (halts_evalVarArgsInRolls E rolls)
      (fun ps _ _ => Halts.andThen (halts_evalBRollList E ps) (fun _ _ => rfl))) ?_
  intro ds c
  constructor
  · rintro (h | ⟨as, _, ps, rfl, h1, h⟩)
    · exact .bArgs h
    · exact .bDice h1 h
  · intro h
    cases h with
    | bArgs h => exact .inl h
    | bDice h1 h => exact .inr ⟨_, _, _, rfl, h1, h⟩

theorem executeBRollComp_eq (g : Str) (rolls : List Roll) (op : CmpOp) (r : Expr) :
    E.executeBRollComp g rolls op r = (do
      let rolls1 ← E.evalVarArgsInRolls rolls
      let b ← E.eval r
      let vs ← E.evalBRollList rolls1
      let dice ← Evaluator.rolledDice
      pure (mkResult g [parenthesize (rollsNotation chars!"B" rolls1 ++ op.str ++
          infixNotation true (.int b)), joinedElements vs,
          successCountPart (Evaluator.countNumOfSuccesses vs op b)] dice)) := by
  unfold Evaluator.executeBRollComp Evaluator.evalBRollComp
  simp only [bind_assoc, pure_bind]
  rfl

theorem halts_executeBRollComp (g : Str) (rolls : List Roll) (op : CmpOp) (r : Expr) :
    Halts E.F (E.executeBRollComp g rolls op r)
      (CommandStops (loopCount E.maxRerolls) (.bRollComp rolls op r)) := by
  rw [executeBRollComp_eq]
  refine Halts.congr
    (Halts.bindW (realizes_evalVarArgsInRolls E rolls) (halts_evalVarArgsInRolls E rolls)
      (fun ps _ _ => Halts.bind (realizes_eval E r) (halts_eval E r) (fun b =>
        Halts.andThen (halts_evalBRollList E ps) (fun _ _ => rfl)))) ?_
  intro ds c
  constructor
  · rintro (h | ⟨as, _, ps, rfl, h1, h | ⟨bs, d3, t, rfl, h2, h⟩⟩)
    · exact .bcArgs h
    · exact .bcTarget h1 h
    · simpa using CommandStops.bcDice h1 h2 h
  · intro h
    cases h with
    | bcArgs h => exact .inl h
    | bcTarget h1 h => exact .inr ⟨_, _, _, rfl, h1, .inl h⟩
    | bcDice h1 h2 h =>
      exact .inr ⟨_, _, _, List.append_assoc .., h1, .inr ⟨_, _, _, rfl, h2, h⟩⟩

theorem halts_check {α : Type} (c : Option Str) (bad : Str → α) (good : M σ α)
    {P : List Die → Cause → Prop} (hg : c = none → Halts E.F good P) :
    Halts E.F (match c with | some msg => pure (bad msg) | none => good)
      (fun ds x => c = none ∧ P ds x) := by
  cases c with
  | some msg => exact (Halts.pure (bad msg)).congr (by simp)
  | none => exact (hg rfl).congr (by simp)

theorem halts_executeRRollList (g : Str) (rl : RRollList) :
    Halts E.F (E.executeRRollList g rl) (CommandStops (loopCount E.maxRerolls) (.rRollList rl)) := by
  rw [executeRRollList_eq]
  refine Halts.congr
    (Halts.bindW (realizes_listArgs E rl) (halts_evalVarArgsInRRollList E rl) (fun w d1 _ => by
      simp only [checkThreshold_eq, pure_bind]
      exact halts_check E _ _ _
        (fun hc => Halts.andThen (halts_rEval E _ w.1 w.2 hc) (fun _ _ => rfl)))) ?_
  intro ds c
  constructor
  · rintro (h | ⟨_, d2, ⟨th, ps⟩, rfl, ⟨ts, as, rfl, h1, h2⟩, -, v, rfl, hv, h⟩)
    · exact .rArgs h
    · exact .rDice h1 h2 hv h
  · intro h
    cases h with
    | rArgs h => exact .inl h
    | rDice h1 h2 hv h =>
      exact .inr ⟨_, _, (_, _), rfl, ⟨_, _, rfl, h1, h2⟩, thCheck_none.mpr ⟨_, rfl, hv⟩, _, rfl, hv, h⟩

theorem halts_executeRRollComp (g : Str) (rl : RRollList) (op : CmpOp) (r : Expr) :
    Halts E.F (E.executeRRollComp g rl op r)
      (CommandStops (loopCount E.maxRerolls) (.rRollComp rl op r)) := by
  rw [executeRRollComp_eq]
  refine Halts.congr
    (Halts.bindW (realizes_listArgs E rl) (halts_evalVarArgsInRRollList E rl) (fun w d1 _ =>
      Halts.bind (realizes_eval E r) (halts_eval E r) (fun b => by
      simp only [setRerollThreshold_lit, checkThreshold_eq, pure_bind]
      exact halts_check E _ _ _
        (fun hc => Halts.andThen (halts_rEval E _ _ w.2 hc) (fun _ _ => rfl))))) ?_
  intro ds c
  constructor
  · rintro (h | ⟨_, _, ⟨th, ps⟩, rfl, ⟨ts, as, rfl, h1, h2⟩, h | ⟨bs, d3, b, rfl, h3, -, v, he, hv, h⟩⟩)
    · exact .rcArgs h
    · exact .rcTarget h1 h2 h
    · simpa using CommandStops.rcDice (op := op) h1 h2 h3 he hv h
  · intro h
    cases h with
    | rcArgs h => exact .inl h
    | rcTarget h1 h2 h => exact .inr ⟨_, _, (_, _), rfl, ⟨_, _, rfl, h1, h2⟩, .inl h⟩
    | rcDice h1 h2 h3 he hv h =>
      exact .inr ⟨_, _, (_, _), List.append_assoc .., ⟨_, _, rfl, h1, h2⟩,
        .inr ⟨_, _, _, rfl, h3, thCheck_none.mpr ⟨_, he, hv⟩, _, he, hv, h⟩⟩

theorem halts_executeURollExpr (g : Str) (u : URollExpr) :
    Halts E.F (E.executeURollExpr g u) (CommandStops (loopCount E.maxRerolls) (.uRollExpr u)) := by
  rw [executeURollExpr_eq]
  refine Halts.congr
    (Halts.bindW (realizes_uArgs E u) (halts_evalVarArgsInURollExpr E u) (fun w d1 _ => by
      simp only [checkThreshold_eq, pure_bind]
      exact halts_check E _ _ _
        (fun hc => Halts.andThen (halts_uEval E _ w.1 w.2.1 w.2.2 hc) (fun _ _ => rfl)))) ?_
  intro ds c
  constructor
  · rintro (h | ⟨_, d2, ⟨th, ps, m⟩, rfl, ⟨ts, as, ms, rfl, h1, h2, h3⟩, -, v, rfl, hv, h⟩)
    · exact .uArgs h
    · exact .uDice h1 h2 h3 hv h
  · intro h
    cases h with
    | uArgs h => exact .inl h
    | uDice h1 h2 h3 hv h =>
      exact .inr ⟨_, _, (_, _, _), rfl, ⟨_, _, _, rfl, h1, h2, h3⟩, thCheck_none.mpr ⟨_, rfl, hv⟩, _,
        rfl, hv, h⟩

theorem halts_executeURollComp (g : Str) (u : URollExpr) (op : CmpOp) (r : Expr) :
    Halts E.F (E.executeURollComp g u op r)
      (CommandStops (loopCount E.maxRerolls) (.uRollComp u op r)) := by
  rw [executeURollComp_eq]
  refine Halts.congr
    (Halts.bindW (realizes_uArgs E u) (halts_evalVarArgsInURollExpr E u) (fun w d1 _ =>
      Halts.bind (realizes_eval E r) (halts_eval E r) (fun b => by
      simp only [checkThreshold_eq, pure_bind]
      exact halts_check E _ _ _
        (fun hc => Halts.andThen (halts_uEval E _ w.1 w.2.1 w.2.2 hc) (fun _ _ => rfl))))) ?_
  intro ds c
  constructor
  · rintro (h | ⟨_, _, ⟨th, ps, m⟩, rfl, ⟨ts, as, ms, rfl, h1, h2, h3⟩,
      h | ⟨bs, d3, b, rfl, h4, -, v, rfl, hv, h⟩⟩)
    · exact .ucArgs h
    · exact .ucTarget h1 h2 h3 h
    · simpa using CommandStops.ucDice (op := op) h1 h2 h3 h4 hv h
  · intro h
    cases h with
    | ucArgs h => exact .inl h
    | ucTarget h1 h2 h3 h => exact .inr ⟨_, _, (_, _, _), rfl, ⟨_, _, _, rfl, h1, h2, h3⟩, .inl h⟩
    | ucDice h1 h2 h3 h4 hv h =>
      exact .inr ⟨_, _, (_, _, _), List.append_assoc .., ⟨_, _, _, rfl, h1, h2, h3⟩,
        .inr ⟨_, _, _, rfl, h4, thCheck_none.mpr ⟨_, rfl, hv⟩, _, rfl, hv, h⟩⟩

/-- `Execute` ends without a result exactly as specified. -/
theorem execute_halts (g : Str) (node : Node) :
    Halts E.F (E.execute g node) (CommandStops (loopCount E.maxRerolls) node) := by
  cases node with
  | choice items => exact halts_executeChoice E g items
  | «calc» e => exact halts_executeCalc E g e
  | dRollExpr e => exact halts_executeDRollExpr E g e
  | dRollComp l op r => exact halts_executeDRollComp E g l op r
  | bRollList rolls => exact halts_executeBRollList E g rolls
  | bRollComp rolls op r => exact halts_executeBRollComp E g rolls op r
  | rRollList rl => exact halts_executeRRollList E g rl
  | rRollComp rl op r => exact halts_executeRRollComp E g rl op r
  | uRollExpr u => exact halts_executeURollExpr E g u
  | uRollComp u op r => exact halts_executeURollComp E g u op r

end GoBCDice
