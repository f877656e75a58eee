import Verif.Lemmas.Outcome
import Verif.Lemmas.Str

/-!
# Properties of commands (C07-C16, C21-C23, C35-C43)

All of them follow from `execute_outcome`, which says that `Execute` computes exactly the outcome
specification of `Verif.Spec.Command`.
-/

namespace GoBCDice
variable {σ : Type} (E : Evaluator σ)

/-- The full functional specification of `Execute`, for every feeder: it succeeds with `r`, leaving
the feeder in state `f'`, exactly when the feeder can deliver dice `ds` allowed by the
specification. -/
theorem execute_ok_iff (g : Str) (node : Node) (f : σ) (s' : St σ) (r : Result) :
    E.execute g node ⟨f, []⟩ = (.ok r, s') ↔
      ∃ ds, Outcome (loopCount E.maxRerolls) g node ds r ∧ Draws E.F f ds s'.feeder ∧
        s'.log = ds := by
  simpa using execute_outcome E g node f s' r

/-- The messages by which a reroll threshold is refused. -/
def thresholdMessages : List Str :=
  [missingThresholdR, missingThresholdU, smallThreshold]

/-- Kinds of commands with rerolls. -/
def Node.isReroll : Node → Bool
  | .rRollList _ => true
  | .rRollComp _ _ _ => true
  | .uRollExpr _ => true
  | .uRollComp _ _ _ => true
  | _ => false

/-- Calc commands. -/
def Node.isCalc : Node → Bool
  | .calc _ => true
  | _ => false

/-- A result that reports a refused reroll threshold. -/
def Result.IsRefusal (node : Node) (r : Result) : Prop :=
  node.isReroll = true ∧ ∃ p msg, r.parts = [p, msg] ∧ msg ∈ thresholdMessages

theorem Refused.mem {nilMsg msg : Str} {th : Option Int64} (h : Refused nilMsg th msg)
    (hn : nilMsg ∈ thresholdMessages) : msg ∈ thresholdMessages := by
  cases h
  · exact hn
  · simp [thresholdMessages]

theorem Outcome.accounting {limit : Nat} {g : Str} {node : Node} {ds : List Die} {r : Result}
    (h : Outcome limit g node ds r) :
    r.rolledDice = ds ∨ (r.rolledDice = [] ∧ (node.isCalc = true ∨ r.IsRefusal node)) := by
  cases h
  case choice => exact .inl rfl
  case «calc» => exact .inr ⟨rfl, .inl rfl⟩
  case dRollExpr => exact .inl rfl
  case dRollComp => exact .inl rfl
  case bRollList => exact .inl rfl
  case bRollComp => exact .inl rfl
  case rRollRefused h => exact .inr ⟨rfl, .inr ⟨rfl, _, _, rfl, h.mem (by simp [thresholdMessages])⟩⟩
  case rRollList => exact .inl rfl
  case rRollCompRefused h => exact .inr ⟨rfl, .inr ⟨rfl, _, _, rfl, h.mem (by simp [thresholdMessages])⟩⟩
  case rRollComp => exact .inl rfl
  case uRollRefused h => exact .inr ⟨rfl, .inr ⟨rfl, _, _, rfl, h.mem (by simp [thresholdMessages])⟩⟩
  case uRollExpr => exact .inl rfl
  case uRollCompRefused h => exact .inr ⟨rfl, .inr ⟨rfl, _, _, rfl, h.mem (by simp [thresholdMessages])⟩⟩
  case uRollComp => exact .inl rfl

/-- **C07.** When a command other than Calc succeeds without refusing its threshold, the dice it
reports are exactly those it drew from the feeder, in order. -/
theorem C07_dice_accounting (g : Str) (node : Node) (f : σ) (s' : St σ) (r : Result)
    (h : E.execute g node ⟨f, []⟩ = (.ok r, s'))
    (hc : node.isCalc = false) (hr : ¬ r.IsRefusal node) :
    Draws E.F f r.rolledDice s'.feeder := by
  obtain ⟨ds, ho, hd, -⟩ := (execute_ok_iff E g node f s' r).mp h
  rcases ho.accounting with h1 | ⟨-, h2 | h2⟩
  · rw [h1]; exact hd
  · rw [hc] at h2; cases h2
  · exact absurd h2 hr

/-- **C07**, with a queue: what was queued is what is reported followed by what is left. -/
theorem C07_dice_accounting_queue (mr : Int64) (g : Str) (node : Node) (q : List Die)
    (s' : St (List Die)) (r : Result)
    (h : ({ F := queueFeeder, maxRerolls := mr } : Evaluator (List Die)).execute g node ⟨q, []⟩ =
      (.ok r, s'))
    (hc : node.isCalc = false) (hr : ¬ r.IsRefusal node) : q = r.rolledDice ++ s'.feeder :=
  draws_queue.mp (C07_dice_accounting _ g node q s' r h hc hr)

-- non-vacuity: 2B6+1B8>=4
example : ∃ r s', (newEvaluator queueFeeder).execute chars!"DiceBot"
    (.bRollComp [⟨.int 2, .int 6⟩, ⟨.int 1, .int 8⟩] .ge (.int 4))
      ⟨[⟨3, 6⟩, ⟨5, 6⟩, ⟨8, 8⟩, ⟨1, 4⟩], []⟩ = (.ok r, s') ∧
    r.rolledDice = [⟨3, 6⟩, ⟨5, 6⟩, ⟨8, 8⟩] ∧ s'.feeder = [⟨1, 4⟩] ∧
    r.parts[2]? = some chars!"成功数2" := ⟨_, _, rfl, by decide, by decide, by decide⟩

/-! ### C08: D rolls -/

/-- **C08.** A D-roll command succeeds exactly when its value is defined on dice the feeder can
deliver (`DVal`: operands first, then the rolls from left to right); the value reported is that
value and the dice reported are those dice. -/
theorem C08_dRoll_value (g : Str) (e : Expr) (f f' : σ) :
    (∀ r log, E.execute g (.dRollExpr e) ⟨f, []⟩ = (.ok r, ⟨f', log⟩) →
      ∃ as rs v, DVal e as rs v ∧ Draws E.F f (as ++ rs) f' ∧ r.rolledDice = as ++ rs ∧
        r.parts.length = 3 ∧ r.parts[2]? = some (intStr v)) ∧
    (∀ as rs v, DVal e as rs v → Draws E.F f (as ++ rs) f' →
      ∃ r, E.execute g (.dRollExpr e) ⟨f, []⟩ = (.ok r, ⟨f', as ++ rs⟩) ∧
        r.rolledDice = as ++ rs ∧ r.parts[2]? = some (intStr v)) := by
  constructor
  · intro r log h
    obtain ⟨ds, ho, hd, hl⟩ := (execute_ok_iff E g _ f _ r).mp h
    cases ho with | dRollExpr h1 h2 h3 =>
    exact ⟨_, _, _, (staged_iff_DVal ..).mp ⟨_, _, h1, h2, h3⟩, hd, rfl, rfl, rfl⟩
  · intro as rs v hv hd
    obtain ⟨e1, e2, h1, h2, h3⟩ := (staged_iff_DVal ..).mpr hv
    exact ⟨_, (execute_ok_iff E g _ f _ _).mpr ⟨_, .dRollExpr h1 h2 h3, hd, rfl⟩, rfl, rfl⟩

-- non-vacuity: 2D6*(1D4-1) with 3,5 and 4
example : DVal (.bin .mul (.var .d (.int 2) (.int 6)) (.bin .sub (.var .d (.int 1) (.int 4)) (.int 1)))
    [] [⟨3, 6⟩, ⟨5, 6⟩, ⟨4, 4⟩] 24 :=
  DVal.mul (as := []) (bs := []) (rs := [⟨3, 6⟩, ⟨5, 6⟩]) (ss := [⟨4, 4⟩]) (a := 8) (b := 3)
    (DVal.roll (as := []) (bs := []) (.int 2) (.int 6) (by decide))
    (DVal.sub (as := []) (bs := []) (rs := [⟨4, 4⟩]) (ss := []) (a := 4) (b := 1)
      (DVal.roll (as := []) (bs := []) (.int 1) (.int 4) (by decide)) (.int 1))

/-! ### C10: B rolls -/

/-- Number of dice requested by a list of (number, sides) pairs. -/
def totalDice (ps : List (Int64 × Int64)) : Int := (ps.map (fun p => p.1.toInt)).sum

theorem GroupsFor.length {ps : List (Int64 × Int64)} {gs : List (List Die)} (h : GroupsFor ps gs) :
    (gs.flatten.length : Int) = totalDice ps := by
  induction h with
  | nil => rfl
  | cons hr _ ih =>
    simp only [totalDice, List.map_cons, List.sum_cons, List.flatten_cons, List.length_append] at *
    have := hr.2.2.2.1
    omega

/-- **C10.** A successful B roll reports one value per requested die: after the operands, the dice
are drawn group by group in the written order with the requested sides, and the values shown are
exactly theirs, in that order. -/
theorem C10_bRoll (g : Str) (rolls : List Roll) (f : σ) (s' : St σ) (r : Result)
    (h : E.execute g (.bRollList rolls) ⟨f, []⟩ = (.ok r, s')) :
    ∃ as ps gs, Args rolls as ps ∧ GroupsFor ps gs ∧ Draws E.F f (as ++ gs.flatten) s'.feeder ∧
      r.rolledDice = as ++ gs.flatten ∧ (gs.flatten.length : Int) = totalDice ps ∧
      r.parts = [chars!"(" ++ rollsText chars!"B" ps ++ chars!")",
        join chars!"," (gs.flatten.map (fun d => intStr d.value))] := by
  obtain ⟨ds, ho, hd, hl⟩ := (execute_ok_iff E g _ f _ r).mp h
  cases ho with | bRollList h1 h2 =>
  refine ⟨_, _, _, h1, h2, hd, rfl, h2.length, ?_⟩
  simp only [inParens, valuesText, List.map_map, Function.comp_def]

/-- **C10, comparison.** The number of successes reported is the number of values drawn that stand
in the written relation to the target. -/
theorem C10_bRoll_successes (g : Str) (rolls : List Roll) (op : CmpOp) (t : Expr) (f : σ) (s' : St σ)
    (r : Result) (h : E.execute g (.bRollComp rolls op t) ⟨f, []⟩ = (.ok r, s')) :
    ∃ as bs ps gs target, Args rolls as ps ∧ Ev t bs target ∧ GroupsFor ps gs ∧
      r.rolledDice = as ++ bs ++ gs.flatten ∧
      r.parts = [chars!"(" ++ (rollsText chars!"B" ps ++ op.str ++ intStr target) ++ chars!")",
        join chars!"," (gs.flatten.map (fun d => intStr d.value)),
        chars!"成功数" ++ intStr (Int64.ofNat
          (gs.flatten.filter (fun d => op.Rel d.value.toInt target.toInt)).length)] := by
  obtain ⟨ds, ho, hd, hl⟩ := (execute_ok_iff E g _ f _ r).mp h
  cases ho with | bRollComp h1 h2 h3 =>
  refine ⟨_, _, _, _, _, h1, h2, h3, rfl, ?_⟩
  simp only [inParens, valuesText, successes, List.filter_map, List.map_map, List.length_map,
    Function.comp_def]

/-! ### C11, C12: R rolls -/

/-- **C11.** A successful R roll whose threshold is not refused produces its value groups by the
reroll rule `RGroups`, starting from the written rolls, with at most `MaxRerolls` groups. -/
theorem C11_rRoll_groups (g : Str) (rl : RRollList) (f : σ) (s' : St σ) (r : Result)
    (h : E.execute g (.rRollList rl) ⟨f, []⟩ = (.ok r, s')) (hr : ¬ r.IsRefusal (.rRollList rl)) :
    ∃ ts as th ps gs, Threshold rl.threshold ts (some th) ∧ 2 ≤ th ∧ Args rl.rolls as ps ∧
      RGroups th (loopCount E.maxRerolls) ps gs ∧ r.rolledDice = ts ++ as ++ gs.flatten ∧
      r.parts = [chars!"(" ++ (rollsText chars!"R" ps ++ thresholdText (some th)) ++ chars!")",
        join chars!" + "
        (gs.map (fun grp => join chars!"," (grp.map (fun d => intStr d.value))))] := by
  obtain ⟨ds, ho, hd, hl⟩ := (execute_ok_iff E g _ f _ r).mp h
  cases ho with
  | rRollRefused _ _ hx =>
    exact absurd ⟨rfl, _, _, rfl, hx.mem (by simp [thresholdMessages])⟩ hr
  | rRollList h1 h2 h3 h4 =>
    refine ⟨_, _, _, _, _, h1, h3, h2, h4, rfl, ?_⟩
    simp only [inParens, rGroupsText, valuesText, List.map_map, Function.comp_def]

/-- **C12.** The number of successes of an R roll counts the values of all groups, rerolls
included, that stand in the written relation to the target. -/
theorem C12_rRoll_successes (g : Str) (rl : RRollList) (op : CmpOp) (t : Expr) (f : σ) (s' : St σ)
    (r : Result) (h : E.execute g (.rRollComp rl op t) ⟨f, []⟩ = (.ok r, s'))
    (hr : ¬ r.IsRefusal (.rRollComp rl op t)) :
    ∃ ts as bs th th' ps gs target, Threshold rl.threshold ts th ∧ Args rl.rolls as ps ∧
      Ev t bs target ∧ th' = th.getD target ∧ 2 ≤ th' ∧
      RGroups th' (loopCount E.maxRerolls) ps gs ∧ r.rolledDice = ts ++ as ++ bs ++ gs.flatten ∧
      r.parts[2]? = some (chars!"成功数" ++ intStr (Int64.ofNat
          (gs.flatten.filter (fun d => op.Rel d.value.toInt target.toInt)).length)) := by
  obtain ⟨ds, ho, hd, hl⟩ := (execute_ok_iff E g _ f _ r).mp h
  cases ho with
  | rRollCompRefused _ _ _ hx =>
    exact absurd ⟨rfl, _, _, rfl, hx.mem (by simp [thresholdMessages])⟩ hr
  | rRollComp h1 h2 h3 he h4 h5 =>
    refine ⟨_, _, _, _, _, _, _, _, h1, h2, h3, ?_, h4, h5, rfl, ?_⟩
    · simpa [orTarget] using he.symm
    · simp [successes, List.filter_map, Function.comp_def]

-- non-vacuity: 2R6[5] with 6,2 then 5 then 1
example : ∃ r s', (newEvaluator queueFeeder).execute chars!"DiceBot"
    (.rRollList ⟨[⟨.int 2, .int 6⟩], some (.int 5)⟩)
      ⟨[⟨6, 6⟩, ⟨2, 6⟩, ⟨5, 6⟩, ⟨1, 6⟩], []⟩ = (.ok r, s') ∧
    r.parts = [chars!"(2R6[5])", chars!"6,2 + 5 + 1"] ∧ ¬ r.IsRefusal
      (.rRollList ⟨[⟨.int 2, .int 6⟩], some (.int 5)⟩) := by
  refine ⟨_, _, rfl, by decide, ?_⟩
  rintro ⟨-, p, msg, hp, hm⟩
  have hp' : ([chars!"(2R6[5])", chars!"6,2 + 5 + 1"] : List Str) = [p, msg] := hp
  simp only [List.cons.injEq, and_true] at hp'
  rw [← hp'.2] at hm
  revert hm
  decide

/-! ### C13, C14: U rolls -/

/-- **C13.** A successful U roll whose threshold is not refused has one chain of dice per requested
die (`UGroups`, `UChain`), and the dice drawn after the arguments are exactly the chains, in
order. -/
theorem C13_uRoll_groups (g : Str) (u : URollExpr) (f : σ) (s' : St σ) (r : Result)
    (h : E.execute g (.uRollExpr u) ⟨f, []⟩ = (.ok r, s')) (hr : ¬ r.IsRefusal (.uRollExpr u)) :
    ∃ ts as ms th ps m gs, Threshold u.list.threshold ts (some th) ∧ 2 ≤ th ∧
      Args u.list.rolls as ps ∧ Bonus u.bonus ms m ∧ UGroups (loopCount E.maxRerolls) th ps gs ∧
      r.rolledDice = ts ++ as ++ ms ++ gs.flatten ∧ (gs.length : Int) = totalDice ps := by
  obtain ⟨ds, ho, hd, hl⟩ := (execute_ok_iff E g _ f _ r).mp h
  cases ho with
  | uRollRefused _ _ _ hx =>
    exact absurd ⟨rfl, _, _, rfl, hx.mem (by simp [thresholdMessages])⟩ hr
  | uRollExpr h1 h2 h3 h4 h5 h6 =>
    refine ⟨_, _, _, _, _, _, _, h1, h4, h2, h3, h5, rfl, ?_⟩
    clear h1 h2 h6 hd h hr hl
    induction h5 with
    | nil => rfl
    | cons hx _ ih =>
      have hx' := hx.2.2.2.1
      simp only [totalDice, List.map_cons, List.sum_cons, List.length_append] at ih ⊢
      omega

/-- Chains are never empty when rerolls are allowed at all. -/
theorem UChain.ne_nil {sides th : Int64} {limit : Nat} {g : List Die} (h : UChain sides th limit g)
    (hl : 1 ≤ limit) : g ≠ [] := by
  rintro rfl
  rcases h.last with h | ⟨d, hd, -⟩
  · simp at h; omega
  · simp at hd

/-- **C14.** A U roll reports the largest chain sum plus the bonus, and the sum of all dice plus
the bonus. -/
theorem C14_uRoll_max_total (g : Str) (u : URollExpr) (f : σ) (s' : St σ) (r : Result)
    (h : E.execute g (.uRollExpr u) ⟨f, []⟩ = (.ok r, s')) (hr : ¬ r.IsRefusal (.uRollExpr u))
    (hne : u.list.rolls ≠ []) :
    ∃ ts as ms th ps m gs mx, Threshold u.list.threshold ts (some th) ∧
      Args u.list.rolls as ps ∧ Bonus u.bonus ms m ∧ UGroups (loopCount E.maxRerolls) th ps gs ∧
      r.rolledDice = ts ++ as ++ ms ++ gs.flatten ∧
      IsMax mx (gs.map (fun grp => (grp.map Die.value).sum)) ∧
      r.parts[2]? = some (intStr (mx + m) ++ chars!"/" ++
        intStr ((gs.flatten.map Die.value).sum + m) ++ chars!" (最大/合計)") := by
  obtain ⟨ds, ho, hd, hl⟩ := (execute_ok_iff E g _ f _ r).mp h
  cases ho with
  | uRollRefused _ _ _ hx =>
    exact absurd ⟨rfl, _, _, rfl, hx.mem (by simp [thresholdMessages])⟩ hr
  | uRollExpr h1 h2 h3 h4 h5 h6 =>
    refine ⟨_, _, _, _, _, _, _, _, h1, h2, h3, h5, rfl, ?_, rfl⟩
    rcases h6 with ⟨rfl, -⟩ | h6
    · exfalso
      generalize u.list.rolls = rl at h2 hne
      cases h2 with
      | nil => exact hne rfl
      | cons _ _ _ =>
        generalize hnil : ([] : List (List Die)) = gs at h5
        cases h5 with | cons h _ =>
        have := List.append_eq_nil_iff.mp hnil.symm
        have h7 := h.2.2.2.1
        have h8 := h.2.1
        rw [this.1] at h7
        simp only [Int64.le_iff_toInt_le] at h8
        have : (1 : Int64).toInt = 1 := by decide
        simp at h7
        omega
    · exact h6

/-- **C14, comparison.** With a comparison, the chains whose sum plus bonus stands in the written
relation to the target are counted. -/
theorem C14_uRoll_successes (g : Str) (u : URollExpr) (op : CmpOp) (t : Expr) (f : σ) (s' : St σ)
    (r : Result) (h : E.execute g (.uRollComp u op t) ⟨f, []⟩ = (.ok r, s'))
    (hr : ¬ r.IsRefusal (.uRollComp u op t)) :
    ∃ ts as ms bs th ps m gs target, Threshold u.list.threshold ts (some th) ∧
      Args u.list.rolls as ps ∧ Bonus u.bonus ms m ∧ Ev t bs target ∧
      UGroups (loopCount E.maxRerolls) th ps gs ∧
      r.rolledDice = ts ++ as ++ ms ++ bs ++ gs.flatten ∧
      r.parts[2]? = some (chars!"成功数" ++ intStr (Int64.ofNat (gs.filter (fun grp =>
        op.Rel ((grp.map Die.value).sum + m).toInt target.toInt)).length)) := by
  obtain ⟨ds, ho, hd, hl⟩ := (execute_ok_iff E g _ f _ r).mp h
  cases ho with
  | uRollCompRefused _ _ _ _ hx =>
    exact absurd ⟨rfl, _, _, rfl, hx.mem (by simp [thresholdMessages])⟩ hr
  | uRollComp h1 h2 h3 h4 h5 h6 =>
    refine ⟨_, _, _, _, _, _, _, _, _, h1, h2, h3, h4, h6, rfl, ?_⟩
    simp only [successes, groupSums, List.map_map, List.filter_map, List.length_map]
    rfl

-- non-vacuity: 2U6[5]+1 with 5,3 and 2
example : ∃ r s', (newEvaluator queueFeeder).execute chars!"DiceBot"
    (.uRollExpr ⟨⟨[⟨.int 2, .int 6⟩], some (.int 5)⟩, some (.plus, .int 1)⟩)
      ⟨[⟨5, 6⟩, ⟨3, 6⟩, ⟨2, 6⟩], []⟩ = (.ok r, s') ∧
    r.parts = [chars!"(2U6[5]+1)", chars!"8[5,3],2+1", chars!"9/11 (最大/合計)"] ∧
    r.parts.length = 3 := ⟨_, _, rfl, by decide, rfl⟩

/-! ### C15: bounded number of dice -/

theorem RGroups.length_le {th : Int64} {n : Nat} {ps : List (Int64 × Int64)} {gs : List (List Die)}
    (h : RGroups th n ps gs) : gs.length ≤ n := by
  induction h with
  | done => simp
  | limit => simp
  | roll _ _ ih => simp; omega

/-- Every group of an R roll is at most as large as the largest written roll. -/
theorem RGroups.size_le {th : Int64} {n : Nat} {ps : List (Int64 × Int64)} {gs : List (List Die)}
    (h : RGroups th n ps gs) (b : Nat) (hb : ∀ p ∈ ps, p.1.toInt ≤ b) (hb' : b < 2 ^ 63) :
    ∀ g ∈ gs, g.length ≤ b := by
  induction h with
  | done => simp
  | limit => simp
  | @roll n x y pending g gs hr _ ih =>
    have hg : g.length ≤ b := by
      have h1 := hb (x, y) (by simp)
      have h2 := hr.2.2.2.1
      simp only at h1
      omega
    intro g' hg'
    rcases List.mem_cons.mp hg' with rfl | hg'
    · exact hg
    · refine ih ?_ g' hg'
      intro p hp
      rcases List.mem_append.mp hp with hp | hp
      · exact hb p (by simp [hp])
      · split at hp
        · simp at hp
        · rw [List.mem_singleton] at hp
          subst hp
          have := List.length_filter_le (fun d => decide (th ≤ d.value)) g
          simp only
          rw [Int64.toInt_ofNat_of_lt (by omega)]
          omega

theorem flatten_length_le {α : Type} (gs : List (List α)) (b : Nat) (h : ∀ g ∈ gs, g.length ≤ b) :
    gs.flatten.length ≤ gs.length * b := by
  induction gs with
  | nil => simp
  | cons g gs ih =>
    have h1 := h g (by simp)
    have h2 := ih (fun x hx => h x (by simp [hx]))
    simp only [List.flatten_cons, List.length_append, List.length_cons, Nat.add_mul]
    omega

/-- **C15 (successful executions).** An R roll makes at most `MaxRerolls` groups, each at most as
large as the largest written roll; a U roll draws at most `MaxRerolls` dice per requested die. -/
theorem C15_bounded_dice :
    (∀ {th : Int64} {n : Nat} {ps : List (Int64 × Int64)} {gs : List (List Die)} (b : Nat),
      RGroups th n ps gs → (∀ p ∈ ps, p.1.toInt ≤ b) → b < 2 ^ 63 →
      gs.length ≤ n ∧ gs.flatten.length ≤ n * b) ∧
    (∀ {th : Int64} {n : Nat} {ps : List (Int64 × Int64)} {gs : List (List Die)},
      UGroups n th ps gs → (gs.flatten.length : Int) ≤ totalDice ps * n) := by
  constructor
  · intro th n ps gs b h hb hb'
    refine ⟨h.length_le, ?_⟩
    have h1 := flatten_length_le gs b (h.size_le b hb hb')
    have h2 := Nat.mul_le_mul_right b h.length_le
    omega
  · intro th n ps gs h
    induction h with
    | nil => simp [totalDice]
    | @cons p ps gs hs h _ ih =>
      have h1 := flatten_length_le gs n (fun g hg => (h.2.2.2.2 g hg).length_le)
      have h2 := h.2.2.2.1
      simp only [List.flatten_append, List.length_append, totalDice, List.map_cons, List.sum_cons,
        Int.add_mul] at *
      rw [← h2]
      have : ((gs.length * n : Nat) : Int) = (gs.length : Int) * n := by simp
      omega

/-! ### C21: verdict of D comparisons -/

/-- **C21.** A D comparison that succeeds reports success exactly when the value of its left side
stands in the written relation to the value of its right side; text and flag agree. -/
theorem C21_verdict (g : Str) (l : Expr) (op : CmpOp) (t : Expr) (f : σ) (s' : St σ) (r : Result)
    (h : E.execute g (.dRollComp l op t) ⟨f, []⟩ = (.ok r, s')) :
    ∃ as bs rs v target, DVal l as rs v ∧ Ev t bs target ∧ r.rolledDice = as ++ bs ++ rs ∧
      r.parts[2]? = some (intStr v) ∧
      (op.Rel v.toInt target.toInt →
        r.success = .success ∧ r.parts[3]? = some chars!"成功") ∧
      (¬ op.Rel v.toInt target.toInt →
        r.success = .failure ∧ r.parts[3]? = some chars!"失敗") := by
  obtain ⟨ds, ho, hd, hl⟩ := (execute_ok_iff E g _ f _ r).mp h
  cases ho with | dRollComp _ h1 h2 h3 h4 =>
  refine ⟨_, _, _, _, _, (staged_iff_DVal ..).mp ⟨_, _, h1, h3, h4⟩, h2, rfl, rfl, ?_, ?_⟩
  · intro hr; simp [hr]
  · intro hr; simp [hr]

/-- **C21.** Every other command reports UNSPECIFIED. -/
theorem C21_unspecified (g : Str) (node : Node) (f : σ) (s' : St σ) (r : Result)
    (h : E.execute g node ⟨f, []⟩ = (.ok r, s')) (hn : ∀ l op t, node ≠ .dRollComp l op t) :
    r.success = .unspecified := by
  obtain ⟨ds, ho, hd, hl⟩ := (execute_ok_iff E g _ f _ r).mp h
  cases ho <;> first | rfl | exact absurd rfl (hn _ _ _)

/-! ### C22: choice -/

/-- **C22.** With the die `v` of an n-sided roll (n = number of items) next, a choice reports item
number `v`, using exactly that die; a die showing no face of its own makes it panic. -/
theorem C22_choice (g : Str) (items : List Str) (hn : items.length < 2 ^ 63) (f : σ) :
    (∀ s' r, E.execute g (.choice items) ⟨f, []⟩ = (.ok r, s') →
      ∃ d item, r.rolledDice = [d] ∧ E.F.next f d.sides = (.ok d, s'.feeder) ∧
        d.sides.toInt = items.length ∧ 1 ≤ d.value.toInt ∧ d.value.toInt ≤ items.length ∧
        items[d.value.toInt.toNat - 1]? = some item ∧ r.parts[1]? = some item) ∧
    (∀ d f' item, E.F.next f d.sides = (.ok d, f') → d.sides.toInt = items.length →
      1 ≤ d.value.toInt → items[d.value.toInt.toNat - 1]? = some item →
      ∃ r, E.execute g (.choice items) ⟨f, []⟩ = (.ok r, ⟨f', [d]⟩) ∧ r.parts[1]? = some item) := by
  have hlen : (Int64.ofNat items.length).toInt = items.length := Int64.toInt_ofNat_of_lt hn
  have hone : (1 : Int64).toInt = 1 := by decide
  have hzero : (0 : Int64).toInt = 0 := by decide
  have hidx : ∀ v : Int64, 0 ≤ v - 1 → v ≠ Int64.minValue →
      1 ≤ v.toInt ∧ (v - 1).toInt = v.toInt - 1 := by
    intro v hv hm
    have h2 := Int64.le_toInt v
    have h3 := Int64.toInt_lt v
    have h4 : v.toInt ≠ -2 ^ 63 := by
      intro h; apply hm; apply Int64.toInt_inj.mp; rw [h]; decide
    have h5 : (v - 1).toInt = v.toInt - 1 := by
      rw [Int64.toInt_sub, hone, Int.bmod_eq_of_le] <;> omega
    rw [Int64.le_iff_toInt_le, h5, hzero] at hv
    omega
  constructor
  · intro s' r h
    obtain ⟨ds, ho, hd, hl⟩ := (execute_ok_iff E g _ f _ r).mp h
    cases ho with | @choice _ d item h1 h2 h3 =>
    cases hd with | cons hnx hd =>
    cases hd
    have hs : d.sides = Int64.ofNat items.length := h1.2.2.2.2 d (by simp)
    obtain ⟨hlt, -⟩ := List.getElem?_eq_some_iff.mp h3
    have hm : d.value ≠ Int64.minValue := by
      intro hm
      rw [hm] at hlt
      have : (Int64.minValue - 1).toInt.toNat = 2 ^ 63 - 1 := by decide
      omega
    obtain ⟨hv1, hv2⟩ := hidx d.value h2 hm
    rw [hv2] at h3 hlt
    refine ⟨d, item, rfl, hnx, by rw [hs, hlen], hv1, by omega, ?_, rfl⟩
    rw [← h3]
    congr 1
    omega
  · intro d f' item hnx hs hv hi
    have hs' : d.sides = Int64.ofNat items.length := by
      apply Int64.toInt_inj.mp; rw [hs, hlen]
    have hb := Int64.toInt_lt d.value
    have h5 : (d.value - 1).toInt = d.value.toInt - 1 := by
      rw [Int64.toInt_sub, hone, Int.bmod_eq_of_le] <;> omega
    obtain ⟨hlt, -⟩ := List.getElem?_eq_some_iff.mp hi
    refine ⟨_, (execute_ok_iff E g _ f _ _).mpr ⟨[d], .choice (item := item) ?_ ?_ ?_,
      .cons hnx (.nil _), rfl⟩, rfl⟩
    · refine ⟨?_, by decide, by decide, by simp, by simpa using hs'⟩
      rw [Int64.le_iff_toInt_le, hlen, hone]
      omega
    · rw [Int64.le_iff_toInt_le, h5, hzero]; omega
    · rw [← hi, h5]
      congr 1
      omega

-- non-vacuity
example : ∃ r, (newEvaluator queueFeeder).execute chars!"DiceBot"
    (.choice [chars!"a", chars!"b", chars!"c"]) ⟨[⟨2, 3⟩], []⟩ = (.ok r, ⟨[], [⟨2, 3⟩]⟩) ∧
    r.parts[1]? = some chars!"b" := ⟨_, rfl, rfl⟩

/-- **C22.** A die with the right number of sides that shows none of its faces makes a choice panic, after
that die has been drawn and logged. -/
theorem C22_choice_panic (g : Str) (items : List Str) (hn : items.length < 2 ^ 63) (hne : items ≠ []) (f f' : σ)
    (d : Die) (hd : E.F.next f d.sides = (.ok d, f')) (hs : d.sides.toInt = items.length)
    (hv : d.value.toInt < 1 ∨ (items.length : Int) < d.value.toInt) :
    ∃ m, E.execute g (.choice items) ⟨f, []⟩ = (.panic m, ⟨f', [d]⟩) := by
  have hlen : (Int64.ofNat items.length).toInt = items.length := Int64.toInt_ofNat_of_lt hn
  have hpos : 0 < items.length := List.length_pos_iff.mpr hne
  have hs' : Int64.ofNat items.length = d.sides := by
    apply Int64.toInt_inj.mp; rw [hs, hlen]
  have hone : (1 : Int64).toInt = 1 := by decide
  have hroll : GoBCDice.rollDice E.F 1 d.sides f = (.ok [d], f') := by
    refine (C01_rollDice_ok_iff E.F 1 d.sides f f' [d]).mpr ⟨?_, by decide, by decide, by simp [hone], by simp, .cons hd (.nil _)⟩
    rw [Int64.le_iff_toInt_le, hs, hone]
    omega
  have hidx : ¬ 0 ≤ d.value - 1 ∨ items[(d.value - 1).toInt.toNat]? = none := by
    by_cases hz : 0 ≤ d.value - 1
    · right
      rw [List.getElem?_eq_none_iff]
      rw [Int64.le_iff_toInt_le, show (0 : Int64).toInt = 0 from rfl] at hz
      have h1 := Int64.toInt_lt d.value
      have h2 := Int64.le_toInt d.value
      by_cases hm : d.value.toInt = -2 ^ 63
      · have : d.value = Int64.minValue := Int64.toInt_inj.mp (by rw [hm]; rfl)
        rw [this]
        have : (Int64.minValue - 1).toInt.toNat = 2 ^ 63 - 1 := by decide
        omega
      · have h5 : (d.value - 1).toInt = d.value.toInt - 1 := by
          rw [Int64.toInt_sub, hone, Int.bmod_eq_of_le] <;> omega
        omega
    · exact .inl hz
  simp only [Evaluator.execute, Evaluator.executeChoice, Evaluator.evalChoice, M.bind_eq, hs',
    Evaluator.rollDice, hroll]
  refine ⟨chars!"runtime error: index out of range", ?_⟩
  by_cases hz : d.value - 1 < 0
  · simp only [Evaluator.firstDie, M.pure_eq, hz, if_true, M.crash]
    rfl
  · have hnone : items[(d.value - 1).toInt.toNat]? = none := hidx.resolve_left (fun h => h (by grind))
    simp only [Evaluator.firstDie, M.pure_eq, hz, if_false, hnone, M.crash]
    rfl

-- non-vacuity
example : ∃ m, (newEvaluator queueFeeder).execute chars!"DiceBot"
    (.choice [chars!"a", chars!"b", chars!"c"]) ⟨[⟨4, 3⟩], []⟩ = (.panic m, ⟨[], [⟨4, 3⟩]⟩) :=
  C22_choice_panic _ _ _ (by decide) (by decide) _ _ ⟨4, 3⟩ rfl rfl (by decide)

/-! ### C35, C36: reroll thresholds -/

/-- **C35.** An R roll whose arguments can be evaluated reports a refusal, rolling nothing more,
exactly when its threshold is missing or below 2. -/
theorem C35_rRoll_refusal (g : Str) (rl : RRollList) (f : σ) (s' : St σ) (r : Result)
    (h : E.execute g (.rRollList rl) ⟨f, []⟩ = (.ok r, s')) :
    ∃ ts as th ps, Threshold rl.threshold ts th ∧ Args rl.rolls as ps ∧
      ((th = none ∧ s'.log = ts ++ as ∧ r.rolledDice = [] ∧
          r.parts[1]? = some missingThresholdR) ∨
       (∃ v, th = some v ∧ v < 2 ∧ s'.log = ts ++ as ∧ r.rolledDice = [] ∧
          r.parts[1]? = some smallThreshold) ∨
       (∃ v gs, th = some v ∧ 2 ≤ v ∧ RGroups v (loopCount E.maxRerolls) ps gs ∧
          s'.log = ts ++ as ++ gs.flatten)) := by
  obtain ⟨ds, ho, hd, hl⟩ := (execute_ok_iff E g _ f _ r).mp h
  cases ho with
  | rRollRefused h1 h2 h3 =>
    refine ⟨_, _, _, _, h1, h2, ?_⟩
    cases h3 with
    | absent => exact .inl ⟨rfl, hl, rfl, rfl⟩
    | small h3 => exact .inr (.inl ⟨_, rfl, h3, hl, rfl, rfl⟩)
  | rRollList h1 h2 h3 h4 => exact ⟨_, _, _, _, h1, h2, .inr (.inr ⟨_, _, rfl, h3, h4, hl⟩)⟩

/-- **C35** for U rolls. -/
theorem C35_uRoll_refusal (g : Str) (u : URollExpr) (f : σ) (s' : St σ) (r : Result)
    (h : E.execute g (.uRollExpr u) ⟨f, []⟩ = (.ok r, s')) :
    ∃ ts as ms th ps m, Threshold u.list.threshold ts th ∧ Args u.list.rolls as ps ∧
      Bonus u.bonus ms m ∧
      ((th = none ∧ s'.log = ts ++ as ++ ms ∧ r.rolledDice = [] ∧
          r.parts[1]? = some missingThresholdU) ∨
       (∃ v, th = some v ∧ v < 2 ∧ s'.log = ts ++ as ++ ms ∧ r.rolledDice = [] ∧
          r.parts[1]? = some smallThreshold) ∨
       (∃ v gs, th = some v ∧ 2 ≤ v ∧ UGroups (loopCount E.maxRerolls) v ps gs ∧
          s'.log = ts ++ as ++ ms ++ gs.flatten)) := by
  obtain ⟨ds, ho, hd, hl⟩ := (execute_ok_iff E g _ f _ r).mp h
  cases ho with
  | uRollRefused h1 h2 h0 h3 =>
    refine ⟨_, _, _, _, _, _, h1, h2, h0, ?_⟩
    cases h3 with
    | absent => exact .inl ⟨rfl, hl, rfl, rfl⟩
    | small h3 => exact .inr (.inl ⟨_, rfl, h3, hl, rfl, rfl⟩)
  | uRollExpr h1 h2 h0 h3 h4 h5 =>
    exact ⟨_, _, _, _, _, _, h1, h2, h0, .inr (.inr ⟨_, _, rfl, h3, h4, hl⟩)⟩

/-- **C35** for R comparisons: the threshold is the written one, else the target. -/
theorem C35_rRollComp_refusal (g : Str) (rl : RRollList) (op : CmpOp) (t : Expr) (f : σ) (s' : St σ)
    (r : Result) (h : E.execute g (.rRollComp rl op t) ⟨f, []⟩ = (.ok r, s')) :
    ∃ ts as bs th ps target, Threshold rl.threshold ts th ∧ Args rl.rolls as ps ∧ Ev t bs target ∧
      ((th.getD target < 2 ∧ s'.log = ts ++ as ++ bs ∧ r.rolledDice = [] ∧
          r.parts[1]? = some smallThreshold) ∨
       (∃ gs, 2 ≤ th.getD target ∧ RGroups (th.getD target) (loopCount E.maxRerolls) ps gs ∧
          s'.log = ts ++ as ++ bs ++ gs.flatten)) := by
  obtain ⟨ds, ho, hd, hl⟩ := (execute_ok_iff E g _ f _ r).mp h
  cases ho with
  | rRollCompRefused h1 h2 h0 h3 =>
    refine ⟨_, _, _, _, _, _, h1, h2, h0, .inl ?_⟩
    unfold orTarget at h3
    cases h3 with
    | small h3 => exact ⟨h3, hl, rfl, rfl⟩
  | rRollComp h1 h2 h0 he h3 h4 =>
    refine ⟨_, _, _, _, _, _, h1, h2, h0, .inr ⟨_, ?_, ?_, hl⟩⟩
    · simp only [orTarget, Option.some.injEq] at he; rw [he]; exact h3
    · simp only [orTarget, Option.some.injEq] at he; rw [he]; exact h4

/-- **C35** for U comparisons. -/
theorem C35_uRollComp_refusal (g : Str) (u : URollExpr) (op : CmpOp) (t : Expr) (f : σ) (s' : St σ)
    (r : Result) (h : E.execute g (.uRollComp u op t) ⟨f, []⟩ = (.ok r, s')) :
    ∃ ts as ms bs th ps m target, Threshold u.list.threshold ts th ∧ Args u.list.rolls as ps ∧
      Bonus u.bonus ms m ∧ Ev t bs target ∧
      ((th = none ∧ s'.log = ts ++ as ++ ms ++ bs ∧ r.rolledDice = [] ∧
          r.parts[1]? = some missingThresholdU) ∨
       (∃ v, th = some v ∧ v < 2 ∧ s'.log = ts ++ as ++ ms ++ bs ∧ r.rolledDice = [] ∧
          r.parts[1]? = some smallThreshold) ∨
       (∃ v gs, th = some v ∧ 2 ≤ v ∧ UGroups (loopCount E.maxRerolls) v ps gs ∧
          s'.log = ts ++ as ++ ms ++ bs ++ gs.flatten)) := by
  obtain ⟨ds, ho, hd, hl⟩ := (execute_ok_iff E g _ f _ r).mp h
  cases ho with
  | uRollCompRefused h1 h2 h0 hb h3 =>
    refine ⟨_, _, _, _, _, _, _, _, h1, h2, h0, hb, ?_⟩
    cases h3 with
    | absent => exact .inl ⟨rfl, hl, rfl, rfl⟩
    | small h3 => exact .inr (.inl ⟨_, rfl, h3, hl, rfl, rfl⟩)
  | uRollComp h1 h2 h0 hb h3 h4 =>
    exact ⟨_, _, _, _, _, _, _, _, h1, h2, h0, hb, .inr (.inr ⟨_, _, rfl, h3, h4, hl⟩)⟩

theorem Ev.det_pure {e : Expr} {ds : List Die} {v : Int64} (h : Ev e ds v)
    (hv : e.isVariable = false) {es : List Die} {w : Int64} (h' : Ev e es w) : v = w ∧ es = [] := by
  have h1 := h'.no_dice hv
  subst h1
  have h2 := h.no_dice hv
  subst h2
  refine ⟨?_, rfl⟩
  have a := (realizes_eval (newEvaluator queueFeeder) e ⟨[], []⟩ ⟨[], []⟩ v).mpr
    ⟨[], h, .nil _, rfl⟩
  have b := (realizes_eval (newEvaluator queueFeeder) e ⟨[], []⟩ ⟨[], []⟩ w).mpr
    ⟨[], h', .nil _, rfl⟩
  rw [a] at b
  simpa using b

/-- **C36.** For a dice-free target (the grammar allows no other), an R comparison without
threshold succeeds with the same result and dice as the one whose threshold is written to be the
target. -/
theorem C36_default_threshold (g : Str) (rolls : List Roll) (op : CmpOp) (t : Expr)
    (ht : t.isVariable = false) (f : σ) (s' : St σ) (r : Result) :
    E.execute g (.rRollComp ⟨rolls, none⟩ op t) ⟨f, []⟩ = (.ok r, s') ↔
      E.execute g (.rRollComp ⟨rolls, some t⟩ op t) ⟨f, []⟩ = (.ok r, s') := by
  rw [execute_ok_iff, execute_ok_iff]
  refine exists_congr fun ds => and_congr_left fun _ => ?_
  constructor
  · intro h
    cases h with
    | rRollCompRefused h1 h2 h0 h3 =>
      cases h1
      have hb := h0.no_dice ht
      subst hb
      exact .rRollCompRefused (ts := []) (th := some _) (.given h0) h2 h0 h3
    | rRollComp h1 h2 h0 he h3 h4 =>
      cases h1
      have hb := h0.no_dice ht
      subst hb
      exact .rRollComp (ts := []) (.given h0) h2 h0 he h3 h4
  · intro h
    cases h with
    | rRollCompRefused h1 h2 h0 h3 =>
      cases h1 with | given h1 =>
      have hb := h0.no_dice ht
      subst hb
      obtain ⟨rfl, rfl⟩ := h0.det_pure ht h1
      exact .rRollCompRefused (ts := []) (th := none) .absent h2 h0 h3
    | rRollComp h1 h2 h0 he h3 h4 =>
      cases h1 with | given h1 =>
      have hb := h0.no_dice ht
      subst hb
      obtain ⟨rfl, rfl⟩ := h0.det_pure ht h1
      exact .rRollComp (ts := []) .absent h2 h0 he h3 h4

example : ∃ r, (newEvaluator queueFeeder).execute chars!"DiceBot"
    (.rRollComp ⟨[⟨.int 2, .int 6⟩], none⟩ .ge (.int 5)) ⟨[⟨6, 6⟩, ⟨2, 6⟩, ⟨3, 6⟩], []⟩ =
      (.ok r, ⟨[], [⟨6, 6⟩, ⟨2, 6⟩, ⟨3, 6⟩]⟩) ∧
    r.parts = [chars!"(2R6[5]>=5)", chars!"6,2 + 3", chars!"成功数1"] := ⟨_, rfl, rfl⟩

/-! ### C37: message format -/

/-- Number of message parts of each kind of command, refusals apart. -/
def Node.partCount : Node → Nat
  | .choice _ => 2
  | .calc _ => 3
  | .dRollExpr _ => 3
  | .dRollComp _ _ _ => 4
  | .bRollList _ => 2
  | .bRollComp _ _ _ => 3
  | .rRollList _ => 2
  | .rRollComp _ _ _ => 3
  | .uRollExpr _ => 3
  | .uRollComp _ _ _ => 3

/-- **C37.** A successful command reports the game it was run for and a number of parts fixed by its
kind (two for a refused threshold); the message is the game id, " : ", and the parts separated by
" ＞ ", starting with the normalised command. -/
theorem C37_message (g : Str) (node : Node) (f : σ) (s' : St σ) (r : Result)
    (h : E.execute g node ⟨f, []⟩ = (.ok r, s')) :
    r.gameID = g ∧ r.isSecret = false ∧
    (r.parts.length = node.partCount ∨ r.IsRefusal node) ∧
    ∃ p ps, r.parts = p :: ps ∧ ps ≠ [] ∧
      r.message = g ++ chars!" : " ++ p ++ (ps.map (fun q => chars!" ＞ " ++ q)).flatten := by
  obtain ⟨ds, ho, hd, hl⟩ := (execute_ok_iff E g _ f _ r).mp h
  have hj : ∀ (p : Str) (ps : List Str), join chars!" ＞ " (p :: ps) =
      p ++ (ps.map (fun q => chars!" ＞ " ++ q)).flatten := by
    intro p ps
    induction ps generalizing p with
    | nil => simp [join]
    | cons q ps ih => rw [join, ih]; simp
  have hmsg : ∀ p ps, r.parts = p :: ps → r.gameID = g →
      r.message = g ++ chars!" : " ++ p ++ (ps.map (fun q => chars!" ＞ " ++ q)).flatten := by
    intro p ps h1 h2
    rw [Result.message, Result.joinedParts, h1, h2, hj]
    simp
  have hlen : r.parts.length = node.partCount ∨ r.IsRefusal node := by
    cases ho
    case rRollRefused hx =>
      exact .inr ⟨rfl, _, _, rfl, hx.mem (by simp [thresholdMessages])⟩
    case rRollCompRefused hx =>
      exact .inr ⟨rfl, _, _, rfl, hx.mem (by simp [thresholdMessages])⟩
    case uRollRefused hx =>
      exact .inr ⟨rfl, _, _, rfl, hx.mem (by simp [thresholdMessages])⟩
    case uRollCompRefused hx =>
      exact .inr ⟨rfl, _, _, rfl, hx.mem (by simp [thresholdMessages])⟩
    all_goals exact .inl rfl
  have hg : r.gameID = g ∧ r.isSecret = false := by cases ho <;> exact ⟨rfl, rfl⟩
  refine ⟨hg.1, hg.2, hlen, ?_⟩
  have h2 : 2 ≤ r.parts.length := by
    rcases hlen with h | ⟨_, p, msg, h, _⟩
    · rw [h]; cases node <;> simp [Node.partCount]
    · rw [h]; simp
  obtain ⟨p, q, ps, hp⟩ : ∃ p q ps, r.parts = p :: q :: ps := by
    match hps : r.parts with
    | [] => rw [hps] at h2; simp at h2
    | [_] => rw [hps] at h2; simp at h2
    | p :: q :: ps => exact ⟨p, q, ps, rfl⟩
  exact ⟨p, q :: ps, hp, by simp, hmsg _ _ hp hg.1⟩

/-! ### C38, C39: replay -/

/-- **C38 (general form).** A successful execution depends on the feeder only through the dice `ds`
it drew: any feeder able to deliver the same dice gives the same result and is left just after
them. -/
theorem C38_replay_any {τ : Type} (G : DieFeeder τ) (g : Str) (node : Node) (f : σ) (s' : St σ)
    (r : Result) (h : E.execute g node ⟨f, []⟩ = (.ok r, s')) :
    ∃ ds, Draws E.F f ds s'.feeder ∧ s'.log = ds ∧
      ∀ t t', Draws G t ds t' →
        ({ F := G, maxRerolls := E.maxRerolls } : Evaluator τ).execute g node ⟨t, []⟩ =
          (.ok r, ⟨t', ds⟩) := by
  obtain ⟨ds, ho, hd, hl⟩ := (execute_ok_iff E g _ f _ r).mp h
  exact ⟨ds, hd, hl, fun t t' hd' => (execute_ok_iff _ g _ t _ r).mpr ⟨ds, ho, hd', rfl⟩⟩

/-- **C38.** Re-executing a command on a queue holding the dice of a successful result (not a
refusal, not a Calc) gives the same result and uses up the queue. -/
theorem C38_replay_queue (g : Str) (node : Node) (f : σ) (s' : St σ) (r : Result)
    (h : E.execute g node ⟨f, []⟩ = (.ok r, s')) (hc : node.isCalc = false)
    (hr : ¬ r.IsRefusal node) :
    ({ F := queueFeeder, maxRerolls := E.maxRerolls } : Evaluator (List Die)).execute g node
      ⟨r.rolledDice, []⟩ = (.ok r, ⟨[], r.rolledDice⟩) := by
  obtain ⟨ds, ho, hd, hl⟩ := (execute_ok_iff E g _ f _ r).mp h
  have : r.rolledDice = ds := by
    rcases ho.accounting with h1 | ⟨-, h2 | h2⟩
    · exact h1
    · rw [hc] at h2; cases h2
    · exact absurd h2 hr
  rw [this]
  exact (execute_ok_iff _ g _ _ _ r).mpr ⟨ds, ho, draws_queue.mpr (by simp), rfl⟩

/-- **C39.** With a queue, dice behind those drawn do not matter and are not removed. -/
theorem C39_later_dice (mr : Int64) (g : Str) (node : Node) (q q' extra : List Die)
    (log : List Die) (r : Result)
    (h : ({ F := queueFeeder, maxRerolls := mr } : Evaluator (List Die)).execute g node ⟨q, []⟩ =
      (.ok r, ⟨q', log⟩)) :
    ({ F := queueFeeder, maxRerolls := mr } : Evaluator (List Die)).execute g node
      ⟨q ++ extra, []⟩ = (.ok r, ⟨q' ++ extra, log⟩) := by
  obtain ⟨ds, ho, hd, hl⟩ := (execute_ok_iff _ g _ q _ r).mp h
  refine (execute_ok_iff _ g _ _ _ r).mpr ⟨ds, ho, draws_queue.mpr ?_, hl⟩
  rw [draws_queue.mp hd]
  simp

/-! ### C40, C41: staging -/

/-- Every roll of the expression has dice-free operands, and no random number occurs as a term. -/
def PlainRolls : Expr → Prop
  | .int _ => True
  | .sumRoll _ => True
  | .neg r => PlainRolls r
  | .bin _ l r => PlainRolls l ∧ PlainRolls r
  | .div _ l r => PlainRolls l ∧ PlainRolls r
  | .var .d l r => l.isVariable = false ∧ r.isVariable = false
  | .var .rand _ _ => False

theorem dval_iff_ev {e : Expr} (hp : PlainRolls e) (ds : List Die) (v : Int64) :
    (∃ as rs, ds = as ++ rs ∧ DVal e as rs v) ↔ Ev e ds v := by
  have key1 : ∀ {e as rs v}, DVal e as rs v → PlainRolls e → as = [] ∧ Ev e rs v := by
    intro e as rs v h
    induction h with
    | int v => intro _; exact ⟨rfl, .int _⟩
    | sumRoll ds => intro _; exact ⟨rfl, .sumRoll _⟩
    | neg _ ih => intro hp; obtain ⟨h1, h2⟩ := ih hp; exact ⟨h1, .neg h2⟩
    | add _ _ ih1 ih2 =>
      intro hp
      obtain ⟨h1, h2⟩ := ih1 hp.1
      obtain ⟨h3, h4⟩ := ih2 hp.2
      exact ⟨by simp [h1, h3], .add h2 h4⟩
    | sub _ _ ih1 ih2 =>
      intro hp
      obtain ⟨h1, h2⟩ := ih1 hp.1
      obtain ⟨h3, h4⟩ := ih2 hp.2
      exact ⟨by simp [h1, h3], .sub h2 h4⟩
    | mul _ _ ih1 ih2 =>
      intro hp
      obtain ⟨h1, h2⟩ := ih1 hp.1
      obtain ⟨h3, h4⟩ := ih2 hp.2
      exact ⟨by simp [h1, h3], .mul h2 h4⟩
    | div _ _ hb ih1 ih2 =>
      intro hp
      obtain ⟨h1, h2⟩ := ih1 hp.1
      obtain ⟨h3, h4⟩ := ih2 hp.2
      exact ⟨by simp [h1, h3], .div h2 h4 hb⟩
    | roll h1 h2 h3 =>
      intro hp
      have e1 := h1.no_dice hp.1
      have e2 := h2.no_dice hp.2
      subst e1 e2
      exact ⟨rfl, Ev.d (ds := []) (es := []) h1 h2 h3⟩
  have key2 : ∀ {e ds v}, Ev e ds v → PlainRolls e → DVal e [] ds v := by
    intro e ds v h
    induction h with
    | int v => intro _; exact .int _
    | sumRoll ds => intro _; exact .sumRoll _
    | neg _ ih => intro hp; exact .neg (ih hp)
    | add _ _ ih1 ih2 => intro hp; exact .add (as := []) (bs := []) (ih1 hp.1) (ih2 hp.2)
    | sub _ _ ih1 ih2 => intro hp; exact .sub (as := []) (bs := []) (ih1 hp.1) (ih2 hp.2)
    | mul _ _ ih1 ih2 => intro hp; exact .mul (as := []) (bs := []) (ih1 hp.1) (ih2 hp.2)
    | div _ _ hb ih1 ih2 => intro hp; exact .div (as := []) (bs := []) (ih1 hp.1) (ih2 hp.2) hb
    | d h1 h2 h3 _ _ =>
      intro hp
      have e1 := h1.no_dice hp.1
      have e2 := h2.no_dice hp.2
      subst e1 e2
      exact .roll (as := []) (bs := []) h1 h2 h3
    | rand _ _ _ _ _ _ => intro hp; exact hp.elim
  constructor
  · rintro ⟨as, rs, rfl, h⟩
    obtain ⟨rfl, h'⟩ := key1 h hp
    exact h'
  · intro h
    exact ⟨[], ds, by simp, key2 h hp⟩

/-- **C40.** For expressions whose rolls have dice-free operands (and without random-number terms),
executing the command in stages succeeds exactly when evaluating the tree directly does, with
the same value and the same dice. -/
theorem C40_staged_eq_direct (g : Str) (e : Expr) (hp : PlainRolls e) (f f' : σ) (ds : List Die)
    (v : Int64) :
    (∃ r, E.execute g (.dRollExpr e) ⟨f, []⟩ = (.ok r, ⟨f', ds⟩) ∧ r.rolledDice = ds ∧
        r.parts[2]? = some (intStr v)) ↔
      E.eval e ⟨f, []⟩ = (.ok v, ⟨f', ds⟩) := by
  constructor
  · rintro ⟨r, h, _, hp2⟩
    obtain ⟨ds', ho, hd, hl⟩ := (execute_ok_iff E g _ f _ r).mp h
    have hl' : ds = ds' := hl
    subst hl'
    cases ho with | dRollExpr h1 h2 h3 =>
    have hv := (staged_iff_DVal ..).mp ⟨_, _, h1, h2, h3⟩
    have := intStr_inj (Option.some.inj hp2)
    subst this
    exact (realizes_eval E e _ _ _).mpr ⟨_, (dval_iff_ev hp _ _).mp ⟨_, _, rfl, hv⟩, hd, rfl⟩
  · intro h
    obtain ⟨ds', hv, hd, hl⟩ := (realizes_eval E e _ _ _).mp h
    have hl' : ds = ds' := by simpa using hl
    subst hl'
    obtain ⟨as, rs, rfl, hdv⟩ := (dval_iff_ev hp ds v).mpr hv
    obtain ⟨e1, e2, h1, h2, h3⟩ := (staged_iff_DVal ..).mpr hdv
    exact ⟨_, (execute_ok_iff E g _ f _ _).mpr ⟨_, .dRollExpr h1 h2 h3, hd, rfl⟩, rfl, rfl⟩

-- non-vacuity: 2D6/2 - 1D4
example : PlainRolls (.bin .sub (.div .down (.var .d (.int 2) (.int 6)) (.int 2))
    (.var .d (.int 1) (.int 4))) ∧
    (newEvaluator queueFeeder).eval (.bin .sub (.div .down (.var .d (.int 2) (.int 6)) (.int 2))
      (.var .d (.int 1) (.int 4))) ⟨[⟨3, 6⟩, ⟨6, 6⟩, ⟨1, 4⟩], []⟩ =
      (.ok 3, ⟨[], [⟨3, 6⟩, ⟨6, 6⟩, ⟨1, 4⟩]⟩) := by
  refine ⟨?_, by rfl⟩
  simp [PlainRolls, Expr.isVariable]

end GoBCDice
