import Verif.Spec.Average
import Verif.Spec.Easier
import Verif.Lemmas.Average

/-!
# C99: an easier target never makes things worse

With the same dice, a comparison that more values satisfy is executed whenever the other one is, rolls the same
dice and succeeds at least as often.  The one exception is an R roll that has no threshold of its own: there the
target is also the threshold, so that the easier target may roll more dice (`C99_R_needs_threshold`).
-/

namespace GoBCDice

/-- What is worth something without dice is always worth that. -/
theorem Ev.const {e : Expr} {ds : List Die} {v : Int64} (h : Ev e ds v) : ds = [] →
    ∀ ds' v', Ev e ds' v' → ds' = [] ∧ v' = v := by
  induction h with
  | int v => rintro - _ _ ⟨⟩; exact ⟨rfl, rfl⟩
  | sumRoll ds => rintro - _ _ ⟨⟩; exact ⟨rfl, rfl⟩
  | neg _ ih =>
    rintro hd _ _ ⟨⟩
    rename_i h
    obtain ⟨rfl, rfl⟩ := ih hd _ _ h; exact ⟨rfl, rfl⟩
  | add _ _ ih1 ih2 =>
    rintro hd _ _ ⟨⟩
    rename_i h1 h2
    rw [List.append_eq_nil_iff] at hd
    obtain ⟨rfl, rfl⟩ := ih1 hd.1 _ _ h1
    obtain ⟨rfl, rfl⟩ := ih2 hd.2 _ _ h2; exact ⟨rfl, rfl⟩
  | sub _ _ ih1 ih2 =>
    rintro hd _ _ ⟨⟩
    rename_i h1 h2
    rw [List.append_eq_nil_iff] at hd
    obtain ⟨rfl, rfl⟩ := ih1 hd.1 _ _ h1
    obtain ⟨rfl, rfl⟩ := ih2 hd.2 _ _ h2; exact ⟨rfl, rfl⟩
  | mul _ _ ih1 ih2 =>
    rintro hd _ _ ⟨⟩
    rename_i h1 h2
    rw [List.append_eq_nil_iff] at hd
    obtain ⟨rfl, rfl⟩ := ih1 hd.1 _ _ h1
    obtain ⟨rfl, rfl⟩ := ih2 hd.2 _ _ h2; exact ⟨rfl, rfl⟩
  | div _ _ _ ih1 ih2 =>
    rintro hd _ _ ⟨⟩
    rename_i h1 h2 h3
    rw [List.append_eq_nil_iff] at hd
    obtain ⟨rfl, rfl⟩ := ih1 hd.1 _ _ h2
    obtain ⟨rfl, rfl⟩ := ih2 hd.2 _ _ h3; exact ⟨rfl, rfl⟩
  | d _ _ hr _ _ =>
    intro hd
    rw [List.append_eq_nil_iff] at hd
    have := hr.2.2.2.1
    have h1 := hr.2.1
    rw [hd.2] at this
    rw [Int64.le_iff_toInt_le] at h1
    simp at this
    rw [← this] at h1
    exact absurd h1 (by decide)
  | rand => intro hd; simp at hd

theorem successes_mono {op op' : CmpOp} {t t' : Int64} (h : Easier op t op' t')
    (vs : List Int64) : successes op t vs ≤ successes op' t' vs := by
  unfold successes
  rw [← List.countP_eq_length_filter, ← List.countP_eq_length_filter]
  apply List.countP_mono_left
  intro v _ hv
  simp only [decide_eq_true_eq] at hv ⊢
  exact h _ hv

theorem successes_le (op : CmpOp) (t : Int64) (vs : List Int64) : successes op t vs ≤ vs.length := by
  unfold successes; exact List.length_filter_le _ _

theorem CountShown.third {g a b : Str} {ds : List Die} {s : SuccessCheck} {c : Bool} (k : Nat) :
    CountShown ⟨g, [a, b, chars!"成功数" ++ intStr (Int64.ofNat k)], ds, s, c⟩ k := by simp [CountShown]

variable {σ : Type} {op op' : CmpOp} {r r' : Expr} {t t' : Int64}

/-- **C99.** Sum rolls: with the same feeder in the same state the easier comparison is executed too, with
the same dice and the same total, and succeeds if the harder one does. -/
theorem C99_sum (E : Evaluator σ) (g : Str) (l : Expr) (f f' : σ) (res : Result) (log : List Die)
    (hr : Ev r [] t) (hr' : Ev r' [] t') (he : Easier op t op' t')
    (h : E.execute g (.dRollComp l op r) ⟨f, []⟩ = (.ok res, ⟨f', log⟩)) :
    ∃ res' log', E.execute g (.dRollComp l op' r') ⟨f, []⟩ = (.ok res', ⟨f', log'⟩) ∧
      res'.rolledDice = res.rolledDice ∧ res'.parts[1]? = res.parts[1]? ∧ res'.parts[2]? = res.parts[2]? ∧
      (res.success = .success → res'.success = .success) := by
  obtain ⟨ds, hO, hd⟩ := (C78_execute E g _ f f' res).mp ⟨log, h⟩
  cases hO with | @dRollComp _ l1 l2 _ _ as bs rs v target a0 a1 a2 a3 a4 =>
  obtain ⟨rfl, rfl⟩ := hr.const rfl _ _ a2
  have hO' := Outcome.dRollComp (limit := loopCount E.maxRerolls) (gameID := g) (op := op') a0 a1 hr' a3 a4
  obtain ⟨log', h'⟩ := (C78_execute E g _ f f' _).mpr ⟨_, hO', hd⟩
  refine ⟨_, log', h', by simp, by simp, by simp, ?_⟩
  intro hs
  by_cases hR : op.Rel v.toInt target.toInt
  · simp [he _ hR]
  · simp [hR] at hs

/-- **C99.** B rolls: the same dice, and at least as many successes. -/
theorem C99_B (E : Evaluator σ) (g : Str) (rolls : List Roll) (f f' : σ) (res : Result) (log : List Die)
    (hr : Ev r [] t) (hr' : Ev r' [] t') (he : Easier op t op' t')
    (h : E.execute g (.bRollComp rolls op r) ⟨f, []⟩ = (.ok res, ⟨f', log⟩)) :
    ∃ res' log' k k', E.execute g (.bRollComp rolls op' r') ⟨f, []⟩ = (.ok res', ⟨f', log'⟩) ∧
      res'.rolledDice = res.rolledDice ∧ res'.parts[1]? = res.parts[1]? ∧ CountShown res k ∧ CountShown res' k' ∧
      k ≤ k' ∧ k' ≤ res.rolledDice.length := by
  obtain ⟨ds, hO, hd⟩ := (C78_execute E g _ f f' res).mp ⟨log, h⟩
  cases hO with | @bRollComp _ _ _ as bs ps gs target a0 a1 a2 =>
  obtain ⟨rfl, rfl⟩ := hr.const rfl _ _ a1
  have hO' := Outcome.bRollComp (limit := loopCount E.maxRerolls) (gameID := g) (op := op') a0 hr' a2
  obtain ⟨log', h'⟩ := (C78_execute E g _ f f' _).mpr ⟨_, hO', hd⟩
  refine ⟨_, log', _, _, h', by simp, by simp, CountShown.third _, CountShown.third _, successes_mono he _, ?_⟩
  refine Nat.le_trans (successes_le _ _ _) ?_
  simp only [List.length_map, List.length_append]
  omega

/-- **C99.** R rolls with a threshold of their own: the same dice in the same groups, and at least as many
successes, unless the threshold is refused. -/
theorem C99_R (E : Evaluator σ) (g : Str) (rl : RRollList) (th : Expr) (hth : rl.threshold = some th) (f f' : σ)
    (res : Result) (log : List Die) (hr : Ev r [] t) (hr' : Ev r' [] t') (he : Easier op t op' t')
    (h : E.execute g (.rRollComp rl op r) ⟨f, []⟩ = (.ok res, ⟨f', log⟩)) :
    ∃ res' log', E.execute g (.rRollComp rl op' r') ⟨f, []⟩ = (.ok res', ⟨f', log'⟩) ∧
      res'.rolledDice = res.rolledDice ∧ res'.parts[1]? = res.parts[1]? ∧
      ((RefusalShown res ∧ RefusalShown res') ∨
        ∃ k k', CountShown res k ∧ CountShown res' k' ∧ k ≤ k' ∧ k' ≤ res.rolledDice.length) := by
  obtain ⟨ds, hO, hd⟩ := (C78_execute E g _ f f' res).mp ⟨log, h⟩
  cases hO with
  | @rRollCompRefused _ _ _ ts as bs tv ps target msg a0 a1 a2 a3 =>
    obtain ⟨rfl, rfl⟩ := hr.const rfl _ _ a2
    obtain ⟨x, rfl⟩ : ∃ x, tv = some x := by
      rw [hth] at a0
      cases a0 with | given h => exact ⟨_, rfl⟩
    have hO' := Outcome.rRollCompRefused (limit := loopCount E.maxRerolls) (gameID := g) (op := op') a0 a1 hr'
      (th := some x) (msg := msg) a3
    obtain ⟨log', h'⟩ := (C78_execute E g _ f f' _).mpr ⟨_, hO', hd⟩
    have hm : msg = smallThreshold := by
      simp only [orTarget, Option.getD_some] at a3
      cases a3 with | small h => rfl
    refine ⟨_, log', h', by simp, by simp, .inl ⟨⟨by simp, .inl ?_⟩, ⟨by simp, .inl ?_⟩⟩⟩ <;> simp [hm]
  | @rRollComp _ _ _ ts as bs tv th' ps gs target a0 a1 a2 a3 a4 a5 =>
    obtain ⟨rfl, rfl⟩ := hr.const rfl _ _ a2
    obtain ⟨x, rfl⟩ : ∃ x, tv = some x := by
      rw [hth] at a0
      cases a0 with | given h => exact ⟨_, rfl⟩
    have hO' := Outcome.rRollComp (limit := loopCount E.maxRerolls) (gameID := g) (op := op') a0 a1 hr'
      (th' := th') a3 a4 a5
    obtain ⟨log', h'⟩ := (C78_execute E g _ f f' _).mpr ⟨_, hO', hd⟩
    refine ⟨_, log', h', by simp, by simp, .inr ⟨_, _, CountShown.third _, CountShown.third _, successes_mono he _, ?_⟩⟩
    refine Nat.le_trans (successes_le _ _ _) ?_
    simp only [List.length_map, List.length_append]
    omega

/-- A group of a U roll has at least one die. -/
theorem UGroups_length {limit : Nat} {th : Int64} {ps : List (Int64 × Int64)} {gs : List (List Die)}
    (h : UGroups limit th ps gs) (hl : 1 ≤ limit) : gs.length ≤ gs.flatten.length := by
  induction h with
  | nil => simp
  | @cons p ps gs hs h1 _ ih =>
    have : gs.length ≤ gs.flatten.length := by
      have h2 := h1.2.2.2.2
      clear h1
      induction gs with
      | nil => simp
      | cons a gs ih' =>
        have h3 : 1 ≤ a.length := by
          rcases (h2 a (by simp)).last with h | ⟨d, h, -⟩
          · omega
          · cases a with
            | nil => simp at h
            | cons => simp
        have := ih' (fun g hg => h2 g (by simp [hg]))
        simp only [List.length_cons, List.flatten_cons, List.length_append]
        omega
    simp only [List.length_append, List.flatten_append]
    omega

/-- **C99.** U rolls: the same dice in the same groups, and at least as many successes, unless the threshold
is missing or refused. -/
theorem C99_U (E : Evaluator σ) (g : Str) (u : URollExpr) (f f' : σ) (res : Result) (log : List Die)
    (hr : Ev r [] t) (hr' : Ev r' [] t') (he : Easier op t op' t')
    (h : E.execute g (.uRollComp u op r) ⟨f, []⟩ = (.ok res, ⟨f', log⟩)) :
    ∃ res' log', E.execute g (.uRollComp u op' r') ⟨f, []⟩ = (.ok res', ⟨f', log'⟩) ∧
      res'.rolledDice = res.rolledDice ∧ res'.parts[1]? = res.parts[1]? ∧
      ((RefusalShown res ∧ RefusalShown res') ∨
        ∃ k k', CountShown res k ∧ CountShown res' k' ∧ k ≤ k' ∧
          (1 ≤ E.maxRerolls → k' ≤ res.rolledDice.length)) := by
  obtain ⟨ds, hO, hd⟩ := (C78_execute E g _ f f' res).mp ⟨log, h⟩
  cases hO with
  | @uRollCompRefused _ _ _ ts as ms bs tv ps m target msg a0 a1 a2 a3 a4 =>
    obtain ⟨rfl, rfl⟩ := hr.const rfl _ _ a3
    have hO' := Outcome.uRollCompRefused (limit := loopCount E.maxRerolls) (gameID := g) (op := op') a0 a1 a2 hr'
      (msg := msg) a4
    obtain ⟨log', h'⟩ := (C78_execute E g _ f f' _).mpr ⟨_, hO', hd⟩
    have hm : msg = smallThreshold ∨ msg = missingThresholdU := by
      cases a4 with
      | absent => exact .inr rfl
      | small h => exact .inl rfl
    refine ⟨_, log', h', by simp, by simp, .inl ⟨⟨by simp, ?_⟩, ⟨by simp, ?_⟩⟩⟩ <;> simpa using hm
  | @uRollComp _ _ _ ts as ms bs th ps m target gs a0 a1 a2 a3 a4 a5 =>
    obtain ⟨rfl, rfl⟩ := hr.const rfl _ _ a3
    have hO' := Outcome.uRollComp (limit := loopCount E.maxRerolls) (gameID := g) (op := op') a0 a1 a2 hr' a4 a5
    obtain ⟨log', h'⟩ := (C78_execute E g _ f f' _).mpr ⟨_, hO', hd⟩
    refine ⟨_, log', h', by simp, by simp, .inr ⟨_, _, CountShown.third _, CountShown.third _, successes_mono he _, ?_⟩⟩
    intro hmax
    refine Nat.le_trans (successes_le _ _ _) ?_
    have := UGroups_length a5 (by
      rw [Int64.le_iff_toInt_le] at hmax
      have : (1 : Int64).toInt = 1 := by decide
      unfold loopCount
      omega)
    simp only [groupSums, List.length_map, List.length_append] at this ⊢
    omega

open MeasureTheory in
/-- **C99.** So the easier comparison is at least as likely to succeed, with perfect random numbers and at any
time in a session. -/
theorem C99_chance {usage input input' body body' : Str} {secret secret' : Bool} {l : Expr}
    (hm : Marked input body secret) (ht : CommandText body (.dRollComp l op r))
    (hm' : Marked input' body' secret') (ht' : CommandText body' (.dRollComp l op' r'))
    (hl : Ordinary l) (hn : 1 ≤ l.rands) (ho : Ordinary r) (ho' : Ordinary r') (hr : Ev r [] t) (hr' : Ev r' [] t')
    (he : Easier op t op' t') (i : ℕ) :
    chance (Answered usage input i fun r => r.success = .success) ≤
      chance (Answered usage input' i fun r => r.success = .success) := by
  apply measure_mono
  rw [answered_iff hm ht (.dRollComp hl hn ho), answered_iff hm' ht' (.dRollComp hl hn ho')]
  rintro ω ⟨ds, ⟨r0, hO, hs⟩, hd⟩
  cases hO with | @dRollComp _ l1 l2 _ _ as bs rs v target a0 a1 a2 a3 a4 =>
  obtain ⟨rfl, rfl⟩ := hr.const rfl _ _ a2
  refine ⟨_, ⟨_, Outcome.dRollComp (op := op') a0 a1 hr' a3 a4, ?_⟩, hd⟩
  by_cases hR : op.Rel v.toInt target.toInt
  · simp [he _ hR]
  · simp [hR] at hs


/-- **C99.** What is easier: a lower target for `>=` and `>`, a higher one for `<=` and `<`, any other target for
`<>` than the one `=` asks for, and the comparisons that include `=`. -/
theorem C99_easier (t t' : Int64) :
    (Easier .ge t .ge t' ↔ t' ≤ t) ∧ (Easier .gt t .gt t' ↔ t' ≤ t) ∧ (Easier .le t .le t' ↔ t ≤ t') ∧
    (Easier .lt t .lt t' ↔ t ≤ t') ∧ (Easier .gt t .ge t' ↔ t'.toInt ≤ t.toInt + 1) ∧
    (Easier .eq t .ge t' ↔ t' ≤ t) ∧ (Easier .eq t .le t' ↔ t ≤ t') ∧ (Easier .eq t .eq t' ↔ t = t') ∧
    (Easier .eq t .ne t' ↔ t ≠ t') ∧ ¬ Easier .ge t .le t' := by
  simp only [Int64.le_iff_toInt_le, ne_eq, ← Int64.toInt_inj]
  refine ⟨⟨fun h => ?_, fun h v hv => ?_⟩, ⟨fun h => ?_, fun h v hv => ?_⟩, ⟨fun h => ?_, fun h v hv => ?_⟩,
    ⟨fun h => ?_, fun h v hv => ?_⟩, ⟨fun h => ?_, fun h v hv => ?_⟩, ⟨fun h => ?_, fun h v hv => ?_⟩,
    ⟨fun h => ?_, fun h v hv => ?_⟩, ⟨fun h => ?_, fun h v hv => ?_⟩, ⟨fun h => ?_, fun h v hv => ?_⟩, fun h => ?_⟩ <;>
    try (simp only [CmpOp.Rel] at hv ⊢; omega)
  · have := h t.toInt (by simp [CmpOp.Rel]); simp only [CmpOp.Rel] at this; omega
  · have := h (t.toInt + 1) (by simp only [CmpOp.Rel]; omega); simp only [CmpOp.Rel] at this; omega
  · have := h t.toInt (by simp [CmpOp.Rel]); simp only [CmpOp.Rel] at this; omega
  · have := h (t.toInt - 1) (by simp only [CmpOp.Rel]; omega); simp only [CmpOp.Rel] at this; omega
  · have := h (t.toInt + 1) (by simp only [CmpOp.Rel]; omega); simp only [CmpOp.Rel] at this; omega
  · have := h t.toInt (by simp [CmpOp.Rel]); simp only [CmpOp.Rel] at this; omega
  · have := h t.toInt (by simp [CmpOp.Rel]); simp only [CmpOp.Rel] at this; omega
  · have := h t.toInt (by simp [CmpOp.Rel]); simp only [CmpOp.Rel] at this; omega
  · have := h t.toInt (by simp [CmpOp.Rel]); simp only [CmpOp.Rel] at this; omega
  · have := h (max t.toInt (t'.toInt + 1)) (by simp only [CmpOp.Rel]; omega)
    simp only [CmpOp.Rel] at this; omega

theorem successes_opposite (op : CmpOp) (t : Int64) (vs : List Int64) :
    successes op t vs + successes op.opposite t vs = vs.length := by
  unfold successes
  induction vs with
  | nil => rfl
  | cons v vs ih =>
    have : op.opposite.Rel v.toInt t.toInt ↔ ¬ op.Rel v.toInt t.toInt := by
      cases op <;> simp only [CmpOp.opposite, CmpOp.Rel] <;> omega
    simp only [List.filter_cons, this, decide_not, Bool.not_eq_true', decide_eq_false_iff_not, decide_eq_true_eq,
      List.length_cons] at ih ⊢
    split <;> simp_all <;> omega

/-- **C99.** Successes and failures: with the same dice a comparison and its opposite (`=` and `<>`, `<` and
`>=`, `>` and `<=`) share the values rolled between them. -/
theorem C99_opposite (E : Evaluator σ) (g : Str) (rolls : List Roll) (f f' : σ) (res : Result) (log : List Die)
    (hr : Ev r [] t)
    (h : E.execute g (.bRollComp rolls op r) ⟨f, []⟩ = (.ok res, ⟨f', log⟩)) :
    ∃ res' log' k k' args, E.execute g (.bRollComp rolls op.opposite r) ⟨f, []⟩ = (.ok res', ⟨f', log'⟩) ∧
      res'.rolledDice = res.rolledDice ∧ CountShown res k ∧ CountShown res' k' ∧
      (∃ ps, Args rolls args ps) ∧ k + k' + args.length = res.rolledDice.length := by
  obtain ⟨ds, hO, hd⟩ := (C78_execute E g _ f f' res).mp ⟨log, h⟩
  cases hO with | @bRollComp _ _ _ as bs ps gs target a0 a1 a2 =>
  obtain ⟨rfl, rfl⟩ := hr.const rfl _ _ a1
  have hO' := Outcome.bRollComp (limit := loopCount E.maxRerolls) (gameID := g) (op := op.opposite) a0 hr a2
  obtain ⟨log', h'⟩ := (C78_execute E g _ f f' _).mpr ⟨_, hO', hd⟩
  refine ⟨_, log', _, _, as, h', by simp, CountShown.third _, CountShown.third _, ⟨_, a0⟩, ?_⟩
  rw [successes_opposite]
  simp only [List.length_map, List.length_append, List.length_nil]
  omega

/-- The answer to an R roll without a threshold of its own may need more dice if the target is easier:
the die 4 is a failure of `1R6>=5` and is rolled again by `1R6>=4`, which an empty queue cannot do. -/
theorem C99_R_needs_threshold :
    Easier .ge 5 .ge 4 ∧
    (∃ res f' log, (newEvaluator queueFeeder).execute chars!"DiceBot" (.rRollComp ⟨[⟨.int 1, .int 6⟩], none⟩ .ge (.int 5))
      ⟨[⟨4, 6⟩], []⟩ = (.ok res, ⟨f', log⟩)) ∧
    (∃ m f' log, (newEvaluator queueFeeder).execute chars!"DiceBot" (.rRollComp ⟨[⟨.int 1, .int 6⟩], none⟩ .ge (.int 4))
      ⟨[⟨4, 6⟩], []⟩ = (.err m, ⟨f', log⟩)) :=
  ⟨(C99_easier 5 4).1.mpr (by decide), ⟨_, _, _, rfl⟩, ⟨_, _, _, rfl⟩⟩

/-- `2D6>=9` with 5 and 4, compared with `2D6>=7`. -/
example : ∃ res' log', (newEvaluator queueFeeder).execute chars!"DiceBot" (.dRollComp (.var .d (.int 2) (.int 6)) .ge (.int 7))
    ⟨[⟨5, 6⟩, ⟨4, 6⟩], []⟩ = (.ok res', ⟨[], log'⟩) ∧ res'.success = .success := by
  obtain ⟨res, log, hx, hs⟩ : ∃ res log, (newEvaluator queueFeeder).execute chars!"DiceBot"
      (.dRollComp (.var .d (.int 2) (.int 6)) .ge (.int 9)) ⟨[⟨5, 6⟩, ⟨4, 6⟩], []⟩ = (.ok res, ⟨[], log⟩) ∧
      res.success = .success := ⟨_, _, rfl, rfl⟩
  obtain ⟨res', log', h, -, -, -, h'⟩ := C99_sum _ _ _ _ _ res log (.int 9) (.int 7)
    ((C99_easier 9 7).1.mpr (by decide)) hx
  exact ⟨res', log', h, h' hs⟩

/-- `3B6=4` has at most as many successes as `3B6>=3`, with 4, 4 and 1. -/
example : ∃ res' log' k', (newEvaluator queueFeeder).execute chars!"DiceBot" (.bRollComp [⟨.int 3, .int 6⟩] .ge (.int 3))
    ⟨[⟨4, 6⟩, ⟨4, 6⟩, ⟨1, 6⟩], []⟩ = (.ok res', ⟨[], log'⟩) ∧ CountShown res' k' ∧ k' ≤ 3 := by
  obtain ⟨res, log, hx, hd⟩ : ∃ res log, (newEvaluator queueFeeder).execute chars!"DiceBot"
      (.bRollComp [⟨.int 3, .int 6⟩] .eq (.int 4)) ⟨[⟨4, 6⟩, ⟨4, 6⟩, ⟨1, 6⟩], []⟩ = (.ok res, ⟨[], log⟩) ∧
      res.rolledDice.length = 3 := ⟨_, _, rfl, rfl⟩
  obtain ⟨res', log', k, k', h, -, -, -, h1, -, h2⟩ := C99_B _ _ _ _ _ res log (.int 4) (.int 3)
    ((C99_easier 4 3).2.2.2.2.2.1.mpr (by decide)) hx
  exact ⟨res', log', k', h, h1, hd ▸ h2⟩

/-- `2R6[6]>=5` and `2R6[6]>=4`; `2U6[6]>9` and `2U6[6]>=9`: both sides of the comparison are executed. -/
example :
    (∃ res log, (newEvaluator queueFeeder).execute chars!"DiceBot"
      (.rRollComp ⟨[⟨.int 2, .int 6⟩], some (.int 6)⟩ .ge (.int 5)) ⟨[⟨6, 6⟩, ⟨1, 6⟩, ⟨5, 6⟩], []⟩ = (.ok res, ⟨[], log⟩)) ∧
    (∃ res log, (newEvaluator queueFeeder).execute chars!"DiceBot"
      (.uRollComp ⟨⟨[⟨.int 2, .int 6⟩], some (.int 6)⟩, none⟩ .gt (.int 9)) ⟨[⟨6, 6⟩, ⟨1, 6⟩, ⟨5, 6⟩], []⟩ =
      (.ok res, ⟨[], log⟩)) ∧
    Easier .ge 5 .ge 4 ∧ Easier .gt 9 .ge 9 :=
  ⟨⟨_, _, rfl⟩, ⟨_, _, rfl⟩, (C99_easier 5 4).1.mpr (by decide), (C99_easier 9 9).2.2.2.2.1.mpr (by decide)⟩

/-- With perfect random numbers `2D6+1>=8` succeeds at least as often as `2d6+1>8`. -/
example (usage : Str) (i : ℕ) :
    chance (Answered usage chars!"2d6+1>8" i fun r => r.success = .success) ≤
      chance (Answered usage chars!"S2D6+1>=8" i fun r => r.success = .success) :=
  C99_chance (l := .bin .add (.var .d (.int 2) (.int 6)) (.int 1)) (Marked.plain (by decide)) ((C27_language _ _).mp (by decide))
    (Marked.secret (c := 'S') (.inl rfl)) ((C27_language _ _).mp (by decide))
    (.bin (.roll (by decide) (by decide) (by decide)) .int) (by decide) .int .int (.int 8) (.int 8) ((C99_easier 8 8).2.2.2.2.1.mpr (by decide)) i

end GoBCDice
