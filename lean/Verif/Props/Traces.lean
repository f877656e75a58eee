import Verif.Lemmas.BehaveExecute
import Verif.Lemmas.ParserTop
import Verif.Props.Top

/-!
# Properties of executions that may fail (C15, C24, C52)
-/

namespace GoBCDice
variable {σ : Type}

/-! ### Size of a command -/

theorem Der.rands_le {nt : NT} {s : Str} {e : Expr} (h : Der nt s e) : e.rands ≤ s.length := by
  induction h <;> (try simp only [Expr.rands, List.length_append, List.length_cons, List.length_nil]) <;> omega

theorem RollText.rands_le {l : Char × Char} {s : Str} {r : Roll} (h : RollText l s r) :
    r.rands ≤ s.length := by
  obtain ⟨a, b, c, rfl, -, h1, h2⟩ := h
  have := h1.rands_le
  have := h2.rands_le
  simp only [Roll.rands, List.length_append, List.length_cons, List.length_nil]
  omega

theorem RollsText.rands_le {l : Char × Char} {s : Str} {rs : List Roll} (h : RollsText l s rs) :
    rollsRands rs ≤ s.length := by
  induction h with
  | one h =>
    have := h.rands_le
    simpa [rollsRands] using this
  | cons h _ ih =>
    have := h.rands_le
    simp only [rollsRands, List.map_cons, List.sum_cons, List.length_append] at *
    omega

theorem ThresholdText.rands_le {s : Str} {t : Option Expr} (h : ThresholdText s t) :
    optRands t ≤ s.length := by
  cases h with
  | absent => simp [optRands]
  | given h =>
    have := h.rands_le
    simp only [optRands, List.length_append]; omega

theorem BonusText.rands_le {s : Str} {b : Option (Sign × Expr)} (h : BonusText s b) :
    optRands (b.map Prod.snd) ≤ s.length := by
  cases h with
  | absent => simp [optRands]
  | plus h =>
    have := h.rands_le
    simp only [optRands, Option.map_some, List.length_append]; omega
  | minus h =>
    have := h.rands_le
    simp only [optRands, Option.map_some, List.length_append]; omega

theorem CompareText.rands_le {s : Str} {op : CmpOp} {e : Expr} (h : CompareText s op e) :
    e.rands ≤ s.length := by
  cases h with
  | mk h =>
    have := h.rands_le
    simp only [List.length_append]; omega

theorem RRollsText.rands_le {l : Char × Char} {s : Str} {rl : RRollList} (h : RRollsText l s rl) :
    rollsRands rl.rolls + optRands rl.threshold ≤ s.length := by
  obtain ⟨a, b, rfl, h1, h2⟩ := h
  have := h1.rands_le
  have := h2.rands_le
  simp only [List.length_append]; omega

theorem URollText.rands_le {s : Str} {u : URollExpr} (h : URollText s u) :
    rollsRands u.list.rolls + optRands u.list.threshold + optRands (u.bonus.map Prod.snd) ≤ s.length := by
  obtain ⟨a, b, rfl, h1, h2⟩ := h
  have := h1.rands_le
  have := h2.rands_le
  simp only [List.length_append]; omega

/-- A command has at most as many random elements as characters. -/
theorem CommandText.rands_le {s : Str} {node : Node} (h : CommandText s node) :
    node.rands ≤ s.length := by
  cases h with
  | choice => simp [Node.rands]; omega
  | «calc» _ h =>
    have := h.rands_le
    simp only [Node.rands, List.length_append]; omega
  | bRollList h => exact h.rands_le
  | bRollComp h h' =>
    have := h.rands_le
    have := h'.rands_le
    simp only [Node.rands, List.length_append]; omega
  | rRollList h => exact h.rands_le
  | rRollComp h h' =>
    have := h.rands_le
    have := h'.rands_le
    simp only [Node.rands, List.length_append]; omega
  | uRollExpr h => exact h.rands_le
  | uRollComp h h' =>
    have := h.rands_le
    have := h'.rands_le
    simp only [Node.rands, List.length_append]; omega
  | dRollExpr h _ => exact h.rands_le
  | dRollComp h _ h' =>
    have := h.rands_le
    have := h'.rands_le
    simp only [Node.rands, List.length_append]; omega

theorem ItemsText.length_le {s : Str} {items : List Str} (h : ItemsText s items) :
    items.length ≤ s.length := by
  induction h with
  | @one raw _ h =>
    obtain ⟨-, ⟨c, hc, -⟩, -⟩ := h
    cases raw with
    | nil => simp at hc
    | cons => simp
  | cons _ _ ih => simp only [List.length_cons, List.length_append, List.length_nil]; omega

/-- The items of a choice fit in a Go slice. -/
theorem CommandText.allocOk {s : Str} {node : Node} (h : CommandText s node) (hs : s.length < 2 ^ 63) :
    node.AllocOk := by
  cases h with
  | choice _ h _ =>
    have := h.length_le
    simp only [List.length_append] at hs
    show _ < _
    omega
  | _ => trivial

theorem checkSecret_length (s : Str) : (checkSecret s).1.length ≤ s.length := by
  cases s with
  | nil => simp [checkSecret]
  | cons c s => simp only [checkSecret]; split <;> simp

theorem firstPart_length (s : Str) : (firstPart s).length ≤ s.length :=
  (List.takeWhile_sublist _).length_le

/-! ### C15 -/

theorem beh_any (F : DieFeeder σ) {α : Type} {B : Nat} {Q : α → Prop} {m : M σ α}
    (h : Beh F (fun _ => True) B False False Q m) (s : St σ) :
    ∃ ds fm lost, Draws F s.feeder ds fm ∧ Calls F fm lost (m s).2.feeder ∧
      (m s).2.log = s.log ++ ds ∧ ds.length + lost.length ≤ B ∧
      ((m s).1.isOk = true → lost = []) := by
  obtain ⟨-, ds, fm, lost, h1, h2, h3, h4, h5, -⟩ :=
    h (fun _ _ _ _ => ⟨trivial, False.elim⟩) id s (m s).1 (m s).2 trivial rfl
  refine ⟨ds, fm, lost, h1, h2, h3, h4, ?_⟩
  intro hok
  cases ho : (m s).1 with
  | ok a => exact (h5 a ho).1
  | err => rw [ho] at hok; simp [Out.isOk] at hok
  | panic => rw [ho] at hok; simp [Out.isOk] at hok

/-- **C15.** Executing a command — successfully or not, whatever the feeder answers — calls the feeder
a number of times bounded in terms of the command and of `MaxRerolls` only. -/
theorem C15_bounded_calls (E : Evaluator σ) (gameID : Str) (node : Node)
    (hn : ∀ items, node = .choice items → items.length < 2 ^ 63) (s : St σ) :
    ∃ cs, Calls E.F s.feeder cs (E.execute gameID node s).2.feeder ∧
      cs.length ≤ 2 ^ 44 * ((node.rands + 1) * (E.maxRerolls.toInt.toNat + 3)) := by
  have ha : node.AllocOk := by
    cases node with
    | choice items => exact hn items rfl
    | _ => trivial
  obtain ⟨ds, fm, lost, h1, h2, -, h4, -⟩ :=
    beh_any E.F (beh_execute (I := fun _ => True) (G := False) (S := False) E gameID node ha False.elim) s
  refine ⟨_, h1.calls.append h2, ?_⟩
  simp only [List.length_append, List.length_map]
  exact h4

theorem basic_calls (F : DieFeeder σ) (g c : Str) (hc : c.length < 2 ^ 63) (f : σ) :
    ∃ cs, Calls F f cs (executeBasicCommand F g c f).2 ∧
      cs.length ≤ 2 ^ 44 * ((c.length + 1) * 10003) := by
  cases hp : parse c with
  | none => exact ⟨[], by simp only [executeBasicCommand, hp]; exact .nil _, by simp⟩
  | some node =>
    have ht := (parse_iff _ _).mp hp
    obtain ⟨cs, h1, h2⟩ := C15_bounded_calls (newEvaluator F) g node
      (fun items hi => by subst hi; exact ht.allocOk hc) ⟨f, []⟩
    refine ⟨cs, by simp only [executeBasicCommand, hp, runFresh]; exact h1, Nat.le_trans h2 ?_⟩
    have e1 : (newEvaluator F).maxRerolls.toInt.toNat + 3 = 10003 := by
      show (10000 : Int64).toInt.toNat + 3 = 10003
      decide
    rw [e1]
    exact Nat.mul_le_mul_left _ (Nat.mul_le_mul_right _ (Nat.succ_le_succ ht.rands_le))

/-- **C15.** `ExecuteCommand` always ends after a number of feeder calls bounded by the length of the
input alone, whatever the feeder answers, and whatever the outcome. -/
theorem C15_bounded_input (F : DieFeeder σ) (usage input : Str) (hi : input.length < 2 ^ 63) (f : σ) :
    ∃ cs, Calls F f cs (executeCommand F (basicBot usage) input f).2 ∧
      cs.length ≤ 2 * (2 ^ 44 * ((input.length + 1) * 10003)) := by
  have l1 := checkSecret_length input
  have l2 := firstPart_length (checkSecret input).1
  have mono : ∀ {n}, n ≤ input.length →
      2 ^ 44 * ((n + 1) * 10003) ≤ 2 ^ 44 * ((input.length + 1) * 10003) := fun h =>
    Nat.mul_le_mul_left _ (Nat.mul_le_mul_right _ (Nat.succ_le_succ h))
  obtain ⟨cs, h1, h2⟩ := basic_calls F chars!"DiceBot" (checkSecret input).1 (by omega) f
  have m1 := Nat.le_trans h2 (mono l1)
  rw [C34_two_attempts]
  split
  · obtain ⟨cs', h3, h4⟩ := basic_calls F chars!"DiceBot" (firstPart (checkSecret input).1) (by omega)
      (executeBasicCommand F chars!"DiceBot" (checkSecret input).1 f).2
    have m2 := Nat.le_trans h4 (mono (Nat.le_trans l2 l1))
    refine ⟨_, h1.append h3, ?_⟩
    rw [List.length_append, Nat.two_mul]
    exact Nat.add_le_add m1 m2
  · exact ⟨cs, h1, by rw [Nat.two_mul]; exact Nat.le_trans m1 (Nat.le_add_left _ _)⟩

/-! ### C24 -/

theorem fairOn_sane {F : DieFeeder σ} {I : σ → Prop} (h : F.FairOn I) : F.Sane I True :=
  fun s sides hs hi => ⟨(h s sides hs hi).1, fun _ => (h s sides hs hi).2⟩

/-- **C24, trees.** With a fair feeder the only panic an execution can end in is that of `make`, and
not even that if no roll can ask for more than 2^44 dice. -/
theorem C24_execute (E : Evaluator σ) (I : σ → Prop) (hF : E.F.FairOn I) (gameID : Str) (node : Node)
    (hn : ∀ items, node = .choice items → items.length < 2 ^ 63) (s : St σ) (hs : I s.feeder) :
    I (E.execute gameID node s).2.feeder ∧
    (∀ msg, (E.execute gameID node s).1 = .panic msg →
      msg = chars!"runtime error: makeslice: cap out of range") ∧
    (node.SmallCounts → (E.execute gameID node s).1.isPanic = false) := by
  have ha : node.AllocOk := by
    cases node with
    | choice items => exact hn items rfl
    | _ => trivial
  obtain ⟨h0, -, -, -, -, -, -, -, -, h6⟩ := beh_execute (I := I) (G := True) (S := node.SmallCounts) E
    gameID node ha id (fairOn_sane hF) (fun _ => trivial) s _ _ hs rfl
  refine ⟨h0, fun msg hm => (h6 msg hm).1 trivial, fun hsmall => ?_⟩
  cases ho : (E.execute gameID node s).1 with
  | ok => rfl
  | err => rfl
  | panic msg => exact absurd hsmall (h6 msg ho).2

theorem C24_basic (F : DieFeeder σ) (I : σ → Prop) (hF : F.FairOn I) (g c : Str) (hc : c.length < 2 ^ 63)
    (f : σ) (hf : I f) :
    I (executeBasicCommand F g c f).2 ∧
    (∀ msg, (executeBasicCommand F g c f).1 = .panic msg →
      msg = chars!"runtime error: makeslice: cap out of range") ∧
    ((∀ node, CommandText c node → node.SmallCounts) →
      (executeBasicCommand F g c f).1.isPanic = false) := by
  cases hp : parse c with
  | none => simp only [executeBasicCommand, hp]; exact ⟨hf, by simp, fun _ => rfl⟩
  | some node =>
    have ht := (parse_iff _ _).mp hp
    obtain ⟨h1, h2, h3⟩ := C24_execute (newEvaluator F) I hF g node
      (fun items hi => by subst hi; exact ht.allocOk hc) ⟨f, []⟩ hf
    simp only [executeBasicCommand, hp, runFresh]
    exact ⟨h1, h2, fun h => h3 (h node ht)⟩

/-- **C24.** With a fair feeder, `ExecuteCommand` on any input does not panic, except in `make` when a
roll asks for more than 2^44 dice; and a game-specific command that does not panic changes nothing
about that. -/
theorem C24_no_panic (F : DieFeeder σ) (I : σ → Prop) (hF : F.FairOn I) (bot : DiceBot σ)
    (hbot : ∀ c f, I f → I (executeDiceBotCommand F bot c f).2 ∧
      (executeDiceBotCommand F bot c f).1.isPanic = false)
    (input : Str) (hi : input.length < 2 ^ 63) (f : σ) (hf : I f) :
    I (executeCommand F bot input f).2 ∧
    (∀ msg, (executeCommand F bot input f).1 = .panic msg →
      msg = chars!"runtime error: makeslice: cap out of range") ∧
    ((∀ node, CommandText (checkSecret input).1 node ∨
        CommandText (firstPart (checkSecret input).1) node → node.SmallCounts) →
      (executeCommand F bot input f).1.isPanic = false) := by
  have l1 := checkSecret_length input
  have l2 := firstPart_length (checkSecret input).1
  obtain ⟨b1, b2⟩ := hbot (firstPart (checkSecret input).1) f hf
  simp only [executeCommand]
  split
  · rename_i h; rw [h] at b1; exact ⟨b1, by simp, fun _ => rfl⟩
  · rename_i h; rw [h] at b2; simp [Out.isPanic] at b2
  · rename_i e f1 h
    rw [h] at b1
    obtain ⟨c1, c2, c3⟩ := C24_basic F I hF bot.info.gameID (checkSecret input).1 (by omega) f1 b1
    split
    · rename_i h; rw [h] at c1; exact ⟨c1, by simp, fun _ => rfl⟩
    · rename_i h
      rw [h] at c1 c2 c3
      exact ⟨c1, c2, fun hs => c3 (fun node hn => hs node (.inl hn))⟩
    · rename_i e2 f2 h
      rw [h] at c1
      obtain ⟨d1, d2, d3⟩ := C24_basic F I hF bot.info.gameID (firstPart (checkSecret input).1) (by omega)
        f2 c1
      split
      · rename_i h; rw [h] at d1; exact ⟨d1, by simp, fun _ => rfl⟩
      · rename_i h
        rw [h] at d1 d2 d3
        exact ⟨d1, d2, fun hs => d3 (fun node hn => hs node (.inr hn))⟩
      · rename_i h; rw [h] at d1; exact ⟨d1, by simp, fun _ => rfl⟩

/-- **C24**, for the basic dice bot and the two feeders of the library: a random generator that honours
its contract, and a queue of dice that show faces. -/
theorem C24_basicBot (F : DieFeeder σ) (I : σ → Prop) (hF : F.FairOn I) (usage input : Str)
    (hi : input.length < 2 ^ 63) (f : σ) (hf : I f)
    (hs : ∀ node, CommandText (checkSecret input).1 node ∨
        CommandText (firstPart (checkSecret input).1) node → node.SmallCounts) :
    (executeCommand F (basicBot usage) input f).1.isPanic = false :=
  (C24_no_panic F I hF (basicBot usage) (fun _ _ h => ⟨h, rfl⟩) input hi f hf).2.2 hs

-- non-vacuity: the counts in these commands are small, for fixed and for random numbers of dice
example : Node.SmallCounts (.dRollExpr (.var .d (.bin .add (.int 1) (.int 2)) (.int 6))) := by
  refine ⟨?_, ⟨trivial, trivial⟩, trivial⟩
  intro ds v _ h
  cases h with
  | add h1 h2 => cases h1; cases h2; decide
example : Node.SmallCounts (.bRollList [⟨.var .rand (.int 1) (.int 4), .int 6⟩]) := by
  intro r hr
  simp only [List.mem_singleton] at hr
  subst hr
  refine ⟨?_, ⟨trivial, trivial⟩, trivial⟩
  intro ds v hf h
  cases h with
  | @rand _ _ ds es lo hi d h1 h2 h3 h4 =>
    cases h1; cases h2
    have hd := hf d (by simp)
    have hs : d.sides = 4 := h4.2.2.2.2 d (by simp)
    have h1 := hd.1
    have h2 := hd.2
    rw [hs] at h2
    rw [Int64.le_iff_toInt_le] at h1 h2
    have e1 : (1 : Int64).toInt = 1 := by decide
    have e4 : (4 : Int64).toInt = 4 := by decide
    have e0 : (1 : Int64) - 1 = 0 := by decide
    rw [e1] at h1
    rw [e4] at h2
    have e00 : (0 : Int64).toInt = 0 := by decide
    rw [e0, Int64.toInt_add, e00, Int.zero_add, Int.bmod_eq_of_le] <;> omega

-- the two exceptions are real: a die without that face, and a huge number of dice
example : (executeCommand queueFeeder (basicBot []) chars!"CHOICE[a,b]" [⟨3, 2⟩]).1.isPanic = true := by
  decide
example : (executeCommand queueFeeder (basicBot []) chars!"99999999999999D6" []).1 =
    .panic chars!"runtime error: makeslice: cap out of range" := by decide

/-! ### C52 -/

/-- **C52, commands.** Whatever the outcome of a command, the environment's list grows by exactly the
dice `ds` of the rolls that succeeded; the calls `lost` made by a roll that failed come after them,
have moved the feeder, and are not recorded; if the command succeeded there were none. -/
theorem C52_execute (E : Evaluator σ) (gameID : Str) (node : Node)
    (hn : ∀ items, node = .choice items → items.length < 2 ^ 63) (s : St σ) :
    ∃ ds fm lost, Draws E.F s.feeder ds fm ∧ Calls E.F fm lost (E.execute gameID node s).2.feeder ∧
      (E.execute gameID node s).2.log = s.log ++ ds ∧
      ((E.execute gameID node s).1.isOk = true → lost = []) := by
  have ha : node.AllocOk := by
    cases node with
    | choice items => exact hn items rfl
    | _ => trivial
  obtain ⟨ds, fm, lost, h1, h2, h3, -, h5⟩ :=
    beh_any E.F (beh_execute (I := fun _ => True) (G := False) (S := False) E gameID node ha False.elim) s
  exact ⟨ds, fm, lost, h1, h2, h3, h5⟩

/-- Rolling several times with one evaluator, going on after failures. -/
def rollAll (E : Evaluator σ) : List (Int64 × Int64) → St σ → List (Out (List Die)) × St σ
  | [], s => ([], s)
  | (n, k) :: rest, s =>
    let (o, s1) := E.rollDice n k s
    let (os, s2) := rollAll E rest s1
    (o :: os, s2)

/-- The dice of the successful rolls, in order. -/
def successDice : List (Out (List Die)) → List Die
  | [] => []
  | .ok ds :: rest => ds ++ successDice rest
  | _ :: rest => successDice rest

/-- One roll as seen by the feeder: a success is exactly the dice delivered; a failure is some calls. -/
def RollTrace (F : DieFeeder σ) (f : σ) (o : Out (List Die)) (f' : σ) : Prop :=
  match o with
  | .ok ds => Draws F f ds f'
  | _ => ∃ cs, Calls F f cs f'

/-- Successive rolls as seen by the feeder. -/
inductive RollTraces (F : DieFeeder σ) : σ → List (Out (List Die)) → σ → Prop where
  | nil (f : σ) : RollTraces F f [] f
  | cons {f f1 f2 : σ} {o : Out (List Die)} {os : List (Out (List Die))} :
      RollTrace F f o f1 → RollTraces F f1 os f2 → RollTraces F f (o :: os) f2

/-- **C52, histories.** Over any history of rolls with one environment, failures included, the recorded
dice are those recorded before followed by the dice of the successful rolls, and each success is
what the feeder delivered at that point. -/
theorem C52_history (E : Evaluator σ) (reqs : List (Int64 × Int64)) (s : St σ) :
    (rollAll E reqs s).2.log = s.log ++ successDice (rollAll E reqs s).1 ∧
    RollTraces E.F s.feeder (rollAll E reqs s).1 (rollAll E reqs s).2.feeder := by
  induction reqs generalizing s with
  | nil => exact ⟨by simp [rollAll, successDice], .nil _⟩
  | cons p rest ih =>
    obtain ⟨n, k⟩ := p
    obtain ⟨i1, i2⟩ := ih (E.rollDice n k s).2
    simp only [rollAll]
    obtain ⟨ds, fm, lost, h1, h2, h3, h4, h5⟩ := beh_any E.F
      (beh_rollDice (I := fun _ => True) (G := False) (S := False) E n k False.elim) s
    cases ho : E.rollDice n k s with
    | mk o s1 =>
      rw [ho] at i1 i2 h2 h3 h5
      cases o with
      | ok as =>
        have hl := h5 rfl
        subst hl
        cases h2
        have : s1.log = s.log ++ as := by
          simp only [Evaluator.rollDice] at ho
          split at ho
          · simp only [Prod.mk.injEq, Out.ok.injEq] at ho
            obtain ⟨rfl, rfl⟩ := ho
            rfl
          · simp at ho
          · simp at ho
        have hds : as = ds := by
          rw [this] at h3
          exact List.append_cancel_left h3
        subst hds
        exact ⟨by simp only [successDice]; rw [i1, this, List.append_assoc], .cons h1 i2⟩
      | err m =>
        have : s1.log = s.log := by
          simp only [Evaluator.rollDice] at ho
          split at ho
          · simp at ho
          · simp only [Prod.mk.injEq] at ho
            obtain ⟨-, rfl⟩ := ho
            rfl
          · simp at ho
        exact ⟨by simp only [successDice]; rw [i1, this], .cons ⟨_, h1.calls.append h2⟩ i2⟩
      | panic m =>
        have : s1.log = s.log := by
          simp only [Evaluator.rollDice] at ho
          split at ho
          · simp at ho
          · simp at ho
          · simp only [Prod.mk.injEq] at ho
            obtain ⟨-, rfl⟩ := ho
            rfl
        exact ⟨by simp only [successDice]; rw [i1, this], .cons ⟨_, h1.calls.append h2⟩ i2⟩

-- non-vacuity: the 5 is taken from the feeder and not recorded
example : rollAll (newEvaluator queueFeeder) [(1, 6), (2, 6), (1, 6)]
    ⟨[⟨4, 6⟩, ⟨5, 6⟩, ⟨1, 8⟩, ⟨2, 6⟩], []⟩ =
    ([.ok [⟨4, 6⟩], .err (sidesMismatchMsg 2 6 ⟨1, 8⟩), .ok [⟨2, 6⟩]], ⟨[], [⟨4, 6⟩, ⟨2, 6⟩]⟩) := by
  decide

end GoBCDice
