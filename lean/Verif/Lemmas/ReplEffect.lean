import Verif.Lemmas.Repl

/-!
# What the handlers of the interactive tool change
-/

namespace GoBCDice

variable {ρ : Type}

/-- Both queues, or both random. -/
inductive SameKind : FeederObj ρ → FeederObj ρ → Prop where
  | queue (a b) : SameKind (.queue a) (.queue b)
  | mt (a b) : SameKind (.mt a) (.mt b)

theorem SameKind.refl (x : FeederObj ρ) : SameKind x x := by
  cases x with
  | queue => exact .queue _ _
  | mt => exact .mt _ _

theorem SameKind.trans {x y z : FeederObj ρ} (h : SameKind x y) (h' : SameKind y z) : SameKind x z := by
  cases h <;> cases h'
  · exact .queue _ _
  · exact .mt _ _

theorem calls_ref {rng : Rng ρ} {ref : Nat} {h h' : FeederHeap ρ} {cs : List (Int64 × Out Die)}
    (hc : Calls (refFeeder rng ref) h cs h') {x : FeederObj ρ} (hx : h[ref]? = some x) :
    ∃ x', SameKind x x' ∧ h' = h.set ref x' := by
  induction hc generalizing x with
  | nil s =>
    refine ⟨x, .refl x, ?_⟩
    obtain ⟨hl, rfl⟩ := List.getElem?_eq_some_iff.1 hx
    simp
  | @cons s s₁ s₂ k o cs hn _ ih =>
    obtain ⟨hl, -⟩ := List.getElem?_eq_some_iff.1 hx
    obtain ⟨x1, hk1, rfl⟩ : ∃ x1, SameKind x x1 ∧ s₁ = s.set ref x1 := by
      simp only [refFeeder, hx] at hn
      cases x with
      | queue q => exact ⟨_, .queue _ _, (congrArg Prod.snd hn).symm⟩
      | mt q => exact ⟨_, .mt _ _, (congrArg Prod.snd hn).symm⟩
    obtain ⟨x', hk, rfl⟩ := ih (x := x1) (by simp [hl])
    exact ⟨x', hk1.trans hk, by simp⟩

theorem rollDice_calls {σ : Type} (F : DieFeeder σ) (n s : Int64) (f : σ) :
    ∃ cs, Calls F f cs (rollDice F n s f).2 := by
  have loop : ∀ k acc f, ∃ cs, Calls F f cs (rollLoop F n s k acc f).2 := by
    intro k
    induction k with
    | zero => intro acc f; exact ⟨[], .nil _⟩
    | succ k ih =>
      intro acc f
      simp only [rollLoop]
      cases hn : F.next f s with
      | mk o f1 =>
        cases o with
        | err e => exact ⟨_, .cons hn (.nil _)⟩
        | panic e => exact ⟨_, .cons hn (.nil _)⟩
        | ok d =>
          dsimp only
          split
          · exact ⟨_, .cons hn (.nil _)⟩
          · obtain ⟨cs, h⟩ := ih (acc ++ [d]) f1
            exact ⟨_, .cons hn h⟩
  unfold rollDice
  split
  · exact ⟨[], .nil _⟩
  · split
    · exact ⟨[], .nil _⟩
    · split
      · exact ⟨[], .nil _⟩
      · exact loop _ _ _

theorem basicBot_rollsOnly {σ : Type} (usage : Str) : (basicBot usage : DiceBot σ).RollsOnly :=
  fun _ _ _ => ⟨[], .nil _⟩

theorem executeCommand_calls {σ : Type} (F : DieFeeder σ) {bot : DiceBot σ} (hb : bot.RollsOnly)
    (input : Str) (hi : input.length < 2 ^ 63) (f : σ) :
    ∃ cs, Calls F f cs (executeCommand F bot input f).2 := by
  have l1 := checkSecret_length input
  have l2 := firstPart_length (checkSecret input).1
  obtain ⟨c0, k0⟩ : ∃ cs, Calls F f cs
      (executeDiceBotCommand F bot (firstPart (checkSecret input).1) f).2 :=
    hb _ (newEvaluator F) { feeder := f, log := [] }
  simp only [executeCommand]
  split
  · rename_i h0; rw [h0] at k0; exact ⟨_, k0⟩
  · rename_i h0; rw [h0] at k0; exact ⟨_, k0⟩
  · rename_i f1 h0
    rw [h0] at k0
    obtain ⟨c1, k1, -⟩ := basic_calls F bot.info.gameID (checkSecret input).1 (by omega) f1
    split
    · rename_i h1; rw [h1] at k1; exact ⟨_, k0.append k1⟩
    · rename_i h1; rw [h1] at k1; exact ⟨_, k0.append k1⟩
    · rename_i f2 h1
      rw [h1] at k1
      obtain ⟨c2, k2, -⟩ := basic_calls F bot.info.gameID (firstPart (checkSecret input).1) (by omega) f2
      split <;> (rename_i h2; rw [h2] at k2; exact ⟨_, (k0.append k1).append k2⟩)

/-- What rolling from the object of the REPL does to the heap: nothing after restoring a queue, a
new state for the random generator. -/
theorem restore_heap {rng : Rng ρ} {r : ReplState ρ} {h' : FeederHeap ρ}
    {cs : List (Int64 × Out Die)} (hl : r.dieFeeder < r.heap.length)
    (hc : Calls (refFeeder rng r.dieFeeder) r.heap cs h') :
    ∃ x, r.feeder = some x ∧
      (∀ ds, x = .queue ds → queueContents r.heap r.dieFeeder = some ds ∧
        setQueueObj h' r.dieFeeder ds = r.heap) ∧
      (∀ s, x = .mt s → queueContents r.heap r.dieFeeder = none ∧
        ∃ s', h' = r.heap.set r.dieFeeder (.mt s')) := by
  obtain ⟨x, hx⟩ : ∃ x, r.heap[r.dieFeeder]? = some x := ⟨_, List.getElem?_eq_getElem hl⟩
  obtain ⟨x', hk, rfl⟩ := calls_ref hc hx
  refine ⟨x, hx, ?_, ?_⟩
  · rintro ds rfl
    cases hk with
    | queue _ q' =>
      refine ⟨by simp [queueContents, hx, queueDice], ?_⟩
      obtain ⟨_, he⟩ := List.getElem?_eq_some_iff.1 hx
      simp [setQueueObj, hl, queueSet, ← he]
  · rintro s rfl
    cases hk with
    | mt _ s' => exact ⟨by simp [queueContents, hx], s', rfl⟩

/-- A handler that only rolls and prints: the text it prints does not depend on the text before, a
queue is put back, a random generator moves on. -/
def RollsAndPrints (r : ReplState ρ) (run : ReplState ρ → Out Unit × ReplState ρ) : Prop :=
  ∃ st h text, (∀ o, run { r with out := o } = (st, { r with heap := h, out := o ++ text })) ∧
    ((∀ ds, r.feeder = some (.queue ds) → h = r.heap) ∧
     (∀ s, r.feeder = some (.mt s) → ∃ s', h = r.heap.set r.dieFeeder (.mt s')))

/-- The text printed for an error. -/
def errText (e : Str) : Str := escRed ++ e ++ escReset ++ ['\n']

theorem heap_set_self {r : ReplState ρ} {s : ρ} (h : r.feeder = some (.mt s)) :
    ∃ s', r.heap = r.heap.set r.dieFeeder (.mt s') := by
  obtain ⟨hl, he⟩ := List.getElem?_eq_some_iff.1 h
  exact ⟨s, by rw [← he]; simp⟩

theorem RollsAndPrints.prints {r : ReplState ρ} (text : Str)
    {run : ReplState ρ → Out Unit × ReplState ρ}
    (h : ∀ o, run { r with out := o } = (.ok (), { r with out := o ++ text })) :
    RollsAndPrints r run :=
  ⟨.ok (), r.heap, text, h, fun _ _ => rfl, fun _ hs => heap_set_self hs⟩

theorem checkSecret_len (s : Str) : (checkSecret s).1.length ≤ s.length := checkSecret_length s

theorem eval_rolls (env : ReplEnv ρ) {r : ReplState ρ} (hr : r.OneFeeder)
    (hb : r.bcDice.bot.RollsOnly) (c : ReplCommand) (input : Str) (hi : input.length < 2 ^ 63) :
    RollsAndPrints r (fun r => replEval env r c input) := by
  by_cases h0 : input = []
  · refine .prints (chars!"使用法: " ++ c.usage ++ chars!"\n") fun o => ?_
    simp only [replEval, h0, if_true]
    rfl
  obtain ⟨hl, h1, h2, h3⟩ := hr
  obtain ⟨cs, hc⟩ := executeCommand_calls (refFeeder env.rng r.bcDice.diceRoller) hb
    (checkSecret input).1 (by have := checkSecret_length input; omega) r.heap
  rw [h3] at hc
  obtain ⟨x, hx, hq, hm⟩ := restore_heap hl hc
  cases he : executeCommand (refFeeder env.rng r.dieFeeder) r.bcDice.bot (checkSecret input).1 r.heap with
  | mk out h' =>
  rw [he] at hq hm
  have key : ∃ st text, ∀ o, replEval env { r with out := o } c input =
      (st, ({ r with heap := h', out := o ++ text } : ReplState ρ).restore
        (queueContents r.heap r.dieFeeder)) := by
    cases out with
    | panic m =>
      refine ⟨.panic m, [], fun o => ?_⟩
      simp only [replEval, h0, if_false, h3, he, List.append_nil]
    | err e =>
      refine ⟨.ok (), errText e, fun o => ?_⟩
      simp only [replEval, h0, if_false, h3, he]
      rfl
    | ok result =>
      refine ⟨.ok (), resultHeader ++ (if (checkSecret input).2 then secretHeader else []) ++
        result.message ++ ['\n'], fun o => ?_⟩
      simp only [replEval, h0, if_false, h3, he]
      split <;> simp [ReplState.print, ReplState.println]
  obtain ⟨st, text, hk⟩ := key
  cases x with
  | queue ds =>
    obtain ⟨g1, g2⟩ := hq ds rfl
    refine ⟨st, r.heap, text, fun o => ?_, fun _ _ => rfl, fun s hs => ?_⟩
    · dsimp only; rw [hk o, g1]; simp only [ReplState.restore, g2]
    · rw [hx] at hs; simp at hs
  | mt s =>
    obtain ⟨g1, s', g2⟩ := hm s rfl
    refine ⟨st, h', text, fun o => ?_, fun ds hs => ?_, fun _ _ => ⟨s', g2⟩⟩
    · dsimp only; rw [hk o, g1]; rfl
    · rw [hx] at hs; simp at hs

theorem roll_rolls (env : ReplEnv ρ) {r : ReplState ρ} (hr : r.OneFeeder) (c : ReplCommand)
    (input : Str) : RollsAndPrints r (fun r => replRoll env r c input) := by
  obtain ⟨hl, h1, h2, h3⟩ := hr
  cases hmr : matchRoll input with
  | none =>
    refine .prints (chars!"使用法: " ++ c.usage ++ chars!"\n") fun o => ?_
    simp only [replRoll, hmr]
    rfl
  | some ns =>
  obtain ⟨n, s⟩ := ns
  obtain ⟨cs, hc⟩ := rollDice_calls (refFeeder env.rng r.diceRoller) (atoiSat n) (atoiSat s) r.heap
  rw [h1] at hc
  obtain ⟨x, hx, hq, hm⟩ := restore_heap hl hc
  cases he : rollDice (refFeeder env.rng r.dieFeeder) (atoiSat n) (atoiSat s) r.heap with
  | mk out h' =>
  rw [he] at hq hm
  have key : ∃ st text, ∀ o, replRoll env { r with out := o } c input =
      (st, ({ r with heap := h', out := o ++ text } : ReplState ρ).restore
        (queueContents r.heap r.dieFeeder)) := by
    cases out with
    | panic m =>
      refine ⟨.panic m, [], fun o => ?_⟩
      simp only [replRoll, hmr, h1, he, List.append_nil]
    | err e =>
      refine ⟨.ok (), errText e, fun o => ?_⟩
      simp only [replRoll, hmr, h1, he]
      rfl
    | ok ds =>
      refine ⟨.ok (), resultHeader ++ formatDice ds ++ chars!"\n", fun o => ?_⟩
      simp only [replRoll, hmr, h1, he]
      rfl
  obtain ⟨st, text, hk⟩ := key
  cases x with
  | queue ds =>
    obtain ⟨g1, g2⟩ := hq ds rfl
    refine ⟨st, r.heap, text, fun o => ?_, fun _ _ => rfl, fun s hs => ?_⟩
    · dsimp only; rw [hk o, g1]; simp only [ReplState.restore, g2]
    · rw [hx] at hs; simp at hs
  | mt s =>
    obtain ⟨g1, s', g2⟩ := hm s rfl
    refine ⟨st, h', text, fun o => ?_, fun ds hs => ?_, fun _ _ => ⟨s', g2⟩⟩
    · dsimp only; rw [hk o, g1]; rfl
    · rw [hx] at hs; simp at hs

/-- A function that only prints. -/
def Prints (f : ReplState ρ → ReplState ρ) : Prop :=
  ∃ text, ∀ r, f r = { r with out := r.out ++ text }

theorem Prints.print (s : Str) : Prints (fun r : ReplState ρ => r.print s) := ⟨s, fun _ => rfl⟩

theorem Prints.comp {f g : ReplState ρ → ReplState ρ} (hf : Prints f) (hg : Prints g) :
    Prints (fun r => g (f r)) := by
  obtain ⟨a, ha⟩ := hf
  obtain ⟨b, hb⟩ := hg
  exact ⟨a ++ b, fun r => by dsimp only; rw [hb, ha]; simp⟩

theorem Prints.foldl {α : Type} {f : ReplState ρ → α → ReplState ρ} (xs : List α)
    (h : ∀ x, Prints (fun r => f r x)) : Prints (fun r => xs.foldl f r) := by
  induction xs with
  | nil => exact ⟨[], fun r => by simp⟩
  | cons x xs ih => exact (h x).comp ih

theorem Prints.rolls {f : ReplState ρ → ReplState ρ} (h : Prints f) (r : ReplState ρ) :
    RollsAndPrints r (fun r => (.ok (), f r)) := by
  obtain ⟨t, ht⟩ := h
  exact .prints t (fun o => by rw [ht])

theorem ast_prints (env : ReplEnv ρ) (c : ReplCommand) (input : Str) :
    Prints (fun r => replAst env r c input) := by
  unfold replAst
  split
  · exact .print _
  · dsimp only
    cases parse (checkSecret input).1 with
    | none => exact .print _
    | some node =>
      dsimp only
      by_cases hs : (checkSecret input).2 = true
      · simp only [hs, if_true]
        exact ((Prints.print _).comp (.print _)).comp (.print _)
      · simp only [hs]
        exact (Prints.print _).comp (.print _)

theorem help_prints : Prints (replHelp (ρ := ρ)) := by
  refine Prints.foldl _ fun c => ?_
  unfold printCommandHelp
  by_cases hs : c.args ≠ []
  · simp only [if_pos hs]
    exact (((Prints.print _).comp (.print _)).comp (.print _)).comp (.print _)
  · simp only [if_neg hs]
    exact ((Prints.print _).comp (.print _)).comp (.print _)

theorem list_prints (env : ReplEnv ρ) : Prints (fun r => replListGames env r) :=
  Prints.foldl _ fun _ => .print _

/-- The requests that cannot change any setting. -/
def ReplRequest.Reads : ReplRequest → Prop
  | .nothing => True
  | .leave => True
  | .evaluate _ => True
  | .command h args => h = .ast ∨ h = .eval ∨ h = .roll ∨ h = .listGames ∨ h = .help ∨
      (h = .setGame ∧ args = [])

/-- Text of a request. -/
def ReplRequest.text : ReplRequest → Str
  | .evaluate t => t
  | .command _ a => a
  | _ => []

theorem reads_effect (env : ReplEnv ρ) {r : ReplState ρ} (hr : r.OneFeeder)
    (hb : r.bcDice.bot.RollsOnly) (seed : ρ) (req : ReplRequest) (hq : req.Reads)
    (hi : req.text.length < 2 ^ 63) :
    ∃ st h text, (∀ o, perform env { r with out := o } seed req =
        (st, { r with heap := h, out := o ++ text })) ∧
      ((∀ ds, r.feeder = some (.queue ds) → h = r.heap) ∧
       (∀ s, r.feeder = some (.mt s) → ∃ s', h = r.heap.set r.dieFeeder (.mt s'))) := by
  have lift : ∀ {run : ReplState ρ → Out Unit × ReplState ρ}, RollsAndPrints r run →
      ∃ st h text, (∀ o, (statusOf (run { r with out := o }).1, (run { r with out := o }).2) =
        (st, { r with heap := h, out := o ++ text })) ∧
      ((∀ ds, r.feeder = some (.queue ds) → h = r.heap) ∧
       (∀ s, r.feeder = some (.mt s) → ∃ s', h = r.heap.set r.dieFeeder (.mt s'))) := by
    rintro run ⟨st, h, text, h1, h2⟩
    exact ⟨statusOf st, h, text, fun o => by rw [h1], h2⟩
  cases req with
  | nothing => exact ⟨.running, r.heap, [], fun o => by simp [perform], fun _ _ => rfl, fun _ hs => heap_set_self hs⟩
  | leave => exact ⟨.exited, r.heap, [], fun o => by simp [perform], fun _ _ => rfl, fun _ hs => heap_set_self hs⟩
  | evaluate t => exact lift (eval_rolls env hr hb evalCmd t hi)
  | command h args =>
    simp only [perform, runHandler, cmd_handler]
    generalize h.cmd = c
    rcases hq with rfl | rfl | rfl | rfl | rfl | ⟨rfl, rfl⟩
    · exact lift (run := fun r => (.ok (), replAst env r c args)) ((ast_prints env c args).rolls r)
    · exact lift (run := fun r => replEval env r c args) (eval_rolls env hr hb c args hi)
    · exact lift (run := fun r => replRoll env r c args) (roll_rolls env hr c args)
    · exact lift (run := fun r => (.ok (), replListGames env r)) ((list_prints env).rolls r)
    · exact lift (run := fun r => (.ok (), replHelp r)) (help_prints.rolls r)
    · exact lift (run := fun r => (.ok (), replSetGame env r [])) (RollsAndPrints.prints (run := fun r => (.ok (), replSetGame env r []))
        (r.bcDice.bot.info.gameID ++ ['\n']) (fun o => rfl))

theorem setQueueObj_eq {h : FeederHeap ρ} {ref : Nat} {q : List Die}
    (hx : h[ref]? = some (.queue q)) (ds : List Die) :
    setQueueObj h ref ds = h.set ref (.queue ds) := by
  unfold setQueueObj; rw [hx]; rfl

/-- What is kept by the loop. -/
structure ReplState.Inv (r : ReplState ρ) : Prop where
  one : r.OneFeeder
  rolls : r.bcDice.bot.RollsOnly

theorem newRepl_inv (env : ReplEnv ρ) (seed : ρ) : (newRepl env seed).Inv :=
  ⟨⟨by simp [newRepl], rfl, rfl, rfl⟩, basicBot_rollsOnly _⟩

theorem queueContents_eq (r : ReplState ρ) (q : Option (List Die)) (hl : r.dieFeeder < r.heap.length) :
    queueContents r.heap r.dieFeeder = q ↔
      (∃ ds, q = some ds ∧ r.feeder = some (.queue ds)) ∨
      (∃ s, q = none ∧ r.feeder = some (.mt s)) := by
  unfold queueContents ReplState.feeder
  rw [List.getElem?_eq_getElem hl]
  cases r.heap[r.dieFeeder] <;> cases q <;> simp [queueDice, eq_comm]

theorem setGame_effect (env : ReplEnv ρ) (r : ReplState ρ) (args : Str) :
    ∃ b text, replSetGame env r args =
      { r with bcDice := { r.bcDice with bot := b }, out := r.out ++ text } ∧
      (b = r.bcDice.bot ∨ b = basicBot env.usage ∨ ∃ k, env.reg.get? k = some b) := by
  unfold replSetGame
  split
  · exact ⟨r.bcDice.bot, r.bcDice.bot.info.gameID ++ ['\n'], rfl, .inl rfl⟩
  · unfold setDiceBotByGameID findBot
    by_cases h : args = (basicInfo env.usage).gameID
    · simp only [if_pos h]
      exact ⟨basicBot env.usage, _, rfl, .inr (.inl rfl)⟩
    · simp only [if_neg h]
      cases hg : env.reg.get? args with
      | none => exact ⟨r.bcDice.bot, _, rfl, .inl rfl⟩
      | some b => exact ⟨b, _, rfl, .inr (.inr ⟨_, hg⟩)⟩

theorem perform_inv (env : ReplEnv ρ) (henv : env.RollsOnly) {r : ReplState ρ} (hr : r.Inv)
    (seed : ρ) (req : ReplRequest) (hi : req.text.length < 2 ^ 63) :
    (perform env r seed req).2.Inv ∧
    QueueStep env.isPrint (queueContents r.heap r.dieFeeder) req
      (queueContents (perform env r seed req).2.heap (perform env r seed req).2.dieFeeder) := by
  obtain ⟨hone, hrolls⟩ := hr
  have hone' := hone
  obtain ⟨hl, h1, h2, h3⟩ := hone'
  by_cases hq : req.Reads
  · obtain ⟨st, h, text, hp, hqu, hm⟩ := reads_effect env hone hrolls seed req hq hi
    have hp := hp r.out
    rw [show ({ r with out := r.out } : ReplState ρ) = r from rfl] at hp
    rw [hp]
    have hfe : h.length = r.heap.length ∧
        queueContents h r.dieFeeder = queueContents r.heap r.dieFeeder := by
      obtain ⟨x, hx⟩ : ∃ x, r.feeder = some x := ⟨_, List.getElem?_eq_getElem hl⟩
      cases x with
      | queue ds => rw [hqu ds hx]; exact ⟨rfl, rfl⟩
      | mt s =>
        obtain ⟨s', rfl⟩ := hm s hx
        have hx' : r.heap[r.dieFeeder]? = some (.mt s) := hx
        have e1 : queueContents r.heap r.dieFeeder = none := by unfold queueContents; rw [hx']
        rw [e1]
        simp [queueContents, hl]
    refine ⟨⟨⟨by dsimp only; rw [hfe.1]; exact hl, h1, h2, h3⟩, hrolls⟩, ?_⟩
    dsimp only
    rw [hfe.2]
    refine .other _ _ ?_ ?_
    · rintro args rfl; simp [ReplRequest.Reads] at hq
    · rintro args rfl; simp [ReplRequest.Reads] at hq
  · cases req with
    | nothing => exact absurd trivial hq
    | leave => exact absurd trivial hq
    | evaluate => exact absurd trivial hq
    | command h args =>
      simp only [perform, runHandler, cmd_handler]
      cases h with
      | ast | eval | roll | listGames | help => simp [ReplRequest.Reads] at hq
      | quit => exact ⟨⟨⟨hl, h1, h2, h3⟩, hrolls⟩, .other _ _ (by simp) (by simp)⟩
      | setGame =>
        obtain ⟨b, text, hs, hb⟩ := setGame_effect env r args
        dsimp only
        rw [hs]
        refine ⟨⟨⟨hl, h1, h2, h3⟩, ?_⟩, .other _ _ (by simp) (by simp)⟩
        rcases hb with rfl | rfl | ⟨k, hk⟩
        · exact hrolls
        · exact basicBot_rollsOnly _
        · exact henv k b hk
      | setDieFeeder =>
        dsimp only
        unfold replSetDieFeeder
        dsimp only
        split
        · rename_i ha
          refine ⟨⟨⟨?_, rfl, rfl, rfl⟩, hrolls⟩, ?_⟩
          · simp [ReplState.printOK, ReplState.println, ReplState.print]
          · simp only [ReplState.printOK, ReplState.println, ReplState.print]
            have : queueContents (r.heap ++ [FeederObj.queue []]) r.heap.length = some [] := by
              simp [queueContents, queueDice]
            rw [this]
            exact .startQueue _ _ ha
        · split
          · rename_i ha
            refine ⟨⟨⟨?_, rfl, rfl, rfl⟩, hrolls⟩, ?_⟩
            · simp [ReplState.printOK, ReplState.println, ReplState.print]
            · simp only [ReplState.printOK, ReplState.println, ReplState.print]
              have : queueContents (r.heap ++ [FeederObj.mt seed]) r.heap.length = none := by
                simp [queueContents]
              rw [this]
              exact .startRandom _ _ ha
          · rename_i ha hb
            exact ⟨⟨⟨hl, h1, h2, h3⟩, hrolls⟩, .badFeeder _ _ ha hb⟩
      | setDiceQueue =>
        dsimp only
        unfold replSetDiceQueue
        cases hqc : queueContents r.heap r.dieFeeder with
        | none =>
          dsimp only
          refine ⟨⟨⟨hl, h1, h2, h3⟩, hrolls⟩, ?_⟩
          simp only [ReplState.printError, ReplState.println, ReplState.print, hqc]
          exact .noQueue _
        | some old =>
          dsimp only
          cases hp : parseDice env.isPrint args with
          | panic m =>
            refine ⟨⟨⟨hl, h1, h2, h3⟩, hrolls⟩, ?_⟩
            dsimp only; rw [hqc]
            exact .badQueue _ _ (by rw [hp]; simp)
          | err e =>
            refine ⟨⟨⟨hl, h1, h2, h3⟩, hrolls⟩, ?_⟩
            simp only [ReplState.printError, ReplState.println, ReplState.print, hqc]
            exact .badQueue _ _ (by rw [hp]; simp)
          | ok ds =>
            rcases (queueContents_eq r _ hl).1 hqc with ⟨q, hq1, hq2⟩ | ⟨s, hq1, -⟩
            · have hq2 : r.heap[r.dieFeeder]? = some (.queue q) := hq2
              refine ⟨⟨⟨?_, h1, h2, h3⟩, hrolls⟩, ?_⟩
              · simp only [ReplState.printOK, ReplState.println, ReplState.print, setQueueObj_eq hq2]
                simpa using hl
              · simp only [ReplState.printOK, ReplState.println, ReplState.print]
                have : queueContents (setQueueObj r.heap r.dieFeeder ds) r.dieFeeder = some ds := by
                  rw [setQueueObj_eq hq2]
                  simp [queueContents, hl, queueDice]
                rw [this]
                exact .setQueue _ _ _ hp
            · simp at hq1

theorem Asks.text_length {ev : ReadEvent ρ} {req : ReplRequest} (h : Asks ev req) :
    req.text.length ≤ ev.line.length := by
  have ht := (trimSpace_sublist ev.line).length_le
  cases h with
  | nothing => simp [ReplRequest.text]
  | leave => simp [ReplRequest.text]
  | evaluate => exact ht
  | command h args hi hc =>
    refine Nat.le_trans ?_ ht
    cases hc with
    | bare rest h1 ha hr => simp [ReplRequest.text, ha]
    | blanks sp h1 hs hb ha => rw [h1]; simp [ReplRequest.text]; omega

end GoBCDice
