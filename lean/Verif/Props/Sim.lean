import Verif.Lemmas.Sim
import Verif.Props.Repl

/-!
# C62, C63: the result depends on the dice only; what the interactive tool prints
-/

namespace GoBCDice

variable {ρ : Type}

/-- C62: `ExecuteCommand` sees nothing of the feeder but its answers: with two feeders (of whatever
kind) that answer alike, any command gives the same outcome — the same message, dice and checks, the
same error or the same panic — and the feeders still answer alike afterwards. -/
theorem C62_answers_only {σ τ : Type} {R : σ → τ → Prop} {F : DieFeeder σ} {G : DieFeeder τ}
    (h : AnswerAlike F G R) {b : DiceBot σ} {b' : DiceBot τ} (hb : BotsAlike b b' R) (input : Str)
    {s : σ} {t : τ} (hr : R s t) :
    (executeCommand F b input s).1 = (executeCommand G b' input t).1 ∧
      R (executeCommand F b input s).2 (executeCommand G b' input t).2 :=
  executeCommand_alike h hb input hr

/-- C62 for the basic game system, whose bots are alike. -/
theorem C62_basic {σ τ : Type} {R : σ → τ → Prop} {F : DieFeeder σ} {G : DieFeeder τ}
    (h : AnswerAlike F G R) (usage input : Str) {s : σ} {t : τ} (hr : R s t) :
    (executeCommand F (basicBot usage) input s).1 = (executeCommand G (basicBot usage) input t).1 ∧
      R (executeCommand F (basicBot usage) input s).2 (executeCommand G (basicBot usage) input t).2 :=
  executeCommand_alike h (basicBot_alike usage) input hr

/-- C62 for the roller. -/
theorem C62_roller {σ τ : Type} {R : σ → τ → Prop} {F : DieFeeder σ} {G : DieFeeder τ}
    (h : AnswerAlike F G R) (num sides : Int64) {s : σ} {t : τ} (hr : R s t) :
    (rollDice F num sides s).1 = (rollDice G num sides t).1 ∧
      R (rollDice F num sides s).2 (rollDice G num sides t).2 :=
  rollDice_alike h num sides hr

/-- A feeder that reads dice out of a table by a running number, for the example below. -/
def tableFeeder (table : Nat → Option Die) : DieFeeder Nat where
  next n _ :=
    match table n with
    | some d => (.ok d, n + 1)
    | none => (.err queueEmptyMsg, n)

/-- Non-vacuity of C62: a table and a queue with the same dice answer alike. -/
example (ds : List Die) :
    AnswerAlike (tableFeeder (fun n => ds[n]?)) queueFeeder (fun n q => q = ds.drop n) := by
  rintro n q k rfl
  show ((tableFeeder _).next n k).1 = (queueNext (ds.drop n) k).1 ∧
    (queueNext (ds.drop n) k).2 = ds.drop ((tableFeeder _).next n k).2
  simp only [tableFeeder]
  cases hd : ds.drop n with
  | nil =>
    have : ds[n]? = none := by
      have := congrArg List.length hd
      simp at this
      simp; omega
    simp [this, queueNext, hd]
  | cons d q =>
    have h1 : ds[n]? = some d := by
      have := congrArg List.head? hd
      simpa [List.head?_drop] using this
    have h2 : ds.drop (n + 1) = q := by rw [← List.drop_drop, hd]; rfl
    simp [h1, h2, queueNext]

/-! ## C63 -/

theorem ref_alike_queue (rng : Rng ρ) {ref : Nat} {h0 : FeederHeap ρ} (hl : ref < h0.length) :
    AnswerAlike (refFeeder rng ref) queueFeeder (fun h q => h = h0.set ref (.queue q)) := by
  rintro h q k rfl
  have : (h0.set ref (.queue q))[ref]? = some (.queue q) := by simp [hl]
  simp only [refFeeder, this, queueFeeder]
  cases hq : queueNext q k with
  | mk o q' => simp

theorem ref_alike_mt (rng : Rng ρ) {ref : Nat} {h0 : FeederHeap ρ} (hl : ref < h0.length) :
    AnswerAlike (refFeeder rng ref) (mtFeeder rng) (fun h s => h = h0.set ref (.mt s)) := by
  rintro h q k rfl
  have : (h0.set ref (.mt q))[ref]? = some (.mt q) := by simp [hl]
  simp only [refFeeder, this, List.set_set]
  exact ⟨trivial, trivial⟩

/-- The text printed for an evaluated line: the outcome of the command, after the arrow (and the mark
of a secret roll), or its error in red. -/
def evalText (secret : Bool) : Out Result → Str
  | .ok r => chars!"\x1b[36m=>\x1b[0m " ++ (if secret then chars!"\x1b[33m[secret]\x1b[0m " else []) ++
      r.message ++ chars!"\n"
  | .err e => chars!"\x1b[31m" ++ e ++ chars!"\x1b[0m\n"
  | .panic _ => []

/-- The text printed for `.roll`. -/
def rollText : Out (List Die) → Str
  | .ok ds => chars!"\x1b[36m=>\x1b[0m " ++ formatDice ds ++ chars!"\n"
  | .err e => chars!"\x1b[31m" ++ e ++ chars!"\x1b[0m\n"
  | .panic _ => []

/-- The tool goes on, unless the outcome is a panic. -/
def goesOn {α : Type} : Out α → LoopStatus
  | .panic m => .crashed m
  | _ => .running

theorem repo_game (env : ReplEnv ρ) (henv : env.reg = repoRegistry) (seed : ρ)
    (evs : List (ReadEvent ρ)) (hev : ∀ ev ∈ evs, ev.Ok) (r : ReplState ρ)
    (h : startRepl env seed evs = (.running, r)) : r.bcDice.bot = basicBot env.usage := by
  obtain ⟨ids, hids⟩ := C60_games_total evs hev
  rw [C60_game env (repoEnv_rollsOnly env henv) seed evs hev r h ids hids, henv]
  clear hids
  unfold selectAll
  have h1 : ∀ (b : DiceBot (FeederHeap ρ)) id, b = basicBot env.usage →
      (setDiceBotByGameID env.usage repoRegistry b id).2 = basicBot env.usage := by
    rintro b id rfl
    unfold setDiceBotByGameID findBot
    split
    · rename_i h; split at h <;> simp_all [repoRegistry]
    · rfl
    · rfl
  suffices ∀ b : DiceBot (FeederHeap ρ), b = basicBot env.usage →
      ids.foldl (fun b id => (setDiceBotByGameID env.usage repoRegistry b id).2) b =
        basicBot env.usage from this _ rfl
  induction ids with
  | nil => exact fun b hb => hb
  | cons id ids ih => exact fun b hb => ih _ (h1 b id hb)

/-- A leading `s` or `S` marks a secret roll and is not part of the command. -/
def SplitsSecret (text command : Str) (secret : Bool) : Prop :=
  (secret = true ∧ (text = 's' :: command ∨ text = 'S' :: command)) ∨
  (secret = false ∧ command = text ∧ text.head? ≠ some 's' ∧ text.head? ≠ some 'S')

theorem checkSecret_of_splits {text command : Str} {secret : Bool} (h : SplitsSecret text command secret) :
    checkSecret text = (command, secret) := by
  rcases h with ⟨rfl, rfl | rfl⟩ | ⟨rfl, rfl, h1, h2⟩
  · rfl
  · rfl
  · cases command with
    | nil => rfl
    | cons c s => simp_all [checkSecret]

theorem heap_set_eq {r : ReplState ρ} {x : FeederObj ρ} (h : r.feeder = some x) :
    r.heap = r.heap.set r.dieFeeder x := by
  obtain ⟨hl, he⟩ := List.getElem?_eq_some_iff.1 h
  rw [← he]; simp

theorem eval_queue (env : ReplEnv ρ) {r : ReplState ρ} (hr : r.OneFeeder)
    (hb : r.bcDice.bot = basicBot env.usage) {ds : List Die} (hq : r.feeder = some (.queue ds))
    (c : ReplCommand) {t cmd : Str} {secret : Bool} (ht : t ≠ []) (hs : SplitsSecret t cmd secret) :
    (statusOf (replEval env r c t).1, (replEval env r c t).2) =
      (goesOn (executeCommand queueFeeder (basicBot env.usage) cmd ds).1,
       { r with out := r.out ++
          evalText secret (executeCommand queueFeeder (basicBot env.usage) cmd ds).1 }) := by
  obtain ⟨hl, h1, h2, h3⟩ := hr
  have hx := C62_basic (ref_alike_queue env.rng hl) env.usage cmd (heap_set_eq hq)
  have hc : queueContents r.heap r.dieFeeder = some ds :=
    (queueContents_eq r _ hl).2 (.inl ⟨ds, rfl, hq⟩)
  simp only [replEval, if_neg ht, checkSecret_of_splits hs, h3, hb, hc]
  generalize executeCommand (refFeeder env.rng r.dieFeeder) (basicBot env.usage) cmd r.heap = x at hx
  generalize executeCommand queueFeeder (basicBot env.usage) cmd ds = y at hx
  obtain ⟨o, h'⟩ := x
  obtain ⟨o', ds'⟩ := y
  dsimp only at hx
  obtain ⟨rfl, rfl⟩ := hx
  have hset : setQueueObj (r.heap.set r.dieFeeder (.queue ds')) r.dieFeeder ds = r.heap := by
    rw [setQueueObj_eq (q := ds') (by simp [hl])]
    simp only [List.set_set]
    exact (heap_set_eq hq).symm
  cases o with
  | panic m => simp [ReplState.restore, goesOn, statusOf, evalText, hset]
  | err e =>
    simp [ReplState.restore, goesOn, statusOf, evalText, hset, ReplState.printError,
      ReplState.println, ReplState.print, escRed, escReset]
  | ok res =>
    cases secret <;>
    simp [ReplState.restore, goesOn, statusOf, evalText, hset, resultHeader, secretHeader,
      ReplState.println, ReplState.print, escCyan, escYellow, escReset]

theorem eval_random (env : ReplEnv ρ) {r : ReplState ρ} (hr : r.OneFeeder)
    (hb : r.bcDice.bot = basicBot env.usage) {s : ρ} (hq : r.feeder = some (.mt s))
    (c : ReplCommand) {t cmd : Str} {secret : Bool} (ht : t ≠ []) (hs : SplitsSecret t cmd secret) :
    (statusOf (replEval env r c t).1, (replEval env r c t).2) =
      (goesOn (executeCommand (mtFeeder env.rng) (basicBot env.usage) cmd s).1,
       { r with
          heap := r.heap.set r.dieFeeder
            (.mt (executeCommand (mtFeeder env.rng) (basicBot env.usage) cmd s).2)
          out := r.out ++
            evalText secret (executeCommand (mtFeeder env.rng) (basicBot env.usage) cmd s).1 }) := by
  obtain ⟨hl, h1, h2, h3⟩ := hr
  have hx := C62_basic (ref_alike_mt env.rng hl) env.usage cmd (heap_set_eq hq)
  have hc : queueContents r.heap r.dieFeeder = none :=
    (queueContents_eq r _ hl).2 (.inr ⟨s, rfl, hq⟩)
  simp only [replEval, if_neg ht, checkSecret_of_splits hs, h3, hb, hc]
  generalize executeCommand (refFeeder env.rng r.dieFeeder) (basicBot env.usage) cmd r.heap = x at hx
  generalize executeCommand (mtFeeder env.rng) (basicBot env.usage) cmd s = y at hx
  obtain ⟨o, h'⟩ := x
  obtain ⟨o', ds'⟩ := y
  dsimp only at hx
  obtain ⟨rfl, rfl⟩ := hx
  cases o with
  | panic m => simp [ReplState.restore, goesOn, statusOf, evalText]
  | err e =>
    simp [ReplState.restore, goesOn, statusOf, evalText, ReplState.printError,
      ReplState.println, ReplState.print, escRed, escReset]
  | ok res =>
    cases secret <;>
    simp [ReplState.restore, goesOn, statusOf, evalText, resultHeader, secretHeader,
      ReplState.println, ReplState.print, escCyan, escYellow, escReset]

/-- A line asks to evaluate a text: it is not a command line, or it is `.eval` with that text. -/
def AsksEval (ev : ReadEvent ρ) (t : Str) : Prop := Asks ev (.evaluate t) ∨ Asks ev (.command .eval t)

theorem eval_step (env : ReplEnv ρ) (r : ReplState ρ) {ev : ReadEvent ρ} (hok : ev.Ok) {t : Str}
    (ha : AsksEval ev t) :
    replStep env r ev = (statusOf (replEval env r evalCmd t).1, (replEval env r evalCmd t).2) := by
  rcases ha with ha | ha
  · exact step_perform env r ev hok.1 ha
  · rw [step_perform env r ev hok.1 ha]; rfl

/-- C63, manual dice: after any history, a line to evaluate prints what `ExecuteCommand` answers on
the dice set, and nothing else changes. -/
theorem C63_eval_queue (env : ReplEnv ρ) (henv : env.reg = repoRegistry) (seed : ρ)
    (evs : List (ReadEvent ρ)) (hev : ∀ ev ∈ evs, ev.Ok) (r : ReplState ρ)
    (h : startRepl env seed evs = (.running, r)) (ds : List Die)
    (hq : r.feeder = some (.queue ds)) (ev : ReadEvent ρ) (hok : ev.Ok) (t cmd : Str) (secret : Bool)
    (ha : AsksEval ev t) (ht : t ≠ []) (hs : SplitsSecret t cmd secret) :
    replStep env r ev =
      (goesOn (executeCommand queueFeeder (basicBot env.usage) cmd ds).1,
       { r with out := r.out ++
          evalText secret (executeCommand queueFeeder (basicBot env.usage) cmd ds).1 }) := by
  have hone := C46_one_feeder env (repoEnv_rollsOnly env henv) seed evs hev
  rw [h] at hone
  rw [eval_step env r hok ha]
  exact eval_queue env hone (repo_game env henv seed evs hev r h) hq evalCmd ht hs

/-- C63, random dice: a line to evaluate prints what `ExecuteCommand` answers with the generator, and
only the generator advances. -/
theorem C63_eval_random (env : ReplEnv ρ) (henv : env.reg = repoRegistry) (seed : ρ)
    (evs : List (ReadEvent ρ)) (hev : ∀ ev ∈ evs, ev.Ok) (r : ReplState ρ)
    (h : startRepl env seed evs = (.running, r)) (s : ρ)
    (hq : r.feeder = some (.mt s)) (ev : ReadEvent ρ) (hok : ev.Ok) (t cmd : Str) (secret : Bool)
    (ha : AsksEval ev t) (ht : t ≠ []) (hs : SplitsSecret t cmd secret) :
    replStep env r ev =
      (goesOn (executeCommand (mtFeeder env.rng) (basicBot env.usage) cmd s).1,
       { r with
          heap := r.heap.set r.dieFeeder
            (.mt (executeCommand (mtFeeder env.rng) (basicBot env.usage) cmd s).2)
          out := r.out ++
            evalText secret (executeCommand (mtFeeder env.rng) (basicBot env.usage) cmd s).1 }) := by
  have hone := C46_one_feeder env (repoEnv_rollsOnly env henv) seed evs hev
  rw [h] at hone
  rw [eval_step env r hok ha]
  exact eval_random env hone (repo_game env henv seed evs hev r h) hq evalCmd ht hs

/-- C63: an empty line (or `.eval` alone) prints the usage of `.eval`. -/
theorem C63_eval_empty (env : ReplEnv ρ) (r : ReplState ρ) (ev : ReadEvent ρ) (hok : ev.Ok)
    (ha : AsksEval ev []) :
    replStep env r ev = (.running, { r with out := r.out ++ chars!"使用法: .eval BCDiceコマンド\n" }) := by
  rw [eval_step env r hok ha]; rfl

/-! ### `.roll` -/

/-- The arguments of `.roll`: a decimal number of dice, blanks, a decimal number of sides. -/
def RollArgs (args : Str) (num sides : Int64) : Prop :=
  ∃ a sp b, args = a ++ sp ++ b ∧ a ≠ [] ∧ sp ≠ [] ∧ b ≠ [] ∧ (∀ c ∈ a, isDigit c = true) ∧
    (∀ c ∈ sp, Blank c) ∧ (∀ c ∈ b, isDigit c = true) ∧
    num.toInt = min (decimal a) (2 ^ 63 - 1 : Nat) ∧ sides.toInt = min (decimal b) (2 ^ 63 - 1 : Nat)

theorem matchRoll_iff (args a b : Str) : matchRoll args = some (a, b) ↔
    ∃ sp, args = a ++ sp ++ b ∧ a ≠ [] ∧ sp ≠ [] ∧ b ≠ [] ∧ (∀ c ∈ a, isDigit c = true) ∧
    (∀ c ∈ sp, Blank c) ∧ (∀ c ∈ b, isDigit c = true) := by
  have nd : ∀ c, isReSpace c = true → isDigit c = false := by
    intro c hc
    rcases (isReSpace_blank c).1 hc with rfl | rfl | rfl | rfl | rfl <;> rfl
  constructor
  · intro h
    unfold matchRoll at h
    dsimp only at h
    split at h
    · rename_i hc
      obtain ⟨h1, h2, h3, h4⟩ := hc
      cases h
      refine ⟨(args.dropWhile isDigit).takeWhile isReSpace, ?_, h1, h2, h3, ?_, ?_, ?_⟩
      · rw [List.append_assoc, List.takeWhile_append_dropWhile, List.takeWhile_append_dropWhile]
      · intro c hc; exact List.all_eq_true.1 (List.all_takeWhile (l := args) (p := isDigit)) c hc
      · intro c hc
        exact (isReSpace_blank c).1 (List.all_eq_true.1 (List.all_takeWhile (p := isReSpace)) c hc)
      · exact List.all_eq_true.1 h4
    · cases h
  · rintro ⟨sp, rfl, h1, h2, h3, ha, hs, hb⟩
    have hs' : ∀ c ∈ sp, isReSpace c = true := fun c hc => (isReSpace_blank c).2 (hs c hc)
    have e1 : (a ++ sp ++ b).takeWhile isDigit = a ∧ (a ++ sp ++ b).dropWhile isDigit = sp ++ b := by
      rw [List.append_assoc, List.takeWhile_append_of_pos ha, List.dropWhile_append_of_pos ha]
      cases sp with
      | nil => exact absurd rfl h2
      | cons c sp =>
        have := nd c (hs' c (by simp))
        simp [this]
    have e2 : (sp ++ b).takeWhile isReSpace = sp ∧ (sp ++ b).dropWhile isReSpace = b := by
      rw [List.takeWhile_append_of_pos hs', List.dropWhile_append_of_pos hs']
      cases b with
      | nil => exact absurd rfl h3
      | cons c b =>
        have : isReSpace c = false := by
          cases hx : isReSpace c with
          | false => rfl
          | true => have := nd c hx; rw [hb c (by simp)] at this; cases this
        simp [this]
    unfold matchRoll
    simp only [e1.1, e1.2, e2.1, e2.2]
    rw [if_pos ⟨h1, h2, h3, List.all_eq_true.2 hb⟩]

theorem rollArgs_iff (args : Str) (num sides : Int64) : RollArgs args num sides ↔
    ∃ a b, matchRoll args = some (a, b) ∧ num = atoiSat a ∧ sides = atoiSat b := by
  constructor
  · rintro ⟨a, sp, b, h, h1, h2, h3, ha, hs, hb, e1, e2⟩
    refine ⟨a, b, (matchRoll_iff args a b).2 ⟨sp, h, h1, h2, h3, ha, hs, hb⟩, ?_, ?_⟩
    · exact Int64.toInt_inj.1 (by rw [e1, atoiSat_toInt])
    · exact Int64.toInt_inj.1 (by rw [e2, atoiSat_toInt])
  · rintro ⟨a, b, hm, rfl, rfl⟩
    obtain ⟨sp, h, h1, h2, h3, ha, hs, hb⟩ := (matchRoll_iff args a b).1 hm
    exact ⟨a, sp, b, h, h1, h2, h3, ha, hs, hb, atoiSat_toInt a, atoiSat_toInt b⟩

/-- C63: `.roll` with manual dice prints the dice the roller takes from the queue set, and nothing
else changes. -/
theorem C63_roll_queue (env : ReplEnv ρ) (henv : env.RollsOnly) (seed : ρ)
    (evs : List (ReadEvent ρ)) (hev : ∀ ev ∈ evs, ev.Ok) (r : ReplState ρ)
    (h : startRepl env seed evs = (.running, r)) (ds : List Die)
    (hq : r.feeder = some (.queue ds)) (ev : ReadEvent ρ) (hok : ev.Ok) (args : Str)
    (num sides : Int64) (ha : Asks ev (.command .roll args)) (hargs : RollArgs args num sides) :
    replStep env r ev =
      (goesOn (rollDice queueFeeder num sides ds).1,
       { r with out := r.out ++ rollText (rollDice queueFeeder num sides ds).1 }) := by
  have hone := C46_one_feeder env henv seed evs hev
  rw [h] at hone
  obtain ⟨hl, h1, h2, h3⟩ := hone
  dsimp only at hl h1 h2 h3
  obtain ⟨a, b, hm, rfl, rfl⟩ := (rollArgs_iff _ _ _).1 hargs
  have hx := C62_roller (ref_alike_queue env.rng hl) (atoiSat a) (atoiSat b) (heap_set_eq hq)
  have hc : queueContents r.heap r.dieFeeder = some ds :=
    (queueContents_eq r _ hl).2 (.inl ⟨ds, rfl, hq⟩)
  rw [step_perform env r ev hok.1 ha]
  simp only [perform, runHandler, cmd_handler, replRoll, hm, hc, h1]
  generalize rollDice (refFeeder env.rng r.dieFeeder) (atoiSat a) (atoiSat b) r.heap = x at hx
  generalize rollDice queueFeeder (atoiSat a) (atoiSat b) ds = y at hx
  obtain ⟨o, h'⟩ := x
  obtain ⟨o', ds'⟩ := y
  dsimp only at hx
  obtain ⟨rfl, rfl⟩ := hx
  have hset : setQueueObj (r.heap.set r.dieFeeder (.queue ds')) r.dieFeeder ds = r.heap := by
    rw [setQueueObj_eq (q := ds') (by simp [hl])]
    simp only [List.set_set]
    exact (heap_set_eq hq).symm
  cases o <;>
    simp [ReplState.restore, goesOn, statusOf, rollText, hset, resultHeader, escCyan,
      ReplState.printError, ReplState.println, ReplState.print, escRed, escReset]

/-- C63: `.roll` with random dice. -/
theorem C63_roll_random (env : ReplEnv ρ) (henv : env.RollsOnly) (seed : ρ)
    (evs : List (ReadEvent ρ)) (hev : ∀ ev ∈ evs, ev.Ok) (r : ReplState ρ)
    (h : startRepl env seed evs = (.running, r)) (s : ρ)
    (hq : r.feeder = some (.mt s)) (ev : ReadEvent ρ) (hok : ev.Ok) (args : Str)
    (num sides : Int64) (ha : Asks ev (.command .roll args)) (hargs : RollArgs args num sides) :
    replStep env r ev =
      (goesOn (rollDice (mtFeeder env.rng) num sides s).1,
       { r with
          heap := r.heap.set r.dieFeeder (.mt (rollDice (mtFeeder env.rng) num sides s).2)
          out := r.out ++ rollText (rollDice (mtFeeder env.rng) num sides s).1 }) := by
  have hone := C46_one_feeder env henv seed evs hev
  rw [h] at hone
  obtain ⟨hl, h1, h2, h3⟩ := hone
  dsimp only at hl h1 h2 h3
  obtain ⟨a, b, hm, rfl, rfl⟩ := (rollArgs_iff _ _ _).1 hargs
  have hx := C62_roller (ref_alike_mt env.rng hl) (atoiSat a) (atoiSat b) (heap_set_eq hq)
  have hc : queueContents r.heap r.dieFeeder = none :=
    (queueContents_eq r _ hl).2 (.inr ⟨s, rfl, hq⟩)
  rw [step_perform env r ev hok.1 ha]
  simp only [perform, runHandler, cmd_handler, replRoll, hm, hc, h1]
  generalize rollDice (refFeeder env.rng r.dieFeeder) (atoiSat a) (atoiSat b) r.heap = x at hx
  generalize rollDice (mtFeeder env.rng) (atoiSat a) (atoiSat b) s = y at hx
  obtain ⟨o, h'⟩ := x
  obtain ⟨o', ds'⟩ := y
  dsimp only at hx
  obtain ⟨rfl, rfl⟩ := hx
  cases o <;>
    simp [ReplState.restore, goesOn, statusOf, rollText, resultHeader, escCyan,
      ReplState.printError, ReplState.println, ReplState.print, escRed, escReset]

/-- C63: any other arguments of `.roll` print its usage. -/
theorem C63_roll_usage (env : ReplEnv ρ) (r : ReplState ρ) (ev : ReadEvent ρ) (hok : ev.Ok)
    (args : Str) (ha : Asks ev (.command .roll args))
    (hargs : ¬ ∃ num sides, RollArgs args num sides) :
    replStep env r ev = (.running, { r with out := r.out ++ chars!"使用法: .roll 振る数 面の数\n" }) := by
  have hm : matchRoll args = none := by
    cases hm : matchRoll args with
    | none => rfl
    | some p => exact absurd ⟨_, _, (rollArgs_iff _ _ _).2 ⟨p.1, p.2, hm, rfl, rfl⟩⟩ hargs
  rw [step_perform env r ev hok.1 ha]
  simp only [perform, runHandler, cmd_handler, replRoll, hm]
  rfl

/-- C63: `.ast` prints the tree of the command, or an error in red when there is none. -/
theorem C63_ast (env : ReplEnv ρ) (r : ReplState ρ) (ev : ReadEvent ρ) (hok : ev.Ok)
    (args cmd : Str) (secret : Bool) (ha : Asks ev (.command .ast args)) (hne : args ≠ [])
    (hs : SplitsSecret args cmd secret) :
    (∀ node, CommandText cmd node → replStep env r ev = (.running, { r with out := r.out ++
      (chars!"\x1b[36m=>\x1b[0m " ++ (if secret then chars!"\x1b[33m[secret]\x1b[0m " else []) ++
        node.sexp env.isPrint ++ chars!"\n") })) ∧
    ((¬ ∃ node, CommandText cmd node) → ∃ msg, replStep env r ev = (.running, { r with out := r.out ++
      (chars!"\x1b[31m" ++ msg ++ chars!"\x1b[0m\n") })) := by
  rw [step_perform env r ev hok.1 ha]
  simp only [perform, runHandler, cmd_handler, replAst, if_neg hne, checkSecret_of_splits hs]
  constructor
  · intro node hn
    rw [(parse_iff _ _).2 hn]
    cases secret <;>
    simp [statusOf, resultHeader, secretHeader, ReplState.println, ReplState.print, escCyan, escYellow,
      escReset]
  · intro hn
    have : parse cmd = none := by
      cases hp : parse cmd with
      | none => rfl
      | some node => exact absurd ⟨node, (parse_iff _ _).1 hp⟩ hn
    rw [this]
    exact ⟨parseErrorText chars!"REPL" cmd, by
      simp [statusOf, ReplState.printError, ReplState.println, ReplState.print, escRed, escReset]⟩

set_option maxRecDepth 20000 in
/-- Non-vacuity of C63: in the sample session with manual dice `.roll 2 6` is understood and shows
the dice set; a secret evaluation is split. -/
example : RollArgs chars!"2 6" 2 6 ∧ SplitsSecret chars!"s2d6" chars!"2d6" true ∧
    Asks (sampleLine chars!".roll 2 6") (.command .roll chars!"2 6") ∧
    rollText (rollDice queueFeeder 2 6 [⟨3, 6⟩, ⟨4, 6⟩]).1 =
      chars!"\x1b[36m=>\x1b[0m 3/6, 4/6\n" := by
  refine ⟨(rollArgs_iff _ _ _).2 ⟨chars!"2", chars!"6", by decide, by decide, by decide⟩,
    .inl ⟨rfl, .inl rfl⟩, ?_, by decide⟩
  refine .command .roll _ (by simp [sampleLine]) (.blanks chars!" " (by decide) (by simp) ?_ ?_)
  · intro c hc; simp at hc; subst hc; simp [Blank]
  · intro c hc; simp at hc; subst hc; simp [Blank]

end GoBCDice
