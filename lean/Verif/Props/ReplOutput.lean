import Verif.Props.Sim
import Verif.Props.Testcase

/-!
# C47 (crashes), C63 (the remaining commands of the interactive tool)
-/

namespace GoBCDice

variable {ρ : Type}

/-! ## Crashes -/

/-- The read `ev`, with the feeder object `x` in use, makes a Go function called by the tool panic
with message `m`: the evaluation of a command, or a roll. -/
inductive Panics (env : ReplEnv ρ) : FeederObj ρ → ReadEvent ρ → Str → Prop where
  | evalQueue {ds ev t cmd secret m} : AsksEval ev t → t ≠ [] → SplitsSecret t cmd secret →
      (executeCommand queueFeeder (basicBot env.usage) cmd ds).1 = .panic m →
      Panics env (.queue ds) ev m
  | evalRandom {s ev t cmd secret m} : AsksEval ev t → t ≠ [] → SplitsSecret t cmd secret →
      (executeCommand (mtFeeder env.rng) (basicBot env.usage) cmd s).1 = .panic m →
      Panics env (.mt s) ev m
  | rollQueue {ds ev args num sides m} : Asks ev (.command .roll args) → RollArgs args num sides →
      (rollDice queueFeeder num sides ds).1 = .panic m → Panics env (.queue ds) ev m
  | rollRandom {s ev args num sides m} : Asks ev (.command .roll args) → RollArgs args num sides →
      (rollDice (mtFeeder env.rng) num sides s).1 = .panic m → Panics env (.mt s) ev m

theorem splitsSecret_total (t : Str) : ∃ cmd secret, SplitsSecret t cmd secret := by
  cases t with
  | nil => exact ⟨[], false, .inr ⟨rfl, rfl, by simp, by simp⟩⟩
  | cons c t =>
    by_cases h1 : c = 's'
    · exact ⟨t, true, .inl ⟨rfl, .inl (by rw [h1])⟩⟩
    by_cases h2 : c = 'S'
    · exact ⟨t, true, .inl ⟨rfl, .inr (by rw [h2])⟩⟩
    · exact ⟨c :: t, false, .inr ⟨rfl, rfl, by simpa using h1, by simpa using h2⟩⟩

theorem goesOn_crashed {α : Type} {o : Out α} {m : Str} (h : goesOn o = .crashed m) : o = .panic m := by
  cases o <;> simp_all [goesOn]

theorem crash_split (env : ReplEnv ρ) (m : Str) (evs : List (ReadEvent ρ)) :
    ∀ r : ReplState ρ, (replLoop env r evs).1 = .crashed m →
      ∃ pre ev post r', evs = pre ++ ev :: post ∧ replLoop env r pre = (.running, r') ∧
        (replStep env r' ev).1 = .crashed m := by
  induction evs with
  | nil => intro r h; simp only [replLoop] at h; split at h <;> simp at h
  | cons ev evs ih =>
    intro r h
    by_cases ht : r.terminated = true
    · simp [replLoop, ht] at h
    have ht : r.terminated = false := by simpa using ht
    cases hs : replStep env r ev with
    | mk st r1 =>
      cases st with
      | running =>
        rw [loop_cons env ht hs] at h
        obtain ⟨pre, ev', post, r', rfl, h1, h2⟩ := ih r1 h
        exact ⟨ev :: pre, ev', post, r', rfl, by rw [loop_cons env ht hs]; exact h1, h2⟩
      | exited => simp [replLoop, ht, hs] at h
      | crashed m' =>
        simp [replLoop, ht, hs] at h
        exact ⟨[], ev, evs, r, rfl, loop_nil env ht, by rw [hs, h]⟩

theorem step_origin (env : ReplEnv ρ) (r : ReplState ρ) (ev : ReadEvent ρ) (hok : ev.Ok) (m : Str)
    (h : (replStep env r ev).1 = .crashed m) :
    (∃ t, AsksEval ev t) ∨ ∃ args, Asks ev (.command .roll args) := by
  obtain ⟨req, ha⟩ := asks_total ev hok.1
  rw [step_perform env r ev hok.1 ha] at h
  cases req with
  | nothing => simp [perform] at h
  | leave => simp [perform] at h
  | evaluate t => exact .inl ⟨t, .inl ha⟩
  | command hd args =>
    simp only [perform, runHandler, cmd_handler] at h
    cases hd with
    | eval => exact .inl ⟨args, .inr ha⟩
    | roll => exact .inr ⟨args, ha⟩
    | setDiceQueue =>
      exfalso
      simp only [replSetDiceQueue] at h
      split at h
      · simp [statusOf] at h
      · split at h
        · rename_i hp
          unfold parseDice at hp
          split at hp
          · simp at hp
          · exact parseDiceItems_no_panic _ _ _ _ _ hp
        · simp [statusOf] at h
        · simp [statusOf] at h
    | _ => simp [statusOf] at h

/-- C47: the tool crashes exactly when, while it is running, a command it evaluates or a roll it
makes panics on the feeder in use; the panic is neither caught nor caused by anything else. -/
theorem C47_crash_iff (env : ReplEnv ρ) (henv : env.reg = repoRegistry) (seed : ρ)
    (evs : List (ReadEvent ρ)) (hev : ∀ ev ∈ evs, ev.Ok) (m : Str) :
    (startRepl env seed evs).1 = .crashed m ↔
      ∃ pre ev post r x, evs = pre ++ ev :: post ∧ startRepl env seed pre = (.running, r) ∧
        r.feeder = some x ∧ Panics env x ev m := by
  have hro := repoEnv_rollsOnly env henv
  constructor
  · intro h
    obtain ⟨pre, ev, post, r, rfl, h1, h2⟩ := crash_split env m evs _ h
    have h1 : startRepl env seed pre = (.running, r) := h1
    have hpre : ∀ e ∈ pre, e.Ok := fun e he => hev e (by simp [he])
    have hok : ev.Ok := hev ev (by simp)
    have hone := C46_one_feeder env hro seed pre hpre
    rw [h1] at hone
    obtain ⟨x, hx⟩ : ∃ x, r.feeder = some x := by
      unfold ReplState.feeder
      exact ⟨_, List.getElem?_eq_getElem hone.1⟩
    refine ⟨pre, ev, post, r, x, rfl, h1, hx, ?_⟩
    rcases step_origin env r ev hok m h2 with ⟨t, ha⟩ | ⟨args, ha⟩
    · by_cases ht : t = []
      · subst ht; rw [C63_eval_empty env r ev hok ha] at h2; simp at h2
      obtain ⟨cmd, secret, hs⟩ := splitsSecret_total t
      cases x with
      | queue ds =>
        rw [C63_eval_queue env henv seed pre hpre r h1 ds hx ev hok t cmd secret ha ht hs] at h2
        exact .evalQueue ha ht hs (goesOn_crashed h2)
      | mt s =>
        rw [C63_eval_random env henv seed pre hpre r h1 s hx ev hok t cmd secret ha ht hs] at h2
        exact .evalRandom ha ht hs (goesOn_crashed h2)
    · by_cases hra : ∃ num sides, RollArgs args num sides
      · obtain ⟨num, sides, hra⟩ := hra
        cases x with
        | queue ds =>
          rw [C63_roll_queue env hro seed pre hpre r h1 ds hx ev hok args num sides ha hra] at h2
          exact .rollQueue ha hra (goesOn_crashed h2)
        | mt s =>
          rw [C63_roll_random env hro seed pre hpre r h1 s hx ev hok args num sides ha hra] at h2
          exact .rollRandom ha hra (goesOn_crashed h2)
      · rw [C63_roll_usage env r ev hok args ha hra] at h2
        simp at h2
  · rintro ⟨pre, ev, post, r, x, rfl, h1, hx, hp⟩
    have hpre : ∀ e ∈ pre, e.Ok := fun e he => hev e (by simp [he])
    have hok : ev.Ok := hev ev (by simp)
    have hstep : (replStep env r ev).1 = .crashed m := by
      cases hp with
      | evalQueue ha ht hs ho =>
        rw [C63_eval_queue env henv seed pre hpre r h1 _ hx ev hok _ _ _ ha ht hs, ho]; rfl
      | evalRandom ha ht hs ho =>
        rw [C63_eval_random env henv seed pre hpre r h1 _ hx ev hok _ _ _ ha ht hs, ho]; rfl
      | rollQueue ha hra ho =>
        rw [C63_roll_queue env hro seed pre hpre r h1 _ hx ev hok _ _ _ ha hra, ho]; rfl
      | rollRandom ha hra ho =>
        rw [C63_roll_random env hro seed pre hpre r h1 _ hx ev hok _ _ _ ha hra, ho]; rfl
    have hrun : (startRepl env seed pre).1 = .running := by rw [h1]
    have ht : (startRepl env seed pre).2.terminated = false := running_not_terminated env _ pre hrun
    have h3 : startRepl env seed (pre ++ ev :: post) =
        replLoop env (startRepl env seed pre).2 (ev :: post) := loop_append env _ pre _ hrun
    rw [h3]
    rw [h1] at ht ⊢
    dsimp only at ht ⊢
    cases hs : replStep env r ev with
    | mk st r' =>
      rw [hs] at hstep
      dsimp only at hstep
      subst hstep
      simp [replLoop, ht, hs]

set_option maxRecDepth 20000 in
/-- Non-vacuity of C47_crash_iff: with manual dice holding a die out of range, a choice panics and
the tool crashes. -/
example : ∃ m, (startRepl sampleEnv ()
    [sampleLine chars!".set-die-feeder queue", sampleLine chars!".set-dice-queue 3/2",
     sampleLine chars!"choice[a,b]"]).1 = .crashed m :=
  ⟨chars!"runtime error: index out of range", by decide⟩

/-! ## What the other commands print -/

theorem println_foldl (r : ReplState ρ) (ids : List Str) :
    ids.foldl ReplState.println r =
      { r with out := r.out ++ (ids.map fun id => id ++ chars!"\n").flatten } := by
  induction ids generalizing r with
  | nil => simp
  | cons id ids ih =>
    rw [List.foldl_cons, ih]
    simp [ReplState.println, ReplState.print]

/-- C63: `.list-games` prints every listed id, each on its line, in order. -/
theorem C63_list_games (env : ReplEnv ρ) (r : ReplState ρ) (ev : ReadEvent ρ) (hok : ev.Ok)
    (args : Str) (ha : Asks ev (.command .listGames args)) :
    replStep env r ev = (.running, { r with out := r.out ++
      (env.gameIDs.map fun id => id ++ chars!"\n").flatten }) := by
  rw [step_perform env r ev hok.1 ha]
  simp only [perform, runHandler, cmd_handler, replListGames, println_foldl]
  rfl

/-- C63: in the code there is one game system to list. -/
theorem C63_list_games_repo (env : ReplEnv ρ) (henv : env.reg = repoRegistry)
    (hids : AvailableGameIDs env.usage env.reg true env.gameIDs) (r : ReplState ρ)
    (ev : ReadEvent ρ) (hok : ev.Ok) (args : Str) (ha : Asks ev (.command .listGames args)) :
    replStep env r ev = (.running, { r with out := r.out ++ chars!"DiceBot\n" }) := by
  rw [C63_list_games env r ev hok args ha]
  rw [henv] at hids
  have := (C49_repo env.usage env.gameIDs []).1.1 hids
  rw [this]; rfl

/-- The text `.help` shows for a command: its name in bold, its arguments, and on the next line its
description. -/
def helpText (name args desc : Str) : Str :=
  chars!"\x1b[1m." ++ name ++ chars!"\x1b[0m" ++ (if args = [] then [] else chars!" " ++ args) ++
    chars!"\n    " ++ desc ++ chars!"\n"

/-- C63: `.help` describes the nine commands in this order. -/
theorem C63_help (env : ReplEnv ρ) (r : ReplState ρ) (ev : ReadEvent ρ) (hok : ev.Ok)
    (args : Str) (ha : Asks ev (.command .help args)) :
    replStep env r ev = (.running, { r with out := r.out ++
      (helpText chars!"ast" chars!"BCDiceコマンド" chars!"入力されたBCDiceコマンドのASTをS式の形で出力します" ++
      helpText chars!"eval" chars!"BCDiceコマンド" chars!"入力されたBCDiceコマンドを評価します" ++
      helpText chars!"roll" chars!"振る数 面の数" chars!"ダイスロールを行い、出目を出力します" ++
      helpText chars!"set-game" chars!"ゲーム識別子"
        chars!"指定されたゲームシステムのダイスボットを使用するように設定します" ++
      helpText chars!"list-games" [] chars!"利用可能なゲームシステムの識別子の一覧を出力します" ++
      helpText chars!"set-die-feeder" chars!"mt/queue"
        chars!"ダイスの供給方法を設定します - mt: ランダム、queue: 手動指定" ++
      helpText chars!"set-dice-queue" chars!"[値/面数[, 値/面数]...]"
        chars!"ダイスロール時に取り出されるダイスの列を設定します" ++
      helpText chars!"help" [] chars!"利用できるコマンドの使用法と説明を出力します" ++
      helpText chars!"quit" [] chars!"GoBCDiceREPLを終了します") }) := by
  have hone : ∀ (r : ReplState ρ) (c : ReplCommand), printCommandHelp r c =
      { r with out := r.out ++ helpText c.name c.args c.desc } := by
    intro r c
    unfold printCommandHelp helpText
    by_cases h : c.args = [] <;>
      simp [h, ReplState.println, ReplState.print, escBold, escReset]
  have hall : ∀ (cs : List ReplCommand) (r : ReplState ρ), cs.foldl printCommandHelp r =
      { r with out := r.out ++ (cs.map fun c => helpText c.name c.args c.desc).flatten } := by
    intro cs
    induction cs with
    | nil => intro r; simp
    | cons c cs ih => intro r; rw [List.foldl_cons, hone, ih]; simp
  rw [step_perform env r ev hok.1 ha]
  simp only [perform, runHandler, cmd_handler, replHelp, hall]
  simp only [replCommands, evalCmd, List.map_cons, List.map_nil, List.flatten_cons, List.flatten_nil,
    List.append_nil, List.append_assoc, statusOf]

/-- C63: `.set-game` without argument prints the id of the game in use. -/
theorem C63_set_game_shown (env : ReplEnv ρ) (r : ReplState ρ) (ev : ReadEvent ρ) (hok : ev.Ok)
    (ha : Asks ev (.command .setGame [])) :
    replStep env r ev =
      (.running, { r with out := r.out ++ r.bcDice.bot.info.gameID ++ chars!"\n" }) := by
  rw [step_perform env r ev hok.1 ha]
  simp [perform, runHandler, cmd_handler, replSetGame, ReplState.println, ReplState.print, statusOf]

/-- C63: `.set-game id` prints OK for a known game, and the error naming the game in red for an
unknown one (then nothing else changes). -/
theorem C63_set_game (env : ReplEnv ρ) (r : ReplState ρ) (ev : ReadEvent ρ) (hok : ev.Ok)
    (id : Str) (hne : id ≠ []) (ha : Asks ev (.command .setGame id)) :
    (∀ b, findBot env.usage env.reg id = .ok b → replStep env r ev =
      (.running, { r with bcDice := { r.bcDice with bot := b },
                          out := r.out ++ chars!"\x1b[36mOK\x1b[0m\n" })) ∧
    ((∀ b, findBot env.usage env.reg id ≠ .ok b) → replStep env r ev =
      (.running, { r with out := r.out ++
        chars!"\x1b[31munknown game system: " ++ id ++ chars!"\x1b[0m\n" })) := by
  rw [step_perform env r ev hok.1 ha]
  simp only [perform, runHandler, cmd_handler, replSetGame, if_neg hne, setDiceBotByGameID]
  constructor
  · intro b hb
    rw [hb]
    simp [ReplState.printOK, ReplState.println, ReplState.print, statusOf, escCyan, escReset]
  · intro hb
    have : findBot env.usage env.reg id = .err (chars!"unknown game system: " ++ id) := by
      unfold findBot at hb ⊢
      split
      · rename_i h; rw [if_pos h] at hb; exact absurd rfl (hb _)
      · rename_i h
        rw [if_neg h] at hb
        split
        · rfl
        · rename_i b h1; rw [h1] at hb; exact absurd rfl (hb _)
    rw [this]
    simp [ReplState.printError, ReplState.println, ReplState.print, statusOf, escRed, escReset]

/-- C63: `.set-die-feeder` with `queue` or `mt` (letters of either case) puts a fresh empty queue, or
a fresh generator, in use everywhere and prints OK; otherwise it prints its usage. -/
theorem C63_set_die_feeder (env : ReplEnv ρ) (r : ReplState ρ) (ev : ReadEvent ρ) (hok : ev.Ok)
    (args : Str) (ha : Asks ev (.command .setDieFeeder args)) :
    (∀ x, (asciiLower args = chars!"queue" ∧ x = .queue [] ∨
        asciiLower args = chars!"mt" ∧ x = .mt ev.seed) →
      replStep env r ev = (.running, ⟨r.heap ++ [x], r.terminated, r.heap.length, r.heap.length,
        ⟨r.bcDice.bot, r.heap.length, r.heap.length⟩, r.out ++ chars!"\x1b[36mOK\x1b[0m\n"⟩)) ∧
    (asciiLower args ≠ chars!"queue" → asciiLower args ≠ chars!"mt" → replStep env r ev =
      (.running, { r with out := r.out ++ chars!"使用法: .set-die-feeder mt/queue\n" })) := by
  rw [step_perform env r ev hok.1 ha]
  simp only [perform, runHandler, cmd_handler, replSetDieFeeder]
  constructor
  · rintro x (⟨h, rfl⟩ | ⟨h, rfl⟩)
    · rw [if_pos h]
      simp [ReplState.printOK, ReplState.println, ReplState.print, statusOf, escCyan, escReset,
        BCDiceObj.setDieFeeder]
    · rw [h, if_neg (by decide), if_pos rfl]
      simp [ReplState.printOK, ReplState.println, ReplState.print, statusOf, escCyan, escReset,
        BCDiceObj.setDieFeeder]
  · intro h1 h2
    rw [if_neg h1, if_neg h2]
    rfl

/-- C63: `.set-dice-queue` prints OK when the queue was set, the error of the dice text in red when
it is malformed, and an error in red when the dice are random. -/
theorem C63_set_dice_queue (env : ReplEnv ρ) (r : ReplState ρ) (ev : ReadEvent ρ) (hok : ev.Ok)
    (args : Str) (ha : Asks ev (.command .setDiceQueue args)) :
    (∀ old ds, r.feeder = some (.queue old) → parseDice env.isPrint args = .ok ds →
      replStep env r ev = (.running, { r with heap := r.heap.set r.dieFeeder (.queue ds),
                                              out := r.out ++ chars!"\x1b[36mOK\x1b[0m\n" })) ∧
    (∀ old e, r.feeder = some (.queue old) → parseDice env.isPrint args = .err e →
      replStep env r ev = (.running, { r with out := r.out ++ chars!"\x1b[31m" ++ e ++
        chars!"\x1b[0m\n" })) ∧
    (∀ s, r.feeder = some (.mt s) → replStep env r ev = (.running, { r with out := r.out ++
      chars!"\x1b[31m現在のダイス供給方法では、取り出されるダイスの列を設定できません\x1b[0m\n" })) := by
  rw [step_perform env r ev hok.1 ha]
  simp only [perform, runHandler, cmd_handler, replSetDiceQueue]
  refine ⟨?_, ?_, ?_⟩
  · intro old ds h hp
    have h' : r.heap[r.dieFeeder]? = some (.queue old) := h
    simp [queueContents, h', hp, setQueueObj, queueSet, ReplState.printOK, ReplState.println,
      ReplState.print, statusOf, escCyan, escReset]
  · intro old e h hp
    have h' : r.heap[r.dieFeeder]? = some (.queue old) := h
    simp [queueContents, h', hp, ReplState.printError, ReplState.println, ReplState.print, statusOf,
      escRed, escReset]
  · intro s h
    have h' : r.heap[r.dieFeeder]? = some (.mt s) := h
    simp [queueContents, h', ReplState.printError, ReplState.println, ReplState.print, statusOf,
      escRed, escReset, cannotSetQueueMsg]

/-- C63: `.quit` and the interrupt print nothing. -/
theorem C63_silent (env : ReplEnv ρ) (r : ReplState ρ) (ev : ReadEvent ρ) (hok : ev.Ok) :
    (∀ args, Asks ev (.command .quit args) → replStep env r ev = (.running, { r with terminated := true })) ∧
    (Asks ev .nothing → replStep env r ev = (.running, r)) ∧
    (Asks ev .leave → replStep env r ev = (.exited, r)) := by
  refine ⟨fun args ha => ?_, fun ha => ?_, fun ha => ?_⟩ <;>
    (rw [step_perform env r ev hok.1 ha]; rfl)

/-- C63: `.ast` alone prints its usage. -/
theorem C63_ast_empty (env : ReplEnv ρ) (r : ReplState ρ) (ev : ReadEvent ρ) (hok : ev.Ok)
    (ha : Asks ev (.command .ast [])) :
    replStep env r ev = (.running, { r with out := r.out ++ chars!"使用法: .ast BCDiceコマンド\n" }) := by
  rw [step_perform env r ev hok.1 ha]; rfl

/-- C63: the tool greets with these lines. -/
theorem C63_welcome (env : ReplEnv ρ) (seed : ρ) : (startRepl env seed []).2.out =
    chars!"\x1b[1mGoBCDice REPL\x1b[0m\n\n* BCDiceコマンドを入力すると、その評価結果を出力します\n* \".help\" と入力すると、利用できるコマンドの使用法と説明を出力します\n* \".q\" または \".quit\" と入力すると終了します\n\n" := by
  rfl

/-- Non-vacuity: lines asking for these commands. -/
example : Asks (sampleLine chars!" .list-games") (.command .listGames []) ∧
    Asks (sampleLine chars!".help") (.command .help []) ∧
    Asks (sampleLine chars!".set-game  Foo ") (.command .setGame chars!"Foo") ∧
    (∀ b, findBot sampleEnv.usage sampleEnv.reg chars!"Foo" ≠ .ok b) ∧
    asciiLower chars!"QueuE" = chars!"queue" ∧
    parseDice sampleEnv.isPrint chars!"3/6, 4/6" = .ok [⟨3, 6⟩, ⟨4, 6⟩] := by
  refine ⟨.command .listGames _ (by simp [sampleLine]) (.bare [] (by decide) rfl (by simp)),
    .command .help _ (by simp [sampleLine]) (.bare [] (by decide) rfl (by simp)),
    .command .setGame _ (by simp [sampleLine]) (.blanks chars!"  " (by decide) (by simp) ?_ ?_), ?_,
    by decide, by decide⟩
  · intro c hc; simp at hc; subst hc; simp [Blank]
  · intro c hc; simp at hc; subst hc; simp [Blank]
  · intro b
    have : findBot sampleEnv.usage sampleEnv.reg chars!"Foo" =
      .err chars!"unknown game system: Foo" := by rfl
    rw [this]; simp

end GoBCDice
