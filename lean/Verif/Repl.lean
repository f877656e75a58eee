import Verif.Games
import Verif.SExp
import Verif.Testcase

/-!
# The interactive tool (cmd/GoBCDiceREPL/repl/repl.go)

Feeders are objects: the REPL, its roller and its `BCDice` each hold a reference to one.  The
objects live in a heap and a reference is an index in it, so that holding *the same* feeder and
holding an equal one are different things.  The output is the text written so far.
-/

namespace GoBCDice

/-- A feeder object: `*feeder.Queue` with its contents or `*feeder.MT19937` with the state of its
generator. -/
inductive FeederObj (ρ : Type) where
  | queue (ds : List Die)
  | mt (s : ρ)
deriving DecidableEq, Repr

/-- All feeder objects ever created, in order of creation. -/
abbrev FeederHeap (ρ : Type) := List (FeederObj ρ)

variable {ρ : Type}

/-- `Next` of the object a reference points to (queue.go:47-57, mt19937.go:51-57). -/
def refFeeder (rng : Rng ρ) (ref : Nat) : DieFeeder (FeederHeap ρ) where
  next h sides :=
    match h[ref]? with
    | none => (.panic chars!"invalid memory address or nil pointer dereference", h)
    | some (.queue q) =>
      let (o, q') := queueNext q sides
      (o, h.set ref (.queue q'))
    | some (.mt s) =>
      let (o, s') := (mtFeeder rng).next s sides
      (o, h.set ref (.mt s'))

/-- `CanSpecifyDie` with the type assertion `.(*feeder.Queue)` and `Dice()`: the contents of the
object, if it is a queue (queue.go:33-43, mt19937.go:39-41). -/
def queueContents (h : FeederHeap ρ) (ref : Nat) : Option (List Die) :=
  match h[ref]? with
  | some (.queue q) => some (queueDice q)
  | _ => none

/-- `f.Set(ds)` on a queue object (queue.go:77-80). -/
def setQueueObj (h : FeederHeap ρ) (ref : Nat) (ds : List Die) : FeederHeap ρ :=
  match h[ref]? with
  | some (.queue q) => h.set ref (.queue (queueSet q ds))
  | _ => h

/-- `BCDice` (pkg/bcdice/bcdice.go:18-23): its bot, its feeder, and the feeder of its roller. -/
structure BCDiceObj (ρ : Type) where
  bot : DiceBot (FeederHeap ρ)
  dieFeeder : Nat
  diceRoller : Nat

/-- `BCDice.SetDieFeeder` (bcdice.go:54-57). -/
def BCDiceObj.setDieFeeder (b : BCDiceObj ρ) (f : Nat) : BCDiceObj ρ :=
  { b with dieFeeder := f, diceRoller := f }

/-- `bcdice.New` (bcdice.go:26-33); the basic bot is always found. -/
def newBCDiceObj (usage : Str) (f : Nat) : BCDiceObj ρ :=
  { bot := basicBot usage, dieFeeder := f, diceRoller := f }

/-- What the REPL depends on and does not change: the generator, the registry of game systems with
the listing of its ids (see `AvailableGameIDs`), the usage text of the basic bot, and Go's table of
printable characters. -/
structure ReplEnv (ρ : Type) where
  rng : Rng ρ
  reg : Registry (FeederHeap ρ)
  gameIDs : List Str
  usage : Str
  isPrint : Char → Bool

/-- `REPL` (repl.go:95-103) with the heap of feeders and the text written to `out`. `diceRoller` is
the feeder of the roller. -/
structure ReplState (ρ : Type) where
  heap : FeederHeap ρ
  terminated : Bool
  dieFeeder : Nat
  diceRoller : Nat
  bcDice : BCDiceObj ρ
  out : Str

/-- `New` (repl.go:183-201): one random feeder for everything. -/
def newRepl (env : ReplEnv ρ) (seed : ρ) : ReplState ρ :=
  { heap := [.mt seed], terminated := false, dieFeeder := 0, diceRoller := 0,
    bcDice := newBCDiceObj env.usage 0, out := [] }

/-! ## Output -/

/-- `ESC_RESET` (repl.go:24). -/
def escReset : Str := chars!"\x1b[0m"
/-- `ESC_BOLD` (repl.go:26). -/
def escBold : Str := chars!"\x1b[1m"
/-- `ESC_RED` (repl.go:28). -/
def escRed : Str := chars!"\x1b[31m"
/-- `ESC_YELLOW` (repl.go:30). -/
def escYellow : Str := chars!"\x1b[33m"
/-- `ESC_CYAN` (repl.go:32). -/
def escCyan : Str := chars!"\x1b[36m"

/-- `RESULT_HEADER` (repl.go:37). -/
def resultHeader : Str := escCyan ++ chars!"=>" ++ escReset ++ chars!" "

/-- `SECRET_HEADER` (repl.go:39). -/
def secretHeader : Str := escYellow ++ chars!"[secret]" ++ escReset ++ chars!" "

/-- `fmt.Fprint(r.out, s)`. -/
def ReplState.print (r : ReplState ρ) (s : Str) : ReplState ρ := { r with out := r.out ++ s }

/-- `fmt.Fprintln(r.out, s)`. -/
def ReplState.println (r : ReplState ρ) (s : Str) : ReplState ρ := r.print (s ++ ['\n'])

/-- `printOK` (repl.go:290-292). -/
def ReplState.printOK (r : ReplState ρ) : ReplState ρ := r.println (escCyan ++ chars!"OK" ++ escReset)

/-- `printError` (repl.go:295-297). -/
def ReplState.printError (r : ReplState ρ) (e : Str) : ReplState ρ :=
  r.println (escRed ++ e ++ escReset)

/-! ## Commands -/

/-- The nine handlers (repl.go:300-476). -/
inductive Handler where
  | ast | eval | roll | setGame | listGames | setDieFeeder | setDiceQueue | help | quit
deriving DecidableEq, Repr

/-- `Command` (repl.go:58-70) without the completion candidates. -/
structure ReplCommand where
  name : Str
  args : Str
  desc : Str
  handler : Handler
deriving DecidableEq, Repr

/-- The command `eval` (repl.go:114-119). -/
def evalCmd : ReplCommand :=
  ⟨chars!"eval", chars!"BCDiceコマンド", chars!"入力されたBCDiceコマンドを評価します", .eval⟩

/-- `commands` (repl.go:107-163). -/
def replCommands : List ReplCommand :=
  [ ⟨chars!"ast", chars!"BCDiceコマンド", chars!"入力されたBCDiceコマンドのASTをS式の形で出力します", .ast⟩,
    evalCmd,
    ⟨chars!"roll", chars!"振る数 面の数", chars!"ダイスロールを行い、出目を出力します", .roll⟩,
    ⟨chars!"set-game", chars!"ゲーム識別子",
      chars!"指定されたゲームシステムのダイスボットを使用するように設定します", .setGame⟩,
    ⟨chars!"list-games", [], chars!"利用可能なゲームシステムの識別子の一覧を出力します", .listGames⟩,
    ⟨chars!"set-die-feeder", chars!"mt/queue",
      chars!"ダイスの供給方法を設定します - mt: ランダム、queue: 手動指定", .setDieFeeder⟩,
    ⟨chars!"set-dice-queue", chars!"[値/面数[, 値/面数]...]",
      chars!"ダイスロール時に取り出されるダイスの列を設定します", .setDiceQueue⟩,
    ⟨chars!"help", [], chars!"利用できるコマンドの使用法と説明を出力します", .help⟩,
    ⟨chars!"quit", [], chars!"GoBCDiceREPLを終了します", .quit⟩ ]

/-- `commandMap[name]` (repl.go:86, 165-168): the names are distinct. -/
def lookupCommand (name : Str) : Option ReplCommand := replCommands.find? (·.name = name)

/-- `Command.Usage` (repl.go:72-80). -/
def ReplCommand.usage (c : ReplCommand) : Str :=
  let commandPart := chars!"." ++ c.name
  if c.args = [] then commandPart else commandPart ++ chars!" " ++ c.args

/-- `printCommandUsage` (repl.go:276-278). -/
def ReplState.printCommandUsage (r : ReplState ρ) (c : ReplCommand) : ReplState ρ :=
  r.print (chars!"使用法: " ++ c.usage ++ chars!"\n")

/-- `printSExp` (repl.go:300-322). -/
def replAst (env : ReplEnv ρ) (r : ReplState ρ) (c : ReplCommand) (input : Str) : ReplState ρ :=
  if input = [] then r.printCommandUsage c
  else
    let (command, isSecret) := checkSecret input
    match parse command with
    | none => r.printError (parseErrorText chars!"REPL" command)
    | some node =>
      let r := r.print resultHeader
      let r := if isSecret then r.print secretHeader else r
      r.println (node.sexp env.isPrint)

/-- The deferred restoration of `eval` and `rollDice` (repl.go:333-339, 369-375): `saved` are the
contents taken before, if the feeder was a queue. -/
def ReplState.restore (r : ReplState ρ) (saved : Option (List Die)) : ReplState ρ :=
  match saved with
  | none => r
  | some ds => { r with heap := setQueueObj r.heap r.dieFeeder ds }

/-- `eval` (repl.go:326-355).  `ExecuteCommand` uses the feeder of the roller of `bcDice`
(pkg/bcdice/bcdice.go:98, 116).  A panic is passed on after the deferred restoration. -/
def replEval (env : ReplEnv ρ) (r : ReplState ρ) (c : ReplCommand) (input : Str) :
    Out Unit × ReplState ρ :=
  if input = [] then (.ok (), r.printCommandUsage c)
  else
    let saved := queueContents r.heap r.dieFeeder
    let (command, isSecret) := checkSecret input
    let (o, h') := executeCommand (refFeeder env.rng r.bcDice.diceRoller) r.bcDice.bot command r.heap
    let r := { r with heap := h' }
    match o with
    | .panic m => (.panic m, r.restore saved)
    | .err e => (.ok (), (r.printError e).restore saved)
    | .ok result =>
      let r := r.print resultHeader
      let r := if isSecret then r.print secretHeader else r
      (.ok (), (r.println result.message).restore saved)

/-- The captures of `\A(\d+)\s+(\d+)\z` (repl.go:357). -/
def matchRoll (s : Str) : Option (Str × Str) :=
  let n := s.takeWhile isDigit
  let t := s.dropWhile isDigit
  let sp := t.takeWhile isReSpace
  let d := t.dropWhile isReSpace
  if n ≠ [] ∧ sp ≠ [] ∧ d ≠ [] ∧ d.all isDigit = true then some (n, d) else none

/-- `rollDice` (repl.go:361-387). -/
def replRoll (env : ReplEnv ρ) (r : ReplState ρ) (c : ReplCommand) (input : Str) :
    Out Unit × ReplState ρ :=
  match matchRoll input with
  | none => (.ok (), r.printCommandUsage c)
  | some (n, s) =>
    let saved := queueContents r.heap r.dieFeeder
    let (o, h') := rollDice (refFeeder env.rng r.diceRoller) (atoiSat n) (atoiSat s) r.heap
    let r := { r with heap := h' }
    match o with
    | .panic m => (.panic m, r.restore saved)
    | .err e => (.ok (), (r.printError e).restore saved)
    | .ok ds => (.ok (), (r.print (resultHeader ++ formatDice ds ++ chars!"\n")).restore saved)

/-- `setGame` (repl.go:390-404). -/
def replSetGame (env : ReplEnv ρ) (r : ReplState ρ) (input : Str) : ReplState ρ :=
  if input = [] then r.println r.bcDice.bot.info.gameID
  else
    match setDiceBotByGameID env.usage env.reg r.bcDice.bot input with
    | (some e, b) => ({ r with bcDice := { r.bcDice with bot := b } }).printError e
    | (none, b) => ({ r with bcDice := { r.bcDice with bot := b } }).printOK

/-- `listGames` (repl.go:407-412). -/
def replListGames (env : ReplEnv ρ) (r : ReplState ρ) : ReplState ρ :=
  env.gameIDs.foldl ReplState.println r

/-- `strings.ToLower` as far as the comparison with "queue" and "mt" can see: no character outside
`A`-`Z` has one of the letters of these words as its lower case. -/
def asciiLower (s : Str) : Str := s.map (fun c => if 'A' ≤ c ∧ c ≤ 'Z' then Char.ofNat (c.toNat + 32) else c)

/-- `setDieFeeder` (repl.go:419-438); `seed` is the state of a generator seeded from the clock. -/
def replSetDieFeeder (r : ReplState ρ) (c : ReplCommand) (input : Str) (seed : ρ) : ReplState ρ :=
  let feederType := asciiLower input
  let create (f : FeederObj ρ) : ReplState ρ :=
    let ref := r.heap.length
    let r := { r with heap := r.heap ++ [f] }
    let r := { r with dieFeeder := ref }
    let r := { r with diceRoller := ref }
    let r := { r with bcDice := r.bcDice.setDieFeeder ref }
    r.printOK
  if feederType = chars!"queue" then create (.queue [])
  else if feederType = chars!"mt" then create (.mt seed)
  else r.printCommandUsage c

/-- Error of `setDiceQueue` (repl.go:444). -/
def cannotSetQueueMsg : Str := chars!"現在のダイス供給方法では、取り出されるダイスの列を設定できません"

/-- `setDiceQueue` (repl.go:442-458). -/
def replSetDiceQueue (env : ReplEnv ρ) (r : ReplState ρ) (input : Str) :
    Out Unit × ReplState ρ :=
  match queueContents r.heap r.dieFeeder with
  | none => (.ok (), r.printError cannotSetQueueMsg)
  | some _ =>
    match parseDice env.isPrint input with
    | .panic m => (.panic m, r)
    | .err e => (.ok (), r.printError e)
    | .ok ds => (.ok (), ({ r with heap := setQueueObj r.heap r.dieFeeder ds }).printOK)

/-- One turn of the loop of `printHelp` (repl.go:463-470). -/
def printCommandHelp (r : ReplState ρ) (c : ReplCommand) : ReplState ρ :=
  let r := r.print (escBold ++ chars!"." ++ c.name ++ escReset)
  let r := if c.args ≠ [] then r.print (chars!" " ++ c.args) else r
  let r := r.println []
  r.println (chars!"    " ++ c.desc)

/-- `printHelp` (repl.go:461-471). -/
def replHelp (r : ReplState ρ) : ReplState ρ := replCommands.foldl printCommandHelp r

/-- `cmd.Handler(r, cmd, args)`. -/
def runHandler (env : ReplEnv ρ) (r : ReplState ρ) (c : ReplCommand) (args : Str) (seed : ρ) :
    Out Unit × ReplState ρ :=
  match c.handler with
  | .ast => (.ok (), replAst env r c args)
  | .eval => replEval env r c args
  | .roll => replRoll env r c args
  | .setGame => (.ok (), replSetGame env r args)
  | .listGames => (.ok (), replListGames env r)
  | .setDieFeeder => (.ok (), replSetDieFeeder r c args seed)
  | .setDiceQueue => replSetDiceQueue env r args
  | .help => (.ok (), replHelp r)
  | .quit => (.ok (), { r with terminated := true })  -- terminateREPL (repl.go:474-476)

/-! ## The main loop -/

/-- The class `[-a-z]`. -/
def isNameChar (c : Char) : Bool := c = '-' || ('a' ≤ c && c ≤ 'z')

/-- The text after the last newline (all of it if there is none). -/
def lastLine (s : Str) : Str := (s.reverse.takeWhile (· ≠ '\n')).reverse

/-- The captures of `\A\.([-a-z]+)(?:\s+(.+))*` (repl.go:89) on a line trimmed by
`strings.TrimSpace`: `.` does not match a newline, so the last repetition captures the last line
(a line read by readline has no newline at all) without the spaces in front of it.  Go returns ""
for a group that took no part in the match. -/
def matchCommand (s : Str) : Option (Str × Str) :=
  match s with
  | '.' :: t =>
    let name := t.takeWhile isNameChar
    if name = [] then none
    else
      match t.dropWhile isNameChar with
      | [] => some (name, [])
      | c :: rest =>
        if isReSpace c then some (name, (lastLine (c :: rest)).dropWhile isReSpace)
        else some (name, [])
  | _ => none

/-- `tailSpacesRe.ReplaceAllString(s, "")` with `\s+\z` (repl.go:91, 264). -/
def trimRightSpaces (s : Str) : Str := (s.reverse.dropWhile isReSpace).reverse

/-- Error returned by `Readline` beside the line. -/
inductive ReadErr where
  | eof | interrupt | other
deriving DecidableEq, Repr

/-- One return of `Readline`: the line, the error, and the state a generator seeded from the clock
would have now.  At the end of input the line is empty. -/
structure ReadEvent (ρ : Type) where
  line : Str
  err : Option ReadErr
  seed : ρ

/-- The end of input, or ^D. -/
def ReadEvent.eof (seed : ρ) : ReadEvent ρ := ⟨[], some .eof, seed⟩

/-- What happened to the loop. -/
inductive LoopStatus where
  /-- it goes on (the condition `!r.terminated` is tested before the next read) -/
  | running
  /-- `Start` returned -/
  | exited
  /-- a panic ended the process -/
  | crashed (msg : Str)
deriving DecidableEq, Repr

/-- The status after a handler. -/
def statusOf : Out Unit → LoopStatus
  | .panic m => .crashed m
  | _ => .running

/-- One turn of the loop of `Start` (repl.go:232-266).  `break` in the case of the end of input
leaves the `switch` only. -/
def replStep (env : ReplEnv ρ) (r : ReplState ρ) (ev : ReadEvent ρ) : LoopStatus × ReplState ρ :=
  match ev.err with
  | some .interrupt => (.running, r)
  | _ =>
    let line := trimSpace ev.line
    if line = chars!".q" then (.exited, r)
    else
      let (o, r') :=
        match matchCommand line with
        | none => replEval env r evalCmd line
        | some (name, args) =>
          match lookupCommand name with
          | none => replEval env r evalCmd line
          | some c => runHandler env r c (trimRightSpaces args) ev.seed
      (statusOf o, r')

/-- The loop of `Start` (repl.go:231-267) on the first reads. -/
def replLoop (env : ReplEnv ρ) (r : ReplState ρ) : List (ReadEvent ρ) → LoopStatus × ReplState ρ
  | [] => if r.terminated then (.exited, r) else (.running, r)
  | ev :: evs =>
    if r.terminated then (.exited, r)
    else
      match replStep env r ev with
      | (.running, r') => replLoop env r' evs
      | (st, r') => (st, r')

/-- `printWelcomeMessage` (repl.go:281-287). -/
def welcomeMessage : Str :=
  escBold ++ chars!"GoBCDice REPL" ++ escReset ++ chars!"\n" ++
  chars!"\n* BCDiceコマンドを入力すると、その評価結果を出力します\n" ++
  chars!"* \".help\" と入力すると、利用できるコマンドの使用法と説明を出力します\n" ++
  chars!"* \".q\" または \".quit\" と入力すると終了します\n" ++ chars!"\n"

/-- `repl.New` followed by `Start` (cmd/GoBCDiceREPL/main.go:14-15, repl.go:215-267), on the first
reads, when readline could be set up. -/
def startRepl (env : ReplEnv ρ) (seed : ρ) (evs : List (ReadEvent ρ)) :
    LoopStatus × ReplState ρ :=
  replLoop env ((newRepl env seed).print welcomeMessage) evs

end GoBCDice
