import Verif.Parser
import Verif.PigeonParse
import Verif.Command

/-!
# The top level: pkg/bcdice, pkg/core/util, pkg/dicebot, pkg/dicebot/list
-/

namespace GoBCDice

/-- `util.CheckIfInputMayBeASecretRoll` (pkg/core/util/secret_roll.go:8-21). -/
def checkSecret (input : Str) : Str × Bool :=
  match input with
  | [] => ([], false)
  | c :: rest => if c = 'S' ∨ c = 's' then (rest, true) else (c :: rest, false)

/-- `\s` of Go regular expressions. -/
def isReSpace (c : Char) : Bool := c = '\t' || c = '\n' || c = '\x0c' || c = '\r' || c = ' '

/-- First capture of `\A([^\s]*)(\s.*)?` (pkg/bcdice/bcdice.go:60, 66-67). -/
def firstPart (s : Str) : Str := s.takeWhile (fun c => !isReSpace c)

/-- `dicebot.DiceBotBasicInfo` (pkg/dicebot/dicebot.go:31-40). -/
structure BotInfo where
  gameID : Str
  gameName : Str
  usage : Str
  sortKey : Str
deriving DecidableEq, Repr

/-- A `dicebot.DiceBot` (pkg/dicebot/dicebot.go:17-28): its information and its game-specific
command, run with an evaluator. -/
structure DiceBot (σ : Type) where
  info : BotInfo
  executeCommand : Str → Evaluator σ → M σ Result

/-- `basic.BasicInfo` (pkg/dicebot/gamesystem/basic/basic.go:11-37); the usage text, which no
code inspects, is a parameter of the model. -/
def basicInfo (usage : Str) : BotInfo :=
  { gameID := chars!"DiceBot", gameName := chars!"ダイスボット (指定無し)", usage := usage,
    sortKey := chars!"*たいすほつと" }

/-- `basic.New` with `DiceBotImpl.ExecuteCommand` (basic.go:45-51, dicebot.go:73-78), which always
fails. -/
def basicBot {σ} (usage : Str) : DiceBot σ :=
  { info := basicInfo usage
    executeCommand := fun _ _ => M.fail chars!"no game-system-specific command" }

/-- Run an evaluator function in a fresh environment (bcdice.go:97-98, 115-116), keeping the
feeder. -/
def runFresh {σ α} (m : M σ α) (f : σ) : Out α × σ :=
  let (o, s) := m { feeder := f, log := [] }
  (o, s.feeder)

/-- `ExecuteBasicCommand` (bcdice.go:109-119).  The node is that of the rule functions of
`Verif.Parser` and the text of a syntax error that of the generated parser, to which the file name
"input" is given; C64 and C66 prove that the two agree. -/
def executeBasicCommand {σ} (F : DieFeeder σ) (gameID : Str) (c : Str) (f : σ) : Out Result × σ :=
  match parse c with
  | none => (.err (parseErrorText chars!"input" c), f)
  | some node => runFresh ((newEvaluator F).execute gameID node) f

/-- `ExecuteDiceBotCommand` (bcdice.go:96-106). -/
def executeDiceBotCommand {σ} (F : DieFeeder σ) (bot : DiceBot σ) (c : Str) (f : σ) :
    Out Result × σ :=
  runFresh (bot.executeCommand c (newEvaluator F)) f

/-- Set `IsSecret` on a result (bcdice.go:72, 80, 88). -/
def Result.withSecret (r : Result) (b : Bool) : Result := { r with isSecret := b }

/-- `BCDice.ExecuteCommand` (bcdice.go:63-93): dice bot command on the first word, then basic
command on the whole text, then basic command on the first word; an error of one attempt is
discarded by the next, the feeder is not rewound. -/
def executeCommand {σ} (F : DieFeeder σ) (bot : DiceBot σ) (input : Str) (f : σ) :
    Out Result × σ :=
  let (cmd, isSecret) := checkSecret input
  let first := firstPart cmd
  match executeDiceBotCommand F bot first f with
  | (.ok r, f1) => (.ok (r.withSecret isSecret), f1)
  | (.panic m, f1) => (.panic m, f1)
  | (.err _, f1) =>
    match executeBasicCommand F bot.info.gameID cmd f1 with
    | (.ok r, f2) => (.ok (r.withSecret isSecret), f2)
    | (.panic m, f2) => (.panic m, f2)
    | (.err _, f2) =>
      match executeBasicCommand F bot.info.gameID first f2 with
      | (.ok r, f3) => (.ok (r.withSecret isSecret), f3)
      | (.panic m, f3) => (.panic m, f3)
      | (.err e, f3) => (.err e, f3)

end GoBCDice
