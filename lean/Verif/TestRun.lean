import Verif.Testcase

/-!
# Running recorded test cases (pkg/dicebot/testing/testing.go)

`Run` reports to Go's `testing.T`; what it reports is modelled as the list of messages given to
`Error`, `Errorf`, `Fatal`, `Fatalf` in each subtest.  The file system is not modelled: files are
given by name and contents, and can be read.
-/

namespace GoBCDice

/-- A subtest as started by `t.Run` (testing.go:36) with the messages it reports; it passes when
there are none. -/
structure SubTest where
  name : Str
  messages : List Str
deriving DecidableEq, Repr

/-- What a call of `Run` does. -/
inductive RunOutcome where
  /-- `t.Fatalf` of testing.go:23 -/
  | fatal (message : Str)
  /-- all subtests have run -/
  | finished (tests : List SubTest)
  /-- the test binary dies of a panic, after these subtests -/
  | panicked (tests : List SubTest) (message : Str)
deriving DecidableEq, Repr

/-- The name of the subtest (testing.go:29-35). -/
def subTestName (isPrint : Char → Bool) (c : TestCase) (line : Str) : Str :=
  c.gameID ++ chars!"-" ++ intStr c.index ++ chars!":" ++ quote isPrint line ++ chars!"[" ++
    formatDiceWithoutSpaces c.dice ++ chars!"]"

/-- The message compared with the recorded one (testing.go:61-66). -/
def shownMessage (r : Result) : Str :=
  if r.isSecret then r.message ++ chars!"###secret dice###" else r.message

/-- The body of the subtest (testing.go:36-76) for the first input line.  `bcdice.New(f)`
(bcdice.go:25-32) starts with the basic dice bot, whose usage text plays no role here. -/
def runCase (isPrint : Char → Bool) (c : TestCase) (line : Str) : Out (List Str) :=
  match executeCommand queueFeeder (basicBot []) line c.dice with
  | (.panic m, _) => .panic m
  | (.err e, _) =>
    if c.output = [] then .ok [] else .ok [chars!"コマンド実行エラー: " ++ e]
  | (.ok r, queue) =>
    if c.output = [] then .ok [chars!"エラーが発生しませんでした"]
    else
      let actual := shownMessage r
      .ok ((if actual = c.output then [] else
              [chars!"got: " ++ quote isPrint actual ++ chars!", want: " ++ quote isPrint c.output]) ++
           (if queue = [] then [] else [chars!"ダイス残り: " ++ formatDice queue]))

/-- The loop of `Run` (testing.go:28-77); `test.Input[0]` panics when there is no input line. -/
def runCases (isPrint : Char → Bool) : List TestCase → List SubTest → RunOutcome
  | [], done => .finished done
  | c :: rest, done =>
    match c.input with
    | [] => .panicked done chars!"runtime error: index out of range"
    | line :: _ =>
      match runCase isPrint c line with
      | .ok ms => runCases isPrint rest (done ++ [⟨subTestName isPrint c line, ms⟩])
      | .err m => .panicked done m
      | .panic m => .panicked done m

/-- `Run` (testing.go:21-78). -/
def runTests (isPrint : Char → Bool) (gameID : Str) (files : List (Str × Str)) : RunOutcome :=
  match parseFiles isPrint files gameID with
  | .err e => .fatal (chars!"テストデータファイルの読み込み失敗: " ++ e)
  | .panic m => .panicked [] m
  | .ok cs => runCases isPrint cs []

end GoBCDice
