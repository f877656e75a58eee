import Verif.BCDice
import Verif.Quote

/-!
# Test case files (pkg/dicebot/testing/testcase.go, testing.go)
-/

namespace GoBCDice

/-- Split at every occurrence of a character: `strings.Split(s, string(c))`
(testcase.go:49, 69). -/
def splitChar (c : Char) : Str → List Str
  | [] => [[]]
  | x :: xs =>
    if x = c then [] :: splitChar c xs
    else
      match splitChar c xs with
      | [] => [[x]]
      | p :: ps => (x :: p) :: ps

/-- The two captures of `\A\s*(\d+)/(\d+)\s*\z` (testcase.go:31).  Greedy repetition never has to
give anything back: what follows each group starts with a character outside it. -/
def matchDie (s : Str) : Option (Str × Str) :=
  let s1 := s.dropWhile isReSpace
  match s1.takeWhile isDigit, s1.dropWhile isDigit with
  | [], _ => none
  | v, '/' :: s2 =>
    match s2.takeWhile isDigit with
    | [] => none
    | w => if (s2.dropWhile isDigit).all isReSpace then some (v, w) else none
  | _, _ => none

/-- Error of `ParseDice` (testcase.go:73). -/
def parseDiceMsg (isPrint : Char → Bool) (i : Nat) (item : Str) : Str :=
  chars!"ParseDice: #" ++ natStr i ++ chars!": " ++ quote isPrint item ++ chars!": ダイス構文エラー"

/-- The loop of `ParseDice` (testcase.go:70-79), `i` being the number of the next item; the
errors of `Atoi` (numbers above 2^63-1) are ignored. -/
def parseDiceItems (isPrint : Char → Bool) : Nat → List Str → List Die → Out (List Die)
  | _, [], acc => .ok acc
  | i, item :: rest, acc =>
    match matchDie item with
    | none => .err (parseDiceMsg isPrint i item)
    | some (v, w) => parseDiceItems isPrint (i + 1) rest (acc ++ [⟨atoiSat v, atoiSat w⟩])

/-- `ParseDice` (testcase.go:62-82). -/
def parseDice (isPrint : Char → Bool) (source : Str) : Out (List Die) :=
  if source = [] then .ok []
  else parseDiceItems isPrint 1 (splitChar ',' source) []

/-- `DiceBotTestCase` (testcase.go:13-24). -/
structure TestCase where
  gameID : Str
  index : Int64
  input : List Str
  output : Str
  dice : List Die
deriving DecidableEq, Repr

/-- Split at the last occurrence of `sep` for which the remainder is accepted by `f`: what
`(.*)sep` followed by the rest of a pattern does, greedily with backtracking.  `pre` is the text
already passed. -/
def splitLast {α : Type} (sep : Str) (f : Str → Option α) : Str → Option (Str × α)
  | [] => if sep = [] then (f []).map (fun a => ([], a)) else none
  | x :: xs =>
    match splitLast sep f xs with
    | some (p, a) => some (x :: p, a)
    | none =>
      if sep.isPrefixOf (x :: xs) then (f ((x :: xs).drop sep.length)).map (fun a => ([], a))
      else none

/-- Captures of `(?s)\Ainput:\n(.+)\noutput:(.*)\nrand:(.*)` (testcase.go:29). -/
def matchSource (s : Str) : Option (Str × Str × Str) :=
  if chars!"input:\n".isPrefixOf s then
    match splitLast chars!"\noutput:" (splitLast chars!"\nrand:" some) (s.drop 7) with
    | some (input, output, rand) => if input = [] then none else some (input, output, rand)
    | none => none
  else none

/-- Error of `Parse` (testcase.go:41). -/
def parseCaseMsg (gameID : Str) (index : Int64) : Str :=
  chars!"Parse: " ++ gameID ++ chars!"#" ++ intStr index ++ chars!": テストケース構文エラー"

/-- `Parse` (testcase.go:38-59). -/
def parseCase (isPrint : Char → Bool) (source gameID : Str) (index : Int64) : Out TestCase :=
  match matchSource source with
  | none => .err (parseCaseMsg gameID index)
  | some (input, output, rand) =>
    match parseDice isPrint rand with
    | .err e => .err e
    | .panic m => .panic m
    | .ok ds =>
      .ok { gameID := gameID, index := index, input := splitChar '\n' input,
            output := output.dropWhile (· = '\n'), dice := ds }

/-- `strings.Split(s, sep)` for a non-empty separator: non-overlapping occurrences from the left.
The first argument counts the characters of an occurrence still to be passed over. -/
def splitSeqAux (sep : Str) : Nat → Str → List Str
  | _, [] => [[]]
  | k + 1, _ :: xs => splitSeqAux sep k xs
  | 0, x :: xs =>
    if sep.isPrefixOf (x :: xs) then [] :: splitSeqAux sep (sep.length - 1) xs
    else
      match splitSeqAux sep 0 xs with
      | [] => [[x]]
      | p :: ps => (x :: p) :: ps

/-- `strings.Split(s, sep)`. -/
def splitSeq (sep : Str) (s : Str) : List Str := splitSeqAux sep 0 s

/-- `strings.TrimRight(s, "\n")` (testcase.go:94). -/
def trimRightNewlines (s : Str) : Str := (s.reverse.dropWhile (· = '\n')).reverse

/-- Separator between test cases (testcase.go:95). -/
def caseSeparator : Str := chars!"\n============================\n"

/-- The loop of `ParseFile` (testcase.go:98-107), `i` being the next index. -/
def parseCases (isPrint : Char → Bool) (gameID : Str) : Int64 → List Str → Out (List TestCase)
  | _, [] => .ok []
  | i, source :: rest =>
    match parseCase isPrint source gameID i with
    | .err e => .err e
    | .panic m => .panic m
    | .ok c =>
      match parseCases isPrint gameID (i + 1) rest with
      | .err e => .err e
      | .panic m => .panic m
      | .ok cs => .ok (c :: cs)

/-- `ParseFile` on the contents of the file (testcase.go:88-110); reading the file is not
modelled. -/
def parseFile (isPrint : Char → Bool) (content gameID : Str) : Out (List TestCase) :=
  parseCases isPrint gameID 1 (splitSeq caseSeparator (trimRightNewlines content))

/-- The loop of `ParseFiles` (testcase.go:120-132) on files given by name and contents:
indices of later files continue those of earlier ones. -/
def parseFilesLoop (isPrint : Char → Bool) (gameID : Str) :
    List (Str × Str) → List TestCase → Out (List TestCase)
  | [], acc => .ok acc
  | (name, content) :: rest, acc =>
    match parseFile isPrint content gameID with
    | .err e => .err (name ++ chars!": " ++ e)
    | .panic m => .panic m
    | .ok cs =>
      parseFilesLoop isPrint gameID rest
        (acc ++ cs.map (fun c => { c with index := c.index + Int64.ofNat acc.length }))

/-- `ParseFiles` (testcase.go:116-135). -/
def parseFiles (isPrint : Char → Bool) (files : List (Str × Str)) (gameID : Str) :
    Out (List TestCase) := parseFilesLoop isPrint gameID files []

end GoBCDice
