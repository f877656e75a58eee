import Verif.Basic

/-!
# Regular expressions (package regexp of Go, as far as the repository uses it)

The repository delimits texts with six regular expressions (pkg/bcdice/bcdice.go:60,
pkg/dicebot/testing/testcase.go:28, 30, cmd/GoBCDiceREPL/repl/repl.go:89, 91, 357).  Elsewhere in the
model each is replaced by a function that computes its groups; here they are read from the very
literals of the source and matched by the rules of package regexp: the leftmost match; among the
matches beginning there the first one in the order in which a backtracking search visits them, where
repetitions try another round first; a group reports what it took in its last round.

Modelled: literal characters, escaped punctuation, `\A`, `\z`, `\s`, `\d`, `.`, classes, groups with and
without capture, greedy `*`, `+`, `?`, the flag `(?s)` at the beginning.  Not modelled (and not used):
alternatives, lazy and counted repetition, other flags and escapes; `compile` refuses them.  Rounds of
a repetition that take nothing are cut off; no expression of the repository has one.

Texts are lists over any alphabet whose letters have a rune: characters, or the runes with widths
that a Go string with invalid bytes consists of.
-/

namespace GoBCDice

/-- A set of runes: ranges, or all others. -/
structure RuneClass where
  negated : Bool
  ranges : List (Char × Char)
deriving DecidableEq, Repr

/-- Membership. -/
def RuneClass.has (c : RuneClass) (x : Char) : Bool :=
  (c.ranges.any fun r => r.1 ≤ x && x ≤ r.2) != c.negated

/-- Regular expressions. -/
inductive Rx where
  /-- one rune of a class -/
  | rune (c : RuneClass)
  /-- `\A` -/
  | bot
  /-- `\z` -/
  | eot
  | empty
  | seq (a b : Rx)
  /-- `*`, greedy -/
  | star (r : Rx)
  /-- `+`, greedy -/
  | plus (r : Rx)
  /-- `?`, greedy -/
  | opt (r : Rx)
  /-- a group with its number -/
  | cap (i : Nat) (r : Rx)
deriving DecidableEq, Repr

/-! ## Reading an expression -/

/-- `\s`. -/
def spaceRanges : List (Char × Char) := [('\t', '\n'), ('\x0c', '\r'), (' ', ' ')]

/-- `\d`. -/
def digitRanges : List (Char × Char) := [('0', '9')]

/-- `.`, with or without the flag `s`. -/
def reDot (dotNL : Bool) : RuneClass := ⟨true, if dotNL then [] else [('\n', '\n')]⟩

/-- Characters with a meaning of their own. -/
def reSpecial : List Char := chars!"\\.+*?()|[]{}^$"

/-- The inside of a class, up to `]`. -/
def readClass : Nat → Str → Option (List (Char × Char) × Str)
  | 0, _ => none
  | _ + 1, [] => none
  | n + 1, c :: s =>
    if c = ']' then some ([], s)
    else if c = '\\' then
      match s with
      | 's' :: s' => (readClass n s').map fun (rs, rest) => (spaceRanges ++ rs, rest)
      | 'd' :: s' => (readClass n s').map fun (rs, rest) => (digitRanges ++ rs, rest)
      | _ => none
    else
      match s with
      | '-' :: d :: s' =>
        if d = ']' ∨ d = '\\' ∨ d < c then none
        else (readClass n s').map fun (rs, rest) => ((c, d) :: rs, rest)
      | _ => (readClass n s).map fun (rs, rest) => ((c, c) :: rs, rest)

/-- The repetition behind an item. -/
def readRepeat (r : Rx) : Str → Option (Rx × Str)
  | '*' :: s => if s.head? ∈ [some '*', some '+', some '?', some '{'] then none else some (.star r, s)
  | '+' :: s => if s.head? ∈ [some '*', some '+', some '?', some '{'] then none else some (.plus r, s)
  | '?' :: s => if s.head? ∈ [some '*', some '+', some '?', some '{'] then none else some (.opt r, s)
  | s => some (r, s)

/-- A sequence of items, up to a closing parenthesis or the end; `i` is the number of the next
group. -/
def readSeq (dotNL : Bool) : Nat → Nat → Str → Option (Rx × Nat × Str)
  | 0, _, _ => none
  | _ + 1, i, [] => some (.empty, i, [])
  | n + 1, i, c :: s =>
    if c = ')' then some (.empty, i, c :: s)
    else do
      let (item, j, rest) ← (if c = '(' then
          match s with
          | '?' :: ':' :: s' => do
            let (r, j, rest) ← readSeq dotNL n i s'
            match rest with
            | ')' :: rest' => some (r, j, rest')
            | _ => none
          | '?' :: _ => none
          | _ => do
            let (r, j, rest) ← readSeq dotNL n (i + 1) s
            match rest with
            | ')' :: rest' => some (Rx.cap i r, j, rest')
            | _ => none
        else if c = '[' then
          match s with
          | '^' :: s' => (readClass n s').map fun (rs, rest) => (Rx.rune ⟨true, rs⟩, i, rest)
          | _ => (readClass n s).map fun (rs, rest) => (Rx.rune ⟨false, rs⟩, i, rest)
        else if c = '.' then some (.rune (reDot dotNL), i, s)
        else if c = '\\' then
          match s with
          | 'A' :: s' => some (.bot, i, s')
          | 'z' :: s' => some (.eot, i, s')
          | 's' :: s' => some (.rune ⟨false, spaceRanges⟩, i, s')
          | 'd' :: s' => some (.rune ⟨false, digitRanges⟩, i, s')
          | d :: s' => if d ∈ reSpecial then some (.rune ⟨false, [(d, d)]⟩, i, s') else none
          | [] => none
        else if c ∈ reSpecial then none
        else some (.rune ⟨false, [(c, c)]⟩, i, s))
      let (item', rest') ← readRepeat item rest
      let (r, k, rest'') ← readSeq dotNL n j rest'
      some (.seq item' r, k, rest'')

/-- `regexp.MustCompile` (it panics where this is `none`), with the number of groups. -/
def compileRx (source : Str) : Option (Rx × Nat) :=
  let (dotNL, s) : Bool × Str := match source with
    | '(' :: '?' :: 's' :: ')' :: s => (true, s)
    | s => (false, s)
  match readSeq dotNL (s.length + 1) 1 s with
  | some (r, i, []) => some (r, i - 1)
  | _ => none

/-! ## Matching -/

/-- What is left of the text, and what the groups have taken, the latest first. -/
structure RxState (α : Type) where
  rest : List α
  caps : List (Nat × List α)

/-- Rounds of a repetition, the longest ways first. -/
def rxRounds {α : Type} (one : RxState α → List (RxState α)) : Nat → RxState α → List (RxState α)
  | 0, st => [st]
  | n + 1, st =>
    ((one st).filter fun st' => st'.rest.length < st.rest.length).flatMap (rxRounds one n) ++ [st]

/-- All ways to match from a place of a text of the given length, in order of preference. -/
def Rx.ways {α : Type} (rn : α → Char) (total : Nat) : Rx → RxState α → List (RxState α)
  | .rune c, st =>
    match st.rest with
    | [] => []
    | x :: rest => if c.has (rn x) then [{ st with rest := rest }] else []
  | .bot, st => if st.rest.length = total then [st] else []
  | .eot, st => if st.rest.length = 0 then [st] else []
  | .empty, st => [st]
  | .seq a b, st => (a.ways rn total st).flatMap (b.ways rn total)
  | .star r, st => rxRounds (r.ways rn total) st.rest.length st
  | .plus r, st => (r.ways rn total st).flatMap fun st' => rxRounds (r.ways rn total) st'.rest.length st'
  | .opt r, st => r.ways rn total st ++ [st]
  | .cap i r, st => (r.ways rn total st).map fun st' =>
      { st' with caps := (i, st.rest.take (st.rest.length - st'.rest.length)) :: st'.caps }

/-- The leftmost match at or behind a place: the text in front of it and the state at its end. -/
def Rx.search {α : Type} (rn : α → Char) (total : Nat) (r : Rx) : List α → Option (List α × RxState α)
  | [] => ((r.ways rn total ⟨[], []⟩).head?).map fun st => ([], st)
  | x :: xs =>
    match (r.ways rn total ⟨x :: xs, []⟩).head? with
    | some st => some ([], st)
    | none => (r.search rn total xs).map fun (front, st) => (x :: front, st)

/-- What a group took; the empty text if it took no part. -/
def groupOf {α : Type} (caps : List (Nat × List α)) (i : Nat) : List α :=
  ((caps.find? fun c => c.1 = i).map Prod.snd).getD []

/-- `FindStringSubmatch`: the groups, without the text of the whole match. -/
def findSubmatch {α : Type} (rn : α → Char) (r : Rx × Nat) (s : List α) : Option (List (List α)) :=
  (r.1.search rn s.length s).map fun (_, st) => (List.range r.2).map fun i => groupOf st.caps (i + 1)

/-- The loop of `ReplaceAllString(s, "")`: the next search begins at the end of a match or, if the
match was empty, one place further; `n` bounds the number of searches. -/
def Rx.deleteFrom {α : Type} (rn : α → Char) (total : Nat) (r : Rx) : Nat → List α → List α
  | 0, s => s
  | n + 1, s =>
    match r.search rn total s with
    | none => s
    | some (front, st) =>
      if st.rest.length + front.length < s.length then
        front ++ (if st.rest = [] then [] else r.deleteFrom rn total n st.rest)
      else
        match st.rest with
        | [] => front
        | x :: rest => front ++ x :: r.deleteFrom rn total n rest

/-- `ReplaceAllString(s, "")`. -/
def deleteAll {α : Type} (rn : α → Char) (r : Rx × Nat) (s : List α) : List α :=
  r.1.deleteFrom rn s.length (s.length + 1) s

/-! ## The expressions of the repository -/

/-- `commandFirstPartRe` (pkg/bcdice/bcdice.go:60). -/
def firstPartRe : Str := chars!"\\A([^\\s]*)(\\s.*)?"

/-- `sourceRe` (pkg/dicebot/testing/testcase.go:28). -/
def sourceRe : Str := chars!"(?s)\\Ainput:\n(.+)\noutput:(.*)\nrand:(.*)"

/-- `diceRe` (testcase.go:30). -/
def diceRe : Str := chars!"\\A\\s*(\\d+)/(\\d+)\\s*\\z"

/-- `commandRe` (cmd/GoBCDiceREPL/repl/repl.go:89). -/
def commandRe : Str := chars!"\\A\\.([-a-z]+)(?:\\s+(.+))*"

/-- `tailSpacesRe` (repl.go:91). -/
def tailSpacesRe : Str := chars!"\\s+\\z"

/-- `rollDiceRe` (repl.go:357). -/
def rollDiceRe : Str := chars!"\\A(\\d+)\\s+(\\d+)\\z"

/-- The groups of `regexp.MustCompile(source).FindStringSubmatch(s)`. -/
def groupsIn {α : Type} (rn : α → Char) (source : Str) (s : List α) : Option (List (List α)) :=
  (compileRx source).bind fun r => findSubmatch rn r s

/-- `regexp.MustCompile(source).ReplaceAllString(s, "")`. -/
def deleteIn {α : Type} (rn : α → Char) (source : Str) (s : List α) : Option (List α) :=
  (compileRx source).map fun r => deleteAll rn r s

end GoBCDice
