/-!
# Go basics used by the model: strings, integers, outcomes

Modelling conventions (see DESIGN.md §1):
* a Go `int` is an `Int64` (Go on a 64-bit platform: wrap-around `+ - *`, truncating `/`);
* a Go `string` holding valid UTF-8 is the list of its Unicode scalar values (`Str`);
* a Go call returns a value, an `error` (kept with its text) or panics: `Out`.
-/

namespace GoBCDice

/-- A Go string with valid UTF-8 contents, as the list of its runes. -/
abbrev Str := List Char

open Lean in
/-- `chars!"abc"` is the `Str` literal `['a','b','c']` (so that `decide`/`simp` see a plain list). -/
macro:max "chars!" s:str : term => do
  let cs := s.getString.toList
  let elems ← cs.toArray.mapM fun c => `($(Syntax.mkCharLit c))
  `(([$elems,*] : List Char))

/-- Outcome of a Go call: normal result, `error` return, or run-time panic. -/
inductive Out (α : Type) where
  | ok (a : α)
  | err (msg : Str)
  | panic (msg : Str)
deriving DecidableEq, Repr

namespace Out

/-- The call returned normally (nil error). -/
def isOk {α} : Out α → Bool
  | .ok _ => true
  | _ => false

/-- The call panicked. -/
def isPanic {α} : Out α → Bool
  | .panic _ => true
  | _ => false

/-- The call returned a non-nil error. -/
def isErr {α} : Out α → Bool
  | .err _ => true
  | _ => false

/-- Apply a function to a normal result. -/
def map {α β} (f : α → β) : Out α → Out β
  | .ok a => .ok (f a)
  | .err m => .err m
  | .panic m => .panic m

end Out

/-- Go `strings.Join(parts, sep)`. -/
def join (sep : Str) : List Str → Str
  | [] => []
  | [s] => s
  | s :: t :: rest => s ++ sep ++ join sep (t :: rest)

/-- Decimal digits of a natural number (Go `fmt.Sprintf("%d", n)` for n ≥ 0). -/
def natStr (n : Nat) : Str := Nat.toDigits 10 n

/-- Go `fmt.Sprintf("%d", n)` for an `int`. -/
def intStr (n : Int64) : Str :=
  if n.toInt < 0 then '-' :: natStr n.toInt.natAbs else natStr n.toInt.natAbs

/-- Numeric value of an ASCII digit. -/
def digitVal (c : Char) : Nat := c.toNat - '0'.toNat

/-- Character class `[0-9]`. -/
def isDigit (c : Char) : Bool := '0' ≤ c && c ≤ '9'

/-- The number denoted by a string of digits. -/
def digitsVal (s : Str) : Nat := s.foldl (fun n c => 10 * n + digitVal c) 0

/-- Go `strconv.Atoi` on a non-empty digit string *with its error ignored*: on overflow
`ParseInt` returns the nearest representable value, i.e. 2^63-1 (used at
`pkg/core/parser/parser.pigeon:356-363`, `pkg/dicebot/testing/testcase.go:76-77`,
`cmd/GoBCDiceREPL/repl/repl.go:377-378`). -/
def atoiSat (s : Str) : Int64 := Int64.ofInt (min (digitsVal s) (2 ^ 63 - 1 : Nat))

/-- Sum of Go ints by repeated (wrapping) addition starting from 0, as in the loops
`sum := 0; for ... { sum += v }`. -/
def sumInts (vs : List Int64) : Int64 := vs.foldl (· + ·) 0

end GoBCDice
