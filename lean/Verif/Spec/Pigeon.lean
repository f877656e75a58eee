import Verif.Pigeon
import Verif.PigeonGrammar

/-!
# What a user sees of `parser.Parse`

The data is the sequence of runes the bytes of the input decode to (`Pigeon.Sym`).  Positions in
messages are a line, a column and a byte offset.
-/

namespace GoBCDice

open Pigeon (Sym Pos Val)

/-- `parser.Parse(filename, data)` returns: a value, or the text of an error. -/
def Parses (filename : Str) (data : List Sym) (r : Except Str Val) : Prop :=
  ∃ fuel, Pigeon.parseFuel ⟨filename, Pigeon.goGrammar, false⟩ fuel data = some r

/-- Every rune was decoded from at least one byte. -/
def Decoded (data : List Sym) : Prop := ∀ x ∈ data, 0 < x.w

/-- The text as the parser gets it: valid UTF-8. -/
def utf8 (s : Str) : List Sym := s.map Sym.ofChar

/-- The runes of the data. -/
def runesOf (data : List Sym) : Str := data.map Sym.rn

/-- A byte that is not part of valid UTF-8. -/
def invalidByte : Sym := ⟨'\ufffd', 1⟩

/-- An error message: file (if any), line, column, offset, rule (if any) and what happened. -/
def located (filename : Str) (pos : Pos) (rule : Option Str) (msg : Str) : Str :=
  (if filename ≠ [] then filename ++ chars!":" else []) ++
    natStr pos.line ++ chars!":" ++ natStr pos.col ++ chars!" (" ++ natStr pos.offset ++ chars!")" ++
    (match rule with | none => [] | some r => chars!": rule " ++ r) ++ chars!": " ++ msg

/-- The line of the `k`-th rune: one more than the line breaks up to and including it. -/
def lineAt (data : List Sym) (k : Nat) : Nat := 1 + (((runesOf data).take (k + 1)).filter (· = '\n')).length

/-- The column of the `k`-th rune, or of the end: how many runes there are since the last line break
up to and including it; 0 for a line break. -/
def colAt (data : List Sym) (k : Nat) : Nat :=
  ((((runesOf data).map some ++ [none]).take (k + 1)).reverse.takeWhile (· ≠ some '\n')).length

/-- The offset in bytes of the `k`-th rune. -/
def offsetAt (data : List Sym) (k : Nat) : Nat := ((data.take k).map Sym.w).sum

/-- A position of the input: that of its `k`-th rune, or of its end. -/
def posAt (data : List Sym) (k : Nat) : Pos := ⟨lineAt data k, colAt data k, offsetAt data k⟩

/-- `1`, `1/(1)`, `1/(1/(1))`, ... -/
def nested : Nat → Str
  | 0 => chars!"1"
  | n + 1 => chars!"1/(" ++ nested n ++ chars!")"

/-- The command `c(1/(1/(…1…)))` with `n` divisions. -/
def nestedCalc (n : Nat) : Str := chars!"c(" ++ nested n ++ chars!")"

end GoBCDice
