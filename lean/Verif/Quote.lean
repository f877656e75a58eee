import Verif.Basic

/-!
# Go's `%q` verb (`strconv.Quote`) on valid UTF-8 strings

`%q` is used by `ast.String.SExp` (pkg/core/ast/string.go:34-36) and by the error text of
`ParseDice` (pkg/dicebot/testing/testcase.go:73).  The table of printable characters
(`strconv.IsPrint`) is a parameter: the properties hold for every such table.
-/

namespace GoBCDice

/-- Lower-case hexadecimal digit. -/
def hexDigit (n : Nat) : Char := chars!"0123456789abcdef".getD (n % 16) '0'

/-- The `k` low hexadecimal digits of `n` (Go's `lowerhex[r>>uint(s)&0xF]` loops). -/
def hexDigits : Nat → Nat → Str
  | 0, _ => []
  | k + 1, n => hexDigits k (n / 16) ++ [hexDigit n]

/-- `appendEscapedRune` of strconv with quote `"` and neither `ASCIIonly` nor `graphicOnly`
(Go standard library, strconv/quote.go). -/
def quoteRune (isPrint : Char → Bool) (c : Char) : Str :=
  if c = '"' ∨ c = '\\' then ['\\', c]
  else if isPrint c then [c]
  else if c = '\x07' then chars!"\\a"
  else if c = '\x08' then chars!"\\b"
  else if c = '\x0c' then chars!"\\f"
  else if c = '\n' then chars!"\\n"
  else if c = '\r' then chars!"\\r"
  else if c = '\t' then chars!"\\t"
  else if c = '\x0b' then chars!"\\v"
  else if c.toNat < 0x20 ∨ c.toNat = 0x7f then chars!"\\x" ++ hexDigits 2 c.toNat
  else if c.toNat < 0x10000 then chars!"\\u" ++ hexDigits 4 c.toNat
  else chars!"\\U" ++ hexDigits 8 c.toNat

/-- `strconv.Quote`. -/
def quote (isPrint : Char → Bool) (s : Str) : Str :=
  chars!"\"" ++ s.flatMap (quoteRune isPrint) ++ chars!"\""

end GoBCDice
