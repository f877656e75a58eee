import Verif.PigeonGrammar

/-!
# `parser.Parse`

The interpreter of `Verif.Pigeon` on the extracted table, with the fuel it needs:
`Verif.Props.PigeonCost` proves that it never runs out, for any data.
-/

namespace GoBCDice

open Pigeon (Sym Val)

/-- A bound on the depth of the calls. -/
def parseDepth (data : List Sym) : Nat := 171 * (data.length + 1)

/-- `parser.Parse(filename, data)` without options (parser.go:2545-2547, 3092-3157): the value, or
the text of the error. -/
def goParse (filename : Str) (data : List Sym) : Except Str Val :=
  (Pigeon.parseFuel ⟨filename, Pigeon.goGrammar, false⟩ (parseDepth data) data).getD (.error [])

/-- The text of the error of `parser.Parse` on a text; empty if there is none. -/
def parseErrorText (filename : Str) (s : Str) : Str :=
  match goParse filename (s.map Sym.ofChar) with
  | .error m => m
  | .ok _ => []

/-- How often `parser.Parse` calls `parseExpr` (`Stats.ExprCnt`, parser.go:2789-2809, 3211): the model
counts one call for the entry, which is a call of `parseRule`. -/
def parseExprCalls (filename : Str) (data : List Sym) : Nat :=
  match Pigeon.run ⟨filename, Pigeon.goGrammar, false⟩ (parseDepth data) (.expr (.ruleRef chars!"Command"))
    (Pigeon.initState ⟨filename, Pigeon.goGrammar, false⟩ data) with
  | some (.ret _ _ st) => st.exprCnt - 1
  | some (.panic _ st) => st.exprCnt - 1
  | none => 0

end GoBCDice
