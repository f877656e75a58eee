import Verif.PigeonOpt

/-!
# `parser.Parse` with the option `Statistics` (pkg/core/parser/parser.go:2413-2442, 2789-2809, 3211-3214)

A `Stats` given by the caller replaces the one made by `newParser`: its `ExprCnt` goes on counting from the value it has,
and it is this count that is compared with the limit of `MaxExpressions`. `Stats.ChoiceAltCnt` (which alternatives were
taken) is not modelled: nothing reads it. The count is a natural number, where the code has a `uint64`.
-/

namespace GoBCDice.Pigeon

/-- `parse` with settings (parser.go:3092-3157), with a `Stats` whose `ExprCnt` is `count`: how the call ends, and
`ExprCnt` afterwards. As `parseFuelO` but for the count. -/
def parseFuelS (s : Settings) (fuel : Nat) (filename : Str) (rules : List (Str × PExpr)) (data : List Sym) (count : Nat) :
    Option (Called × Nat) :=
  let env : PEnv := ⟨filename, rules, s.allowInvalidUTF8⟩
  match rules.lookup s.entrypoint with
  | none => some (.error (errText ((freshState data).addErr env chars!"invalid entrypoint").errs), count)
  | some e =>
    (parseRuleO s (runO env s fuel) s.entrypoint e ⟨{ initState env data with exprCnt := count }, []⟩).map fun
      | .panic m st =>
        (if s.recover then .error (errText (st.p.addErr env m).errs) else .panic m, st.p.exprCnt)
      | .ret v ok st =>
        (match finish env (.ret v ok st.p) with
        | .ok v => .value v
        | .error m => .error m, st.p.exprCnt)

end GoBCDice.Pigeon

namespace GoBCDice

open Pigeon (Sym ParseOption)

/-- `parser.Parse(filename, data, opts..., Statistics(stats, …))` (parser.go:2545-2547) where `stats.ExprCnt` is `count`, with
a given fuel; the second component is `stats.ExprCnt` afterwards. -/
def parseCountedFuel (fuel : Nat) (filename : Str) (data : List Sym) (opts : List ParseOption) (count : Nat) :
    Option (Pigeon.Called × Nat) :=
  Pigeon.parseFuelS (Pigeon.settingsOf Pigeon.goGrammar opts) fuel filename Pigeon.goGrammar data count

end GoBCDice
