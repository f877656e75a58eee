import Verif.Spec.GrammarFile
import Verif.Lemmas.GrammarEq

/-!
# C97: the parser that ships is the parser of the grammar file

`parser.go` is generated from `parser.pigeon` and checked in next to it: nothing in the build keeps
the two together.  Read by `Spec/GrammarFile`, the text of the file gives the table the interpreter
runs on, for every input; the Go source of the table and of its functions is the one the file
prescribes.
-/

namespace GoBCDice

open Pigeon (PExpr Sym Val)

/-- The file is readable: 50 rules, 40 of them with code. -/
theorem C97_reads : ∃ code rules, readGrammarFile grammarFile = some (code, rules) ∧
    rules = grammarFileRules ∧ code = grammarFileCode ∧ rules.length = 50 ∧
    (rules.filter (·.code.isSome)).length = 40 := by
  have h : (readGrammarFile grammarFile).isSome = true ∧ grammarFileRules.length = 50 ∧
      (grammarFileRules.filter (·.code.isSome)).length = 40 := by decide +kernel
  obtain ⟨⟨c, rs⟩, hr⟩ := Option.isSome_iff_exists.mp h.1
  have h1 : grammarFileRules = rs := by rw [grammarFileRules, hr]; rfl
  have h2 : grammarFileCode = c := by rw [grammarFileCode, hr]; rfl
  exact ⟨c, rs, hr, h1.symm, h2.symm, h1 ▸ h.2.1, h1 ▸ h.2.2⟩

/-- Rule by rule and in order, the table the parser runs on says what the file says. -/
theorem C97_table : (grammarFileRules.map fun r => (r.name, r.expr)) = Pigeon.goGrammar :=
  Pigeon.sameTable_eq _ _ (by decide +kernel)

/-- So `parser.Parse` is, on every input, the interpreter at work on the rules of the file. -/
theorem C97_parse (filename : Str) (data : List Sym) (r : Except Str Val) :
    Parses filename data r ↔
      ∃ fuel, Pigeon.parseFuel ⟨filename, grammarFileRules.map fun r => (r.name, r.expr), false⟩ fuel data =
        some r := by
  rw [C97_table]; rfl

/-- The Go source of the table: line by line it is what the file prescribes (blanks and positions
left aside). -/
theorem C97_source : grammarFileRules.map (fun r => goRule r.name r.expr) = goRulePieces.map bareLines := by
  decide +kernel

/-- The Go source of the functions: character by character, the code of the rules of the file, with
the labels as parameters. -/
theorem C97_functions :
    grammarFileRules.filterMap (fun r => r.code.map (goFunctions r)) = goFuncPieces.map fileOf := by
  decide +kernel

/-- The helper functions are those of the file as well, after the imports. -/
theorem C97_helpers :
    grammarFileCode = chars!"\n\npackage parser\n\nimport (\n" ++
      fileOf [chars!"\t\"github.com/raa0121/GoBCDice/pkg/core/ast\"",
        chars!"\t\"github.com/raa0121/GoBCDice/pkg/core/token\"", chars!"\t\"strconv\"", chars!"\t\"strings\"",
        chars!")", []] ++ fileOf goHelpers := by
  decide +kernel

/-- The reader is not lenient: a file in which one rule is changed has another table. -/
example : (readGrammarFile chars!"{} A <- x:'a'i* / !. B").isSome = true ∧
    (readGrammarFile chars!"{} A <- 'a").isSome = false ∧ (readGrammarFile chars!"{} A <- / B").isSome = false ∧
    (readGrammarFile chars!"{} A <- B / C {x}").isSome = false := by decide +kernel

example : ((readGrammarFile chars!"{} Integer <- [0-9]+ { y }").map fun r => r.2.map fun r => goRule r.name r.expr) =
    some [[chars!"{", chars!"name:\"Integer\",", chars!"expr:&actionExpr{",
      chars!"run:(*parser).callonInteger1,", chars!"expr:&oneOrMoreExpr{", chars!"expr:&charClassMatcher{",
      chars!"val:\"[0-9]\",", chars!"ranges:[]rune{'0','9'},", chars!"ignoreCase:false,",
      chars!"inverted:false,", chars!"},", chars!"},", chars!"},", chars!"},"]] := by decide +kernel

end GoBCDice
