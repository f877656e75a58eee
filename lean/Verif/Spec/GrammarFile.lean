import Verif.PigeonGrammar
import Verif.GrammarText
import Verif.Spec.Pigeon

/-!
# Reading a grammar file

The grammar of commands is written by hand in `parser.pigeon`; `parser.go` is generated from it and
checked in.  Here is what such a file says: a reader of the notation of pigeon (PEG rules with Go
code), as far as this file uses it — a rule `Name <- expression {code}` or `Name <- #{code}`;
alternatives with `/`; sequences; `label:`; `!`; `*`, `+`, `?`; literals in single or double quotes
and classes in brackets, with `i` for either case; `.`; names; parentheses.  The reader answers
nothing on anything else.  It knows nothing of the generated parser.
-/

namespace GoBCDice

open Pigeon (PExpr Action StateAction)

/-- The words of a grammar file. -/
inductive GTok where
  | name (s : Str)
  | lit (s : Str) (ignoreCase : Bool)
  | cls (body : Str) (ignoreCase : Bool)
  | code (s : Str)
  | any | arrow | slash | star | plus | opt | bang | hash | colon | lpar | rpar
deriving DecidableEq, Repr

/-- A letter, a digit or an underscore. -/
def GTok.isWord (c : Char) : Bool := c.isAlphanum || c == '_'

/-- The body of a block of code up to its closing brace; `depth` braces are open inside. -/
def codeBody : Nat → Str → Option (Str × Str)
  | _, [] => none
  | 0, '}' :: rest => some ([], rest)
  | depth + 1, '}' :: rest => (codeBody depth rest).map fun r => ('}' :: r.1, r.2)
  | depth, '{' :: rest => (codeBody (depth + 1) rest).map fun r => ('{' :: r.1, r.2)
  | depth, c :: rest => (codeBody depth rest).map fun r => (c :: r.1, r.2)

/-- The body of a literal up to the quote that closes it; no escapes. -/
def quotedBody (quote : Char) : Str → Option (Str × Str)
  | [] => none
  | c :: rest =>
    if c = quote then some ([], rest)
    else if c = '\\' ∨ c = '\n' then none
    else (quotedBody quote rest).map fun r => (c :: r.1, r.2)

/-- The body of a class up to its closing bracket, escapes left as they are. -/
def classBody : Str → Option (Str × Str)
  | [] => none
  | ']' :: rest => some ([], rest)
  | '\\' :: c :: rest => (classBody rest).map fun r => ('\\' :: c :: r.1, r.2)
  | c :: rest => (classBody rest).map fun r => (c :: r.1, r.2)

/-- An `i` right after a literal or a class. -/
def caseMark : Str → Bool × Str
  | 'i' :: rest => (true, rest)
  | rest => (false, rest)

/-- The words of a text, left to right, at most `fuel` of them. -/
def gTokens : Nat → Str → Option (List GTok)
  | _, [] => some []
  | 0, _ => none
  | fuel + 1, c :: rest =>
    if c = ' ' ∨ c = '\t' ∨ c = '\n' then gTokens fuel rest
    else if c = '<' then
      match rest with
      | '-' :: rest => (gTokens fuel rest).map (.arrow :: ·)
      | _ => none
    else if c = '/' then (gTokens fuel rest).map (.slash :: ·)
    else if c = '*' then (gTokens fuel rest).map (.star :: ·)
    else if c = '+' then (gTokens fuel rest).map (.plus :: ·)
    else if c = '?' then (gTokens fuel rest).map (.opt :: ·)
    else if c = '!' then (gTokens fuel rest).map (.bang :: ·)
    else if c = '#' then (gTokens fuel rest).map (.hash :: ·)
    else if c = ':' then (gTokens fuel rest).map (.colon :: ·)
    else if c = '(' then (gTokens fuel rest).map (.lpar :: ·)
    else if c = ')' then (gTokens fuel rest).map (.rpar :: ·)
    else if c = '.' then (gTokens fuel rest).map (.any :: ·)
    else if c = '"' ∨ c = '\'' then
      match quotedBody c rest with
      | some (s, rest) => (gTokens fuel (caseMark rest).2).map (.lit s (caseMark rest).1 :: ·)
      | none => none
    else if c = '[' then
      match classBody rest with
      | some (s, rest) => (gTokens fuel (caseMark rest).2).map (.cls s (caseMark rest).1 :: ·)
      | none => none
    else if c = '{' then
      match codeBody 0 rest with
      | some (s, rest) => (gTokens fuel rest).map (.code s :: ·)
      | none => none
    else if GTok.isWord c then
      (gTokens fuel (rest.dropWhile GTok.isWord)).map (.name (c :: rest.takeWhile GTok.isWord) :: ·)
    else none

/-- What a class consists of: characters, ranges and Unicode classes of one letter, in order. -/
def classParts : Str → Option (List Char × List (Char × Char) × List Str)
  | [] => some ([], [], [])
  | '\\' :: 'p' :: k :: rest => (classParts rest).map fun p => (p.1, p.2.1, [k] :: p.2.2)
  | '\\' :: ']' :: rest => (classParts rest).map fun p => (']' :: p.1, p.2.1, p.2.2)
  | '\\' :: _ => none
  | a :: '-' :: b :: rest => (classParts rest).map fun p => (p.1, (a, b) :: p.2.1, p.2.2)
  | c :: rest => (classParts rest).map fun p => (c :: p.1, p.2.1, p.2.2)

/-- A class: `^` first inverts it; with `i` it is a class of lower-case letters. -/
def classExpr (body : Str) (ignoreCase : Bool) : Option PExpr :=
  let inverted := body.head? == some '^'
  (classParts (if inverted then body.tail else body)).map fun p =>
    .charClass (chars!"[" ++ body ++ chars!"]" ++ (if ignoreCase then chars!"i" else []))
      (if ignoreCase then p.1.map Char.toLower else p.1) p.2.1 p.2.2 ignoreCase inverted

/-- One alternative or one element stands for itself. -/
def oneOr (f : List PExpr → PExpr) : List PExpr → Option PExpr
  | [] => none
  | [e] => some e
  | es => some (f es)

/-- What follows a primary expression. -/
def suffixed (e : PExpr) : List GTok → PExpr × List GTok
  | .star :: ts => (.zeroOrMore e, ts)
  | .plus :: ts => (.oneOrMore e, ts)
  | .opt :: ts => (.zeroOrOne e, ts)
  | ts => (e, ts)

mutual

/-- Alternatives. -/
def gChoice : Nat → List GTok → Option (PExpr × List GTok)
  | 0, _ => none
  | n + 1, ts => do
    let (es, ts) ← gAlternatives n ts
    let e ← oneOr .choice es
    pure (e, ts)

/-- Sequences with `/` between them. -/
def gAlternatives : Nat → List GTok → Option (List PExpr × List GTok)
  | 0, _ => none
  | n + 1, ts => do
    let (es, ts) ← gSeq n ts
    let e ← oneOr .seq es
    match ts with
    | .slash :: ts => do
      let (more, ts) ← gAlternatives n ts
      pure (e :: more, ts)
    | ts => pure ([e], ts)

/-- Elements one after the other. -/
def gSeq : Nat → List GTok → Option (List PExpr × List GTok)
  | 0, _ => none
  | n + 1, ts =>
    match gItem n ts with
    | none => some ([], ts)
    | some (e, ts) => do
      let (es, ts) ← gSeq n ts
      pure (e :: es, ts)

/-- An element with its label, if any. -/
def gItem : Nat → List GTok → Option (PExpr × List GTok)
  | 0, _ => none
  | n + 1, .name l :: .colon :: ts => do
    let (e, ts) ← gPrefixed n ts
    pure (.labeled l e, ts)
  | n + 1, ts => gPrefixed n ts

/-- An expression, perhaps after `!`. -/
def gPrefixed : Nat → List GTok → Option (PExpr × List GTok)
  | 0, _ => none
  | n + 1, .bang :: ts => do
    let (e, ts) ← gPrimary n ts
    let (e, ts) := suffixed e ts
    pure (.not e, ts)
  | n + 1, ts => do
    let (e, ts) ← gPrimary n ts
    pure (suffixed e ts)

/-- A literal, a class, any character, a name that does not begin the next rule, or an expression in
parentheses.  A literal with `i` is in lower case. -/
def gPrimary : Nat → List GTok → Option (PExpr × List GTok)
  | 0, _ => none
  | _ + 1, .lit s i :: ts => some (.lit (if i then s.map Char.toLower else s) i, ts)
  | _ + 1, .cls s i :: ts => (classExpr s i).map (·, ts)
  | _ + 1, .any :: ts => some (.any, ts)
  | _ + 1, .name _ :: .arrow :: _ => none
  | _ + 1, .name s :: ts => some (.ruleRef s, ts)
  | n + 1, .lpar :: ts => do
    let (e, ts) ← gChoice n ts
    match ts with
    | .rpar :: ts => pure (e, ts)
    | _ => none
  | _ + 1, _ => none

end

/-- The names of the functions made of the code in rules: the model's functions, by name. -/
def actionNames : List (Str × Action) :=
  [(chars!"onCommand1", .onCommand1), (chars!"onCommandWithExpression1", .onCommandWithExpression1),
   (chars!"onChoice1", .onChoice1), (chars!"onChoiceItems1", .onChoiceItems1),
   (chars!"onChoiceItem1", .onChoiceItem1), (chars!"onChoiceItemChars1", .onChoiceItemChars1),
   (chars!"onCalc1", .onCalc1), (chars!"onDRollExprCommand1", .onDRollExprCommand1),
   (chars!"onDRollCompCommand1", .onDRollCompCommand1), (chars!"onBRollList1", .onBRollList1),
   (chars!"onBRollComp1", .onBRollComp1), (chars!"onRRollList1", .onRRollList1),
   (chars!"onRRollComp1", .onRRollComp1), (chars!"onURollComp1", .onURollComp1),
   (chars!"onURollExpr1", .onURollExpr1), (chars!"onURollList1", .onURollList1),
   (chars!"onIntExprAdditive1", .onIntExprAdditive1), (chars!"onIntExprMultitive1", .onIntExprMultitive1),
   (chars!"onParenthesizedIntExpr1", .onParenthesizedIntExpr1),
   (chars!"onIntExprUnaryPlus1", .onIntExprUnaryPlus1), (chars!"onIntExprUnaryMinus1", .onIntExprUnaryMinus1),
   (chars!"onDRollComp1", .onDRollComp1), (chars!"onDRollExprAdditive1", .onDRollExprAdditive1),
   (chars!"onDRollExprMultitive1", .onDRollExprMultitive1),
   (chars!"onParenthesizedDRollExpr1", .onParenthesizedDRollExpr1),
   (chars!"onDRollExprUnaryPlus1", .onDRollExprUnaryPlus1),
   (chars!"onDRollExprUnaryMinus1", .onDRollExprUnaryMinus1),
   (chars!"onIntRandExprAdditive1", .onIntRandExprAdditive1),
   (chars!"onIntRandExprMultitive1", .onIntRandExprMultitive1),
   (chars!"onParenthesizedIntRandExpr1", .onParenthesizedIntRandExpr1),
   (chars!"onIntRandExprUnaryPlus1", .onIntRandExprUnaryPlus1),
   (chars!"onIntRandExprUnaryMinus1", .onIntRandExprUnaryMinus1), (chars!"onDRoll1", .onDRoll1),
   (chars!"onBRoll1", .onBRoll1), (chars!"onRRoll1", .onRRoll1), (chars!"onURoll1", .onURoll1),
   (chars!"onRandomNumber1", .onRandomNumber1), (chars!"onInteger1", .onInteger1)]

/-- The names of the functions made of state code. -/
def stateActionNames : List (Str × StateAction) :=
  [(chars!"onResetRandCount1", .onResetRandCount1), (chars!"onIncRandCount1", .onIncRandCount1)]

/-- A rule as written: its name, its expression and its code, if any. -/
structure FileRule where
  name : Str
  expr : PExpr
  code : Option Str

/-- The function made of the code of a rule: `on`, the rule and 1. -/
def onName (rule : Str) : Str := chars!"on" ++ rule ++ chars!"1"

/-- Rules up to the end of the file. -/
def gRules : Nat → List GTok → Option (List FileRule)
  | _, [] => some []
  | 0, _ => none
  | n + 1, .name r :: .arrow :: .hash :: .code c :: ts => do
    let a ← stateActionNames.lookup (onName r)
    let more ← gRules n ts
    pure (⟨r, .stateCode a, some c⟩ :: more)
  | n + 1, .name r :: .arrow :: ts => do
    let (e, ts) ← gChoice n ts
    match ts, e with
    | .code _ :: _, .choice _ => none
    | .code c :: ts, e => do
      let a ← actionNames.lookup (onName r)
      let more ← gRules n ts
      pure (⟨r, .action a e, some c⟩ :: more)
    | ts, e => do
      let more ← gRules n ts
      pure (⟨r, e, none⟩ :: more)
  | _ + 1, _ => none

/-- A grammar file: code to begin with, then rules.  (The bounds are on the depth of calls of the reader, five
for each word at most.) -/
def readGrammarFile (text : Str) : Option (Str × List FileRule) :=
  match gTokens text.length text with
  | some (.code c :: ts) => (gRules (8 * ts.length + 8) ts).map (c, ·)
  | _ => none

/-- Lines as a text. -/
def fileOf (ls : List Str) : Str := ls.flatMap (· ++ ['\n'])

/-- The text of pkg/core/parser/parser.pigeon. -/
def grammarFile : Str := fileOf pigeonPieces.flatten

/-- The rules of the grammar file. -/
def grammarFileRules : List FileRule := ((readGrammarFile grammarFile).map (·.2)).getD []

/-- The code the grammar file begins with. -/
def grammarFileCode : Str := ((readGrammarFile grammarFile).map (·.1)).getD []

/-! ### The Go source a rule becomes -/

/-- A text of ASCII characters in double quotes, quotes and backslashes escaped. -/
def dquote (s : Str) : Str :=
  chars!"\"" ++ s.flatMap (fun c => if c = '"' ∨ c = '\\' then ['\\', c] else [c]) ++ chars!"\""

/-- A rune in single quotes. -/
def squote (c : Char) : Str := ['\'', c, '\'']

/-- Texts with commas between them. -/
def commas (sep : Str) : List Str → Str
  | [] => []
  | [a] => a
  | a :: as => a ++ sep ++ commas sep as

/-- `true` or `false`. -/
def goBool (b : Bool) : Str := if b then chars!"true" else chars!"false"

/-- The name of the function of an action. -/
def actionName (a : Action) : Str := ((actionNames.find? (·.2 = a)).map (·.1)).getD []

/-- The name of the function of a state action. -/
def stateActionName (a : StateAction) : Str := ((stateActionNames.find? (·.2 = a)).map (·.1)).getD []

mutual

/-- The lines of the composite literal of an expression without blanks and without positions; `pre`
comes before it (a field name or nothing). -/
def goExpr (pre : Str) : PExpr → List Str
  | .action a e =>
    (pre ++ chars!"&actionExpr{") :: (chars!"run:(*parser).call" ++ actionName a ++ chars!",") ::
      goExpr chars!"expr:" e ++ [chars!"},"]
  | .any => [pre ++ chars!"&anyMatcher{", chars!"},"]
  | .charClass val cs rs ks i inv =>
    [pre ++ chars!"&charClassMatcher{", chars!"val:" ++ dquote val ++ chars!","] ++
      (if cs = [] then [] else [chars!"chars:[]rune{" ++ commas chars!"," (cs.map squote) ++ chars!"},"]) ++
      (if rs = [] then []
       else [chars!"ranges:[]rune{" ++
         commas chars!"," (rs.map fun r => squote r.1 ++ chars!"," ++ squote r.2) ++ chars!"},"]) ++
      (if ks = [] then []
       else [chars!"classes:[]*unicode.RangeTable{" ++
         commas chars!"," (ks.map fun k => chars!"rangeTable(" ++ dquote k ++ chars!")") ++ chars!"},"]) ++
      [chars!"ignoreCase:" ++ goBool i ++ chars!",", chars!"inverted:" ++ goBool inv ++ chars!",", chars!"},"]
  | .choice es =>
    [pre ++ chars!"&choiceExpr{", chars!"alternatives:[]interface{}{"] ++ goExprs es ++
      [chars!"},", chars!"},"]
  | .labeled l e =>
    (pre ++ chars!"&labeledExpr{") :: (chars!"label:" ++ dquote l ++ chars!",") ::
      goExpr chars!"expr:" e ++ [chars!"},"]
  | .lit s i =>
    [pre ++ chars!"&litMatcher{", chars!"val:" ++ dquote s ++ chars!",",
     chars!"ignoreCase:" ++ goBool i ++ chars!",", chars!"},"]
  | .not e => (pre ++ chars!"&notExpr{") :: goExpr chars!"expr:" e ++ [chars!"},"]
  | .oneOrMore e => (pre ++ chars!"&oneOrMoreExpr{") :: goExpr chars!"expr:" e ++ [chars!"},"]
  | .ruleRef r => [pre ++ chars!"&ruleRefExpr{", chars!"name:" ++ dquote r ++ chars!",", chars!"},"]
  | .seq es =>
    [pre ++ chars!"&seqExpr{", chars!"exprs:[]interface{}{"] ++ goExprs es ++ [chars!"},", chars!"},"]
  | .stateCode a =>
    [pre ++ chars!"&stateCodeExpr{", chars!"run:(*parser).call" ++ stateActionName a ++ chars!",", chars!"},"]
  | .zeroOrMore e => (pre ++ chars!"&zeroOrMoreExpr{") :: goExpr chars!"expr:" e ++ [chars!"},"]
  | .zeroOrOne e => (pre ++ chars!"&zeroOrOneExpr{") :: goExpr chars!"expr:" e ++ [chars!"},"]

/-- The lines of expressions in a list. -/
def goExprs : List PExpr → List Str
  | [] => []
  | e :: es => goExpr [] e ++ goExprs es

end

/-- The lines of a rule in the table, without blanks and without positions. -/
def goRule (name : Str) (e : PExpr) : List Str :=
  [chars!"{", chars!"name:" ++ dquote name ++ chars!","] ++ goExpr chars!"expr:" e ++ [chars!"},"]

/-- Go source lines without blanks and without the lines of positions. -/
def bareLines (ls : List Str) : List Str :=
  (ls.map (·.filter fun c => c ≠ ' ' ∧ c ≠ '\t')).filter fun l =>
    ¬ (chars!"pos:").isPrefixOf l ∧ ¬ (chars!"line:").isPrefixOf l

/-- The labels of a rule, in order: the parameters of its function. -/
def labelsOf : PExpr → List Str
  | .action _ e => labelsOf e
  | .labeled l _ => [l]
  | .seq es => es.flatMap fun | .labeled l _ => [l] | _ => []
  | _ => []

/-- The two functions pigeon writes for the code of a rule. -/
def goFunctions (r : FileRule) (code : Str) : Str :=
  let state := match r.expr with | .stateCode _ => true | _ => false
  let params := labelsOf r.expr
  let result := if state then chars!"error" else chars!"(interface{}, error)"
  chars!"func (c *current) " ++ onName r.name ++ chars!"(" ++ commas chars!", " params ++
    (if params = [] then [] else chars!" interface{}") ++ chars!") " ++ result ++ chars!" {" ++ code ++
    chars!"}\n\nfunc (p *parser) call" ++ onName r.name ++ chars!"() " ++ result ++
    chars!" {\n\tstack := p.vstack[len(p.vstack)-1]\n\t_ = stack\n\treturn p.cur." ++ onName r.name ++ chars!"(" ++
    commas chars!", " (params.map fun l => chars!"stack[" ++ dquote l ++ chars!"]") ++ chars!")\n}\n\n"

end GoBCDice
