import Verif.Ast

/-!
# The command parser (pkg/core/parser/parser.pigeon, compiled to parser.go)

One function per grammar rule, with PEG semantics: ordered choice, greedy repetition without
backtracking, failure restores position and state (parser.go: parseSeqExpr, parseChoiceExpr).
A parser maps the remaining input and the user state `RandCount` to a value, the remaining input
and the new state, or fails.

Recursion goes through a fuel argument which bounds the nesting of primaries; `parse` supplies
more than the input can use (proved in `Verif.Props.Parser`), so it is not a restriction.

Not modelled: the text of parse errors, and input that is not valid UTF-8 (which makes the Go
parser fail).
-/

namespace GoBCDice

/-- A PEG parser: remaining input and `RandCount` to result. -/
def P (α : Type) : Type := Str → Nat → Option (α × Str × Nat)

namespace P
variable {α β : Type}

/-- succeed without consuming -/
def ret (a : α) : P α := fun s c => some (a, s, c)

/-- sequence (parser.go parseSeqExpr) -/
def bnd (p : P α) (f : α → P β) : P β := fun s c =>
  match p s c with
  | none => none
  | some (a, s', c') => f a s' c'

instance : Monad P where
  pure := ret
  bind := bnd

/-- ordered choice (parser.go parseChoiceExpr): the second alternative starts from the original
position and state -/
def alt (p q : P α) : P α := fun s c =>
  match p s c with
  | none => q s c
  | some r => some r

instance : OrElse (P α) where
  orElse p q := alt p (q ())

/-- single-character matcher -/
def sat (f : Char → Bool) : P Char := fun s c =>
  match s with
  | [] => none
  | x :: s' => if f x then some (x, s', c) else none

/-- repetition `p*`, at most `k` times -/
def manyAux (p : P α) : Nat → Str → Nat → List α × Str × Nat
  | 0, s, c => ([], s, c)
  | k + 1, s, c =>
    match p s c with
    | none => ([], s, c)
    | some (a, s', c') =>
      let (as, s'', c'') := manyAux p k s' c'
      (a :: as, s'', c'')

/-- `p*` (parser.go parseZeroOrMoreExpr).  Every repeated rule of this grammar consumes at least
one character, so as many repetitions as there are characters left are enough. -/
def many (p : P α) : P (List α) := fun s c => some (manyAux p s.length s c)

/-- `p?` (parser.go parseZeroOrOneExpr) -/
def opt (p : P α) : P (Option α) := fun s c =>
  match p s c with
  | none => some (none, s, c)
  | some (a, s', c') => some (some a, s', c')

end P

/-- Lower-casing as done by `unicode.ToLower`, restricted to the characters that matter: those
mapped to an ASCII letter or to themselves.  Besides `A`-`Z`, U+0130 is mapped to `i` and
U+212A to `k`.  (Used by the case-insensitive matchers, parser.go parseLitMatcher and
parseCharClassMatcher.) -/
def toLowerRune (c : Char) : Char :=
  if 'A' ≤ c ∧ c ≤ 'Z' then Char.ofNat (c.toNat + 32)
  else if c = '\u0130' then 'i'
  else if c = '\u212a' then 'k'
  else c

/-- `'c'` -/
def chr (x : Char) : P Unit := do
  let _ ← P.sat (fun y => y == x)
  pure ()

/-- `'C'i`, given the lower-case letter -/
def chrI (x : Char) : P Unit := do
  let _ ← P.sat (fun y => toLowerRune y == x)
  pure ()

/-- `"..."i`, given in lower case -/
def litI : Str → P Unit
  | [] => pure ()
  | x :: xs => do
    chrI x
    litI xs

/-- `"..."` -/
def lit : Str → P Unit
  | [] => pure ()
  | x :: xs => do
    chr x
    lit xs

/-- `IncRandCount` (parser.pigeon:351-354). -/
def incRandCount : P Unit := fun s c => some ((), s, c + 1)

/-- `Integer <- [0-9]+` (parser.pigeon:356-363). -/
def integer : P Expr := fun s c =>
  match s.takeWhile isDigit with
  | [] => none
  | ds => some (.int (atoiSat ds), s.dropWhile isDigit, c)

/-- Additive operator character (parser.pigeon:187, 229, 261, 285). -/
def addOp : P BinOp := fun s c =>
  match s with
  | '+' :: s' => some (.add, s', c)
  | '-' :: s' => some (.sub, s', c)
  | _ => none

/-- `rest` item of the additive rules: `('+' / '-') Multitive`. -/
def addItem (mult : P Expr) : P (BinOp × Expr) := do
  let op ← addOp
  let e ← mult
  pure (op, e)

/-- `leftAssociativeAdditive` (parser.pigeon:21-37). -/
def foldAdd (first : Expr) (rest : List (BinOp × Expr)) : Expr :=
  rest.foldl (fun acc r => .bin r.1 acc r.2) first

/-- Multiplicative operator with rounding. -/
inductive MulOp where
  | mul
  | div (m : Rounding)
deriving DecidableEq, Repr

/-- Build the node of a multiplicative operator. -/
def MulOp.mk : MulOp → Expr → Expr → Expr
  | .mul, l, r => .bin .mul l r
  | .div m, l, r => .div m l r

/-- `[ur]i` suffix of a division (parser.pigeon:233, 265, 289) with the upper-casing of line 49. -/
def roundSuffix : P Rounding := fun s c =>
  match s with
  | [] => none
  | x :: s' =>
    if toLowerRune x == 'u' then some (.up, s', c)
    else if toLowerRune x == 'r' then some (.round, s', c)
    else none

/-- First alternative of the multiplicative `rest`: `'/' Primary [ur]i`. -/
def mulItemRound (prim : P Expr) : P (MulOp × Expr) := do
  chr '/'
  let e ← prim
  let m ← roundSuffix
  pure (.div m, e)

/-- `('*' / '/')` -/
def mulOpChar : P MulOp := fun s c =>
  match s with
  | '*' :: s' => some (.mul, s', c)
  | '/' :: s' => some (.div .down, s', c)
  | _ => none

/-- Second alternative of the multiplicative `rest`: `('*' / '/') Primary`. -/
def mulItemPlain (prim : P Expr) : P (MulOp × Expr) := do
  let op ← mulOpChar
  let e ← prim
  pure (op, e)

/-- `rest` item of the multiplicative rules (parser.pigeon:233, 265, 289). -/
def mulItem (prim : P Expr) : P (MulOp × Expr) := mulItemRound prim <|> mulItemPlain prim

/-- `leftAssociativeMultitive` (parser.pigeon:40-68). -/
def foldMul (first : Expr) (rest : List (MulOp × Expr)) : Expr :=
  rest.foldl (fun acc r => r.1.mk acc r.2) first

/-- `IntExprMultitive`, `DRollExprMultitive`, `IntRandExprMultitive`
(parser.pigeon:233-235, 265-267, 289-291). -/
def multitive (prim : P Expr) : P Expr := do
  let first ← prim
  let rest ← P.many (mulItem prim)
  pure (foldMul first rest)

/-- `IntExprAdditive`, `DRollExprAdditive`, `IntRandExprAdditive`
(parser.pigeon:229-231, 261-263, 285-287). -/
def additive (prim : P Expr) : P Expr := do
  let first ← multitive prim
  let rest ← P.many (addItem (multitive prim))
  pure (foldAdd first rest)

/-- Parenthesized expression (parser.pigeon:239-241, 271-273, 295-297). -/
def parenthesized (e : P Expr) : P Expr := do
  chr '('
  let x ← e
  chr ')'
  pure x

/-- Unary plus (parser.pigeon:243-245, 275-277, 299-301): the sign disappears. -/
def unaryPlus (prim : P Expr) : P Expr := do
  chr '+'
  prim

/-- Unary minus (parser.pigeon:247-249, 279-281, 303-305). -/
def unaryMinus (prim : P Expr) : P Expr := do
  chr '-'
  let e ← prim
  pure (.neg e)

/-- `IntExprPrimary` (parser.pigeon:237). -/
def intPrimary : Nat → P Expr
  | 0 => fun _ _ => none
  | n + 1 =>
    integer <|> unaryPlus (intPrimary n) <|> unaryMinus (intPrimary n) <|>
      parenthesized (additive (intPrimary n))

/-- `IntExpr` (parser.pigeon:227). -/
def intExpr (n : Nat) : P Expr := additive (intPrimary n)

/-- `RandomNumberOperand` (parser.pigeon:344). -/
def randomNumberOperand (n : Nat) : P Expr := integer <|> parenthesized (intExpr n)

/-- `RandomNumber` (parser.pigeon:337-342). -/
def randomNumber (n : Nat) : P Expr := do
  chr '['
  let min ← randomNumberOperand n
  lit chars!"..."
  let max ← randomNumberOperand n
  chr ']'
  incRandCount
  pure (.var .rand min max)

/-- `IntRandExprPrimary` (parser.pigeon:293). -/
def intRandPrimary : Nat → P Expr
  | 0 => fun _ _ => none
  | n + 1 =>
    integer <|> randomNumber n <|> unaryPlus (intRandPrimary n) <|>
      unaryMinus (intRandPrimary n) <|> parenthesized (additive (intRandPrimary n))

/-- `IntRandExpr` (parser.pigeon:283). -/
def intRandExpr (n : Nat) : P Expr := additive (intRandPrimary n)

/-- `RollOperand` (parser.pigeon:335). -/
def rollOperand (n : Nat) : P Expr :=
  integer <|> randomNumber n <|> parenthesized (intRandExpr n)

/-- `DRoll` (parser.pigeon:307-312). -/
def dRoll (n : Nat) : P Expr := do
  let num ← rollOperand n
  chrI 'd'
  let sides ← rollOperand n
  incRandCount
  pure (.var .d num sides)

/-- `BRoll`, `RRoll`, `URoll` (parser.pigeon:314-333), given the lower-case letter. -/
def letterRoll (letter : Char) (n : Nat) : P Roll := do
  let num ← rollOperand n
  chrI letter
  let sides ← rollOperand n
  incRandCount
  pure { num := num, sides := sides }

/-- `DRollExprPrimary` (parser.pigeon:269). -/
def dRollPrimary : Nat → P Expr
  | 0 => fun _ _ => none
  | n + 1 =>
    dRoll n <|> randomNumber n <|> integer <|> unaryPlus (dRollPrimary n) <|>
      unaryMinus (dRollPrimary n) <|> parenthesized (additive (dRollPrimary n))

/-- `DRollExpr` (parser.pigeon:259). -/
def dRollExpr (n : Nat) : P Expr := additive (dRollPrimary n)

/-- `CompareOp <- "=" / "<>" / "<=" / "<" / ">=" / ">"` (parser.pigeon:365). -/
def compareOp : P CmpOp := fun s c =>
  match s with
  | '=' :: s' => some (.eq, s', c)
  | '<' :: '>' :: s' => some (.ne, s', c)
  | '<' :: '=' :: s' => some (.le, s', c)
  | '<' :: s' => some (.lt, s', c)
  | '>' :: '=' :: s' => some (.ge, s', c)
  | '>' :: s' => some (.gt, s', c)
  | _ => none

/-- `'+' Roll` item of the roll list rules. -/
def plusRoll (roll : P Roll) : P Roll := do
  chr '+'
  roll

/-- `first:Roll rest:('+' Roll)*` (parser.pigeon:126-136, 148, 208). -/
def rollList (roll : P Roll) : P (List Roll) := do
  let first ← roll
  let rest ← P.many (plusRoll roll)
  pure (first :: rest)

/-- `'[' IntExpr ']'` -/
def threshold (n : Nat) : P Expr := do
  chr '['
  let e ← intExpr n
  chr ']'
  pure e

/-- `RRollList` / `URollList` (parser.pigeon:148-165, 208-225). -/
def rRollList (letter : Char) (n : Nat) : P RRollList := do
  let rolls ← rollList (letterRoll letter n)
  let th ← P.opt (threshold n)
  pure { rolls := rolls, threshold := th }

/-- Bonus of a U roll: `('+' / '-') IntExprAdditive` (parser.pigeon:187): everything after the
sign is one additive expression. -/
def bonus (n : Nat) : P (Sign × Expr) := do
  let op ← addOp
  let e ← intExpr n
  pure ((match op with | .add => Sign.plus | _ => Sign.minus), e)

/-- `URollExpr` (parser.pigeon:187-206). -/
def uRollExpr (n : Nat) : P URollExpr := do
  let list ← rRollList 'u' n
  let b ← P.opt (bonus n)
  pure { list := list, bonus := b }

/-- `BRollList` (parser.pigeon:126-136). -/
def bRollListCmd (n : Nat) : P Node := do
  let rolls ← rollList (letterRoll 'b' n)
  pure (.bRollList rolls)

/-- `BRollComp` (parser.pigeon:138-146). -/
def bRollComp (n : Nat) : P Node := do
  let rolls ← rollList (letterRoll 'b' n)
  let op ← compareOp
  let r ← intExpr n
  pure (.bRollComp rolls op r)

/-- `RRollList` as a command. -/
def rRollListCmd (n : Nat) : P Node := do
  let rl ← rRollList 'r' n
  pure (.rRollList rl)

/-- `RRollComp` (parser.pigeon:167-175). -/
def rRollComp (n : Nat) : P Node := do
  let rl ← rRollList 'r' n
  let op ← compareOp
  let r ← intExpr n
  pure (.rRollComp rl op r)

/-- `URollExpr` as a command. -/
def uRollExprCmd (n : Nat) : P Node := do
  let u ← uRollExpr n
  pure (.uRollExpr u)

/-- `URollComp` (parser.pigeon:177-185). -/
def uRollComp (n : Nat) : P Node := do
  let u ← uRollExpr n
  let op ← compareOp
  let r ← intExpr n
  pure (.uRollComp u op r)

/-- The check `RandCount < 1` in the actions of the D commands: the action reports an error but
the rule still matches (parser.go parseActionExpr: `p.addErrAt` and `ok` unchanged), so parsing
goes on and the whole parse fails at the end.  `none` marks a reported error. -/
def requireRandom (node : Node) : P (Option Node) := fun s c =>
  some (if c < 1 then none else some node, s, c)

/-- `DRollCompCommand` (parser.pigeon:118-124, 251-257). -/
def dRollCompCommand (n : Nat) : P (Option Node) := do
  let l ← dRollExpr n
  let op ← compareOp
  let r ← intExpr n
  requireRandom (.dRollComp l op r)

/-- `DRollExprCommand` (parser.pigeon:110-116). -/
def dRollExprCommand (n : Nat) : P (Option Node) := do
  let e ← dRollExpr n
  requireRandom (.dRollExpr e)

/-- A rule whose action cannot report an error. -/
def noErr (p : P Node) : P (Option Node) := do
  let x ← p
  pure (some x)

/-- `EOT <- !.` (parser.pigeon:367). -/
def eot : P Unit := fun s c =>
  match s with
  | [] => some ((), [], c)
  | _ :: _ => none

/-- `CommandWithExpression` (parser.pigeon:76-78). -/
def commandWithExpression (n : Nat) : P (Option Node) := do
  let x ← noErr (bRollComp n) <|> noErr (bRollListCmd n) <|> noErr (rRollComp n) <|>
    noErr (rRollListCmd n) <|> noErr (uRollComp n) <|> noErr (uRollExprCmd n) <|>
    dRollCompCommand n <|> dRollExprCommand n
  eot
  pure x

/-- `Calc` (parser.pigeon:106-108). -/
def calcCmd (n : Nat) : P Node := do
  chrI 'c'
  chr '('
  let e ← intExpr n
  chr ')'
  pure (.calc e)

/-- `[\pZ]`: Unicode category Z (separators). -/
def isSeparator (c : Char) : Bool :=
  c = ' ' || c = '\u00a0' || c = '\u1680' || ('\u2000' ≤ c && c ≤ '\u200a') || c = '\u2028' ||
  c = '\u2029' || c = '\u202f' || c = '\u205f' || c = '\u3000'

/-- Go `unicode.IsSpace`. -/
def isSpace (c : Char) : Bool :=
  ('\t' ≤ c && c ≤ '\r') || c = '\u0085' || isSeparator c

/-- Go `strings.TrimSpace`. -/
def trimSpace (s : Str) : Str :=
  ((s.dropWhile isSpace).reverse.dropWhile isSpace).reverse

/-- `[\pZ]*` -/
def separators : P Unit := fun s c => some ((), s.dropWhile isSeparator, c)

/-- `[^\],]` -/
def isItemChar (c : Char) : Bool := !(c == ']' || c == ',')

/-- `ChoiceItemChars` (parser.pigeon:102-104). -/
def choiceItemChars : P Str := fun s c =>
  match s.takeWhile isItemChar with
  | [] => none
  | t => some (trimSpace t, s.dropWhile isItemChar, c)

/-- `ChoiceItem` (parser.pigeon:98-100). -/
def choiceItem : P Str := do
  separators
  choiceItemChars

/-- `',' ChoiceItem` -/
def commaItem : P Str := do
  chr ','
  choiceItem

/-- `',' [\pZ]*` -/
def trailingComma : P Unit := do
  chr ','
  separators

/-- `ChoiceItems` (parser.pigeon:84-96). -/
def choiceItems : P (List Str) := do
  let first ← choiceItem
  let rest ← P.many commaItem
  pure (first :: rest)

/-- `Choice` (parser.pigeon:80-82). -/
def choiceCmd : P Node := do
  litI chars!"choice["
  let items ← choiceItems
  let _ ← P.opt trailingComma
  chr ']'
  pure (.choice items)

/-- `Command` (parser.pigeon:72-74), `ResetRandCount` being the initial state 0. -/
def command (n : Nat) : P (Option Node) :=
  noErr choiceCmd <|> noErr (calcCmd n) <|> commandWithExpression n

/-- Parse with a given fuel. -/
def parseFuel (n : Nat) (s : Str) : Option Node :=
  match command n s 0 with
  | some (some node, _, _) => some node
  | _ => none

/-- `parser.Parse` (parser.go; used at pkg/bcdice/bcdice.go:110): `none` is a parse error. -/
def parse (s : Str) : Option Node := parseFuel (s.length + 1) s

end GoBCDice
