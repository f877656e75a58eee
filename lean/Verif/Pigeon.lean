import Verif.Parser
import Verif.Quote

/-!
# The generated parser at work (pkg/core/parser/parser.go:1844-3661)

`Verif.Parser` has one function per grammar rule.  The Go parser is different: `pigeon` compiles the
grammar to a table (`Verif.PigeonGrammar`, extracted mechanically from parser.go) which is
interpreted at run time by generic code, with a stack of label values, user state, and a record of
the farthest failure for the error message.  This module models that interpreter and the action
functions; `Verif.Props.Pigeon` proves that, on the extracted table, it accepts the same texts and
builds the same trees as `Verif.Parser`.

Input is the sequence of runes `utf8.DecodeRune` yields, with their widths.  Not modelled: the
options (see `Verif.PigeonOpt`; the code of the repository passes none), statistics, and the five kinds of expression that do
not occur in the table (`&`, `&{}`, `!{}`, recovery, throw).
-/

namespace GoBCDice.Pigeon

/-- A rune decoded from the input, with its width in bytes; an invalid byte is U+FFFD of width 1. -/
structure Sym where
  rn : Char
  w : Nat
deriving DecidableEq, Repr

/-- A valid rune. -/
def Sym.ofChar (c : Char) : Sym := ⟨c, c.utf8Size⟩

/-- `utf8.RuneError`. -/
def runeError : Char := '\ufffd'

/-- `position` (parser.go:2550-2552). -/
structure Pos where
  line : Nat
  col : Nat
  offset : Nat
deriving DecidableEq, Repr

/-- `savepoint` (parser.go:2560-2564): the position and the data from there on; `rn` and `w` are
those of its first rune (`RuneError` and 0 at the end). -/
structure Pt where
  pos : Pos
  rest : List Sym
deriving DecidableEq, Repr

/-- Letters of the roll lists. -/
inductive Letter where
  | b | r | u
deriving DecidableEq, Repr

/-- The values of `interface{}` that occur: nil, `[]byte`, `[]interface{}` and nodes.  As in
`Verif.Ast`, only the shapes of nodes that the actions build on well-typed arguments are
represented; the actions are modelled to panic otherwise, and it is proved that this does not
happen. -/
inductive Val where
  | nil
  | bytes (s : Str)
  | list (vs : List Val)
  /-- an arithmetic node -/
  | expr (e : Expr)
  /-- `*ast.VariableInfixExpression` of a B, R or U roll -/
  | roll (k : Letter) (r : Roll)
  /-- `*ast.String` -/
  | str (s : Str)
  /-- `*ast.RRollList`, made of R rolls or of U rolls -/
  | rRollList (k : Letter) (rl : RRollList)
  /-- a comparison of arithmetic expressions (`ast.NewCompare`) -/
  | compare (l : Expr) (op : CmpOp) (r : Expr)
  /-- any other node -/
  | node (n : Node)
deriving Repr

/-- The node a parse result is. -/
def Val.toNode : Val → Option Node
  | .rRollList .r rl => some (.rRollList rl)
  | .node n => some n
  | _ => none

/-- The action and state functions `on...` (parser.go:1844-2353). -/
inductive Action where
  | onCommand1 | onCommandWithExpression1 | onChoice1 | onChoiceItems1 | onChoiceItem1
  | onChoiceItemChars1 | onCalc1 | onDRollExprCommand1 | onDRollCompCommand1 | onBRollList1
  | onBRollComp1 | onRRollList1 | onRRollComp1 | onURollComp1 | onURollExpr1 | onURollList1
  | onIntExprAdditive1 | onIntExprMultitive1 | onParenthesizedIntExpr1 | onIntExprUnaryPlus1
  | onIntExprUnaryMinus1 | onDRollComp1 | onDRollExprAdditive1 | onDRollExprMultitive1
  | onParenthesizedDRollExpr1 | onDRollExprUnaryPlus1 | onDRollExprUnaryMinus1
  | onIntRandExprAdditive1 | onIntRandExprMultitive1 | onParenthesizedIntRandExpr1
  | onIntRandExprUnaryPlus1 | onIntRandExprUnaryMinus1 | onDRoll1 | onBRoll1 | onRRoll1 | onURoll1
  | onRandomNumber1 | onInteger1
deriving DecidableEq, Repr

/-- The functions of state code (parser.go:2324-2344). -/
inductive StateAction where
  | onResetRandCount1 | onIncRandCount1
deriving DecidableEq, Repr

/-- The expressions of the table (parser.go:2599-2681). -/
inductive PExpr where
  | action (run : Action) (e : PExpr)
  | any
  | charClass (val : Str) (chars : List Char) (ranges : List (Char × Char)) (classes : List Str)
      (ignoreCase inverted : Bool)
  | choice (alternatives : List PExpr)
  | labeled (label : Str) (e : PExpr)
  | lit (val : Str) (ignoreCase : Bool)
  | not (e : PExpr)
  | oneOrMore (e : PExpr)
  | ruleRef (name : Str)
  | seq (exprs : List PExpr)
  | stateCode (run : StateAction)
  | zeroOrMore (e : PExpr)
  | zeroOrOne (e : PExpr)

/-- One entry of the stack of label values (`map[string]interface{}`); the first binding of a label
is the current one. -/
abbrev Frame := List (Str × Val)

/-- `stack["label"]`: nil if absent. -/
def Frame.get (f : Frame) (label : Str) : Val := (f.lookup label).getD .nil

/-! ## Actions -/

/-- What an action returns. -/
inductive ActRes where
  | ok (v : Val)
  | err (msg : Str)
  | panic (msg : Str)
deriving Repr

/-- The panic of a failed type assertion. -/
def badType : ActRes := .panic chars!"interface conversion"

/-- `toIfaceSlice` (parser.go:24-29); `none`: panic. -/
def toSlice : Val → Option (List Val)
  | .nil => some []
  | .list vs => some vs
  | _ => none

/-- The loop of `leftAssociativeAdditive` (parser.go:32-48). -/
def addLoop : Expr → List Val → ActRes
  | acc, [] => .ok (.expr acc)
  | acc, .list [.bytes op, .expr r] :: rest =>
    if op = chars!"+" then addLoop (.bin .add acc r) rest
    else if op = chars!"-" then addLoop (.bin .sub acc r) rest
    else addLoop acc rest
  | _, _ => badType

/-- `leftAssociativeAdditive` (parser.go:32-48). -/
def leftAssociativeAdditive : Val → Val → ActRes
  | .expr first, rest =>
    match toSlice rest with
    | some rs => addLoop first rs
    | none => badType
  | _, _ => badType

/-- `strings.ToUpper` on the texts matched by `[ur]i`. -/
def upperAscii (s : Str) : Str :=
  s.map (fun c => if 'a' ≤ c ∧ c ≤ 'z' then Char.ofNat (c.toNat - 32) else c)

/-- The loop of `leftAssociativeMultitive` (parser.go:51-79). -/
def mulLoop : Expr → List Val → ActRes
  | acc, [] => .ok (.expr acc)
  | acc, .list [.bytes op, .expr r] :: rest =>
    if op = chars!"*" then mulLoop (.bin .mul acc r) rest
    else if op = chars!"/" then mulLoop (.div .down acc r) rest
    else mulLoop acc rest
  | acc, .list [.bytes op, .expr r, .bytes m] :: rest =>
    if op = chars!"*" then mulLoop (.bin .mul acc r) rest
    else if op = chars!"/" then
      if upperAscii m = chars!"U" then mulLoop (.div .up acc r) rest
      else if upperAscii m = chars!"R" then mulLoop (.div .round acc r) rest
      else if m = [] then mulLoop (.div .down acc r) rest
      else mulLoop acc rest
    else mulLoop acc rest
  | _, _ => badType

/-- `leftAssociativeMultitive` (parser.go:51-79). -/
def leftAssociativeMultitive : Val → Val → ActRes
  | .expr first, rest =>
    match toSlice rest with
    | some rs => mulLoop first rs
    | none => badType
  | _, _ => badType

/-- The items of `rest` in `onChoiceItems1` (parser.go:1878-1883); `none`: panic. -/
def restStrings : List Val → Option (List Str)
  | [] => some []
  | .list [_, .str s] :: rest => (restStrings rest).map (s :: ·)
  | _ => none

/-- The rolls of `rest` in `onBRollList1`, `onRRollList1`, `onURollList1`
(parser.go:1955-1959, 1996-2000, 2080-2084); `none`: panic. -/
def restRolls (k : Letter) : List Val → Option (List Roll)
  | [] => some []
  | .list [_, .roll k' r] :: rest => if k' = k then (restRolls k rest).map (r :: ·) else none
  | _ => none

/-- `onBRollList1` (parser.go:1952-1962). -/
def rollListAction (first rest : Val) : ActRes :=
  match first, toSlice rest with
  | .roll .b r, some rs =>
    match restRolls .b rs with
    | some rolls => .ok (.node (.bRollList (r :: rolls)))
    | none => badType
  | _, _ => badType

/-- The threshold in `onRRollList1` and `onURollList1` (parser.go:1987-1992, 2071-2076); outer
`none`: panic. -/
def thresholdOf : Val → Option (Option Expr)
  | .nil => some none
  | .list [_, .expr e, _] => some (some e)
  | _ => none

/-- `onRRollList1` and `onURollList1` (parser.go:1986-2003, 2070-2087). -/
def rRollListAction (k : Letter) (first rest th : Val) : ActRes :=
  match thresholdOf th, first, toSlice rest with
  | some t, .roll k' r, some rs =>
    if k' = k then
      match restRolls k rs with
      | some rolls => .ok (.rRollList k { rolls := r :: rolls, threshold := t })
      | none => badType
    else badType
  | _, _, _ => badType

/-- `onURollExpr1` (parser.go:2043-2062). -/
def uRollExprAction (list bonus : Val) : ActRes :=
  match bonus, list with
  | .nil, .rRollList .u rl => .ok (.node (.uRollExpr { list := rl, bonus := none }))
  | .list [.bytes op, .expr e], .rRollList .u rl =>
    if op = chars!"+" then .ok (.node (.uRollExpr { list := rl, bonus := some (.plus, e) }))
    else if op = chars!"-" then .ok (.node (.uRollExpr { list := rl, bonus := some (.minus, e) }))
    else .err (chars!"unknown operator: " ++ op)
  | _, _ => badType

/-- The comparison operator with a given text, if there is one. -/
def cmpOfText (s : Str) : Option CmpOp :=
  if s = chars!"=" then some .eq
  else if s = chars!"<>" then some .ne
  else if s = chars!"<=" then some .le
  else if s = chars!"<" then some .lt
  else if s = chars!">=" then some .ge
  else if s = chars!">" then some .gt
  else none

/-- `NewCompare` and the command around it (parser.go:1970-1978, 2011-2019, 2027-2035, 2145-2151); `k`
is the letter of the command, `none` for `onDRollComp1`, which makes no command. -/
def compareAction (k : Option Letter) (left op right : Val) : ActRes :=
  match op, right with
  | .bytes o, .expr r =>
    match cmpOfText o with
    | none => badType
    | some o =>
      match k, left with
      | some .b, .node (.bRollList rolls) => .ok (.node (.bRollComp rolls o r))
      | some .r, .rRollList .r rl => .ok (.node (.rRollComp rl o r))
      | some .u, .node (.uRollExpr u) => .ok (.node (.uRollComp u o r))
      | none, .expr l => .ok (.compare l o r)
      | _, _ => badType
  | _, _ => badType

/-- Error of the D commands without a random element (parser.go:1926, 1940). -/
def noRandomMsg : Str := chars!"random element not found"

/-- Run an action with the labels, the matched text and `c.state["RandCount"]`
(parser.go:1844-2353, one case per function). -/
def runAction (a : Action) (f : Frame) (text : Str) (randCount : Option Int) : ActRes :=
  match a with
  | .onCommand1 => .ok (f.get chars!"n")
  | .onCommandWithExpression1 => .ok (f.get chars!"n")
  | .onChoice1 => .ok (f.get chars!"items")
  | .onChoiceItems1 =>
    match f.get chars!"first", toSlice (f.get chars!"rest") with
    | .str s, some rs =>
      match restStrings rs with
      | some ss => .ok (.node (.choice (s :: ss)))
      | none => badType
    | _, _ => badType
  | .onChoiceItem1 => .ok (f.get chars!"s")
  | .onChoiceItemChars1 => .ok (.str (trimSpace text))
  | .onCalc1 =>
    match f.get chars!"expr" with
    | .expr e => .ok (.node (.calc e))
    | _ => badType
  | .onDRollExprCommand1 =>
    match randCount with
    | none => badType
    | some c =>
      if c < 1 then .err noRandomMsg
      else
        match f.get chars!"expr" with
        | .expr e => .ok (.node (.dRollExpr e))
        | _ => badType
  | .onDRollCompCommand1 =>
    match randCount with
    | none => badType
    | some c =>
      if c < 1 then .err noRandomMsg
      else
        match f.get chars!"expr" with
        | .compare l op r => .ok (.node (.dRollComp l op r))
        | _ => badType
  | .onBRollList1 => rollListAction (f.get chars!"first") (f.get chars!"rest")
  | .onBRollComp1 =>
    compareAction (some .b) (f.get chars!"left") (f.get chars!"op") (f.get chars!"right")
  | .onRRollList1 => rRollListAction .r (f.get chars!"first") (f.get chars!"rest") (f.get chars!"th")
  | .onRRollComp1 =>
    compareAction (some .r) (f.get chars!"left") (f.get chars!"op") (f.get chars!"right")
  | .onURollComp1 =>
    compareAction (some .u) (f.get chars!"left") (f.get chars!"op") (f.get chars!"right")
  | .onURollExpr1 => uRollExprAction (f.get chars!"uRollList") (f.get chars!"bonus")
  | .onURollList1 => rRollListAction .u (f.get chars!"first") (f.get chars!"rest") (f.get chars!"th")
  | .onIntExprAdditive1 | .onDRollExprAdditive1 | .onIntRandExprAdditive1 =>
    leftAssociativeAdditive (f.get chars!"first") (f.get chars!"rest")
  | .onIntExprMultitive1 | .onDRollExprMultitive1 | .onIntRandExprMultitive1 =>
    leftAssociativeMultitive (f.get chars!"first") (f.get chars!"rest")
  | .onParenthesizedIntExpr1 | .onParenthesizedDRollExpr1 | .onParenthesizedIntRandExpr1
  | .onIntExprUnaryPlus1 | .onDRollExprUnaryPlus1 | .onIntRandExprUnaryPlus1 =>
    match f.get chars!"e" with
    | .expr e => .ok (.expr e)
    | _ => badType
  | .onIntExprUnaryMinus1 | .onDRollExprUnaryMinus1 | .onIntRandExprUnaryMinus1 =>
    match f.get chars!"e" with
    | .expr e => .ok (.expr (.neg e))
    | _ => badType
  | .onDRollComp1 =>
    compareAction none (f.get chars!"left") (f.get chars!"op") (f.get chars!"right")
  | .onDRoll1 =>
    match f.get chars!"num", f.get chars!"sides" with
    | .expr n, .expr s => .ok (.expr (.var .d n s))
    | _, _ => badType
  | .onBRoll1 =>
    match f.get chars!"num", f.get chars!"sides" with
    | .expr n, .expr s => .ok (.roll .b ⟨n, s⟩)
    | _, _ => badType
  | .onRRoll1 =>
    match f.get chars!"num", f.get chars!"sides" with
    | .expr n, .expr s => .ok (.roll .r ⟨n, s⟩)
    | _, _ => badType
  | .onURoll1 =>
    match f.get chars!"num", f.get chars!"sides" with
    | .expr n, .expr s => .ok (.roll .u ⟨n, s⟩)
    | _, _ => badType
  | .onRandomNumber1 =>
    match f.get chars!"min", f.get chars!"max" with
    | .expr n, .expr s => .ok (.expr (.var .rand n s))
    | _, _ => badType
  | .onInteger1 => .ok (.expr (.int (atoiSat text)))

/-! ## The machine -/

/-- The fields of `parser` that change (parser.go:2811-2852).  `randCount` is
`cur.state["RandCount"]`, the only key used; `errs` are the messages of the errors recorded; `exprCnt` is
`Stats.ExprCnt`, the number of calls of `parseExpr` so far. -/
structure PState where
  pt : Pt
  randCount : Option Int
  vstack : List Frame
  rstack : List Str
  errs : List Str
  maxFailPos : Pos
  maxFailExpected : List Str
  invert : Bool
  exprCnt : Nat

/-- What does not change: the file name given to `Parse`, the grammar and an option. -/
structure PEnv where
  filename : Str
  rules : List (Str × PExpr)
  /-- the option `AllowInvalidUTF8` (parser.go:2470-2482); `Parse` without options: false -/
  allowInvalid : Bool

variable (env : PEnv)

/-- `addErrAt` (parser.go:2935-2957) with `parserError.Error` (2739-2741). -/
def PState.addErrAt (st : PState) (msg : Str) (pos : Pos) : PState :=
  let pre := (if env.filename ≠ [] then env.filename ++ chars!":" else []) ++
    natStr pos.line ++ chars!":" ++ natStr pos.col ++ chars!" (" ++ natStr pos.offset ++ chars!")" ++
    (match st.rstack with | [] => [] | rule :: _ => chars!": rule " ++ rule)
  { st with errs := st.errs ++ [pre ++ chars!": " ++ msg] }

/-- `addErr` (parser.go:2931-2933). -/
def PState.addErr (st : PState) (msg : Str) : PState := st.addErrAt env msg st.pt.pos

/-- `failAt` (parser.go:2959-2976). -/
def PState.failAt (st : PState) (fail : Bool) (pos : Pos) (want : Str) : PState :=
  if fail = st.invert then
    if pos.offset < st.maxFailPos.offset then st
    else
      let st := if pos.offset > st.maxFailPos.offset then
        { st with maxFailPos := pos, maxFailExpected := [] } else st
      let want := if st.invert then chars!"!" ++ want else want
      { st with maxFailExpected := st.maxFailExpected ++ [want] }
  else st

/-- The end of `read` (parser.go:2981-2995): the rune at the new offset is decoded. -/
def PState.enter (st : PState) (line col offset : Nat) (rest : List Sym) : PState :=
  let pos : Pos :=
    match rest.head? with
    | some ⟨'\n', _⟩ => ⟨line + 1, 0, offset⟩
    | _ => ⟨line, col + 1, offset⟩
  let st := { st with pt := ⟨pos, rest⟩ }
  if rest.head? = some ⟨runeError, 1⟩ ∧ env.allowInvalid = false then st.addErr env chars!"invalid encoding" else st

/-- `read` (parser.go:2979-2996). -/
def PState.read (st : PState) : PState :=
  st.enter env st.pt.pos.line st.pt.pos.col
    (st.pt.pos.offset + (match st.pt.rest with | [] => 0 | s :: _ => s.w)) st.pt.rest.tail

/-- `restore` (parser.go:2998-3006). -/
def PState.restore (st : PState) (pt : Pt) : PState :=
  if pt.pos.offset = st.pt.pos.offset then st else { st with pt := pt }

/-- `sliceFrom` (parser.go:3058-3060), as text. -/
def slice (start now : Pt) : Str :=
  (start.rest.take (start.rest.length - now.rest.length)).map Sym.rn

/-- `pushV` (parser.go:2855-2873): the new entry is empty. -/
def PState.pushV (st : PState) : PState := { st with vstack := [] :: st.vstack }

/-- `popV` (parser.go:2876-2884). -/
def PState.popV (st : PState) : PState := { st with vstack := st.vstack.tail }

/-- `parseExpr` counts its calls (parser.go:3211-3214); the limit is `math.MaxUint64` unless the
option `MaxExpressions` is used, so it is never exceeded. -/
def PState.tick (st : PState) : PState := { st with exprCnt := st.exprCnt + 1 }

/-- `unicode.Is(rangeTable(class), c)`; the only class of the grammar is `Z`. -/
def inClass (cls : Str) (c : Char) : Bool := decide (cls = chars!"Z") && isSeparator c

/-- Does the class contain the rune (parser.go:3352-3388, before inversion)? -/
def classHas (chars : List Char) (ranges : List (Char × Char)) (classes : List Str) (c : Char) : Bool :=
  chars.any (· == c) || ranges.any (fun r => decide (r.1 ≤ c ∧ c ≤ r.2)) || classes.any (inClass · c)

/-- The text `failAt` is given for a literal (parser.go:3462-3466). -/
def litWant (val : Str) (ignoreCase : Bool) : Str :=
  quote (fun c => decide (32 ≤ c.toNat ∧ c.toNat < 127)) val ++ (if ignoreCase then chars!"i" else [])

/-- The current rune: `RuneError` at the end. -/
def PState.rune (st : PState) : Char :=
  match st.pt.rest with
  | [] => runeError
  | s :: _ => s.rn

/-- The loop of `parseLitMatcher` (parser.go:3468-3479): whether all runes matched. -/
def litLoop (ignoreCase : Bool) : Str → PState → Bool × PState
  | [], st => (true, st)
  | want :: val, st =>
    let cur := if ignoreCase then toLowerRune st.rune else st.rune
    if cur ≠ want then (false, st) else litLoop ignoreCase val (st.read env)

/-- The result of a parsing function: its two return values, or a panic. -/
inductive PRes where
  | ret (v : Val) (ok : Bool) (st : PState)
  | panic (msg : Str) (st : PState)

/-- Continue after a call; `none` is lack of fuel. -/
def PRes.andThen (r : Option PRes) (k : Val → Bool → PState → Option PRes) : Option PRes :=
  match r with
  | none => none
  | some (.panic m st) => some (.panic m st)
  | some (.ret v ok st) => k v ok st

/-- `parseCharClassMatcher` (parser.go:3337-3401). -/
def parseCharClass (val : Str) (chars : List Char) (ranges : List (Char × Char)) (classes : List Str)
    (ignoreCase inverted : Bool) (st : PState) : PRes :=
  match st.pt.rest with
  | [] => .ret .nil false (st.failAt false st.pt.pos val)
  | s :: _ =>
    let cur := if ignoreCase then toLowerRune s.rn else s.rn
    if classHas chars ranges classes cur = inverted then .ret .nil false (st.failAt false st.pt.pos val)
    else
      let st' := (st.read env).failAt true st.pt.pos val
      .ret (.bytes (slice st.pt st'.pt)) true st'

/-- `parseAnyMatcher` (parser.go:3321-3335). -/
def parseAny (st : PState) : PRes :=
  match st.pt.rest with
  | [] => .ret .nil false (st.failAt false st.pt.pos chars!".")
  | _ :: _ =>
    let st' := (st.read env).failAt true st.pt.pos chars!"."
    .ret (.bytes (slice st.pt st'.pt)) true st'

/-- `parseLitMatcher` (parser.go:3457-3482). -/
def parseLit (val : Str) (ignoreCase : Bool) (st : PState) : PRes :=
  match litLoop env ignoreCase val st with
  | (false, st') =>
    .ret .nil false ((st'.failAt false st.pt.pos (litWant val ignoreCase)).restore st.pt)
  | (true, st') =>
    let st' := st'.failAt true st.pt.pos (litWant val ignoreCase)
    .ret (.bytes (slice st.pt st'.pt)) true st'

/-- `parseStateCodeExpr` (parser.go:3590-3600) with the two state functions (2324-2344). -/
def parseStateCode (a : StateAction) (st : PState) : PRes :=
  match a with
  | .onResetRandCount1 => .ret .nil true { st with randCount := some 0 }
  | .onIncRandCount1 =>
    match st.randCount with
    | none => .panic chars!"interface conversion" st
    | some c => .ret .nil true { st with randCount := some (c + 1) }

/-- What the machine is about to do: parse an expression, or go on with the loop of a choice, a
sequence (with the values so far and what is restored on failure) or a repetition. -/
inductive Task where
  | expr (e : PExpr)
  | alts (es : List PExpr)
  | seq (es : List PExpr) (vals : List Val) (pt : Pt) (randCount : Option Int)
  | many (e : PExpr) (vals : List Val) (atLeastOne : Bool)

/-- `parseExpr` and the functions it calls (parser.go:3170-3646).  The first argument bounds the
depth of the recursion; `none` is returned if it is used up. -/
def run : Nat → Task → PState → Option PRes
  | 0, _, _ => none
  | n + 1, task, st =>
    match task with
    -- parseActionExpr (3264-3287)
    | .expr (.action a e) =>
      PRes.andThen (run n (.expr e) st.tick) fun v ok st' =>
        if ok then
          match runAction a (st'.vstack.headD []) (slice st.pt st'.pt) st'.randCount with
          | .ok v => some (.ret v true st')
          | .err m => some (.ret .nil true (st'.addErrAt env m st.pt.pos))
          | .panic m => some (.panic m st')
        else some (.ret v false st')
    | .expr .any => some (parseAny env st.tick)
    | .expr (.charClass val chars ranges classes ic inv) =>
      some (parseCharClass env val chars ranges classes ic inv st.tick)
    -- parseChoiceExpr (3418-3440)
    | .expr (.choice es) => run n (.alts es) st.tick
    | .alts [] => some (.ret .nil false st)
    | .alts (e :: es) =>
      PRes.andThen (run n (.expr e) st.pushV) fun v ok st' =>
        let st' := st'.popV
        if ok then some (.ret v true st')
        else run n (.alts es) { st' with randCount := st.randCount }
    -- parseLabeledExpr (3442-3455)
    | .expr (.labeled label e) =>
      PRes.andThen (run n (.expr e) st.tick.pushV) fun v ok st' =>
        let st' := st'.popV
        if ok && decide (label ≠ []) then
          some (.ret v ok { st' with
            vstack := ((label, v) :: st'.vstack.headD []) :: st'.vstack.tail })
        else some (.ret v ok st')
    | .expr (.lit val ic) => some (parseLit env val ic st.tick)
    -- parseNotExpr (3500-3516)
    | .expr (.not e) =>
      PRes.andThen (run n (.expr e) { st.tick.pushV with invert := !st.invert }) fun _ ok st' =>
        let st' := { st' with invert := !st'.invert }
        let st' := st'.popV
        let st' := { st' with randCount := st.randCount }
        some (.ret .nil (!ok) (st'.restore st.pt))
    -- parseOneOrMoreExpr (3518-3538), parseZeroOrMoreExpr (3618-3634)
    | .expr (.oneOrMore e) => run n (.many e [] true) st.tick
    | .expr (.zeroOrMore e) => run n (.many e [] false) st.tick
    | .many e vals atLeastOne =>
      PRes.andThen (run n (.expr e) st.pushV) fun v ok st' =>
        let st' := st'.popV
        if ok then run n (.many e (vals ++ [v]) atLeastOne) st'
        else if atLeastOne && vals.isEmpty then some (.ret .nil false st')
        else some (.ret (.list vals) true st')
    -- parseRuleRefExpr (3552-3567), parseRule (3170-3197)
    | .expr (.ruleRef name) =>
      match env.rules.lookup name with
      | none => some (.ret .nil false (st.tick.addErr env (chars!"undefined rule: " ++ name)))
      | some e =>
        PRes.andThen (run n (.expr e) { st.tick.pushV with rstack := name :: st.rstack }) fun v ok st' =>
          some (.ret v ok { st'.popV with rstack := st'.rstack.tail })
    -- parseSeqExpr (3569-3588)
    | .expr (.seq es) => run n (.seq es [] st.pt st.randCount) st.tick
    | .seq [] vals _ _ => some (.ret (.list vals) true st)
    | .seq (e :: es) vals pt rc =>
      PRes.andThen (run n (.expr e) st) fun v ok st' =>
        if ok then run n (.seq es (vals ++ [v]) pt rc) st'
        else some (.ret .nil false ({ st' with randCount := rc }.restore pt))
    | .expr (.stateCode a) => some (parseStateCode a st.tick)
    -- parseZeroOrOneExpr (3636-3646)
    | .expr (.zeroOrOne e) =>
      PRes.andThen (run n (.expr e) st.tick.pushV) fun v _ st' => some (.ret v true st'.popV)

/-! ## `Parse` -/

/-- The distinct elements, first occurrences kept (`dedupe`, parser.go:2698-2708). -/
def dedupe : List Str → List Str
  | [] => []
  | x :: xs => x :: (dedupe xs).filter (· ≠ x)

/-- `errList.Error` (parser.go:2710-2728) after `err` (2690-2696). -/
def errText (errs : List Str) : Str := List.intercalate chars!"\n" (dedupe errs)

/-- `s ≤ t` in the order of `sort.Strings`. -/
def strLe : Str → Str → Bool
  | [], _ => true
  | _ :: _, [] => false
  | a :: s, b :: t => decide (a.toNat < b.toNat) || (decide (a = b) && strLe s t)

/-- Insert in order. -/
def insertSorted (x : Str) : List Str → List Str
  | [] => [x]
  | y :: ys => if strLe x y then x :: y :: ys else y :: insertSorted x ys

/-- `listJoin(list, ", ", "or")` (parser.go:3159-3168). -/
def listJoin (list : List Str) : Str :=
  match list.reverse with
  | [] => []
  | [x] => x
  | last :: front => List.intercalate chars!", " front.reverse ++ chars!" or " ++ last

/-- The list of what was expected at the farthest failure (parser.go:3131-3148). -/
def expectedList (maxFailExpected : List Str) : List Str :=
  let set := dedupe maxFailExpected
  (set.filter (· ≠ chars!"!.")).foldr insertSorted [] ++
    (if chars!"!." ∈ set then [chars!"EOF"] else [])

/-- The parser made by `newParser` (parser.go:2744-2772) after its first `read` (3119). -/
def initState (data : List Sym) : PState :=
  ({ pt := ⟨⟨1, 0, 0⟩, data⟩, randCount := none, vstack := [], rstack := [], errs := [],
     maxFailPos := ⟨1, 1, 0⟩, maxFailExpected := [], invert := false, exprCnt := 0 } : PState).enter env 1 0 0 data

/-- The end of `parse` (parser.go:3100-3157): the value, or the text of the error. -/
def finish : PRes → Except Str Val
  | .panic m st => .error (errText (st.addErr env m).errs)
  | .ret v true st => if st.errs = [] then .ok v else .error (errText st.errs)
  | .ret _ false st =>
    let st := if st.errs = [] then
      st.addErrAt env (chars!"no match found, expected: " ++ listJoin (expectedList st.maxFailExpected))
        st.maxFailPos
      else st
    .error (errText st.errs)

/-- `Parse` (parser.go:2545-2547) with a given fuel: the entry point is the first rule
(parser.go:2765). -/
def parseFuel (fuel : Nat) (data : List Sym) : Option (Except Str Val) :=
  match env.rules with
  | [] => some (.error (errText ((initState env data).addErr env chars!"grammar has no rule").errs))
  | (start, _) :: _ => (run env fuel (.expr (.ruleRef start)) (initState env data)).map (finish env)

end GoBCDice.Pigeon
