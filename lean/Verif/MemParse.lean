import Verif.PigeonParse
import Verif.RawCommand
import Verif.BCDice

/-!
# The generated parser, making nodes in memory (pkg/core/parser/parser.go:24-79, 1844-2353)

`Verif.Pigeon` lets the actions of the grammar build immutable, typed trees.  Here they are modelled
as written: values of `interface{}` that are nodes are addresses, type assertions look at the object
found there, constructors make a new object and `Append` overwrites one.  `Verif.Props.MemParse`
proves that this parser returns the addresses of the trees the other one returns.

The matching of text, positions, errors and user state are those of `Verif.Pigeon`.
-/

namespace GoBCDice.Mem

open Pigeon (Sym PExpr PEnv PState PRes Action Pt slice upperAscii noRandomMsg)
open Raw (Heap Ref Ptr Obj)

/-- A value of type `interface{}` (in the generated parser): nil, `[]byte`, `[]interface{}` or a
pointer to a node. -/
inductive MVal where
  | nil
  | bytes (s : Str)
  | list (vs : List MVal)
  | node (r : Ref)
deriving Repr

/-- A Go function that works on nodes. -/
def A (α : Type) : Type := Heap → Out α × Heap

namespace A
variable {α β : Type}

/-- normal return -/
def ret (a : α) : A α := fun h => (.ok a, h)

/-- sequencing with `if err != nil { return err }` -/
def bnd (x : A α) (f : α → A β) : A β := fun h =>
  match x h with
  | (.ok a, h') => f a h'
  | (.err e, h') => (.err e, h')
  | (.panic m, h') => (.panic m, h')

instance : Monad A where
  pure := ret
  bind := bnd

/-- return an error -/
def fail (e : Str) : A α := fun h => (.err e, h)

/-- run-time panic -/
def crash (m : Str) : A α := fun h => (.panic m, h)

end A

/-- `&T{...}`: a new object. -/
def new (o : Obj) : A Ref := fun h => (.ok h.length, h ++ [o])

/-- The object at an address. -/
def load (r : Ref) : A Obj := fun h =>
  match h[r]? with
  | some o => (.ok o, h)
  | none => (.panic Raw.nilDereference, h)

/-- Overwriting the object at an address. -/
def store (r : Ref) (o : Obj) : A Unit := fun h => (.ok (), h.set r o)

/-! ## Type assertions -/

/-- The panic of a failed type assertion (its text is not modelled). -/
def badType {α : Type} : A α := A.crash chars!"interface conversion"

/-- `toIfaceSlice` (parser.go:24-29). -/
def toSlice : MVal → A (List MVal)
  | .nil => pure []
  | .list vs => pure vs
  | _ => badType

/-- `x.([]byte)`. -/
def asBytes : MVal → A Str
  | .bytes s => pure s
  | _ => badType

/-- `x.(ast.Node)`. -/
def asNode : MVal → A Ref
  | .node r => pure r
  | _ => badType

/-- `x.(*ast.VariableInfixExpression)`. -/
def asVarInfix (v : MVal) : A Ref := do
  let r ← asNode v
  match ← load r with
  | .binary k _ _ => if k.isVariableInfix then pure r else badType
  | _ => badType

/-- `x.(*ast.String)`. -/
def asString (v : MVal) : A Ref := do
  let r ← asNode v
  match ← load r with
  | .string _ => pure r
  | _ => badType

/-- `x.(*ast.RRollList)`. -/
def asRRollList (v : MVal) : A Ref := do
  let r ← asNode v
  match ← load r with
  | .rRollList _ _ => pure r
  | _ => badType

/-- `vs[i]`. -/
def index (vs : List MVal) (i : Nat) : A MVal :=
  match vs[i]? with
  | some v => pure v
  | none => A.crash chars!"runtime error: index out of range"

/-! ## Methods of nodes -/

/-- `(*Choice).Append` (choice.go:51-53). -/
def choiceAppend (r item : Ref) : A Unit := do
  match ← load r with
  | .choice items => store r (.choice (items ++ [some item]))
  | _ => badType

/-- `(*BRollList).Append` (b_roll_list.go:53-55). -/
def bRollListAppend (r roll : Ref) : A Unit := do
  match ← load r with
  | .bRollList rolls => store r (.bRollList (rolls ++ [some roll]))
  | _ => badType

/-- `(*RRollList).Append` (r_roll_list.go:58-60). -/
def rRollListAppend (r roll : Ref) : A Unit := do
  match ← load r with
  | .rRollList rolls t => store r (.rRollList (rolls ++ [some roll]) t)
  | _ => badType

/-! ## Actions -/

/-- The loop of `leftAssociativeAdditive` (parser.go:34-45). -/
def addLoop : Ref → List MVal → A Ref
  | lastNode, [] => pure lastNode
  | lastNode, r :: rest => do
    let rs ← toSlice r
    let op ← asBytes (← index rs 0)
    let right ← asNode (← index rs 1)
    if op = chars!"+" then do
      let n ← new (.binary .add (some lastNode) (some right))
      addLoop n rest
    else if op = chars!"-" then do
      let n ← new (.binary .sub (some lastNode) (some right))
      addLoop n rest
    else addLoop lastNode rest

/-- `leftAssociativeAdditive` (parser.go:32-48). -/
def leftAssociativeAdditive (first rest : MVal) : A MVal := do
  let lastNode ← asNode first
  let n ← addLoop lastNode (← toSlice rest)
  pure (.node n)

/-- The rounding method (parser.go:58-61).  `strings.ToUpper` as in `Verif.Pigeon`. -/
def roundingMethod (rs : List MVal) : A Str :=
  if rs.length ≥ 3 then do
    let m ← asBytes (← index rs 2)
    pure (upperAscii m)
  else pure []

/-- The loop of `leftAssociativeMultitive` (parser.go:53-76). -/
def mulLoop : Ref → List MVal → A Ref
  | lastNode, [] => pure lastNode
  | lastNode, r :: rest => do
    let rs ← toSlice r
    let op ← asBytes (← index rs 0)
    let right ← asNode (← index rs 1)
    let m ← roundingMethod rs
    if op = chars!"*" then do
      let n ← new (.binary .mul (some lastNode) (some right))
      mulLoop n rest
    else if op = chars!"/" then
      if m = chars!"U" then do
        let n ← new (.binary (.div .up) (some lastNode) (some right))
        mulLoop n rest
      else if m = chars!"R" then do
        let n ← new (.binary (.div .round) (some lastNode) (some right))
        mulLoop n rest
      else if m = [] then do
        let n ← new (.binary (.div .down) (some lastNode) (some right))
        mulLoop n rest
      else mulLoop lastNode rest
    else mulLoop lastNode rest

/-- `leftAssociativeMultitive` (parser.go:51-79). -/
def leftAssociativeMultitive (first rest : MVal) : A MVal := do
  let lastNode ← asNode first
  let n ← mulLoop lastNode (← toSlice rest)
  pure (.node n)

/-- The loops of `onChoiceItems1`, `onBRollList1`, `onRRollList1` and `onURollList1`
(parser.go:1878-1883, 1955-1959, 1996-2000, 2080-2084). -/
def appendLoop (assert : MVal → A Ref) (append : Ref → A Unit) : List MVal → A Unit
  | [] => pure ()
  | r :: rest => do
    let rs ← toSlice r
    let i ← assert (← index rs 1)
    append i
    appendLoop assert append rest

/-- `onChoiceItems1` (parser.go:1874-1886). -/
def onChoiceItems (first rest : MVal) : A MVal := do
  let firstString ← asString first
  let choice ← new (.choice [some firstString])
  appendLoop asString (choiceAppend choice) (← toSlice rest)
  pure (.node choice)

/-- `onBRollList1` (parser.go:1952-1962). -/
def onBRollList (first rest : MVal) : A MVal := do
  let f ← asVarInfix first
  let list ← new (.bRollList [some f])
  appendLoop asVarInfix (bRollListAppend list) (← toSlice rest)
  pure (.node list)

/-- The threshold in `onRRollList1` and `onURollList1` (parser.go:1987-1992, 2071-2076); `nilInstance`
is the address of the one node of type `ast.Nil` (nil.go:22-32). -/
def thresholdNode (nilInstance : Ref) (th : MVal) : A Ref := do
  let ths ← toSlice th
  match th with
  | .nil => pure nilInstance
  | _ => do asNode (← index ths 1)

/-- `onRRollList1` and `onURollList1` (parser.go:1986-2003, 2070-2087). -/
def onRRollList (nilInstance : Ref) (first rest th : MVal) : A MVal := do
  let threshold ← thresholdNode nilInstance th
  let f ← asVarInfix first
  let list ← new (.rRollList [some f] (some threshold))
  appendLoop asVarInfix (rRollListAppend list) (← toSlice rest)
  pure (.node list)

/-- `ast.NewCompare(left.(ast.Node), string(op.([]byte)), right.(ast.Node))`
(parser.go:1971-1975, 2012-2016, 2028-2032, 2146-2150). -/
def newCompare (left op right : MVal) : A Ref := do
  let l ← asNode left
  let o ← asBytes op
  let r ← asNode right
  new (.binary (.compare o) (some l) (some r))

/-- `onBRollComp1`, `onRRollComp1`, `onURollComp1` (parser.go:1969-1978, 2010-2019, 2026-2035). -/
def onComp (ty : Raw.CommandType) (left op right : MVal) : A MVal := do
  let c ← newCompare left op right
  let n ← new (.command ty (some c))
  pure (.node n)

/-- The bonus in `onURollExpr1` (parser.go:2044-2059). -/
def newBonus (bonus : MVal) : A Ptr := do
  let bonusSlice ← toSlice bonus
  match bonus with
  | .nil => pure none
  | _ => do
    let op ← asBytes (← index bonusSlice 0)
    let right ← asNode (← index bonusSlice 1)
    if op = chars!"+" then do
      let z ← new (.int 0)
      let n ← new (.binary .add (some z) (some right))
      pure (some n)
    else if op = chars!"-" then do
      let z ← new (.int 0)
      let n ← new (.binary .sub (some z) (some right))
      pure (some n)
    else A.fail (chars!"unknown operator: " ++ op)

/-- `onURollExpr1` (parser.go:2043-2062). -/
def onURollExpr (uRollList bonus : MVal) : A MVal := do
  let b ← newBonus bonus
  let l ← asRRollList uRollList
  let n ← new (.uRollExpr (some l) b)
  pure (.node n)

/-- `onDRollExprCommand1` and `onDRollCompCommand1` (parser.go:1924-1930, 1938-1944). -/
def onDCommand (ty : Raw.CommandType) (randCount : Option Int) (expr : MVal) : A MVal :=
  match randCount with
  | none => badType
  | some c =>
    if c < 1 then A.fail noRandomMsg
    else do
      let e ← asNode expr
      let n ← new (.command ty (some e))
      pure (.node n)

/-- `onDRoll1`, `onBRoll1`, `onRRoll1`, `onURoll1`, `onRandomNumber1`
(parser.go:2253-2258, 2266-2271, 2279-2284, 2292-2297, 2305-2310). -/
def onVarInfix (k : Raw.InfixKind) (left right : MVal) : A MVal := do
  let l ← asNode left
  let r ← asNode right
  let n ← new (.binary k (some l) (some r))
  pure (.node n)

/-- One entry of the stack of label values; the first binding of a label is the current one. -/
abbrev MFrame := List (Str × MVal)

/-- `stack["label"]`: nil if absent. -/
def MFrame.get (f : MFrame) (label : Str) : MVal := (f.lookup label).getD .nil

/-- Run an action with the labels, the matched text and `c.state["RandCount"]`
(parser.go:1844-2353, one case per function). -/
def runAction (nilInstance : Ref) (a : Action) (f : MFrame) (text : Str) (randCount : Option Int) :
    A MVal :=
  match a with
  | .onCommand1 => pure (f.get chars!"n")
  | .onCommandWithExpression1 => pure (f.get chars!"n")
  | .onChoice1 => pure (f.get chars!"items")
  | .onChoiceItems1 => onChoiceItems (f.get chars!"first") (f.get chars!"rest")
  | .onChoiceItem1 => pure (f.get chars!"s")
  | .onChoiceItemChars1 => do
    let n ← new (.string (trimSpace text))
    pure (.node n)
  | .onCalc1 => do
    let e ← asNode (f.get chars!"expr")
    let n ← new (.command .calc (some e))
    pure (.node n)
  | .onDRollExprCommand1 => onDCommand .dRollExpr randCount (f.get chars!"expr")
  | .onDRollCompCommand1 => onDCommand .dRollComp randCount (f.get chars!"expr")
  | .onBRollList1 => onBRollList (f.get chars!"first") (f.get chars!"rest")
  | .onBRollComp1 => onComp .bRollComp (f.get chars!"left") (f.get chars!"op") (f.get chars!"right")
  | .onRRollList1 =>
    onRRollList nilInstance (f.get chars!"first") (f.get chars!"rest") (f.get chars!"th")
  | .onRRollComp1 => onComp .rRollComp (f.get chars!"left") (f.get chars!"op") (f.get chars!"right")
  | .onURollComp1 => onComp .uRollComp (f.get chars!"left") (f.get chars!"op") (f.get chars!"right")
  | .onURollExpr1 => onURollExpr (f.get chars!"uRollList") (f.get chars!"bonus")
  | .onURollList1 =>
    onRRollList nilInstance (f.get chars!"first") (f.get chars!"rest") (f.get chars!"th")
  | .onIntExprAdditive1 | .onDRollExprAdditive1 | .onIntRandExprAdditive1 =>
    leftAssociativeAdditive (f.get chars!"first") (f.get chars!"rest")
  | .onIntExprMultitive1 | .onDRollExprMultitive1 | .onIntRandExprMultitive1 =>
    leftAssociativeMultitive (f.get chars!"first") (f.get chars!"rest")
  | .onParenthesizedIntExpr1 | .onParenthesizedDRollExpr1 | .onParenthesizedIntRandExpr1
  | .onIntExprUnaryPlus1 | .onDRollExprUnaryPlus1 | .onIntRandExprUnaryPlus1 => do
    let e ← asNode (f.get chars!"e")
    pure (.node e)
  | .onIntExprUnaryMinus1 | .onDRollExprUnaryMinus1 | .onIntRandExprUnaryMinus1 => do
    let e ← asNode (f.get chars!"e")
    let n ← new (.unary (some e))
    pure (.node n)
  | .onDRollComp1 => do
    let c ← newCompare (f.get chars!"left") (f.get chars!"op") (f.get chars!"right")
    pure (.node c)
  | .onDRoll1 => onVarInfix .dRoll (f.get chars!"num") (f.get chars!"sides")
  | .onBRoll1 => onVarInfix .bRoll (f.get chars!"num") (f.get chars!"sides")
  | .onRRoll1 => onVarInfix .rRoll (f.get chars!"num") (f.get chars!"sides")
  | .onURoll1 => onVarInfix .uRoll (f.get chars!"num") (f.get chars!"sides")
  | .onRandomNumber1 => onVarInfix .random (f.get chars!"min") (f.get chars!"max")
  | .onInteger1 => do
    let n ← new (.int (atoiSat text))
    pure (.node n)

/-! ## The machine -/

/-- The state of the parser: the fields without node values (`core.vstack` is not used), the stack of
label values, and memory. -/
structure MState where
  core : PState
  vstack : List MFrame
  mem : Heap

/-- The result of a parsing function: its two return values, or a panic. -/
inductive MRes where
  | ret (v : MVal) (ok : Bool) (st : MState)
  | panic (msg : Str) (st : MState)

/-- Continue after a call; `none` is lack of fuel. -/
def MRes.andThen (r : Option MRes) (k : MVal → Bool → MState → Option MRes) : Option MRes :=
  match r with
  | none => none
  | some (.panic m st) => some (.panic m st)
  | some (.ret v ok st) => k v ok st

/-- The value of a matcher: nil or `[]byte`. -/
def leafVal : Pigeon.Val → MVal
  | .bytes s => .bytes s
  | _ => .nil

/-- A matcher (`parseAnyMatcher`, `parseCharClassMatcher`, `parseLitMatcher`, `parseStateCodeExpr`,
parser.go:3321-3401, 3457-3482, 3590-3600) leaves labels and nodes alone. -/
def MState.leaf (st : MState) : PRes → MRes
  | .ret v ok core => .ret (leafVal v) ok { st with core := core }
  | .panic m core => .panic m { st with core := core }

/-- `pushV` (parser.go:2855-2873). -/
def MState.pushV (st : MState) : MState := { st with vstack := [] :: st.vstack }

/-- `popV` (parser.go:2876-2884). -/
def MState.popV (st : MState) : MState := { st with vstack := st.vstack.tail }

/-- A step of the part without nodes. -/
def MState.onCore (st : MState) (f : PState → PState) : MState := { st with core := f st.core }

/-- As `Pigeon.Task`. -/
inductive MTask where
  | expr (e : PExpr)
  | alts (es : List PExpr)
  | seq (es : List PExpr) (vals : List MVal) (pt : Pt) (randCount : Option Int)
  | many (e : PExpr) (vals : List MVal) (atLeastOne : Bool)

/-- `parseExpr` and the functions it calls (parser.go:3170-3646), as `Pigeon.run`, with the actions
working on memory. -/
def run (env : PEnv) (nilInstance : Ref) : Nat → MTask → MState → Option MRes
  | 0, _, _ => none
  | n + 1, task, st =>
    match task with
    -- parseActionExpr (3264-3287)
    | .expr (.action a e) =>
      MRes.andThen (run env nilInstance n (.expr e) (st.onCore (·.tick))) fun v ok st' =>
        if ok then
          match runAction nilInstance a (st'.vstack.headD []) (slice st.core.pt st'.core.pt)
            st'.core.randCount st'.mem with
          | (.ok v, h) => some (.ret v true { st' with mem := h })
          | (.err m, h) =>
            some (.ret .nil true ({ st' with mem := h }.onCore (·.addErrAt env m st.core.pt.pos)))
          | (.panic m, h) => some (.panic m { st' with mem := h })
        else some (.ret v false st')
    | .expr .any => some (st.leaf (Pigeon.parseAny env st.core.tick))
    | .expr (.charClass val chars ranges classes ic inv) =>
      some (st.leaf (Pigeon.parseCharClass env val chars ranges classes ic inv st.core.tick))
    -- parseChoiceExpr (3418-3440)
    | .expr (.choice es) => run env nilInstance n (.alts es) (st.onCore (·.tick))
    | .alts [] => some (.ret .nil false st)
    | .alts (e :: es) =>
      MRes.andThen (run env nilInstance n (.expr e) st.pushV) fun v ok st' =>
        let st' := st'.popV
        if ok then some (.ret v true st')
        else run env nilInstance n (.alts es)
          (st'.onCore fun c => { c with randCount := st.core.randCount })
    -- parseLabeledExpr (3442-3455)
    | .expr (.labeled label e) =>
      MRes.andThen (run env nilInstance n (.expr e) (st.onCore (·.tick)).pushV) fun v ok st' =>
        let st' := st'.popV
        if ok && decide (label ≠ []) then
          some (.ret v ok { st' with
            vstack := ((label, v) :: st'.vstack.headD []) :: st'.vstack.tail })
        else some (.ret v ok st')
    | .expr (.lit val ic) => some (st.leaf (Pigeon.parseLit env val ic st.core.tick))
    -- parseNotExpr (3500-3516)
    | .expr (.not e) =>
      MRes.andThen (run env nilInstance n (.expr e)
          ((st.onCore (·.tick)).pushV.onCore fun c => { c with invert := !st.core.invert }))
        fun _ ok st' =>
          let st' := st'.onCore fun c => { c with invert := !c.invert }
          let st' := st'.popV
          let st' := st'.onCore fun c => { c with randCount := st.core.randCount }
          some (.ret .nil (!ok) (st'.onCore (·.restore st.core.pt)))
    -- parseOneOrMoreExpr (3518-3538), parseZeroOrMoreExpr (3618-3634)
    | .expr (.oneOrMore e) => run env nilInstance n (.many e [] true) (st.onCore (·.tick))
    | .expr (.zeroOrMore e) => run env nilInstance n (.many e [] false) (st.onCore (·.tick))
    | .many e vals atLeastOne =>
      MRes.andThen (run env nilInstance n (.expr e) st.pushV) fun v ok st' =>
        let st' := st'.popV
        if ok then run env nilInstance n (.many e (vals ++ [v]) atLeastOne) st'
        else if atLeastOne && vals.isEmpty then some (.ret .nil false st')
        else some (.ret (.list vals) true st')
    -- parseRuleRefExpr (3552-3567), parseRule (3170-3197)
    | .expr (.ruleRef name) =>
      match env.rules.lookup name with
      | none =>
        some (.ret .nil false (st.onCore (·.tick.addErr env (chars!"undefined rule: " ++ name))))
      | some e =>
        MRes.andThen (run env nilInstance n (.expr e)
            ((st.onCore (·.tick)).pushV.onCore fun c => { c with rstack := name :: st.core.rstack }))
          fun v ok st' =>
            some (.ret v ok (st'.popV.onCore fun c => { c with rstack := st'.core.rstack.tail }))
    -- parseSeqExpr (3569-3588)
    | .expr (.seq es) =>
      run env nilInstance n (.seq es [] st.core.pt st.core.randCount) (st.onCore (·.tick))
    | .seq [] vals _ _ => some (.ret (.list vals) true st)
    | .seq (e :: es) vals pt rc =>
      MRes.andThen (run env nilInstance n (.expr e) st) fun v ok st' =>
        if ok then run env nilInstance n (.seq es (vals ++ [v]) pt rc) st'
        else some (.ret .nil false (st'.onCore fun c => { c with randCount := rc }.restore pt))
    | .expr (.stateCode a) => some (st.leaf (Pigeon.parseStateCode a st.core.tick))
    -- parseZeroOrOneExpr (3636-3646)
    | .expr (.zeroOrOne e) =>
      MRes.andThen (run env nilInstance n (.expr e) (st.onCore (·.tick)).pushV) fun v _ st' =>
        some (.ret v true st'.popV)

/-- `parser.Parse(filename, data)` (parser.go:2545-2547, 3092-3157) with memory `h`: the value, or the
text of the error, and memory afterwards. -/
def parse (nilInstance : Ref) (filename : Str) (data : List Sym) (h : Heap) :
    Except Str MVal × Heap :=
  let env : PEnv := ⟨filename, Pigeon.goGrammar, false⟩
  match run env nilInstance (parseDepth data) (.expr (.ruleRef chars!"Command"))
    ⟨Pigeon.initState env data, [], h⟩ with
  | none => (.error [], h)
  | some (.panic m st) =>
    match Pigeon.finish env (.panic m st.core) with
    | .ok _ => (.ok .nil, st.mem)
    | .error e => (.error e, st.mem)
  | some (.ret v ok st) =>
    match Pigeon.finish env (.ret .nil ok st.core) with
    | .ok _ => (.ok v, st.mem)
    | .error e => (.error e, st.mem)

/-! ## Executing commands -/

/-- `node.(ast.Node)` of the value `Parse` returned (bcdice.go:118). -/
def MVal.ptr : MVal → Option Ref
  | .node r => some r
  | _ => none

/-- `ExecuteBasicCommand` (bcdice.go:109-119) with memory: outcome, feeder and memory afterwards.  `d`
is the room for nested calls on nodes, as in `Verif.RawCommand`. -/
def executeBasicCommand {σ} (isPrint : Char → Bool) (d : Nat) (nilInstance : Ref) (F : DieFeeder σ)
    (gameID : Str) (c : Str) (f : σ) (h : Heap) : Out Result × σ × Heap :=
  match parse nilInstance chars!"input" (c.map Sym.ofChar) h with
  | (.error m, h') => (.err m, f, h')
  | (.ok v, h') =>
    match v.ptr with
    | none => (.panic chars!"interface conversion", f, h')
    | some r =>
      let run := Raw.execute isPrint (newEvaluator F) d gameID (some r) ⟨⟨f, []⟩, h'⟩
      (run.1, run.2.st.feeder, run.2.heap)

/-- `BCDice.ExecuteCommand` (bcdice.go:63-93) with memory.  The dice bot is a parameter, as in
`Verif.BCDice`; nodes it may make are not modelled. -/
def executeCommand {σ} (isPrint : Char → Bool) (d : Nat) (nilInstance : Ref) (F : DieFeeder σ)
    (bot : DiceBot σ) (input : Str) (f : σ) (h : Heap) : Out Result × σ × Heap :=
  let (cmd, isSecret) := checkSecret input
  let first := firstPart cmd
  match executeDiceBotCommand F bot first f with
  | (.ok r, f1) => (.ok (r.withSecret isSecret), f1, h)
  | (.panic m, f1) => (.panic m, f1, h)
  | (.err _, f1) =>
    match executeBasicCommand isPrint d nilInstance F bot.info.gameID cmd f1 h with
    | (.ok r, f2, h2) => (.ok (r.withSecret isSecret), f2, h2)
    | (.panic m, f2, h2) => (.panic m, f2, h2)
    | (.err _, f2, h2) =>
      match executeBasicCommand isPrint d nilInstance F bot.info.gameID first f2 h2 with
      | (.ok r, f3, h3) => (.ok (r.withSecret isSecret), f3, h3)
      | (.panic m, f3, h3) => (.panic m, f3, h3)
      | (.err e, f3, h3) => (.err e, f3, h3)

end GoBCDice.Mem
