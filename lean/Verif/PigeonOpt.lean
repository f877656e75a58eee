import Verif.PigeonParse

/-!
# `parser.Parse` with options (pkg/core/parser/parser.go:2380-2516, 2744-2780, 3062-3262)

`Verif.Pigeon` is the interpreter without options.  This module models the interpreter with the
options `MaxExpressions`, `Entrypoint`, `Memoize`, `AllowInvalidUTF8` and `Recover`: the table of
remembered results, the limit, the entry rule, and the panic that gets through.  The matchers of
single terminals, the actions and the bookkeeping are those of `Verif.Pigeon`.  Left out: `Debug`
(prints), `Statistics` (see `Verif.PigeonStats`), `GlobalStore` and `InitState` (the grammar does not read the global
store, and its first rule overwrites the only key of the state it reads).
-/

namespace GoBCDice.Pigeon

/-- An option passed to `Parse` (parser.go:2382-2494). -/
inductive ParseOption where
  | maxExpressions (n : Nat)
  | entrypoint (ruleName : Str)
  | memoize (b : Bool)
  | allowInvalidUTF8 (b : Bool)
  | recover (b : Bool)
deriving DecidableEq, Repr

/-- The fields of `parser` set by options (parser.go:2811-2852). -/
structure Settings where
  maxExprCnt : Nat
  entrypoint : Str
  memoize : Bool
  allowInvalidUTF8 : Bool
  recover : Bool
deriving DecidableEq, Repr

/-- The first rule of the table; the tables considered are not empty. -/
def firstRule (rules : List (Str × PExpr)) : Str := (rules.head?.map (·.1)).getD []

/-- `newParser` before the options are applied (parser.go:2749-2766). -/
def Settings.default (rules : List (Str × PExpr)) : Settings :=
  { maxExprCnt := 0, entrypoint := firstRule rules, memoize := false, allowInvalidUTF8 := false,
    recover := true }

/-- What an option does (parser.go:2387-2494, the function made by each). -/
def ParseOption.apply (rules : List (Str × PExpr)) (s : Settings) : ParseOption → Settings
  | .maxExpressions n => { s with maxExprCnt := n }
  | .entrypoint name => { s with entrypoint := if name = [] then firstRule rules else name }
  | .memoize b => { s with memoize := b }
  | .allowInvalidUTF8 b => { s with allowInvalidUTF8 := b }
  | .recover b => { s with recover := b }

/-- `setOptions` (parser.go:2776-2780): one after the other. -/
def settingsOf (rules : List (Str × PExpr)) (opts : List ParseOption) : Settings :=
  opts.foldl (ParseOption.apply rules) (Settings.default rules)

/-- A node of the table, as the key of a map (`interface{}` holding a pointer): a rule, or an
expression, found by its rule and the way down from there. -/
inductive NodeId where
  | rule (name : Str)
  | expr (rule : Str) (path : List Nat)
deriving DecidableEq, Repr

/-- `resultTuple` (parser.go:2782-2786). -/
structure Remembered where
  v : Val
  b : Bool
  stop : Pt

/-- The parser and `memo` (parser.go:2835); the latest entry for a key comes first. -/
structure OState where
  p : PState
  memo : List ((Nat × NodeId) × Remembered)

/-- `getMemoized` (parser.go:3062-3073), behind the tests of `p.memoize` (3175, 3202). -/
def OState.recall (s : Settings) (st : OState) (node : NodeId) : Option Remembered :=
  if s.memoize then st.memo.lookup (st.p.pt.pos.offset, node) else none

/-- `setMemoized` (parser.go:3075-3085), behind the tests of `p.memoize` (3193, 3258). -/
def OState.remember (s : Settings) (pt : Pt) (node : NodeId) (v : Val) (b : Bool) (st : OState) : OState :=
  if s.memoize then { st with memo := ((pt.pos.offset, node), ⟨v, b, st.p.pt⟩) :: st.memo } else st

/-- Change the fields of `Verif.Pigeon`. -/
def OState.upd (st : OState) (f : PState → PState) : OState := { st with p := f st.p }

/-- The result of a parsing function: its two return values, or a panic. -/
inductive ORes where
  | ret (v : Val) (ok : Bool) (st : OState)
  | panic (msg : Str) (st : OState)

/-- Continue after a call; `none` is lack of fuel. -/
def ORes.andThen (r : Option ORes) (k : Val → Bool → OState → Option ORes) : Option ORes :=
  match r with
  | none => none
  | some (.panic m st) => some (.panic m st)
  | some (.ret v ok st) => k v ok st

/-- A matcher that does not call others, or state code. -/
def OState.leaf (st : OState) (f : PState → PRes) : ORes :=
  match f st.p with
  | .ret v ok p => .ret v ok { st with p := p }
  | .panic m p => .panic m { st with p := p }

/-- `errMaxExprCnt` (parser.go:2375; three s). -/
def maxExprMsg : Str := chars!"max number of expresssions parsed"

/-- Is the limit exceeded (parser.go:3211-3214)?  0 stands for `math.MaxUint64` (2770-2772), which is
never exceeded. -/
def Settings.exceeded (s : Settings) (cnt : Nat) : Bool := s.maxExprCnt != 0 && decide (s.maxExprCnt < cnt)

/-- What the machine is about to do, as `Task`, with the place in the table. -/
inductive OTask where
  | expr (rule : Str) (path : List Nat) (e : PExpr)
  | alts (rule : Str) (path : List Nat) (i : Nat) (es : List PExpr)
  | seq (rule : Str) (path : List Nat) (i : Nat) (es : List PExpr) (vals : List Val) (pt : Pt)
      (randCount : Option Int)
  | many (rule : Str) (path : List Nat) (e : PExpr) (vals : List Val) (atLeastOne : Bool)

/-- `parseRule` (parser.go:3170-3197), given `parseExpr`. -/
def parseRuleO (s : Settings) (parseExpr : OTask → OState → Option ORes) (name : Str) (e : PExpr)
    (st : OState) : Option ORes :=
  match st.recall s (.rule name) with
  | some r => some (.ret r.v r.b (st.upd (·.restore r.stop)))
  | none =>
    ORes.andThen (parseExpr (.expr name [] e)
      (st.upd fun p => { p.pushV with rstack := name :: p.rstack })) fun v ok st' =>
        let st' := st'.upd fun p => { p.popV with rstack := p.rstack.tail }
        some (.ret v ok (st'.remember s st.p.pt (.rule name) v ok))

variable (env : PEnv) (s : Settings)

/-- The switch of `parseExpr` (parser.go:3216-3257) and the functions it calls (3264-3646), given
`parseExpr` itself; `st` is the parser when `parseExpr` was called (before it counted). -/
def parseBodyO (parseExpr : OTask → OState → Option ORes) (rule : Str) (path : List Nat) (e : PExpr)
    (st : OState) : Option ORes :=
  let stt := st.upd (·.tick)
  match e with
  -- parseActionExpr (3264-3287)
  | .action a e =>
    ORes.andThen (parseExpr (.expr rule (0 :: path) e) stt) fun v ok st' =>
      if ok then
        match runAction a (st'.p.vstack.headD []) (slice st.p.pt st'.p.pt) st'.p.randCount with
        | .ok v => some (.ret v true st')
        | .err m => some (.ret .nil true (st'.upd (·.addErrAt env m st.p.pt.pos)))
        | .panic m => some (.panic m st')
      else some (.ret v false st')
  | .any => some (stt.leaf (parseAny env))
  | .charClass val chars ranges classes ic inv =>
    some (stt.leaf (parseCharClass env val chars ranges classes ic inv))
  | .choice es => parseExpr (.alts rule path 0 es) stt
  -- parseLabeledExpr (3442-3455)
  | .labeled label e =>
    ORes.andThen (parseExpr (.expr rule (0 :: path) e) (stt.upd (·.pushV))) fun v ok st' =>
      let st' := st'.upd (·.popV)
      if ok && decide (label ≠ []) then
        some (.ret v ok (st'.upd fun p => { p with
          vstack := ((label, v) :: p.vstack.headD []) :: p.vstack.tail }))
      else some (.ret v ok st')
  | .lit val ic => some (stt.leaf (parseLit env val ic))
  -- parseNotExpr (3500-3516)
  | .not e =>
    ORes.andThen (parseExpr (.expr rule (0 :: path) e)
      (stt.upd fun p => { p.pushV with invert := !p.invert })) fun _ ok st' =>
      some (.ret .nil (!ok) (st'.upd fun p =>
        ({ { p with invert := !p.invert }.popV with randCount := st.p.randCount }).restore st.p.pt))
  | .oneOrMore e => parseExpr (.many rule path e [] true) stt
  | .zeroOrMore e => parseExpr (.many rule path e [] false) stt
  -- parseRuleRefExpr (3552-3567)
  | .ruleRef name =>
    match env.rules.lookup name with
    | none => some (.ret .nil false (stt.upd (·.addErr env (chars!"undefined rule: " ++ name))))
    | some e => parseRuleO s parseExpr name e stt
  | .seq es => parseExpr (.seq rule path 0 es [] st.p.pt st.p.randCount) stt
  | .stateCode a => some (stt.leaf (parseStateCode a))
  -- parseZeroOrOneExpr (3636-3646)
  | .zeroOrOne e =>
    ORes.andThen (parseExpr (.expr rule (0 :: path) e) (stt.upd (·.pushV))) fun v _ st' =>
      some (.ret v true (st'.upd (·.popV)))

/-- `parseExpr` with options (parser.go:3199-3262) and the loops of choices, sequences and
repetitions.  The first argument bounds the depth of the recursion; `none` is returned if it is used
up. -/
def runO : Nat → OTask → OState → Option ORes
  | 0, _, _ => none
  | n + 1, task, st =>
    match task with
    | .expr rule path e =>
      match st.recall s (.expr rule path) with
      | some r => some (.ret r.v r.b (st.upd (·.restore r.stop)))
      | none =>
        if s.exceeded st.p.tick.exprCnt then some (.panic maxExprMsg (st.upd (·.tick)))
        else
          ORes.andThen (parseBodyO env s (fun t st => runO n t st) rule path e st) fun v ok st' =>
            some (.ret v ok (st'.remember s st.p.pt (.expr rule path) v ok))
    -- parseChoiceExpr (3418-3440)
    | .alts _ _ _ [] => some (.ret .nil false st)
    | .alts rule path i (e :: es) =>
      ORes.andThen (runO n (.expr rule (i :: path) e) (st.upd (·.pushV))) fun v ok st' =>
        let st' := st'.upd (·.popV)
        if ok then some (.ret v true st')
        else runO n (.alts rule path (i + 1) es) (st'.upd fun p => { p with randCount := st.p.randCount })
    -- parseSeqExpr (3569-3588)
    | .seq _ _ _ [] vals _ _ => some (.ret (.list vals) true st)
    | .seq rule path i (e :: es) vals pt rc =>
      ORes.andThen (runO n (.expr rule (i :: path) e) st) fun v ok st' =>
        if ok then runO n (.seq rule path (i + 1) es (vals ++ [v]) pt rc) st'
        else some (.ret .nil false (st'.upd fun p => PState.restore { p with randCount := rc } pt))
    -- parseOneOrMoreExpr (3518-3538), parseZeroOrMoreExpr (3618-3634)
    | .many rule path e vals atLeastOne =>
      ORes.andThen (runO n (.expr rule (0 :: path) e) (st.upd (·.pushV))) fun v ok st' =>
        let st' := st'.upd (·.popV)
        if ok then runO n (.many rule path e (vals ++ [v]) atLeastOne) st'
        else if atLeastOne && vals.isEmpty then some (.ret .nil false st')
        else some (.ret (.list vals) true st')

/-- What a call of `Parse` does: it returns a value or an error, or a panic comes out. -/
inductive Called where
  | value (v : Val)
  | error (msg : Str)
  | panic (msg : Str)

/-- The parser made by `newParser` (parser.go:2744-2772), before its first `read`. -/
def freshState (data : List Sym) : PState :=
  ({ pt := ⟨⟨1, 0, 0⟩, data⟩, randCount := none, vstack := [], rstack := [], errs := []
     maxFailPos := ⟨1, 1, 0⟩, maxFailExpected := [], invert := false, exprCnt := 0 } : PState)

/-- `parse` with settings (parser.go:3092-3157) with a given fuel; the grammar has rules. -/
def parseFuelO (fuel : Nat) (filename : Str) (rules : List (Str × PExpr)) (data : List Sym) : Option Called :=
  let env : PEnv := ⟨filename, rules, s.allowInvalidUTF8⟩
  match rules.lookup s.entrypoint with
  | none =>
    some (.error (errText ((freshState data).addErr env chars!"invalid entrypoint").errs))
  | some e =>
    (parseRuleO s (runO env s fuel) s.entrypoint e ⟨initState env data, []⟩).map fun
      | .panic m st =>
        if s.recover then .error (errText (st.p.addErr env m).errs) else .panic m
      | .ret v ok st =>
        match finish env (.ret v ok st.p) with
        | .ok v => .value v
        | .error m => .error m

end GoBCDice.Pigeon

namespace GoBCDice

open Pigeon (Sym ParseOption)

/-- `parser.Parse(filename, data, opts...)` (parser.go:2545-2547) with a given fuel. -/
def parseWithFuel (fuel : Nat) (filename : Str) (data : List Sym) (opts : List ParseOption) :
    Option Pigeon.Called :=
  Pigeon.parseFuelO (Pigeon.settingsOf Pigeon.goGrammar opts) fuel filename Pigeon.goGrammar data

/-- `parseExprCalls` with or without the option `AllowInvalidUTF8`: the count in `Stats.ExprCnt` after a
call without limit and memory. -/
def exprCalls (allowInvalid : Bool) (filename : Str) (data : List Sym) : Nat :=
  match Pigeon.run ⟨filename, Pigeon.goGrammar, allowInvalid⟩ (parseDepth data) (.expr (.ruleRef chars!"Command"))
    (Pigeon.initState ⟨filename, Pigeon.goGrammar, allowInvalid⟩ data) with
  | some (.ret _ _ st) => st.exprCnt - 1
  | some (.panic _ st) => st.exprCnt - 1
  | none => 0

end GoBCDice
