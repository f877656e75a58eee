import Verif.Bytes

/-!
# Goroutines and the pool of parser states

The only memory that calls on different `BCDice` values share and change is the pool from which the
generated parser takes its state dictionaries (`statePool`, parser.go:3019-3055).  Here the parser is
modelled once more, with dictionaries that have addresses and are cloned, overwritten, emptied, put
into the pool and taken from it again; a parser is a program whose single steps on dictionaries and
pool can be interleaved with those of other goroutines.
-/

namespace GoBCDice.Conc

open Pigeon (Sym Val PExpr PEnv PState Pt Pos Frame Action StateAction)

/-- The address of a dictionary (`storeDict`, parser.go:2583: a Go map is a pointer). -/
abbrev Ref := Nat

/-- The contents of a dictionary: the value at `"RandCount"`, the only key in use. -/
abbrev Dict := Option Int

/-- A goroutine, as far as it touches dictionaries: its next step and how it goes on. -/
inductive Prog (α : Type) where
  /-- it has finished -/
  | ret (a : α)
  /-- `make(storeDict)` -/
  | make (k : Ref → Prog α)
  /-- `statePool.Get()` -/
  | get (k : Ref → Prog α)
  /-- `statePool.Put(r)` -/
  | put (r : Ref) (k : Prog α)
  /-- reading the dictionary `r` -/
  | load (r : Ref) (k : Dict → Prog α)
  /-- setting or deleting the key of the dictionary `r` -/
  | store (r : Ref) (d : Dict) (k : Prog α)

/-- Sequencing. -/
def Prog.bind {α β : Type} : Prog α → (α → Prog β) → Prog β
  | .ret a, f => f a
  | .make k, f => .make (fun r => (k r).bind f)
  | .get k, f => .get (fun r => (k r).bind f)
  | .put r k, f => .put r (k.bind f)
  | .load r k, f => .load r (fun d => (k d).bind f)
  | .store r d k, f => .store r d (k.bind f)

instance : Monad Prog where
  pure := .ret
  bind := Prog.bind

/-- The dictionary a goroutine is about to read, change or give away. -/
def Prog.touches {α : Type} : Prog α → Option Ref
  | .put r _ => some r
  | .load r _ => some r
  | .store r _ _ => some r
  | _ => none

/-! ## Memory and schedules -/

/-- What the goroutines share: the dictionaries, by address, and those in the pool. -/
structure Shared where
  dicts : List Dict
  pool : List Ref

/-- One step of a goroutine.  `Get` returns some dictionary of the pool, or a new one, at the pool's
discretion (package sync promises no more). -/
inductive Step {α : Type} : Prog α → Shared → Prog α → Shared → Prop where
  | make {k : Ref → Prog α} {s : Shared} :
      Step (.make k) s (k s.dicts.length) { s with dicts := s.dicts ++ [none] }
  | getNew {k : Ref → Prog α} {s : Shared} :
      Step (.get k) s (k s.dicts.length) { s with dicts := s.dicts ++ [none] }
  | getOld {k : Ref → Prog α} {s : Shared} {r : Ref} : r ∈ s.pool →
      Step (.get k) s (k r) { s with pool := s.pool.erase r }
  | put {r : Ref} {k : Prog α} {s : Shared} :
      Step (.put r k) s k { s with pool := r :: s.pool }
  | load {r : Ref} {k : Dict → Prog α} {s : Shared} {d : Dict} : s.dicts[r]? = some d →
      Step (.load r k) s (k d) s
  | store {r : Ref} {d : Dict} {k : Prog α} {s : Shared} : r < s.dicts.length →
      Step (.store r d k) s k { s with dicts := s.dicts.set r d }

/-- Goroutines, named by `ι`, with what they share. -/
structure Config {ι : Type} (α : ι → Type) where
  threads : (i : ι) → Prog (α i)
  shared : Shared

/-- One step of the whole: of a goroutine, or of the garbage collector, which may empty the pool. -/
inductive CStep {ι : Type} [DecidableEq ι] {α : ι → Type} : Option ι → Config α → Config α → Prop where
  | thread {c c' : Config α} (i : ι) : Step (c.threads i) c.shared (c'.threads i) c'.shared →
      (∀ j, j ≠ i → c'.threads j = c.threads j) → CStep (some i) c c'
  | collect {c : Config α} (r : Ref) :
      CStep none c { c with shared := { c.shared with pool := c.shared.pool.erase r } }

/-- Any number of steps, in any order. -/
inductive Reaches {ι : Type} [DecidableEq ι] {α : ι → Type} : Config α → Config α → Prop where
  | refl {c : Config α} : Reaches c c
  | step {c c' c'' : Config α} {i : Option ι} : Reaches c c' → CStep i c' c'' → Reaches c c''

/-- Before anything was parsed. -/
def Shared.empty : Shared := ⟨[], []⟩

/-! ## The parser -/

/-- `cloneState` (parser.go:3031-3045): what the pool gave is taken to be empty. -/
def cloneState (cur : Ref) : Prog Ref :=
  .get fun state =>
    .load cur fun d =>
      match d with
      | none => .ret state
      | some v => .store state (some v) (.ret state)

/-- `Discard` (parser.go:3023-3028). -/
def discard (sd : Ref) : Prog Unit :=
  .load sd fun d =>
    match d with
    | none => .put sd (.ret ())
    | some _ => .store sd none (.put sd (.ret ()))

/-- The parser: the fields of `PState` except `randCount`, which is not used; the slots behind the end
of the stack of labels; and `cur.state`. -/
structure CState where
  core : PState
  stale : List (Option Frame)
  cur : Ref

/-- The result of a parsing function: its two return values, or a panic. -/
inductive CRes where
  | ret (v : Val) (ok : Bool) (st : CState)
  | panic (msg : Str) (st : CState)

/-- Continue after a call; `none` is lack of fuel. -/
def call (p : Prog (Option CRes)) (k : Val → Bool → CState → Prog (Option CRes)) :
    Prog (Option CRes) :=
  p.bind fun r =>
    match r with
    | none => .ret none
    | some (.panic m st) => .ret (some (.panic m st))
    | some (.ret v ok st) => k v ok st

/-- A step of the part without dictionaries. -/
def CState.onCore (st : CState) (f : PState → PState) : CState := { st with core := f st.core }

/-- How many slots `append` adds to a full slice beyond the one asked for. -/
def spareSlots (len : Nat) : Nat := len - 1

/-- The map of a slot in `pushV` (parser.go:2864-2872): it is kept if it is empty. -/
def slotMap : Option Frame → Frame
  | some m => if m.length = 0 then m else []
  | none => []

/-- `pushV` (parser.go:2855-2873). -/
def CState.pushV (st : CState) : CState :=
  match st.stale with
  | [] => { st with
      core := { st.core with vstack := slotMap none :: st.core.vstack }
      stale := List.replicate (spareSlots st.core.vstack.length) none }
  | slot :: stale => { st with
      core := { st.core with vstack := slotMap slot :: st.core.vstack }
      stale := stale }

/-- `popV` (parser.go:2876-2884). -/
def CState.popV (st : CState) : CState :=
  match st.core.vstack with
  | [] => st
  | m :: vstack => { st with
      core := { st.core with vstack := vstack }
      stale := (if m.length > 0 then none else some m) :: st.stale }

/-- `restoreState` (parser.go:3049-3055). -/
def restoreState (st : CState) (state : Ref) : Prog CState :=
  (discard st.cur).bind fun _ => .ret { st with cur := state }

/-- A matcher, which does not look at the state dictionary. -/
def CState.leaf (st : CState) : Pigeon.PRes → CRes
  | .ret v ok core => .ret v ok { st with core := core }
  | .panic m core => .panic m { st with core := core }

/-- Does the action look at `c.state` (parser.go:1925, 1939)? -/
def readsState : Action → Bool
  | .onDRollExprCommand1 => true
  | .onDRollCompCommand1 => true
  | _ => false

/-- `c.state["RandCount"]`, for the actions that use it. -/
def readState (a : Action) (cur : Ref) : Prog Dict :=
  if readsState a then .load cur .ret else .ret none

/-- `parseStateCodeExpr` (parser.go:3590-3600) with the two state functions (2324-2344). -/
def parseStateCode (a : StateAction) (st : CState) : Prog (Option CRes) :=
  match a with
  | .onResetRandCount1 => .store st.cur (some 0) (.ret (some (.ret .nil true st)))
  | .onIncRandCount1 =>
    .load st.cur fun d =>
      match d with
      | none => .ret (some (.panic chars!"interface conversion" st))
      | some c => .store st.cur (some (c + 1)) (.ret (some (.ret .nil true st)))

/-- As `Pigeon.Task`; what a sequence restores is the address of a dictionary. -/
inductive CTask where
  | expr (e : PExpr)
  | alts (es : List PExpr)
  | seq (es : List PExpr) (vals : List Val) (pt : Pt) (state : Ref)
  | many (e : PExpr) (vals : List Val) (atLeastOne : Bool)

/-- `parseExpr` and the functions it calls (parser.go:3170-3646), as `Pigeon.run`, with the
dictionaries. -/
def run (env : PEnv) : Nat → CTask → CState → Prog (Option CRes)
  | 0, _, _ => .ret none
  | n + 1, task, st =>
    match task with
    -- parseActionExpr (3264-3287)
    | .expr (.action a e) =>
      call (run env n (.expr e) (st.onCore (·.tick))) fun v ok st' =>
        if ok then
          (cloneState st'.cur).bind fun state =>
          (readState a st'.cur).bind fun rc =>
          match Pigeon.runAction a (st'.core.vstack.headD []) (Pigeon.slice st.core.pt st'.core.pt) rc with
          | .ok v => (restoreState st' state).bind fun st' => .ret (some (.ret v true st'))
          | .err m =>
            (restoreState (st'.onCore (·.addErrAt env m st.core.pt.pos)) state).bind fun st' =>
              .ret (some (.ret .nil true st'))
          | .panic m => .ret (some (.panic m st'))
        else .ret (some (.ret v false st'))
    | .expr .any => .ret (some (st.leaf (Pigeon.parseAny env st.core.tick)))
    | .expr (.charClass val chars ranges classes ic inv) =>
      .ret (some (st.leaf (Pigeon.parseCharClass env val chars ranges classes ic inv st.core.tick)))
    -- parseChoiceExpr (3418-3440)
    | .expr (.choice es) => run env n (.alts es) (st.onCore (·.tick))
    | .alts [] => .ret (some (.ret .nil false st))
    | .alts (e :: es) =>
      (cloneState st.cur).bind fun state =>
      call (run env n (.expr e) st.pushV) fun v ok st' =>
        let st' := st'.popV
        if ok then .ret (some (.ret v true st'))
        else (restoreState st' state).bind fun st' => run env n (.alts es) st'
    -- parseLabeledExpr (3442-3455)
    | .expr (.labeled label e) =>
      call (run env n (.expr e) (st.onCore (·.tick)).pushV) fun v ok st' =>
        let st' := st'.popV
        if ok && decide (label ≠ []) then
          .ret (some (.ret v ok (st'.onCore fun c => { c with
            vstack := ((label, v) :: c.vstack.headD []) :: c.vstack.tail })))
        else .ret (some (.ret v ok st'))
    | .expr (.lit val ic) => .ret (some (st.leaf (Pigeon.parseLit env val ic st.core.tick)))
    -- parseNotExpr (3500-3516)
    | .expr (.not e) =>
      (cloneState st.cur).bind fun state =>
      call (run env n (.expr e)
          ((st.onCore (·.tick)).pushV.onCore fun c => { c with invert := !st.core.invert }))
        fun _ ok st' =>
          let st' := st'.onCore fun c => { c with invert := !c.invert }
          let st' := st'.popV
          (restoreState st' state).bind fun st' =>
            .ret (some (.ret .nil (!ok) (st'.onCore (·.restore st.core.pt))))
    -- parseOneOrMoreExpr (3518-3538), parseZeroOrMoreExpr (3618-3634)
    | .expr (.oneOrMore e) => run env n (.many e [] true) (st.onCore (·.tick))
    | .expr (.zeroOrMore e) => run env n (.many e [] false) (st.onCore (·.tick))
    | .many e vals atLeastOne =>
      call (run env n (.expr e) st.pushV) fun v ok st' =>
        let st' := st'.popV
        if ok then run env n (.many e (vals ++ [v]) atLeastOne) st'
        else if atLeastOne && vals.isEmpty then .ret (some (.ret .nil false st'))
        else .ret (some (.ret (.list vals) true st'))
    -- parseRuleRefExpr (3552-3567), parseRule (3170-3197)
    | .expr (.ruleRef name) =>
      match env.rules.lookup name with
      | none =>
        .ret (some (.ret .nil false
          (st.onCore (·.tick.addErr env (chars!"undefined rule: " ++ name)))))
      | some e =>
        call (run env n (.expr e)
            ((st.onCore (·.tick)).pushV.onCore fun c => { c with rstack := name :: st.core.rstack }))
          fun v ok st' =>
            .ret (some (.ret v ok (st'.popV.onCore fun c => { c with rstack := st'.core.rstack.tail })))
    -- parseSeqExpr (3569-3588)
    | .expr (.seq es) =>
      (cloneState st.cur).bind fun state =>
        run env n (.seq es [] st.core.pt state) (st.onCore (·.tick))
    | .seq [] vals _ _ => .ret (some (.ret (.list vals) true st))
    | .seq (e :: es) vals pt state =>
      call (run env n (.expr e) st) fun v ok st' =>
        if ok then run env n (.seq es (vals ++ [v]) pt state) st'
        else (restoreState st' state).bind fun st' =>
          .ret (some (.ret .nil false (st'.onCore (·.restore pt))))
    | .expr (.stateCode a) => parseStateCode a (st.onCore (·.tick))
    -- parseZeroOrOneExpr (3636-3646)
    | .expr (.zeroOrOne e) =>
      call (run env n (.expr e) (st.onCore (·.tick)).pushV) fun v _ st' =>
        .ret (some (.ret v true st'.popV))

/-- `parser.Parse(filename, data)` (parser.go:2545-2547, 2744-2772, 3092-3157). -/
def parse (filename : Str) (data : List Sym) : Prog (Except Str Val) :=
  let env : PEnv := ⟨filename, Pigeon.goGrammar, false⟩
  .make fun cur =>
    (run env (parseDepth data) (.expr (.ruleRef chars!"Command"))
      ⟨Pigeon.initState env data, [], cur⟩).bind fun r =>
      match r with
      | none => .ret (.error [])
      | some (.panic m st) => .ret (Pigeon.finish env (.panic m st.core))
      | some (.ret v ok st) => .ret (Pigeon.finish env (.ret v ok st.core))

/-! ## Executing commands -/

/-- `ExecuteBasicCommand` (bcdice.go:109-119) of a bot with its own feeder: besides the parser, no
step touches what goroutines share. -/
def executeBasic {σ} (F : DieFeeder σ) (gameID : Str) (c : Bytes) (f : σ) :
    Prog (Out Result × σ) :=
  (parse chars!"input" (decode c)).bind fun r =>
    match r with
    | .error m => .ret (.err m, f)
    | .ok v =>
      match v.toNode with
      | none => .ret (.panic chars!"interface conversion", f)
      | some node => .ret (runFresh ((newEvaluator F).execute gameID node) f)

/-- `BCDice.ExecuteCommand` (bcdice.go:63-93) of a bot with its own feeder. -/
def execute {σ} (F : DieFeeder σ) (bot : ByteBot σ) (input : Bytes) (f : σ) : Prog (Out Result × σ) :=
  let (cmd, isSecret) := checkSecretBytes input
  let first := firstPartBytes cmd
  match runFresh (bot.executeCommand first (newEvaluator F)) f with
  | (.ok r, f1) => .ret (.ok (r.withSecret isSecret), f1)
  | (.panic m, f1) => .ret (.panic m, f1)
  | (.err _, f1) =>
    (executeBasic F bot.info.gameID cmd f1).bind fun r =>
      match r with
      | (.ok r, f2) => .ret (.ok (r.withSecret isSecret), f2)
      | (.panic m, f2) => .ret (.panic m, f2)
      | (.err _, f2) =>
        (executeBasic F bot.info.gameID first f2).bind fun r =>
          match r with
          | (.ok r, f3) => .ret (.ok (r.withSecret isSecret), f3)
          | (.panic m, f3) => .ret (.panic m, f3)
          | (.err e, f3) => .ret (.err e, f3)

/-- A goroutine that executes one input after the other with its own bot and feeder, whatever the
answers are (a panic is recovered). -/
def session {σ} (F : DieFeeder σ) (bot : ByteBot σ) : List Bytes → σ → Prog (List (Out Result) × σ)
  | [], f => .ret ([], f)
  | input :: inputs, f =>
    (execute F bot input f).bind fun (r, f1) =>
      (session F bot inputs f1).bind fun (rs, f2) => .ret (r :: rs, f2)

end GoBCDice.Conc
