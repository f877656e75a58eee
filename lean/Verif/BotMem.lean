import Verif.Games
import Verif.RawAst

/-!
# Bots, dice bots and their information in memory

`basic.BasicInfo()` returns a pointer to a package variable, every dice bot of the basic game system points there, and
the fields of `DiceBotBasicInfo`, `DiceBotImpl.BasicInfo` and `BCDice.DiceBot` are exported.  `Verif.BCDice` and
`Verif.Games` treat this information as constant; here it is memory.  The list of other game systems is empty, as in
the code (pkg/dicebot/list/list.go:89).
-/

namespace GoBCDice

/-- A `BCDice` (pkg/bcdice/bcdice.go:18-23): the number of its dice bot, if not nil, and of the feeder that
`SetDieFeeder` has given to its roller. -/
structure BCObj where
  diceBot : Option Nat
  feeder : Nat
deriving DecidableEq, Repr

/-- Memory: the `DiceBotBasicInfo` values (number 0 is the variable `basicInfo`, basic.go:11), the `basic.Basic`
values, each with its field `BasicInfo` (`none` is nil; dicebot.go:43-46, basic.go:40-42), die feeders, `BCDice`
values. -/
structure BotMem (σ : Type) where
  infos : List BotInfo
  impls : List (Option Nat)
  feeders : List σ
  bots : List BCObj

/-- When the program starts. -/
def BotMem.start (σ : Type) (usage : Str) : BotMem σ := ⟨[basicInfo usage], [], [], []⟩

section
variable {σ : Type} (F : DieFeeder σ)

/-- `ExecuteBasicCommand` (bcdice.go:109-119) with the dice bot's field `BasicInfo`: `b.DiceBot.GameID()` (118,
dicebot.go:52-54) is called after the text has been parsed and before dice are rolled. -/
def BotMem.executeBasic (w : BotMem σ) (basicInfo : Option Nat) (c : Str) (f : σ) : Out Result × σ :=
  match parse c with
  | none => (.err (parseErrorText chars!"input" c), f)
  | some node =>
    match basicInfo.bind (w.infos[·]?) with
    | none => (.panic Raw.nilDereference, f)
    | some info => runFresh ((newEvaluator F).execute info.gameID node) f

/-- `BCDice.ExecuteCommand` (bcdice.go:63-93) with `b.DiceBot` as in memory: calling `ExecuteCommand` of a nil
interface panics (100); that of `DiceBotImpl`, which does not look at its fields, fails (dicebot.go:73-78). -/
def BotMem.execute (w : BotMem σ) (diceBot : Option Nat) (input : Str) (f : σ) : Out Result × σ :=
  match diceBot.bind (w.impls[·]?) with
  | none => (.panic Raw.nilDereference, f)
  | some basicInfo =>
    match w.executeBasic F basicInfo (checkSecret input).1 f with
    | (.ok r, f2) => (.ok (r.withSecret (checkSecret input).2), f2)
    | (.panic m, f2) => (.panic m, f2)
    | (.err _, f2) =>
      match w.executeBasic F basicInfo (firstPart (checkSecret input).1) f2 with
      | (.ok r, f3) => (.ok (r.withSecret (checkSecret input).2), f3)
      | (.panic m, f3) => (.panic m, f3)
      | (.err e, f3) => (.err e, f3)

/-- The answer of the `BCDice` with number `b`, and the state in which it leaves its feeder. -/
def BotMem.answer (w : BotMem σ) (b : Nat) (input : Str) : Option (Out Result × σ) :=
  match w.bots[b]? with
  | none => none
  | some o =>
    match w.feeders[o.feeder]? with
    | none => none
    | some f => some (w.execute F o.diceBot input f)

end

section
variable {σ : Type}

/-- `basic.New` (basic.go:45-51). -/
def BotMem.basicNew (w : BotMem σ) : BotMem σ × Nat := ({ w with impls := w.impls ++ [some 0] }, w.impls.length)

/-- `list.Find` and the call of the constructor found (list.go:27-38, bcdice.go:37-42): the dice bot, or the error. -/
def BotMem.find (w : BotMem σ) (gameID : Str) : BotMem σ × Except Str Nat :=
  if (w.infos[0]?).map BotInfo.gameID = some gameID then
    let (w', m) := w.basicNew
    (w', .ok m)
  else (w, .error (chars!"unknown game system: " ++ gameID))

/-- `SetDiceBotByGameID` (bcdice.go:36-45) on the `BCDice` with number `b`; the error, if any. -/
def BotMem.select (w : BotMem σ) (b : Nat) (gameID : Str) : BotMem σ × Option Str :=
  match w.find gameID with
  | (w', .ok m) => ({ w' with bots := w'.bots.modify b fun o => { o with diceBot := some m } }, none)
  | (w', .error e) => (w', some e)

/-- `bcdice.New` (bcdice.go:26-33): the error of `SetDiceBotByGameID` is ignored (30). -/
def BotMem.newBot (w : BotMem σ) (f : Nat) : BotMem σ :=
  (BotMem.select { w with bots := w.bots ++ [⟨none, f⟩] } w.bots.length chars!"DiceBot").1

/-- What a client can do. -/
inductive BotOp (σ : Type) where
  /-- make a feeder -/
  | feeder (f : σ)
  /-- `bcdice.New(feeders[f])` -/
  | newBot (f : Nat)
  /-- `bots[b].SetDiceBotByGameID(id)` -/
  | select (b : Nat) (id : Str)
  /-- `bots[b].SetDieFeeder(feeders[f])` -/
  | setFeeder (b f : Nat)
  /-- `bots[b].ExecuteCommand(input)` -/
  | execute (b : Nat) (input : Str)
  /-- `basic.New()` -/
  | basicNew
  /-- `&dicebot.DiceBotBasicInfo{…}` -/
  | newInfo (i : BotInfo)
  /-- `&basic.Basic{…}` with the field `BasicInfo` pointing to `infos[p]`, or nil -/
  | newImpl (p : Option Nat)
  /-- assigning all fields of `infos[p]`; number 0 is what `basic.BasicInfo()` returns -/
  | writeInfo (p : Nat) (i : BotInfo)
  /-- `impls[m].BasicInfo = infos[p]`, or nil -/
  | pointTo (m : Nat) (p : Option Nat)
  /-- `bots[b].DiceBot = impls[m]`, or nil -/
  | assign (b : Nat) (m : Option Nat)

/-- The number is one of something that exists, or nil. -/
def existsOrNil {α : Type} (l : List α) : Option Nat → Bool
  | none => true
  | some p => decide (p < l.length)

/-- One operation; numbers of what does not exist change nothing. -/
def BotMem.step (F : DieFeeder σ) (w : BotMem σ) : BotOp σ → BotMem σ
  | .feeder f => { w with feeders := w.feeders ++ [f] }
  | .newBot f => if f < w.feeders.length then w.newBot f else w
  | .select b id => (w.select b id).1
  | .setFeeder b f =>
    if f < w.feeders.length then { w with bots := w.bots.modify b fun o => { o with feeder := f } } else w
  | .execute b input =>
    match w.bots[b]?, w.answer F b input with
    | some o, some (_, f) => { w with feeders := w.feeders.set o.feeder f }
    | _, _ => w
  | .basicNew => w.basicNew.1
  | .newInfo i => { w with infos := w.infos ++ [i] }
  | .newImpl p => if existsOrNil w.infos p then { w with impls := w.impls ++ [p] } else w
  | .writeInfo p i => { w with infos := w.infos.set p i }
  | .pointTo m p => if existsOrNil w.infos p then { w with impls := w.impls.set m p } else w
  | .assign b m =>
    if existsOrNil w.impls m then { w with bots := w.bots.modify b fun o => { o with diceBot := m } } else w

/-- A sequence of operations. -/
def BotMem.run (F : DieFeeder σ) (w : BotMem σ) (ops : List (BotOp σ)) : BotMem σ := ops.foldl (BotMem.step F) w

end

end GoBCDice
