import Verif.BCDice
import Verif.GoMap

/-!
# The list of game systems (pkg/dicebot/list, SetDiceBotByGameID of pkg/bcdice)

The registry `gameIDToDiceBotConstructor` is a parameter `reg` of the model; the code's own
registry is the empty map (`repoRegistry`).  Go visits a map in an unspecified order and
`sort.Sort`/`sort.Slice` are not stable, so the listing functions are relations: `out` is *a
possible* result.
-/

namespace GoBCDice

/-- Go `s < t` on strings.  Go compares bytes; on valid UTF-8 this is the comparison of code
points. -/
def strLt : Str → Str → Bool
  | _, [] => false
  | [], _ :: _ => true
  | a :: s, b :: t => decide (a.toNat < b.toNat) || (decide (a = b) && strLt s t)

/-- `ys` is a possible result of sorting `xs` in place with the given `Less`
(`sort.Sort`, `sort.Slice`: any reordering in which no element is less than an earlier one). -/
def GoSorts {α : Type} (less : α → α → Bool) (xs ys : List α) : Prop :=
  ys.Perm xs ∧ ys.Pairwise (fun a b => less b a = false)

/-- `gameIDToDiceBotConstructor`: each key with the bot its constructor builds (constructors take
no argument and build a fresh, immutable bot). -/
abbrev Registry (σ : Type) := GoMap (DiceBot σ)

/-- The registry of the code (pkg/dicebot/list/list.go:89). -/
def repoRegistry {σ} : Registry σ := GoMap.empty

/-- `list.Find` (pkg/dicebot/list/list.go:27-38): the bot built by the constructor found. -/
def findBot {σ} (usage : Str) (reg : Registry σ) (gameID : Str) : Out (DiceBot σ) :=
  if gameID = (basicInfo usage).gameID then .ok (basicBot usage)
  else
    match reg.get? gameID with
    | none => .err (chars!"unknown game system: " ++ gameID)
    | some b => .ok b

/-- `list.AvailableGameIDs` (pkg/dicebot/list/list.go:41-59). -/
def AvailableGameIDs {σ} (usage : Str) (reg : Registry σ) (includeBasic : Bool)
    (out : List Str) : Prop :=
  ∃ es sorted, reg.Visits es ∧ GoSorts strLt (es.map Prod.fst) sorted ∧
    out = if includeBasic then (basicInfo usage).gameID :: sorted else sorted

/-- `list.SystemInfo` (pkg/dicebot/list/list.go:19-23). -/
structure SystemInfo where
  system : Str
  name : Str
  sortKey : Str
deriving DecidableEq, Repr

/-- The `SystemInfo` of a bot (list.go:65-69, 77-81). -/
def BotInfo.toSystemInfo (b : BotInfo) : SystemInfo :=
  { system := b.gameID, name := b.gameName, sortKey := b.sortKey }

/-- `list.AvailableGameInfos` (pkg/dicebot/list/list.go:62-86). -/
def AvailableGameInfos {σ} (usage : Str) (reg : Registry σ) (includeBasic : Bool)
    (out : List SystemInfo) : Prop :=
  ∃ es sorted, reg.Visits es ∧
    GoSorts (fun a b => strLt a.sortKey b.sortKey)
      (es.map fun e => e.2.info.toSystemInfo) sorted ∧
    out = if includeBasic then (basicInfo usage).toSystemInfo :: sorted else sorted

/-- `BCDice.SetDiceBotByGameID` (pkg/bcdice/bcdice.go:36-45): the error, if any, and the bot set
afterwards. -/
def setDiceBotByGameID {σ} (usage : Str) (reg : Registry σ) (bot : DiceBot σ) (gameID : Str) :
    Option Str × DiceBot σ :=
  match findBot usage reg gameID with
  | .ok b => (none, b)
  | .err e => (some e, bot)
  | .panic e => (some e, bot)

end GoBCDice
