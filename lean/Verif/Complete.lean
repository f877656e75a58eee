import Verif.Repl

/-!
# Completion in the interactive tool (cmd/GoBCDiceREPL/repl/repl.go:69, 138-141, 170-200)

The repository hands a tree of names to the library readline, which is not modelled: pressing TAB
offers the names below the words typed so far, and appends a blank to the name chosen.
-/

namespace GoBCDice

/-- `readline.PcItem(name, children...)`. -/
inductive PcItem where
  | mk (name : Str) (children : List PcItem)

/-- The name of an item. -/
def PcItem.name : PcItem → Str
  | .mk name _ => name

/-- `Command.Completers` after `init` (repl.go:138-141 for the feeders, 170-176 for the games):
`gameIDs` is what `AvailableGameIDs(true)` returned when the program started. -/
def completersOf (gameIDs : List Str) (c : ReplCommand) : List PcItem :=
  match c.handler with
  | .setDieFeeder => [.mk chars!"mt" [], .mk chars!"queue" []]
  | .setGame => gameIDs.map fun id => .mk id []
  | _ => []

/-- The completer built by `New` (repl.go:187-190, 199). -/
def replCompleter (gameIDs : List Str) : List PcItem :=
  replCommands.map fun c => .mk (chars!"." ++ c.name) (completersOf gameIDs c)

end GoBCDice
