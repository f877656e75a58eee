import Verif.Server

/-!
# Logs of the web server
-/

namespace GoBCDice

/-- The starts in a history, in order: the environment, the time, and whether the log file could be
created.  The `i`-th one is server `i`. -/
def startsOf (evs : List ServerEvent) : List (Str × Int64 × Bool) :=
  evs.filterMap fun
    | .start echoEnv unix created => some (echoEnv, unix, created)
    | .line _ _ => none

/-- The lines a server wrote, one after the other. -/
def linesOf (server : Nat) (evs : List ServerEvent) : Str :=
  (evs.filterMap fun
    | .line i text => if i = server then some text else none
    | .start _ _ _ => none).flatten

/-- Only running servers write: a line of a server comes after its start. -/
def Causal : List ServerEvent → Nat → Prop
  | [], _ => True
  | .start _ _ _ :: evs, started => Causal evs (started + 1)
  | .line i _ :: evs, started => i < started ∧ Causal evs started

/-- The log file of a server started at the given time. -/
def logPath (tmp : Str) (unix : Int64) : Str :=
  tmp ++ chars!"/GoBCDiceAPI/production-" ++ intStr unix ++ chars!".log"

/-- A machine with some files, on which no server has been started. -/
def Machine.fresh (files : Str → Option Str) : Machine := ⟨files, []⟩

end GoBCDice
