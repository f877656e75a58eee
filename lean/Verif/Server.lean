import Verif.Basic

/-!
# Starting the web server (cmd/GoBCDiceAPI/main.go, cmd/GoBCDiceAPI/config/environment.go)

`echo` and its logger are not modelled: a server writes lines to the output it was given.  Several
servers may be started one after the other, or run side by side, on one machine; they share its
directory for temporary files.  Files are texts; each server writes through its own handle, which has
an offset (`os.Create` opens without `O_APPEND`).
-/

namespace GoBCDice

/-- `getPort` (cmd/GoBCDiceAPI/main.go:11-18), given the variable `PORT`. -/
def getPort (port : Str) : Str := if port = [] then chars!"4000" else port

/-- The address given to `e.Start` (main.go:26). -/
def listenAddress (port : Str) : Str := chars!":" ++ getPort port

/-- `Environment` after the first lines of `Setup` (config/environment.go:15, 19-21), given the
variable `ECHO_ENV`. -/
def environmentOf (echoEnv : Str) : Str := if echoEnv = [] then chars!"development" else echoEnv

/-- `filepath.Join(dir, name)` for a directory without a slash at its end (environment.go:24, 26). -/
def joinPath (dir name : Str) : Str := dir ++ chars!"/" ++ name

/-- The name of the log file (environment.go:24-26): `os.TempDir()` and the Unix time in seconds. -/
def logFileName (tmp : Str) (environment : Str) (unix : Int64) : Str :=
  joinPath (joinPath tmp chars!"GoBCDiceAPI") (environment ++ chars!"-" ++ intStr unix ++ chars!".log")

/-- Where the logger of a server writes. -/
inductive LogSink where
  /-- a file, at an offset -/
  | file (path : Str) (offset : Nat)
  /-- the standard output of its process, with what was written -/
  | stdout (text : Str)
  /-- `Setup` panicked -/
  | dead
deriving DecidableEq, Repr

/-- The files, and the servers in the order in which they were started. -/
structure Machine where
  files : Str → Option Str
  servers : List LogSink

/-- Change one file. -/
def Machine.putFile (m : Machine) (path : Str) (text : Str) : Machine :=
  { m with files := fun p => if p = path then some text else m.files p }

/-- `Setup` (environment.go:18-37); `created` says whether `os.Create` succeeds (a failure of
`os.MkdirAll` is ignored). -/
def Machine.setup (tmp : Str) (m : Machine) (echoEnv : Str) (unix : Int64) (created : Bool) : Machine :=
  let environment := environmentOf echoEnv
  if environment = chars!"production" then
    let path := logFileName tmp environment unix
    if created then { m.putFile path [] with servers := m.servers ++ [.file path 0] }
    else { m with servers := m.servers ++ [.dead] }
  else { m with servers := m.servers ++ [.stdout []] }

/-- `write(2)` at an offset: what is there is overwritten, a gap is filled with zeros. -/
def writeAt (old : Str) (offset : Nat) (text : Str) : Str :=
  old.take offset ++ List.replicate (offset - old.length) '\x00' ++ text ++ old.drop (offset + text.length)

/-- A server writes a line to its log. -/
def Machine.log (m : Machine) (server : Nat) (text : Str) : Machine :=
  match m.servers[server]? with
  | some (.file path offset) =>
    { m.putFile path (writeAt ((m.files path).getD []) offset text) with
      servers := m.servers.set server (.file path (offset + text.length)) }
  | some (.stdout old) => { m with servers := m.servers.set server (.stdout (old ++ text)) }
  | _ => m

/-- What happens on the machine. -/
inductive ServerEvent where
  | start (echoEnv : Str) (unix : Int64) (created : Bool)
  | line (server : Nat) (text : Str)
deriving DecidableEq, Repr

/-- One event. -/
def Machine.step (tmp : Str) (m : Machine) : ServerEvent → Machine
  | .start echoEnv unix created => m.setup tmp echoEnv unix created
  | .line server text => m.log server text

/-- A history. -/
def Machine.run (tmp : Str) (m : Machine) (evs : List ServerEvent) : Machine :=
  evs.foldl (Machine.step tmp) m

end GoBCDice
