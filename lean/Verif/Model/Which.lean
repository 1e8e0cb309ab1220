import Verif.Model.MSRRemote

/-!
Model of `which()` of the process managers, which finds the path of a program. Sources:
pepclibs/helperlibs/LocalProcessManager.py and SSHProcessManager.py. Not modelled: failures of the connection, and
`Path()` of the names (it removes double slashes and the like, which name the same file).
-/

namespace Verif.Which

open Verif.PyStr (splitC stripBy strip)
open Verif.MSR (splitLines)

/-- `which()` of the local host. `exe` tells whether a path, absolute or relative to the current directory, is a regular
file that can be executed; `env` is the environment variable `PATH`. Models:
pepclibs/helperlibs/LocalProcessManager.py:553-573. -/
def localWhich (exe : PyStr → Bool) (env : Option PyStr) (mustFind : Bool) (p : PyStr) : Except Exn (Option PyStr) :=
  if exe p then .ok (some p)
  else
    match env with
    | none => .error .pyKeyError
    | some e =>
      match ((splitC ':' e).map fun d => stripBy (· == '"') d ++ '/' :: p).find? exe with
      | some c => .ok (some c)
      | none => if mustFind then .error .notFound else .ok none

/-- The commands which look for a program. Both are run with `exec`, so `command` is a program as well, not the command
which is built into the shell. Models: pepclibs/helperlibs/SSHProcessManager.py:417-430 `_format_cmd_for_pid()`. -/
inductive Tool where
  | which | command
  deriving DecidableEq

/-- What such a command has printed, line by line with the line ends, and its exit code. -/
structure Reply where
  out : List PyStr
  err : List PyStr
  code : Nat

/-- `run()`: `none` stands for `ErrorNotFound`. Models: pepclibs/helperlibs/_ProcessManagerBase.py:305-312. -/
def run (r : Reply) : Option Reply :=
  if r.code = 127 ∧ r.out.length = 0 ∧ r.err.length = 1 then none else some r

/-- The loop over the commands. The first component are the commands that were run. Models:
pepclibs/helperlibs/SSHProcessManager.py:1025-1036. -/
def tryTools (ask : Tool → Reply) : List Tool → List Tool × Option (Tool × Reply)
  | [] => ([], none)
  | t :: ts =>
    match run (ask t) with
    | some r => ([t], some (t, r))
    | none => let x := tryTools ask ts; (t :: x.1, x.2)

/-- The first line that is not an alias. Models: pepclibs/helperlibs/SSHProcessManager.py:1040-1043. -/
def firstPath : List PyStr → Option PyStr
  | [] => none
  | l :: ls => if "alias".toList.isPrefixOf (strip l) then firstPath ls else some (strip l)

/-- `raise_or_return()`. Models: pepclibs/helperlibs/SSHProcessManager.py:1013-1018. -/
def absent (mustFind : Bool) : Except Exn (Option PyStr) := if mustFind then .error .notFound else .ok none

/-- What the answer means. Models: pepclibs/helperlibs/SSHProcessManager.py:1038-1051. -/
def answer (mustFind : Bool) (r : Reply) : Except Exn (Option PyStr) :=
  if r.code = 0 then
    match firstPath (splitLines (strip r.out.flatten)) with
    | some l => .ok (some l)
    | none => absent mustFind
  else if r.code ≠ 1 then .error .error
  else absent mustFind

/-- The result of `which()` of a remote host: the new `_which_cmd`, the commands that were run, and the result. -/
structure Out where
  cache : Option Tool
  ran : List Tool
  res : Except Exn (Option PyStr)

/-- `which()` of a remote host, `cache` is `_which_cmd`. Models: pepclibs/helperlibs/SSHProcessManager.py:1004-1051. -/
def sshWhich (ask : Tool → PyStr → Reply) (cache : Option Tool) (mustFind : Bool) (p : PyStr) : Out :=
  let tools := match cache with
    | none => [.which, .command]
    | some t => [t]
  match tryTools (fun t => ask t p) tools with
  | (ran, none) => ⟨cache, ran, .error .notFound⟩
  | (ran, some (t, r)) => ⟨some t, ran, answer mustFind r⟩

/-- The calls of `which()` one after the other, with the commands each of them ran and its result. -/
def session (ask : Tool → PyStr → Reply) :
    Option Tool → List (Bool × PyStr) → List (List Tool × Except Exn (Option PyStr))
  | _, [] => []
  | cache, (mustFind, p) :: calls =>
    let o := sshWhich ask cache mustFind p
    (o.ran, o.res) :: session ask o.cache calls

end Verif.Which
