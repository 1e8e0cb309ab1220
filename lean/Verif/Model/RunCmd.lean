import Verif.Model.Human
import Verif.Model.ProcOut

/-!
Model of running commands with `run()` and `run_verify()` of the process managers, one call after the other: which of
the streams the output ends up in, which exception is raised, and the text of the message about a failed command.
Sources: pepclibs/helperlibs/LocalProcessManager.py, SSHProcessManager.py and _ProcessManagerBase.py. How the output is
collected is the subject of C73, the interactive shell with several threads is the subject of C119; here a call gets
all the lines its command has printed. Not modelled: failures of the connection and of reading the PID line (after which
the command is run once more in a session of its own), `cwd`, `output_fobjs`, `join=False` (the lines are a list here,
joined or not), a time-out of 0 or a negative one, and a lock that cannot be acquired.
-/

namespace Verif.RunCmd

open Verif.PyStr (ofNat strip)
open Verif.ProcOut (Stream)

/-- What a command does on the host: the lines it prints, in order, and its exit code (`none` if it does not end within
the time-out). `found` tells whether there is such a program. Simplification: every line has an end (C73 tells what
happens otherwise). -/
structure Beh where
  lines : List (Stream × PyStr)
  code : Option Nat
  found : Bool

/-- The arguments of `run()`. `timeout` is in seconds. Models: pepclibs/helperlibs/_ProcessManagerBase.py:505-541. -/
structure Opts where
  mix : Bool
  capture : Bool
  shell : Bool
  intsh : Option Bool
  timeout : Option Nat

/-- The host: `none` is the local one. -/
abbrev Remote := Option PyStr

/-- What is left of the earlier calls. `shell` is the interactive shell, if it was started, with the "combine stderr" flag
of its channel; `busy` is `_intsh_busy`. Models: pepclibs/helperlibs/SSHProcessManager.py:461-480, 499-518. -/
structure Sess where
  shell : Option Bool
  busy : Bool
  deriving DecidableEq

/-- A new process manager. -/
def Sess.new : Sess := ⟨none, false⟩

/-- The lines of stdout and of stderr, as the caller gets them. `k` tells from which line on the streams are combined,
`none` means never. -/
def streams : Option Nat → List (Stream × PyStr) → List PyStr × List PyStr
  | _, [] => ([], [])
  | k, (s, l) :: rest =>
    let r := streams (k.map (· - 1)) rest
    if s = .out ∨ k = some 0 then (l :: r.1, r.2) else (r.1, l :: r.2)

/-- The default time-out. Models: pepclibs/helperlibs/_ProcessManagerBase.py:49. -/
def TIMEOUT : Nat := 24 * 60 * 60

/-- How the command ended. Models: pepclibs/helperlibs/_ProcessManagerBase.py:647-658. -/
def exitcodeMsg (fl : Rat → Rat) (timeout : Option Nat) (failed : Bool) : Option Nat → Except Exn PyStr
  | none =>
    let t := timeout.getD TIMEOUT
    match Human.duration fl t true with
    | .error e => .error e
    | .ok d => .ok ("did not finish within ".toList ++ ofNat t ++ " seconds (".toList ++ d ++ ")".toList)
  | some c => .ok ((if failed then "failed" else "finished").toList ++ " with exit code ".toList ++ ofNat c)

/-- One of the streams in the message. Models: pepclibs/helperlibs/_ProcessManagerBase.py:661-666. -/
def streamMsg (s : PyStr) : PyStr := if s = [] then [] else strip s ++ "\n".toList

/-- Models: pepclibs/helperlibs/_ProcessManagerBase.py:633-683 `get_cmd_failure_msg()` without `startmsg`; the streams
are joined already. -/
def failureMsg (fl : Rat → Rat) (host : Remote) (cmd out err : PyStr) (code timeout : Option Nat) (failed : Bool) :
    Except Exn PyStr :=
  match exitcodeMsg fl timeout failed code with
  | .error e => .error e
  | .ok how =>
    let msg := streamMsg out ++ streamMsg err
    let start := match host with
      | some h => "Ran the following command on host '".toList ++ h ++ "', but it ".toList ++ how ++ ":".toList
      | none => "The following command ".toList ++ how ++ ":".toList
    .ok (start ++ "\n  ".toList ++ cmd ++ (if msg = [] then [] else "\n\n".toList ++ strip msg))

/-- How a call ends. `timeOut` is `ErrorTimeOut`, `notFound` is `ErrorNotFound`. -/
inductive Res where
  | ok (out err : List PyStr) (code : Nat)
  | timeOut (msg : Except Exn PyStr)
  | notFound
  | failed (msg : Except Exn PyStr)
  deriving DecidableEq

/-- The end of `wait()` and of `run()`: the check for a missing program, the captured lines, the time-out. The count of
lines does not depend on `capture_output`. Models: pepclibs/helperlibs/_ProcessManagerBase.py:168-175, 305-335,
LocalProcessManager.py:238-248, SSHProcessManager.py:618-628. -/
def finish (fl : Rat → Rat) (host : Remote) (cmd : PyStr) (o : Opts) (k : Option Nat) (b : Beh) : Res :=
  let r := streams k b.lines
  let out := if o.capture then r.1 else []
  let err := if o.capture then r.2 else []
  match b.code with
  | none => .timeOut (failureMsg fl host cmd out.flatten err.flatten none o.timeout true)
  | some c => if c = 127 ∧ r.1.length = 0 ∧ r.2.length = 1 then .notFound else .ok out err c

/-- `run()` on the local host. Models: pepclibs/helperlibs/LocalProcessManager.py:130-176, 205-248. -/
def runLocal (fl : Rat → Rat) (cmd : PyStr) (o : Opts) (b : Beh) : Res :=
  if !o.shell && !b.found then .notFound
  else finish fl none cmd o (if o.mix then some 0 else none) b

/-- `run()` on a remote host. `early` is the number of lines which are received before `set_combine_stderr()` is called,
the command is running by then. In the interactive shell the flag stays after the command. The shell stays busy if the
command does not end. Models: pepclibs/helperlibs/SSHProcessManager.py:431-480, 499-524, 582-628. -/
def runSsh (fl : Rat → Rat) (host cmd : PyStr) (o : Opts) (early : Nat) (b : Beh) (s : Sess) : Sess × Res :=
  let intsh := o.intsh.getD o.shell
  if !o.shell && intsh then (s, .failed (.ok "'shell' argument must be 'True' when 'intsh' is 'True'".toList))
  else if !o.shell || !intsh || s.busy then
    (s, finish fl (some host) cmd o (if o.mix then some early else none) b)
  else
    let was := s.shell.getD false
    (⟨some (was || o.mix), b.code.isNone⟩,
      finish fl (some host) cmd o (if was then some 0 else if o.mix then some early else none) b)

/-- `run_verify()` after `run()`. Models: pepclibs/helperlibs/LocalProcessManager.py:250-265,
SSHProcessManager.py:630-643. -/
def verify (fl : Rat → Rat) (host : Remote) (cmd : PyStr) (o : Opts) : Res → Res
  | .ok out err c =>
    if c = 0 then .ok out err c
    else .failed (failureMsg fl host cmd out.flatten err.flatten (some c) o.timeout true)
  | r => r

/-- An earlier call. -/
structure Call where
  cmd : PyStr
  opts : Opts
  early : Nat
  beh : Beh

/-- The calls of `run()` one after the other. -/
def history (fl : Rat → Rat) (host : PyStr) (calls : List Call) (s : Sess) : Sess :=
  calls.foldl (fun s c => (runSsh fl host c.cmd c.opts c.early c.beh s).1) s

end Verif.RunCmd
