/-!
# The interactive shell which is shared by the commands (`helperlibs/SSHProcessManager.py`)

A process manager has at most one interactive shell (`_intsh`, SSHProcessManager.py:1138-1139). A
flag (`_intsh_busy`, 1140-1141) says whether a command is running in it, and a lock
(`_intsh_lock`, 1142-1144) protects the flag. The lock is held for a few statements only, so that
taking it, the statements and releasing it are one step here. Everything else may interleave with
the other threads.

What is simplified:

* a command is identified with the number of the call of `_run_async()` which runs it;
* what the host, the network and the lock do are arguments of the steps: whether the lock was
  acquired within 5 seconds (482-497), whether a session could be opened, whether the marker has
  been found in the output (`_watch_for_marker()` is the subject of C74), whether there is output
  which has not been returned yet, whether `_read_pid()` raised an exception;
* a failing `send()` has not sent anything;
* the calls with `shell=False` and the assertion about it (502-503) are left out, such commands do
  not use the shell;
* what happens in a session of its own after it has been started is left out.
-/

namespace Verif.IntShell

/-- Where a call of `_run_async()` and the process it has returned are
(SSHProcessManager.py:499-546, 461-480). -/
inductive Phase where
  /-- Not called yet. -/
  | start
  /-- The command is going to be run in a session of its own (523, 546). -/
  | fresh
  /-- `_intsh_busy` was set (513-514). -/
  | claimed
  /-- `proc = self._intsh` was executed (469). -/
  | picked (g : Nat)
  /-- The command was sent to the shell (476). -/
  | sent (g : Nat)
  /-- The process object was re-initialized (365-369), `_read_pid()` follows (371-372). -/
  | inited (g : Nat)
  /-- `_run_async()` returned the process object of the shell (526). -/
  | got (g : Nat)
  /-- An exception was caught (527). -/
  | failed
  /-- The flag was cleared and the lock was released (535-537). -/
  | dropping
  /-- `_run_async()` returned a process in a session of its own. -/
  | own
  /-- The outcome was returned to the caller or an exception was raised. -/
  | over
  deriving DecidableEq, Repr

/-- What can be observed on the host and by the callers. -/
inductive Ev where
  /-- Command `c` was sent to shell `g`, or executed in a session of its own. -/
  | sent (g : Option Nat) (c : Nat)
  /-- The marker of command `c` was found in the output of shell `g`: the command has ended. -/
  | seen (g : Nat) (c : Nat)
  /-- Shell `g` was told to exit. -/
  | quit (g : Nat)
  /-- Call `t` was given the outcome of command `c`. -/
  | got (t c : Nat)
  deriving DecidableEq, Repr

/-- The fields of the `SSHProcess` object of a shell which matter here: the command it stands for
(`cmd` and `_marker`, SSHProcessManager.py:474, 347-357) and whether the exit code is known
(`exitcode`, _ProcessManagerBase.py:383). -/
structure Obj where
  cur : Option Nat
  exit : Bool

/-- The process manager, its threads and what has happened, the last event first. -/
structure St where
  /-- `_intsh_busy`. -/
  busy : Bool
  /-- `_intsh`: the number of the shell. -/
  intsh : Option Nat
  /-- How many shells have been started. -/
  ngen : Nat
  obj : Nat → Obj
  thr : Nat → Phase
  log : List Ev

/-- The state after `__init__()` (SSHProcessManager.py:1138-1144). -/
def init : St := ⟨false, none, 0, fun _ => ⟨none, false⟩, fun _ => .start, []⟩

/-- Changing a function in one point. -/
def upd {α : Type} (f : Nat → α) (k : Nat) (v : α) : Nat → α := fun i => if i = k then v else f i

/-- What a thread does next, and what the host, the network and the lock do. -/
inductive Label where
  | claim (t : Nat) (intsh acq : Bool)
  | openSh (t : Nat) (ok : Bool)
  | send (t : Nat) (ok : Bool)
  | reinit (t : Nat)
  | readPid (t : Nat) (sees drained acq raised : Bool)
  | wait (t : Nat) (sees drained acq : Bool)
  | unbusy (t : Nat) (acq : Bool)
  | drop (t : Nat)
  | session (t : Nat) (ok : Bool)
  deriving DecidableEq, Repr

/-- Putting thread `t` into phase `p`. -/
def goto (s : St) (t : Nat) (p : Phase) : St := { s with thr := upd s.thr t p }

/-- The part of `_wait_intsh()` which looks for the marker (SSHProcessManager.py:200-230): if the
exit code is not known yet and the marker is found, then it becomes known. -/
def look (s : St) (g : Nat) (sees : Bool) : St :=
  match (s.obj g).cur with
  | none => s
  | some c =>
    if (s.obj g).exit = false ∧ sees = true then
      { s with obj := upd s.obj g ⟨some c, true⟩, log := .seen g c :: s.log }
    else s

/-- `_process_is_done()` (SSHProcessManager.py:108-114, _ProcessManagerBase.py:208-218): the exit
code is known and everything has been returned. -/
def isDone (s : St) (g : Nat) (drained : Bool) : Bool := (s.obj g).exit && drained

/-- `_wait_intsh()` (SSHProcessManager.py:190-244): the shell is marked as vacant if the process is
done and the lock was acquired (235-242). `_wait()` (291-304) calls it only if the process is the
one of the current shell, otherwise `_wait_nointsh()`, which does not know about the marker. -/
def waitIntsh (s : St) (g : Nat) (sees drained acq : Bool) : St :=
  if s.intsh = some g then
    let s1 := look s g sees
    if isDone s1 g drained && acq then { s1 with busy := false } else s1
  else s

/-- One step of one thread. A label which does not fit the phase of the thread does nothing. -/
def step (s : St) : Label → St
  -- SSHProcessManager.py:505-519: lock, look at the flag, set it, unlock.
  | .claim t intsh acq =>
    if s.thr t = .start then
      if intsh && acq && !s.busy then { goto s t .claimed with busy := true }
      else goto s t .fresh
    else s
  -- 464-469: start the shell if there is none, `proc = self._intsh`.
  | .openSh t ok =>
    if s.thr t = .claimed then
      match s.intsh with
      | some g => goto s t (.picked g)
      | none =>
        if ok then
          { goto s t (.picked s.ngen) with
            intsh := some s.ngen, ngen := s.ngen + 1, obj := upd s.obj s.ngen ⟨none, false⟩ }
        else goto s t .failed
    else s
  -- 473-476: a new marker and `send()`.
  | .send t ok =>
    match s.thr t with
    | .picked g =>
      if ok then { goto s t (.sent g) with log := .sent (some g) t :: s.log } else goto s t .failed
    | _ => s
  -- 478 and 359-369.
  | .reinit t =>
    match s.thr t with
    | .sent g => { goto s t (.inited g) with obj := upd s.obj g ⟨some t, false⟩ }
    | _ => s
  -- 371-372 and 316-345: `wait()` for the line with the PID.
  | .readPid t sees drained acq raised =>
    match s.thr t with
    | .inited g => goto (waitIntsh s g sees drained acq) t (if raised then .failed else .got g)
    | _ => s
  -- `wait()` of the caller or of `run()` (612-614, _ProcessManagerBase.py:230-335).
  | .wait t sees drained acq =>
    match s.thr t with
    | .got g =>
      let s1 := waitIntsh s g sees drained acq
      if s.intsh = some g ∧ isDone s1 g drained = true then
        match (s1.obj g).cur with
        | some c => { goto s1 t .over with log := .got t c :: s1.log }
        | none => s1
      else s1
    | _ => s
  -- 531-537, 543-544: lock, clear the flag, unlock.
  | .unbusy t acq =>
    if s.thr t = .failed then
      if acq then { goto s t .dropping with busy := false } else goto s t .fresh
    else s
  -- 538-542: tell the shell to exit and forget it; the lock is not held any more.
  | .drop t =>
    if s.thr t = .dropping then
      match s.intsh with
      | some g => { goto s t .fresh with intsh := none, log := .quit g :: s.log }
      | none => goto s t .fresh
    else s
  -- 431-459: a session of its own.
  | .session t ok =>
    if s.thr t = .fresh then
      if ok then { goto s t .own with log := .sent none t :: s.log } else goto s t .over
    else s

/-- Several steps, in the given order. -/
def exec (s : St) (ls : List Label) : St := ls.foldl step s

end Verif.IntShell
