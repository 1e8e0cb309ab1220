import Verif.Model.EP

/-!
Model of how process managers collect the output of a process: pepclibs/helperlibs/_ProcessManagerBase.py,
LocalProcessManager.py and SSHProcessManager.py.

Simplifications: the output is captured (`capture_output=True`) and not echoed to files. The chunks are decoded text:
the incremental decoder of lines 102-127 of _ProcessManagerBase.py is a part of Python. Lists of lines are returned
(`join=False`), joining is concatenation. Both streams are pipes. The object is not closed.
-/

namespace Verif.ProcOut

/-- The output streams, 0 and 1 in the code. -/
inductive Stream where
  | out
  | err
  deriving DecidableEq, Repr

/-- A queue item: a chunk of text, or the end of the stream (`None`).
Models: pepclibs/helperlibs/_ProcessManagerBase.py:127, 132. -/
abbrev Item := Stream × Option PyStr

/-- Assignment to an element of a pair. -/
def upd {α : Type} (f : Stream → α) (s : Stream) (v : α) : Stream → α := fun t => if t = s then v else f t

/-- The object. `rem` is `_partial`, `cnt` is `_lines_cnt`, `opened` tells whether `_streams` still has the stream,
`queue` are the items the fetcher threads have put so far. `arrived` is a ghost: all the items ever put, oldest first.
Models: pepclibs/helperlibs/_ProcessManagerBase.py:389-455, SSHProcessManager.py:375-398. -/
structure St where
  output : Stream → List PyStr
  rem : Stream → PyStr
  cnt : Stream → Int
  exitcode : Option Int
  opened : Stream → Bool
  queue : List Item
  ll : PyStr
  checkLl : Bool
  arrived : List Item

/-- A new object. Models: pepclibs/helperlibs/_ProcessManagerBase.py:389-455, SSHProcessManager.py:375-398. -/
def St.new : St :=
  ⟨fun _ => [], fun _ => [], fun _ => 0, none, fun _ => true, [], [], true, []⟩

/-- Fetcher threads put items. Models: pepclibs/helperlibs/_ProcessManagerBase.py:95-133 `_stream_fetcher()`. -/
def put (items : List Item) (st : St) : St :=
  { st with queue := st.queue ++ items, arrived := st.arrived ++ items }

/-- The matches of "(.*[\n\r])|(.+$)": a full line ends at the next '\n'. If there is none, it ends at the last '\r'.
If there is none, the rest is the partial line. Models: pepclibs/helperlibs/_ProcessManagerBase.py:55-68
`extract_full_lines()`. -/
def extractFullLines : PyStr → List PyStr × PyStr
  | [] => ([], [])
  | c :: text =>
    if c = '\n' then ([c] :: (extractFullLines text).1, (extractFullLines text).2)
    else match extractFullLines text with
      | (line :: full, rest) => ((c :: line) :: full, rest)
      | ([], rest) => if c = '\r' then ([[c]], rest) else ([], c :: rest)

example : extractFullLines "ab\ncd\r\ne\rf\rg".toList = (["ab\n".toList, "cd\r\n".toList, "e\rf\r".toList], "g".toList) := by
  decide +kernel

/-- The `lines` argument. -/
abbrev Limits := Stream → Option Int

/-- Models: pepclibs/helperlibs/_ProcessManagerBase.py:70-76 `have_enough_lines()`. -/
def haveEnoughLines (output : Stream → List PyStr) (lines : Limits) : Bool :=
  let one (s : Stream) : Bool :=
    match lines s with
    | none => false
    | some n => decide (n ≠ 0 ∧ ((output s).length : Int) ≥ n)
  one .out || one .err

/-- Models: pepclibs/helperlibs/_ProcessManagerBase.py:156-180 `_handle_queue_item()`. -/
def handleItem (s : Stream) (data : PyStr) (st : St) : St :=
  match extractFullLines (st.rem s ++ data) with
  | (full, rest) =>
    { st with
      rem := upd st.rem s rest
      cnt := upd st.cnt s (st.cnt s + full.length)
      output := upd st.output s (st.output s ++ full.filter fun line => !line.isEmpty) }

/-- The number of lines of a stream to return. -/
def takeCount (lines : Limits) (st : St) (s : Stream) : Nat :=
  match lines s with
  | none => (st.output s).length
  | some n => if ((st.output s).length : Int) ≤ n then (st.output s).length else n.toNat

/-- Models: pepclibs/helperlibs/_ProcessManagerBase.py:182-207 `_get_lines_to_return()`; the limits are not negative. -/
def linesToReturn (lines : Limits) (st : St) : St × (Stream → List PyStr) :=
  ({ st with output := fun s => (st.output s).drop (takeCount lines st s) },
    fun s => (st.output s).take (takeCount lines st s))

/-- Models: pepclibs/helperlibs/_ProcessManagerBase.py:209-219 and SSHProcessManager.py:106-112 `_process_is_done()`.
The last line `ll` is always empty in other classes. -/
def isDone (st : St) : Bool :=
  st.ll.isEmpty && st.exitcode.isSome && (st.output .out).isEmpty && (st.output .err).isEmpty && st.queue.isEmpty

/-- One iteration of a waiting loop: the items the threads put before the queue is looked at, and whether the time is
over at the end of the iteration. An empty queue means that there was nothing in the queue for the time-out. -/
structure Tick where
  arrive : List Item
  late : Bool

/-- The arguments of `wait()` and what happens meanwhile. `zero` tells whether the time-out is 0. The waiting loop ends
at the latest when there are no more ticks. `status` is what waiting for the exit status returns (`none` if there is none
within the time-out). `after` are the items the threads put between the end of the loop and the final check. -/
structure Wait where
  zero : Bool
  lines : Limits
  ticks : List Tick
  status : Option Int
  after : List Item

/-- The result of `wait()`. Models: pepclibs/helperlibs/_ProcessManagerBase.py:33-47 `ProcWaitResultType`. -/
structure Result where
  lines : Stream → List PyStr
  exitcode : Option Int

/-! ### A process of its own -/

/-- A stream ended. Models: pepclibs/helperlibs/LocalProcessManager.py:101-109, SSHProcessManager.py:272-281. -/
def closeStream (s : Stream) (st : St) : St := { st with opened := upd st.opened s false }

/-- The loop of a local process, and of a remote one with `ssh = true`: the latter goes on after a time-out.
Models: pepclibs/helperlibs/LocalProcessManager.py:86-114, SSHProcessManager.py:258-287. -/
def ownLoop (ssh : Bool) (w : Wait) : List Tick → St → St
  | [], st => st
  | t :: ticks, st =>
    if haveEnoughLines st.output w.lines then st
    else if st.exitcode.isSome then st
    else
      let st := put t.arrive st
      match st.queue with
      | [] => if !ssh || w.zero || t.late then st else ownLoop ssh w ticks st
      | (s, some data) :: queue =>
        let st := handleItem s data { st with queue := queue }
        if w.zero || t.late then st else ownLoop ssh w ticks st
      | (s, none) :: queue =>
        let st := closeStream s { st with queue := queue }
        if !st.opened .out && !st.opened .err then { st with exitcode := w.status }
        else if w.zero || t.late then st else ownLoop ssh w ticks st

/-! ### A process in the interactive shell -/

/-- `data.rsplit("\n", 1)`, `none` if there is no new line. -/
def rsplitNl : PyStr → Option (PyStr × PyStr)
  | [] => none
  | c :: data =>
    match rsplitNl data with
    | some (a, b) => some (c :: a, b)
    | none => if c = '\n' then some ([], data) else none

/-- The digits of the exit code, if the string matches "^<marker>, \d+ ---$". Only ASCII digits are considered. Models:
pepclibs/helperlibs/SSHProcessManager.py:165-169, 354-356. -/
def markerDigits (marker ll : PyStr) : Option PyStr :=
  let start := marker ++ ", ".toList
  if start.isPrefixOf ll then
    let rest := ll.drop start.length
    let digits := rest.takeWhile Char.isDigit
    if digits ≠ [] ∧ rest.drop digits.length = " ---".toList then some digits else none
  else none

/-- The first part: what to capture, and the new suspect.
Models: pepclibs/helperlibs/SSHProcessManager.py:133-158. -/
def suspect (data : PyStr) (st : St) : PyStr × PyStr × Bool :=
  match rsplitNl data with
  | some (a, b) => (st.ll ++ a ++ ['\n'], b, true)
  | none =>
    if st.ll.isEmpty || st.checkLl then ([], st.ll ++ data, true)
    else (st.ll ++ data, [], false)

/-- Models: pepclibs/helperlibs/SSHProcessManager.py:114-182 `_watch_for_marker()`. The result is the text to capture, the
exit code is saved in the object (line 221). -/
def watchForMarker (marker data : PyStr) (st : St) : St × Except Exn PyStr :=
  match suspect data st with
  | (cdata, ll, checkLl) =>
    let checkLl := checkLl && (marker.isPrefixOf ll || ll.isPrefixOf marker)
    if checkLl then
      match markerDigits marker ll with
      | none => ({ st with ll := ll, checkLl := checkLl, exitcode := none }, .ok cdata)
      | some digits =>
        if !EP.isInt digits then ({ st with ll := ll, checkLl := checkLl }, .error .error)
        else match EP.parse10 digits with
          | .error e => ({ st with ll := ll, checkLl := checkLl }, .error e)
          | .ok code => ({ st with ll := [], checkLl := false, exitcode := some code }, .ok cdata)
    else ({ st with ll := ll, checkLl := checkLl, exitcode := none }, .ok cdata)

/-- The loop. Models: pepclibs/helperlibs/SSHProcessManager.py:203-231. -/
def shellLoop (marker : PyStr) (w : Wait) : List Tick → St → St × Except Exn Unit
  | [], st => (st, .ok ())
  | t :: ticks, st =>
    if haveEnoughLines st.output w.lines then (st, .ok ())
    else
      let st := put t.arrive st
      if st.exitcode.isSome && st.queue.isEmpty then (st, .ok ())
      else match st.queue with
        | [] => if w.zero || t.late then (st, .ok ()) else shellLoop marker w ticks st
        | (_, none) :: queue => ({ st with queue := queue }, .error .error)
        | (.err, some data) :: queue =>
          let st := handleItem .err data { st with queue := queue }
          if w.zero || t.late then (st, .ok ()) else shellLoop marker w ticks st
        | (.out, some data) :: queue =>
          match watchForMarker marker data { st with queue := queue } with
          | (st, .error e) => (st, .error e)
          | (st, .ok cdata) =>
            let st := handleItem .out cdata st
            if w.zero || t.late then (st, .ok ()) else shellLoop marker w ticks st

/-! ### Waiting -/

/-- How the process runs. -/
inductive Kind where
  | own (ssh : Bool)
  | shell (marker : PyStr)

/-- Models: pepclibs/helperlibs/LocalProcessManager.py:72-116, SSHProcessManager.py:184-289 (the loops and
`_get_lines_to_return()`). Marking the shell as vacant (lines 235-242) is not modelled. -/
def waitLow (k : Kind) (w : Wait) (st : St) : St × Except Exn (Stream → List PyStr) :=
  match (match k with
    | .own ssh => (ownLoop ssh w w.ticks st, (.ok () : Except Exn Unit))
    | .shell marker => shellLoop marker w w.ticks st) with
  | (st, .error e) => (st, .error e)
  | (st, .ok ()) =>
    match linesToReturn w.lines st with
    | (st, lines) => (put w.after st, .ok lines)

/-- The limits are refused. Models: pepclibs/helperlibs/_ProcessManagerBase.py:268-277. -/
def badLimits (lines : Limits) : Bool :=
  let neg (s : Stream) : Bool := match lines s with
    | none => false
    | some n => decide (n < 0)
  neg .out || neg .err || decide (lines .out = some 0 ∧ lines .err = some 0)

/-- Models: pepclibs/helperlibs/_ProcessManagerBase.py:232-335 `wait()`. -/
def wait (k : Kind) (w : Wait) (st : St) : St × Except Exn Result :=
  if badLimits w.lines then (st, .error .error)
  else if isDone st then (st, .ok ⟨fun _ => [], st.exitcode⟩)
  else
    match waitLow k w st with
    | (st, .error e) => (st, .error e)
    | (st, .ok lines) =>
      if st.exitcode = some 127 ∧ st.cnt .out = 0 ∧ st.cnt .err = 1 then (st, .error .notFound)
      else (st, .ok ⟨lines, if isDone st then st.exitcode else none⟩)

/-- Re-use the object of the interactive shell for a new command. The queue is kept.
Models: pepclibs/helperlibs/_ProcessManagerBase.py:371-387, SSHProcessManager.py:358-370 `_reinit()`. -/
def reinit (st : St) : St :=
  { st with output := fun _ => [], rem := fun _ => [], cnt := fun _ => 0, exitcode := none, ll := [], checkLl := true,
            arrived := st.queue }

/-- `lines=(1, 0)`. -/
def pidLimits : Limits
  | .out => some 1
  | .err => some 0

/-- Models: pepclibs/helperlibs/SSHProcessManager.py:312-345 `_read_pid()`. -/
def readPid (k : Kind) (w : Wait) (st : St) : St × Except Exn Int :=
  match wait k { w with lines := pidLimits, zero := false } st with
  | (st, .error e) => (st, .error e)
  | (st, .ok r) =>
    match r.lines .out, r.lines .err with
    | [line], [] =>
      let pid := PyStr.strip line
      let st := { st with cnt := upd st.cnt .out (st.cnt .out - 1) }
      if pid.length > 128 then (st, .error .error)
      else if !EP.isInt pid then (st, .error .error)
      else match EP.parse10 pid with
        | .error e => (st, .error e)
        | .ok pid => (st, .ok pid)
    | _, _ => (st, .error .error)

/-- The result of `run()`: the lines and the exit code, or the `ErrorTimeOut` exception, or another one. -/
inductive RunRes where
  | done (lines : Stream → List PyStr) (exitcode : Int)
  | timeOut
  | failed (e : Exn)

/-- The end of `run()`. Models: pepclibs/helperlibs/LocalProcessManager.py:236-243, SSHProcessManager.py:612-619. -/
def runResult : Except Exn Result → RunRes
  | .error e => .failed e
  | .ok ⟨lines, some code⟩ => .done lines code
  | .ok ⟨_, none⟩ => .timeOut

/-- `lines=(None, None)`. -/
def noLimits : Limits := fun _ => none

/-- Run a local process, or (`ssh = true`) a process without shell in a new SSH session. Models:
pepclibs/helperlibs/LocalProcessManager.py:203-249, SSHProcessManager.py:584-624 `run()`. -/
def runOwn (ssh : Bool) (w : Wait) : RunRes :=
  runResult (wait (.own ssh) { w with lines := noLimits } St.new).2

/-- Run a command in the interactive shell; the object was used for other commands before. If reading the PID fails, the
code runs the command again in a new session, which is not modelled. Models:
pepclibs/helperlibs/SSHProcessManager.py:452-473 `_run_in_intsh()`, 584-624 `run()`. -/
def runShell (marker : PyStr) (wpid w : Wait) (st : St) : St × RunRes :=
  match readPid (.shell marker) wpid (reinit st) with
  | (st, .error e) => (st, .failed e)
  | (st, .ok _) =>
    match wait (.shell marker) { w with lines := noLimits } st with
    | (st, res) => (st, runResult res)

end Verif.ProcOut
