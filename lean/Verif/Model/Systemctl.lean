import Verif.Lib.Exn
import Verif.Lib.PyStr
import Verif.Lib.Dict
import Verif.Model.FreqInfo

/-!
Model of how systemd units are started, stopped and restored. Sources: pepclibs/helperlibs/Systemctl.py,
pepctool/_PepcCommon.py.

Simplifications: the system is a parameter: what the 'systemctl' commands do to it and what they print. The messages
of exceptions are dropped, so the 'systemctl status' command of the error path, whose output only goes to the message,
is not modelled.
-/

namespace Verif.Systemctl

/-- The actions of `_run_action()`. -/
inductive Action where
  | start
  | stop
  | restart
  deriving DecidableEq

/-- The system: `act` is "systemctl <action>", it may fail after it changed the state. `query` is what
"systemctl is-<what>" prints for a unit, `listTimers` is what "systemctl list-timers" prints, `which` finds
'systemctl'. -/
structure Sys (σ : Type) where
  act : Action → PyStr → σ → σ × Option Exn
  query : PyStr → PyStr → σ → Except Exn PyStr
  listTimers : σ → Except Exn PyStr
  which : σ → Except Exn Unit

/-- What the object remembers. Models: pepclibs/helperlibs/Systemctl.py:167-169. -/
structure Obj where
  timers : Option (List PyStr)
  ntp : Option (List PyStr)
  units : Dict PyStr Action
  deriving DecidableEq

/-- Models: pepclibs/helperlibs/Systemctl.py:157-174 `__init__()`. -/
def Obj.init : Obj := ⟨none, none, []⟩

variable {σ : Type}

/-- Models: pepclibs/helperlibs/Systemctl.py:53-58 `_is_smth()`. -/
def isSmth (sys : Sys σ) (unit what : PyStr) (s : σ) : Except Exn Bool :=
  match sys.query what unit s with
  | .error e => .error e
  | .ok out => .ok (decide (PyStr.strip out = what))

/-- Models: pepclibs/helperlibs/Systemctl.py:99-101 `is_active()`. -/
def isActive (sys : Sys σ) (unit : PyStr) (s : σ) : Except Exn Bool := isSmth sys unit "active".toList s

/-- What is saved. Models: pepclibs/helperlibs/Systemctl.py:32-37. -/
def saveUnit (save : Bool) (unit : PyStr) (action : Action) (units : Dict PyStr Action) : Dict PyStr Action :=
  if save then
    match units.get? unit with
    | none => units.set unit action
    | some _ => units
  else units

/-- Models: pepclibs/helperlibs/Systemctl.py:21-51 `_run_action()`. -/
def runAction (sys : Sys σ) (action : Action) (save : Bool) :
    List PyStr → σ → Dict PyStr Action → σ × Dict PyStr Action × Option Exn
  | [], s, d => (s, d, none)
  | unit :: rest, s, d =>
    match sys.act action unit s with
    | (s, some e) => (s, d, some e)
    | (s, none) =>
      match isActive sys unit s with
      | .error e => (s, d, some e)
      | .ok b =>
        if b = decide (action = .start ∨ action = .restart) then
          runAction sys action save rest s (saveUnit save unit action d)
        else (s, d, some .error)

/-- The loop of `restore()`: the dictionary does not change. Models: pepclibs/helperlibs/Systemctl.py:93-97. -/
def restoreLoop (sys : Sys σ) : Dict PyStr Action → σ → σ × Option Exn
  | [], s => (s, none)
  | (unit, action) :: rest, s =>
    match runAction sys (if action = .stop then .start else .stop) false [unit] s [] with
    | (s, _, some e) => (s, some e)
    | (s, _, none) => restoreLoop sys rest s

/-- `start()`, `stop()` and `restart()`. Models: pepclibs/helperlibs/Systemctl.py:60-84. -/
def action (sys : Sys σ) (a : Action) (units : List PyStr) (save : Bool) (s : σ) (o : Obj) : σ × Obj × Option Exn :=
  match runAction sys a (save && decide (a ≠ .restart)) units s o.units with
  | (s, d, e) => (s, { o with units := d }, e)

/-- Models: pepclibs/helperlibs/Systemctl.py:86-97 `restore()`. -/
def restore (sys : Sys σ) (s : σ) (o : Obj) : σ × Option Exn := restoreLoop sys o.units s

/-- Models: pepclibs/helperlibs/Systemctl.py:113. -/
def ntpServices : List PyStr :=
  ["ntpd".toList, "ntpdate".toList, "sntp".toList, "systemd-timesyncd".toList, "chronyd".toList]

/-- The loop of `stop_ntp()`: `saved` is the list so far. Models: pepclibs/helperlibs/Systemctl.py:116-119. -/
def ntpLoop (sys : Sys σ) : List PyStr → List PyStr → σ → σ × List PyStr × Option Exn
  | [], saved, s => (s, saved, none)
  | svc :: rest, saved, s =>
    match isActive sys svc s with
    | .error e => (s, saved, some e)
    | .ok false => ntpLoop sys rest saved s
    | .ok true =>
      match runAction sys .stop false [svc] s [] with
      | (s, _, some e) => (s, saved, some e)
      | (s, _, none) => ntpLoop sys rest (saved ++ [svc]) s

/-- Models: pepclibs/helperlibs/Systemctl.py:107-121 `stop_ntp()`. The list of the object is filled by the loop. -/
def stopNtp (sys : Sys σ) (s : σ) (o : Obj) : σ × Obj × Except Exn (List PyStr) :=
  match ntpLoop sys ntpServices [] s with
  | (s, saved, some e) => (s, { o with ntp := some saved }, .error e)
  | (s, saved, none) => (s, { o with ntp := some saved }, .ok saved)

/-- Models: pepclibs/helperlibs/Systemctl.py:123-134 `restore_ntp()`. -/
def restoreNtp (sys : Sys σ) (s : σ) (o : Obj) : σ × Obj × Except Exn (Option (List PyStr)) :=
  match o.ntp with
  | none | some [] => (s, { o with ntp := none }, .ok o.ntp)
  | some l =>
    match runAction sys .start false l s [] with
    | (s, _, some e) => (s, o, .error e)
    | (s, _, none) => (s, { o with ntp := none }, .ok (some l))

/-- `s.endswith(".timer")`. -/
def isTimer (s : PyStr) : Bool := ".timer".toList.isSuffixOf s

/-- Models: pepclibs/helperlibs/Systemctl.py:136-148 `stop_timers()`. -/
def stopTimers (sys : Sys σ) (s : σ) (o : Obj) : σ × Obj × Except Exn (List PyStr) :=
  match sys.listTimers s with
  | .error e => (s, o, .error e)
  | .ok out =>
    let timers := (FreqInfo.splitWs out).filter isTimer
    match runAction sys .stop false timers s [] with
    | (s, _, some e) => (s, o, .error e)
    | (s, _, none) => (s, { o with timers := some timers }, .ok timers)

/-- Models: pepclibs/helperlibs/Systemctl.py:150-155 `restore_timers()`. -/
def restoreTimers (sys : Sys σ) (s : σ) (o : Obj) : σ × Obj × Option Exn :=
  match runAction sys .start false (o.timers.getD []) s [] with
  | (s, _, some e) => (s, o, some e)
  | (s, _, none) => (s, { o with timers := none }, none)

/-- What `check_tuned_presence()` prints. -/
inductive Warning where
  | tunedActive
  | checkFailed
  deriving DecidableEq

/-- The exceptions which are not derived from `Error`. -/
def isPy : Exn → Bool
  | .pyKeyError | .pyValueError | .pyIndexError | .pyTypeError | .pyOverflowError | .pyUnboundLocal
  | .pyAttributeError => true
  | _ => false

/-- Models: pepctool/_PepcCommon.py:18-35 `check_tuned_presence()`. -/
def checkTuned (sys : Sys σ) (s : σ) : Except Exn (List Warning) :=
  let r : Except Exn (List Warning) :=
    match sys.which s with
    | .error e => .error e
    | .ok () =>
      match isActive sys "tuned".toList s with
      | .error e => .error e
      | .ok b => .ok (if b then [.tunedActive] else [])
  match r with
  | .ok l => .ok l
  | .error e => if e = .notFound then .ok [] else if isPy e then .error e else .ok [.checkFailed]

end Verif.Systemctl
