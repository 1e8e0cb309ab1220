import Verif.Model.SysFiles

/-!
Model of the turbo, driver and governor parts of pepclibs/_CPUFreq.py (class `CPUFreqSysfs`).
-/

namespace Verif.CPUFreq

open SysFiles

/-- The sysfs files. Different constructors are different paths. Models: pepclibs/_CPUFreq.py:347, 375,
401, 442-443, 483-484, 521, 535, 555. -/
inductive Path where
  /-- `cpufreq/policy<n>/scaling_driver` -/
  | driver (cpu : Nat)
  /-- `cpufreq/policy<n>/scaling_governor` -/
  | governor (cpu : Nat)
  /-- `cpufreq/policy<n>/scaling_available_governors` -/
  | governors (cpu : Nat)
  /-- `intel_pstate/status` -/
  | status
  /-- `intel_pstate/no_turbo` -/
  | noTurbo
  /-- `cpufreq/boost` -/
  | boost
  deriving DecidableEq

/-- The platform: whether the `intel_pstate` sysfs directory exists, and what reading "hwp" of a CPU
through the MSR gives. -/
structure Env where
  fs : SysFiles.Env Path
  pstateDir : Bool
  hwp : Nat → Except Exn Bool

def intelPstate : PyStr := "intel_pstate".toList
def intelCpufreq : PyStr := "intel_cpufreq".toList
def acpiCpufreq : PyStr := "acpi-cpufreq".toList
def on : PyStr := "on".toList
def off : PyStr := "off".toList

/-- Models: pepclibs/_CPUFreq.py:346-364 `get_driver()`, one iteration. -/
def getDriver (E : Env) (F : Files Path) (cpu : Nat) : Except Exn PyStr :=
  match read F (.driver cpu) with
  | .error e =>
    if e.isNotSupported && E.pstateDir then .ok intelPstate else .error e
  | .ok name => .ok (if name = intelCpufreq then intelPstate else name)

/-- Models: pepclibs/_CPUFreq.py:373-381 `get_intel_pstate_mode()`, one iteration. -/
def getMode (E : Env) (F : Files Path) (cpu : Nat) : Except Exn PyStr :=
  match getDriver E F cpu with
  | .error e => .error e
  | .ok driver => if driver ≠ intelPstate then .error .notSupported else read F .status

/-- The error to report after accessing the turbo file of the `intel_pstate` driver failed with `e`.
Models: pepclibs/_CPUFreq.py:451-461 and 493-502. -/
def turboErr (E : Env) (F : Files Path) (cpu : Nat) (e : Exn) : Exn :=
  match getMode E F cpu with
  | .error _ => .error
  | .ok mode => if mode ≠ off then e else .notSupported

/-- Models: pepclibs/_CPUFreq.py:434-472 `get_turbo()`, consumed to the end. -/
def getTurbo (E : Env) (F : Files Path) : List Nat → Except Exn (List (Nat × PyStr))
  | [] => .ok []
  | cpu :: cpus =>
    match getDriver E F cpu with
    | .error e => .error e
    | .ok driver =>
      let val : Except Exn PyStr :=
        if driver = intelPstate then
          match readInt F .noTurbo with
          | .error e => .error (turboErr E F cpu e)
          | .ok disabled => .ok (if disabled ≠ 0 then off else on)
        else if driver = acpiCpufreq then
          match readInt F .boost with
          | .error e => .error e
          | .ok enabled => .ok (if enabled ≠ 0 then on else off)
        else .error .notSupported
      match val with
      | .error e => .error e
      | .ok v =>
        match getTurbo E F cpus with
        | .error e => .error e
        | .ok l => .ok ((cpu, v) :: l)

/-- `str(int(b))`. -/
def boolStr (b : Bool) : PyStr := if b then ['1'] else ['0']

/-- Models: pepclibs/_CPUFreq.py:474-509 `set_turbo()`. -/
def setTurbo (E : Env) (enable : Bool) : List Nat → Files Path → Files Path × Except Exn Unit
  | [], F => (F, .ok ())
  | cpu :: cpus, F =>
    match getDriver E F cpu with
    | .error e => (F, .error e)
    | .ok driver =>
      if driver = intelPstate then
        match write E.fs F .noTurbo (boolStr (!enable)) with
        | (F, .error e) => (F, .error (turboErr E F cpu e))
        | (F, .ok ()) => setTurbo E enable cpus F
      else if driver = acpiCpufreq then
        match write E.fs F .boost (boolStr enable) with
        | (F, .error e) => (F, .error e)
        | (F, .ok ()) => setTurbo E enable cpus F
      else (F, .error .notSupported)

/-- The loop of `set_intel_pstate_mode()`. Models: pepclibs/_CPUFreq.py:403-432. -/
def setModeLoop (E : Env) (mode : PyStr) : List Nat → Files Path → Files Path × Except Exn Unit
  | [], F => (F, .ok ())
  | cpu :: cpus, F =>
    match getMode E F cpu with
    | .error e => (F, .error e)
    | .ok curmode =>
      match write E.fs F .status mode with
      | (F, .ok ()) => setModeLoop E mode cpus F
      | (F, .error e) =>
        if mode ≠ off then (F, .error e)
        else if curmode = off then setModeLoop E mode cpus F
        else match E.hwp cpu with
          | .error _ => (F, .error e)
          | .ok true => (F, .error .notSupported)
          | .ok false => (F, .error e)

/-- Models: pepclibs/_CPUFreq.py:383-432 `set_intel_pstate_mode()`. -/
def setMode (E : Env) (mode : PyStr) (cpus : List Nat) (F : Files Path) : Files Path × Except Exn Unit :=
  if mode ≠ "active".toList ∧ mode ≠ "passive".toList ∧ mode ≠ off then (F, .error .error)
  else setModeLoop E mode cpus F

/-- Models: pepclibs/_CPUFreq.py:511-523 `get_governor()`, one iteration. -/
def getGovernor (F : Files Path) (cpu : Nat) : Except Exn PyStr := read F (.governor cpu)

/-- Models: pepclibs/_CPUFreq.py:525-537 `get_available_governors()`, one iteration. -/
def getGovernors (F : Files Path) (cpu : Nat) : Except Exn (List PyStr) :=
  match read F (.governors cpu) with
  | .error e => .error e
  | .ok names => .ok (Trivial.splitCsvLine names ' ' false)

/-- Models: pepclibs/_CPUFreq.py:539-556 `set_governor()`. -/
def setGovernor (E : Env) (governor : PyStr) : List Nat → Files Path → Files Path × Except Exn Unit
  | [], F => (F, .ok ())
  | cpu :: cpus, F =>
    match getGovernors F cpu with
    | .error e => (F, .error e)
    | .ok governors =>
      if ¬ governor ∈ governors then (F, .error .error)
      else
        match write E.fs F (.governor cpu) governor with
        | (F, .error e) => (F, .error e)
        | (F, .ok ()) => setGovernor E governor cpus F

end Verif.CPUFreq
