import Verif.Model.MSRFeatures
import Verif.Model.FreqInfo

/-!
Model of how kernel drivers are loaded and file systems are mounted when they are needed, and of how this is undone:
pepclibs/helperlibs/KernelModule.py, `_ensure_dev_msr()` and `close()` of MSR.py, `_probe_driver()` and `close()` of
_UncoreFreq.py, `mount_debugfs()` of FSHelpers.py, the constructor and `close()` of Tpmi.py.
-/

namespace Verif.Drivers

/-- A loaded kernel module: its name, size and usage count, the other columns of /proc/modules, and the time it was loaded (not
visible in the file). -/
structure Mod where
  name : PyStr
  size : PyStr
  users : PyStr
  rest : PyStr
  since : Nat
deriving DecidableEq, Repr

/-- A mounted file system: the columns of /proc/mounts. -/
structure Mnt where
  device : PyStr
  mntpoint : PyStr
  fstype : PyStr
  options : PyStr
  rest : PyStr
deriving DecidableEq, Repr

/-- The state of the host. `ran` are the commands which were run on it, `now` is the time in nanoseconds. -/
structure Host where
  modules : List Mod
  mounts : List Mnt
  ran : List PyStr
  now : Nat
deriving DecidableEq, Repr

/-- What a command leads to: whether the exit code is 0, the lines of the output and the new state. A command which cannot be
run at all counts as failed. -/
structure Outcome where
  ok : Bool
  out : List PyStr
  host : Host

/-- The environment: whether a path exists, what commands do, the lines of /proc/modules and /proc/mounts, how long a check for
existence takes besides the sleep, and whether the tool runs with debug messages. -/
structure Env where
  present : PyStr → Host → Bool
  run : PyStr → Host → Outcome
  readModules : Host → Except Exn (List PyStr)
  readMounts : Host → Except Exn (List PyStr)
  cost : Host → Nat
  debug : Bool

/-- `pman.run(cmd)`. -/
def exec (env : Env) (cmd : PyStr) (h : Host) : Host × Bool × List PyStr :=
  let o := env.run cmd h
  ({ o.host with ran := h.ran ++ [cmd] }, o.ok, o.out)

/-- `pman.run_verify(cmd)`: an error if the exit code is not 0. -/
def runVerify (env : Env) (cmd : PyStr) (h : Host) : Host × Except Exn (List PyStr) :=
  match exec env cmd h with
  | (h, true, out) => (h, .ok out)
  | (h, false, _) => (h, .error .error)

/-- `int(s)` in base 10. -/
def pyInt (s : PyStr) : Except Exn Int :=
  let r : Option Int := match PyStr.strip s with
    | '-' :: cs => (Trivial.parseDigits 10 0 false cs).map (fun n : Nat => -(n : Int))
    | '+' :: cs => (Trivial.parseDigits 10 0 false cs).map (fun n : Nat => (n : Int))
    | cs => (Trivial.parseDigits 10 0 false cs).map (fun n : Nat => (n : Int))
  match r with
  | some v => .ok v
  | none => .error .pyValueError

/-! ### KernelModule -/

/-- The usage count of module `name` in the lines of /proc/modules. `line.split(maxsplit=3)` gives four parts exactly if the line
has at least four words. Models: pepclibs/helperlibs/KernelModule.py:30-39. -/
def usageCount (name : PyStr) : List PyStr → Except Exn (Option Int)
  | [] => .ok none
  | line :: lines =>
    match FreqInfo.splitWs line with
    | [] => usageCount name lines
    | n :: _ :: u :: _ :: _ =>
      if n = name then
        match pyInt u with
        | .ok v => .ok (some v)
        | .error e => .error e
      else usageCount name lines
    | _ => .error .pyValueError

/-- Models: pepclibs/helperlibs/KernelModule.py:67-70 `is_loaded()`. -/
def isLoaded (env : Env) (name : PyStr) (h : Host) : Except Exn Bool :=
  match env.readModules h with
  | .error e => .error e
  | .ok lines =>
    match usageCount name lines with
    | .error e => .error e
    | .ok c => .ok c.isSome

/-- A module object: its name and the captured kernel messages. Models: pepclibs/helperlibs/KernelModule.py:102-138
`__init__()` without the `dmesg` argument. -/
structure KM where
  name : PyStr
  captured : List PyStr
deriving DecidableEq, Repr

/-- Run `cmd`; the new kernel messages are looked at if it fails, and also if the tool runs with debug messages.
Models: pepclibs/helperlibs/KernelModule.py:41-65 `_get_new_dmesg()`, `_run_mod_cmd()`. -/
def runModCmd (env : Env) (cmd : PyStr) (km : KM) (h : Host) : Host × KM × Except Exn Unit :=
  let first : Host × Except Exn (List PyStr) :=
    if km.captured = [] then runVerify env "dmesg".toList h else (h, .ok km.captured)
  match first with
  | (h, .error e) => (h, km, .error e)
  | (h, .ok out) =>
    let km := { km with captured := out }
    match runVerify env cmd h with
    | (h, .error _) => ((runVerify env "dmesg".toList h).1, km, .error .error)
    | (h, .ok _) =>
      if env.debug then
        match runVerify env "dmesg".toList h with
        | (h, .error e) => (h, km, .error e)
        | (h, .ok _) => (h, km, .ok ())
      else (h, km, .ok ())

/-- Models: pepclibs/helperlibs/KernelModule.py:72-81 `_unload()`, `unload()`. -/
def unload (env : Env) (km : KM) (h : Host) : Host × KM × Except Exn Unit :=
  match isLoaded env km.name h with
  | .error e => (h, km, .error e)
  | .ok false => (h, km, .ok ())
  | .ok true => runModCmd env ("rmmod ".toList ++ km.name) km h

/-- The command of `load()`. Models: pepclibs/helperlibs/KernelModule.py:94-100. -/
def loadCmd (debug : Bool) (name : PyStr) : PyStr :=
  "modprobe ".toList ++ name ++ " ".toList ++ (if debug then " dyndbg=+pf".toList else [])

/-- `load()` without arguments. Models: pepclibs/helperlibs/KernelModule.py:83-100 `load()`. -/
def load (env : Env) (km : KM) (h : Host) : Host × KM × Except Exn Unit :=
  match isLoaded env km.name h with
  | .error e => (h, km, .error e)
  | .ok true => (h, km, .ok ())
  | .ok false => runModCmd env (loadCmd env.debug km.name) km h

/-! ### Waiting for a file -/

/-- One second. -/
def second : Nat := 1000000000

/-- The loop of `wait_for_a_file()`. A round of the loop takes at least one nanosecond.
Models: pepclibs/helperlibs/FSHelpers.py:99-107. -/
def waitLoop (env : Env) (path : PyStr) (start interval timeout : Nat) (h : Host) : Host × Except Exn Unit :=
  if h.now - start < timeout then
    if env.present path h then (h, .ok ())
    else waitLoop env path start interval timeout { h with now := h.now + interval + env.cost h + 1 }
  else (h, .error .error)
termination_by timeout + start - h.now
decreasing_by omega

/-- Models: pepclibs/helperlibs/FSHelpers.py:85-107 `wait_for_a_file()`. -/
def waitForFile (env : Env) (path : PyStr) (interval timeout : Nat) (h : Host) : Host × Except Exn Unit :=
  waitLoop env path h.now interval timeout h

/-! ### Drivers which are loaded on demand -/

/-- The part of an 'MSR' or 'UncoreFreq' object which deals with the driver. -/
structure Obj where
  drv : Option KM
  unload : Bool
deriving DecidableEq, Repr

/-- `except Error`: exceptions of Python itself are not caught. -/
def isError : Exn → Bool
  | .pyKeyError | .pyValueError | .pyIndexError | .pyTypeError | .pyOverflowError | .pyUnboundLocal | .pyAttributeError => false
  | _ => true

/-- Models: the `raise Error(...)` in the `except Error` clauses. -/
def rewrap (new e : Exn) : Exn := if isError e then new else e

/-- The path of the MSR file of a CPU. Models: pepclibs/msr/MSR.py:590. -/
def msrDev (cpu : Nat) : PyStr := "/dev/cpu/".toList ++ PyStr.ofNat cpu ++ "/msr".toList

/-- The constructor of 'MSR' as far as the driver goes; `cpu` is the first CPU.
Models: pepclibs/msr/MSR.py:583-611 `_ensure_dev_msr()`, 639-640, 649. -/
def msrOpen (env : Env) (cpu : Nat) (h : Host) : Host × Except Exn Obj :=
  if env.present (msrDev cpu) h then (h, .ok ⟨none, false⟩)
  else
    let km : KM := ⟨"msr".toList, []⟩
    match isLoaded env km.name h with
    | .error e => (h, .error (rewrap .error e))
    | .ok true => (h, .error .error)
    | .ok false =>
      match load env km h with
      | (h, _, .error e) => (h, .error (rewrap .error e))
      | (h, km, .ok ()) =>
        match waitForFile env (msrDev cpu) second second h with
        | (h, .error e) => (h, .error (rewrap .error e))
        | (h, .ok ()) => (h, .ok ⟨some km, true⟩)

/-- `close()` of both classes. Models: pepclibs/msr/MSR.py:651-659, pepclibs/_UncoreFreq.py:653-661. -/
def objClose (env : Env) (o : Obj) (h : Host) : Host × Except Exn Unit :=
  if o.unload then
    match o.drv with
    | none => (h, .error .pyAttributeError)
    | some km =>
      match unload env km h with
      | (h, _, r) => (h, r)
  else (h, .ok ())

/-- Models: pepclibs/_UncoreFreq.py:626. -/
def uncoreDir : PyStr := "/sys/devices/system/cpu/intel_uncore_frequency".toList

/-- The driver for a CPU model. Models: pepclibs/_UncoreFreq.py:551-552, 563-564. -/
def uncoreDriver (cpumodel : Nat) : PyStr :=
  if cpumodel ∈ MSRFeatures.UncoreRatioLimit.cpus then "intel_uncore_frequency".toList
  else "intel_uncore_frequency_tpmi".toList

/-- The driver is loaded even if the check whether it is loaded failed; the result is an error in this case.
Models: pepclibs/_UncoreFreq.py:576-599. -/
def probeDriver (env : Env) (drv : PyStr) (h : Host) : Host × Except Exn Obj :=
  let km : KM := ⟨drv, []⟩
  let pre : Except Exn (Bool × Bool) :=
    match isLoaded env km.name h with
    | .error e => if isError e then .ok (false, true) else .error e
    | .ok loaded => .ok (loaded, false)
  match pre with
  | .error e => (h, .error e)
  | .ok (true, _) => (h, .error .notSupported)
  | .ok (false, failed) =>
    match load env km h with
    | (h, _, .error e) => (h, .error (rewrap .notSupported e))
    | (h, km, .ok ()) =>
      match waitForFile env uncoreDir second second h with
      | (h, .error e) => (h, .error (rewrap .notSupported e))
      | (h, .ok ()) => if failed then (h, .error .notSupported) else (h, .ok ⟨some km, true⟩)

/-- The constructor of 'UncoreFreq' as far as the driver goes. Models: pepclibs/_UncoreFreq.py:540-600 `_probe_driver()`, 601-651
`__init__()`. -/
def uncoreOpen (env : Env) (vendor : PyStr) (cpumodel : Nat) (h : Host) : Host × Except Exn Obj :=
  if vendor ≠ "GenuineIntel".toList then (h, .error .notSupported)
  else if env.present uncoreDir h then (h, .ok ⟨none, false⟩)
  else probeDriver env (uncoreDriver cpumodel) h

/-! ### Debugfs -/

/-- Models: pepclibs/helperlibs/FSHelpers.py:23. -/
def debugfsDir : PyStr := "/sys/kernel/debug".toList

/-- Whether debugfs is mounted at `mnt`, by the lines of /proc/mounts: the file type and the mount point of a line are compared
as the code does. `line.split(maxsplit=4)` gives five parts exactly if the line has at least five words; an empty line is
skipped. The paths are compared as texts. Models: pepclibs/helperlibs/FSHelpers.py:48-54 `get_mount_points()`, 77-80. -/
def debugfsMounted (mnt : PyStr) : List PyStr → Except Exn Bool
  | [] => .ok false
  | line :: lines =>
    if line = [] then debugfsMounted mnt lines
    else
      match FreqInfo.splitWs line with
      | _ :: p :: t :: _ :: _ :: _ =>
        if t = "debugfs".toList && p = mnt then .ok true else debugfsMounted mnt lines
      | _ => .error .pyValueError

/-- The command of `mount_debugfs()`. Models: pepclibs/helperlibs/FSHelpers.py:82. -/
def mountCmd (mnt : PyStr) : PyStr := "mount -t debugfs none '".toList ++ mnt ++ "'".toList

/-- `mount_debugfs()` without the `mnt` argument: whether debugfs was mounted by this call.
Models: pepclibs/helperlibs/FSHelpers.py:56-83 `mount_debugfs()`. -/
def mountDebugfs (env : Env) (h : Host) : Host × Except Exn Bool :=
  match env.readMounts h with
  | .error e => (h, .error e)
  | .ok lines =>
    match debugfsMounted debugfsDir lines with
    | .error e => (h, .error e)
    | .ok true => (h, .ok false)
    | .ok false =>
      match runVerify env (mountCmd debugfsDir) h with
      | (h, .error e) => (h, .error e)
      | (h, .ok _) => (h, .ok true)

/-- The constructor of 'Tpmi' as far as debugfs goes: the rest of it, which reads files, is `rest`. The result tells whether debugfs
is to be unmounted. Models: pepclibs/Tpmi.py:1015-1019. -/
def tpmiOpen (env : Env) (rest : Host → Except Exn Unit) (h : Host) : Host × Except Exn Bool :=
  match mountDebugfs env h with
  | (h, .error e) => (h, .error e)
  | (h, .ok mounted) =>
    match rest h with
    | .error e => (h, .error e)
    | .ok () => (h, .ok mounted)

/-- Models: pepclibs/Tpmi.py:1021-1028 `close()`. -/
def tpmiClose (env : Env) (mounted : Bool) (h : Host) : Host :=
  if mounted then (exec env ("unmount ".toList ++ debugfsDir) h).1 else h

/-! ### Several objects -/

/-- What happens during the run of a command: MSR objects are created and closed, other things are done. -/
inductive Op where
  | new (id : Nat)
  | close (id : Nat)
  | other (f : Host → Host)

/-- One step: `none` if an exception is raised. -/
def step (env : Env) (cpu : Nat) (st : Host × List (Nat × Obj)) : Op → Option (Host × List (Nat × Obj))
  | .new id =>
    if (st.2.map (·.1)).contains id then none
    else match msrOpen env cpu st.1 with
      | (h, .ok o) => some (h, (id, o) :: st.2)
      | (_, .error _) => none
  | .close id =>
    match st.2.lookup id with
    | none => none
    | some o =>
      match objClose env o st.1 with
      | (h, .ok ()) => some (h, st.2.filter fun p => p.1 ≠ id)
      | (_, .error _) => none
  | .other f => some (f st.1, st.2)

def steps (env : Env) (cpu : Nat) : List Op → Host × List (Nat × Obj) → Option (Host × List (Nat × Obj))
  | [], st => some st
  | op :: ops, st =>
    match step env cpu st op with
    | none => none
    | some st => steps env cpu ops st

end Verif.Drivers
