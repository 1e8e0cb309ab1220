import Verif.Lib.Dict
import Verif.Model.CPUFreq
import Verif.Model.FreqInfo
import Verif.Model.KernelVersion
import Verif.Model.UncoreFreq

/-!
Model of the names of the files which the classes of the project use, and of the frequency methods of pepclibs/_CPUFreq.py
(class `CPUFreqSysfs`) with these names: the cache of paths, reading, writing, and the warning about a kernel bug.
-/

namespace Verif.CPUFreqFiles

open SysFiles (Files)

/-! ### Paths -/

/-- `path / name` of 'pathlib' for a relative name which is not empty and not '.'. -/
def div (p name : PyStr) : PyStr := p ++ '/' :: name

/-- Models: pepclibs/_CPUFreq.py:590, 762, pepclibs/CPUIdle.py:516, pepclibs/CPUOnline.py:181, pepclibs/_LinuxPMQoS.py:111
`_sysfs_base`. -/
def sysfsBase : PyStr := "/sys/devices/system/cpu".toList

/-- Models: pepclibs/_CPUFreq.py:125-128 `_get_policy_sysfs_path()`. -/
def policyPath (cpu : Nat) (fname : PyStr) : PyStr :=
  div (div (div sysfsBase "cpufreq".toList) ("policy".toList ++ PyStr.ofNat cpu)) fname

/-- Models: pepclibs/_CPUFreq.py:142-146, without the cache. -/
def freqPath (key : PyStr) (cpu : Nat) (limit : Bool) : PyStr :=
  let pre := if limit then "cpuinfo_".toList else "scaling_".toList
  policyPath cpu (pre ++ key ++ "_freq".toList)

/-- Models: pepclibs/_CPUFreq.py:308, 347, 374, 397, 442-443, 481-482, 521, 535, 555 and 281, 299 (`FreqInfo.Path`). -/
def cpufreqPath : CPUFreq.Path → PyStr
  | .driver cpu => div (div (div sysfsBase "cpufreq".toList) ("policy".toList ++ PyStr.ofNat cpu)) "scaling_driver".toList
  | .governor cpu =>
    div (div (div sysfsBase "cpufreq".toList) ("policy".toList ++ PyStr.ofNat cpu)) "scaling_governor".toList
  | .governors cpu =>
    div (div (div sysfsBase "cpufreq".toList) ("policy".toList ++ PyStr.ofNat cpu)) "scaling_available_governors".toList
  | .status => div (div sysfsBase "intel_pstate".toList) "status".toList
  | .noTurbo => div (div sysfsBase "intel_pstate".toList) "no_turbo".toList
  | .boost => div (div sysfsBase "cpufreq".toList) "boost".toList

/-- Models: pepclibs/_CPUFreq.py:281, 299, 308, 631-634 `_get_sysfs_path()`. -/
def infoPath : FreqInfo.Path → PyStr
  | .available cpu => policyPath cpu "scaling_available_frequencies".toList
  | .baseFrequency cpu => policyPath cpu "base_frequency".toList
  | .biosLimit cpu => div sysfsBase ("cpu".toList ++ PyStr.ofNat cpu ++ "/cpufreq/bios_limit".toList)
  | .cppc cpu fname => div (div sysfsBase ("cpu".toList ++ PyStr.ofNat cpu ++ "/acpi_cppc".toList)) fname.toList

/-- Models: pepclibs/EPP.py:182-183. -/
def eppPath (cpu : Nat) : PyStr :=
  "/sys/devices/system/cpu/cpufreq/policy".toList ++ PyStr.ofNat cpu ++ "/energy_performance_preference".toList

/-- Models: pepclibs/EPP.py:182, 184. -/
def eppPoliciesPath (cpu : Nat) : PyStr :=
  "/sys/devices/system/cpu/cpufreq/policy".toList ++ PyStr.ofNat cpu ++
    "/energy_performance_available_preferences".toList

/-- Models: pepclibs/EPB.py:138. -/
def epbPath (cpu : Nat) : PyStr :=
  "/sys/devices/system/cpu/cpu".toList ++ PyStr.ofNat cpu ++ "/power/energy_perf_bias".toList

/-- Models: pepclibs/_LinuxPMQoS.py:28-31 `_get_latency_limit_sysfs_path()`. -/
def latencyPath (cpu : Nat) : PyStr :=
  div (div (div sysfsBase ("cpu".toList ++ PyStr.ofNat cpu)) "power".toList) "pm_qos_resume_latency_us".toList

/-- Models: pepclibs/CPUOnline.py:68-71 `_get_path()`. -/
def onlinePath (cpu : Nat) : PyStr := div (div sysfsBase ("cpu".toList ++ PyStr.ofNat cpu)) "online".toList

/-- Models: pepclibs/CPUIdle.py:231. -/
def disablePath (cpu index : Nat) : PyStr :=
  div (div (div (div sysfsBase ("cpu".toList ++ PyStr.ofNat cpu)) "cpuidle".toList) ("state".toList ++ PyStr.ofNat index))
    "disable".toList

/-- `fname` is the name of the file. Models: pepclibs/CPUIdle.py:357, 387, 408, 491. -/
def idlePath (fname : PyStr) : PyStr := div (div sysfsBase "cpuidle".toList) fname

/-- `dir` is the name of the directory. Models: pepclibs/_UncoreFreq.py:123-135, 624. -/
def uncorePath (dir : PyStr) (key : UncoreFreq.Key) (limit : Bool) : PyStr :=
  div (div "/sys/devices/system/cpu/intel_uncore_frequency".toList dir) (UncoreFreq.fname key limit)

/-- Models: pepclibs/ASPM.py:121, 145, 166. -/
def l1Path (addr : PyStr) : PyStr := div (div "/sys/bus/pci/devices".toList addr) "link/l1_aspm".toList

/-- Models: pepclibs/ASPM.py:165. -/
def aspmPath : PyStr := "/sys/module/pcie_aspm/parameters/policy".toList

/-- Models: pepclibs/_LinuxPMQoS.py:112. -/
def dmaLatencyPath : PyStr := "/dev/cpu_dma_latency".toList

/-- Models: pepclibs/msr/MSR.py:117, 157, 273, 340, 477, 590. -/
def msrPath (cpu : Nat) : PyStr := "/dev/cpu/".toList ++ PyStr.ofNat cpu ++ "/msr".toList

/-! ### The object -/

/-- The parts of a `CPUFreqSysfs` object: the cache of paths by key, CPU and whether it is a limit, the kernel version (empty if
it is not known yet), and whether the kernel bug is still to be checked for. Models: pepclibs/_CPUFreq.py:579-595. -/
structure Obj where
  paths : Dict PyStr (Dict Nat (Dict Bool PyStr)) := []
  kver : PyStr := []
  check : Bool := true

/-- Models: pepclibs/_CPUFreq.py:130-148 `_get_cpu_freq_sysfs_path()`. -/
def cachedPath (o : Obj) (key : PyStr) (cpu : Nat) (limit : Bool) : Obj × PyStr :=
  let byCpu := (o.paths.get? key).getD []
  let byLimit := (byCpu.get? cpu).getD []
  match byLimit.get? limit with
  | some path => (o, path)
  | none =>
    let path := freqPath key cpu limit
    ({ o with paths := o.paths.set key (byCpu.set cpu (byLimit.set limit path)) }, path)

/-- What is known about the host: whether it is hybrid (the file 'cpu_atom/cpus' exists), the E-core CPUs and the P-core CPUs (only
those which are online), the kernel version, the offline CPUs. -/
structure Host where
  hybrid : Bool
  ecores : Except Exn (List Nat)
  pcores : Except Exn (List Nat)
  kver : Except Exn PyStr
  offline : Except Exn (List Nat)

/-- Models: pepclibs/CPUInfo.py:1048-1062 `get_hybrid_cpus()`, pepclibs/_CPUInfoBase.py:406-412 `_get_hybrid_cpus()`. -/
def hybridCpus (H : Host) : Except Exn (List Nat × List Nat) :=
  if ¬ H.hybrid then .error .notSupported
  else match H.ecores with
    | .error e => .error e
    | .ok es => match H.pcores with
      | .error e => .error e
      | .ok ps => .ok (es, ps)

/-- The warnings. -/
inductive Warning where
  | noKver
  | ecores (kver : PyStr)
  deriving DecidableEq

/-- The end of the check: the kernel version is known. Models: pepclibs/_CPUFreq.py:93-106. -/
def ecoresKver (H : Host) (o : Obj) (kver : PyStr) : Obj × List Warning × Except Exn Unit :=
  match KernelVersion.kverGe kver "6.5".toList with
  | .error e => (o, [], .error e)
  | .ok true => ({ o with check := false }, [], .ok ())
  | .ok false =>
    match H.offline with
    | .error e => (o, [], .error e)
    | .ok (_ :: _) => (o, [], .ok ())
    | .ok [] => ({ o with check := false }, [.ecores kver], .ok ())

/-- Models: pepclibs/_CPUFreq.py:63-106 `_warn_no_ecores_bug()`. -/
def ecoresBug (H : Host) (o : Obj) : Obj × List Warning × Except Exn Unit :=
  if ¬ o.check then (o, [], .ok ())
  else if ¬ H.hybrid then (o, [], .ok ())
  else match hybridCpus H with
    | .error e => (o, [], .error e)
    | .ok (es, ps) =>
      if es ≠ [] ∨ ps ≠ [] then (o, [], .ok ())
      else if o.kver ≠ [] then ecoresKver H o o.kver
      else match H.kver with
        | .error _ => ({ o with check := false }, [.noKver], .ok ())
        | .ok kver => ecoresKver H { o with kver := kver } kver

/-- The loop of `_get_freq_sysfs()`: what was yielded and the error. Models: pepclibs/_CPUFreq.py:155-159. -/
def getLoop (T : Files PyStr) (key : PyStr) (limit : Bool) : List Nat → Obj → Obj × List (Nat × Int) × Except Exn Unit
  | [], o => (o, [], .ok ())
  | cpu :: cpus, o =>
    let (o, path) := cachedPath o key cpu limit
    match SysFiles.readInt T path with
    | .error e => (o, [], .error e)
    | .ok freq =>
      let (o, vals, r) := getLoop T key limit cpus o
      (o, (cpu, freq * 1000) :: vals, r)

/-- Models: pepclibs/_CPUFreq.py:150-159 `_get_freq_sysfs()`. -/
def getFreq (H : Host) (T : Files PyStr) (key : PyStr) (limit : Bool) (cpus : List Nat) (o : Obj) :
    Obj × List Warning × List (Nat × Int) × Except Exn Unit :=
  match ecoresBug H o with
  | (o, ws, .error e) => (o, ws, [], .error e)
  | (o, ws, .ok ()) =>
    let (o, vals, r) := getLoop T key limit cpus o
    (o, ws, vals, r)

/-- The loop of `_set_freq_sysfs()` of an object which was created with 'verify=False'; for the verification see C106. Models:
pepclibs/_CPUFreq.py:227-248. -/
def setLoop (E : SysFiles.Env PyStr) (freq : Int) (key : PyStr) :
    List Nat → Obj → Files PyStr → Obj × Files PyStr × Except Exn Unit
  | [], o, T => (o, T, .ok ())
  | cpu :: cpus, o, T =>
    let (o, path) := cachedPath o key cpu false
    match SysFiles.write E T path (PyStr.ofInt (freq.fdiv 1000)) with
    | (T, .error e) => (o, T, .error e)
    | (T, .ok ()) => setLoop E freq key cpus o T

/-- Models: pepclibs/_CPUFreq.py:218-248 `_set_freq_sysfs()`. -/
def setFreq (H : Host) (E : SysFiles.Env PyStr) (freq : Int) (key : PyStr) (cpus : List Nat) (o : Obj) (T : Files PyStr) :
    Obj × List Warning × Files PyStr × Except Exn Unit :=
  match ecoresBug H o with
  | (o, ws, .error e) => (o, ws, T, .error e)
  | (o, ws, .ok ()) =>
    let (o, T, r) := setLoop E freq key cpus o T
    (o, ws, T, r)

/-- The methods which read a frequency. -/
inductive Method where
  | minFreq | maxFreq | curFreq | minFreqLimit | maxFreqLimit
  deriving DecidableEq

/-- The arguments 'key' and 'limit'. Models: pepclibs/_CPUFreq.py:170, 181, 192, 204, 216. -/
def Method.args : Method → PyStr × Bool
  | .minFreq => ("min".toList, false)
  | .maxFreq => ("max".toList, false)
  | .curFreq => ("cur".toList, false)
  | .minFreqLimit => ("min".toList, true)
  | .maxFreqLimit => ("max".toList, true)

/-- Models: pepclibs/_CPUFreq.py:161-216 `get_min_freq()`, `get_max_freq()`, `get_cur_freq()`, `get_min_freq_limit()`,
`get_max_freq_limit()`. The iterator is exhausted by the caller, and `T` does not change meanwhile. -/
def getMethod (H : Host) (T : Files PyStr) (m : Method) (cpus : List Nat) (o : Obj) :
    Obj × List Warning × List (Nat × Int) × Except Exn Unit :=
  getFreq H T m.args.1 m.args.2 cpus o

/-- Models: pepclibs/_CPUFreq.py:250-268 `set_min_freq()` and `set_max_freq()` (`max` is which). -/
def setMethod (H : Host) (E : SysFiles.Env PyStr) (max : Bool) (freq : Int) (cpus : List Nat) (o : Obj) (T : Files PyStr) :
    Obj × List Warning × Files PyStr × Except Exn Unit :=
  setFreq H E freq (if max then "max".toList else "min".toList) cpus o T

/-- A call of a method with the host as it is then; or something else changes the files. -/
inductive Op where
  | get (H : Host) (m : Method) (cpus : List Nat)
  | set (H : Host) (max : Bool) (freq : Int) (cpus : List Nat)
  | other (T : Files PyStr)

/-- The object and the files after calls, and the warnings. -/
def run (E : SysFiles.Env PyStr) : List Op → Obj → Files PyStr → Obj × Files PyStr × List Warning
  | [], o, T => (o, T, [])
  | .get H m cpus :: ops, o, T =>
    let (o, ws, _, _) := getMethod H T m cpus o
    let (o, T, ws') := run E ops o T
    (o, T, ws ++ ws')
  | .set H max freq cpus :: ops, o, T =>
    let (o, ws, T, _) := setMethod H E max freq cpus o T
    let (o, T, ws') := run E ops o T
    (o, T, ws ++ ws')
  | .other T :: ops, o, _ => run E ops o T

end Verif.CPUFreqFiles
