import Verif.Lib.Exn
import Verif.Lib.PyStr

/-!
Model of the way from the name of a property to the object and the item which are read or written: the dispatch methods of
pepclibs/PStates.py, CStates.py, Power.py and PMQoS.py, and the `PROPS` dictionaries. What the methods of the objects do is
in other models.
-/

namespace Verif.Dispatch

/-- The classes of properties. -/
inductive Cls where
  | pstates
  | cstates
  | power
  | pmqos
  deriving DecidableEq, Repr

/-- The objects which have the settings. -/
inductive Obj where
  | epp
  | epb
  | cpufreqSysfs
  | cpufreqMsr
  | cppc
  | uncore
  | fsbFreq
  | doc
  | cpuidle
  | powerCtl
  | pcStateCtl
  /-- The dictionary which is the value of the feature "pkg_cstate_limit". -/
  | pcLimit
  | powerLimit
  | powerInfo
  | linuxPMQoS
  deriving DecidableEq, Repr

/-- What is read or written: the item of an object. `get_min_freq()` and `set_min_freq()` are for the item "min_freq", and
so on. For EPP and EPB the item is the mechanism. -/
structure Setting where
  obj : Obj
  item : PyStr
  deriving DecidableEq, Repr

/-- What a method named after the item of an object does with it. -/
def at' (o : Obj) (item : String) : Except Exn Setting := .ok ⟨o, item.toList⟩

/-- Models: pepclibs/PStates.py:233-237 `_is_uncore_prop()`. -/
def isUncore (p : PyStr) : Bool :=
  p = "min_uncore_freq".toList || p = "max_uncore_freq".toList || p = "min_uncore_freq_limit".toList ||
    p = "max_uncore_freq_limit".toList

/-- Models: pepclibs/PStates.py:508-530 `_get_uncore_freq_cpus()` and 737-759 `_get_uncore_freq_dies()`: both read the same
frequencies, by CPU and by die. -/
def uncoreGet (p : PyStr) : Except Exn Setting :=
  if p = "min_uncore_freq".toList then at' .uncore "min_freq"
  else if p = "max_uncore_freq".toList then at' .uncore "max_freq"
  else if p = "min_uncore_freq_limit".toList then at' .uncore "min_freq_limit"
  else if p = "max_uncore_freq_limit".toList then at' .uncore "max_freq_limit"
  else .error .error

/-- Models: pepclibs/PStates.py:456-470 `_get_freq_sysfs()`. -/
def freqSysfs (p : PyStr) : Except Exn Setting :=
  if p = "min_freq".toList then at' .cpufreqSysfs "min_freq"
  else if p = "max_freq".toList then at' .cpufreqSysfs "max_freq"
  else if p = "min_freq_limit".toList then at' .cpufreqSysfs "min_freq_limit"
  else if p = "max_freq_limit".toList then at' .cpufreqSysfs "max_freq_limit"
  else .error .error

/-- Models: pepclibs/PStates.py:472-482 `_get_freq_msr()`. -/
def freqMsr (p : PyStr) : Except Exn Setting :=
  if p = "min_freq".toList then at' .cpufreqMsr "min_freq"
  else if p = "max_freq".toList then at' .cpufreqMsr "max_freq"
  else .error .error

/-- Models: pepclibs/PStates.py:364-381 `_get_cppc_freq()`, the file that is tried first. -/
def cppcGet (p : PyStr) : Except Exn Setting :=
  if p = "base_freq".toList then at' .cppc "base_freq"
  else if p = "max_turbo_freq".toList then at' .cppc "max_freq_limit"
  else if p = "min_oper_freq".toList then at' .cppc "min_freq_limit"
  else .error .error

/-- Models: pepclibs/PStates.py:694-735 `_get_prop_cpus()` with 330-344 `_get_epp()`, `_get_epb()`, 346-362
`_get_max_eff_freq()`, `_get_hwp()`, 400-454 `_get_min_oper_freq()`, `_get_max_turbo_freq()`, `_get_base_freq()`, 484-506
`_get_freq()`, `_get_freq_limit()`, 602-642 `_get_frequencies()`, `_get_bus_clock()`, 653-692 `_get_turbo()`,
`_get_driver()`, `_get_intel_pstate_mode()`, `_get_governor()`, `_get_governors()`. -/
def pstatesGet (p m : PyStr) : Except Exn Setting :=
  if p = "epp".toList then .ok ⟨.epp, m⟩
  else if p = "epb".toList then .ok ⟨.epb, m⟩
  else if p = "max_eff_freq".toList then at' .cpufreqMsr "max_eff_freq"
  else if p = "hwp".toList then at' .cpufreqMsr "hwp"
  else if p = "min_oper_freq".toList then
    if m = "msr".toList then at' .cpufreqMsr "min_oper_freq"
    else if m = "cppc".toList then cppcGet "min_oper_freq".toList
    else .error .error
  else if p = "max_turbo_freq".toList then
    if m = "msr".toList then at' .cpufreqMsr "max_turbo_freq"
    else if m = "cppc".toList then cppcGet "max_turbo_freq".toList
    else .error .error
  else if p = "base_freq".toList then
    if m = "sysfs".toList then at' .cpufreqSysfs "base_freq"
    else if m = "msr".toList then at' .cpufreqMsr "base_freq"
    else if m = "cppc".toList then cppcGet "base_freq".toList
    else .error .error
  else if p = "min_freq".toList ∨ p = "max_freq".toList then
    if m = "sysfs".toList then freqSysfs p
    else if m = "msr".toList then freqMsr p
    else .error .error
  else if p = "min_freq_limit".toList ∨ p = "max_freq_limit".toList then freqSysfs p
  else if isUncore p then uncoreGet p
  else if p = "frequencies".toList then
    if m = "sysfs".toList then at' .cpufreqSysfs "available_frequencies"
    else if m = "doc".toList then at' .doc "frequencies"
    else .error .error
  else if p = "bus_clock".toList then
    if m = "msr".toList then at' .fsbFreq "fsb"
    else if m = "doc".toList then at' .doc "bus_clock"
    else .error .error
  else if p = "turbo".toList then at' .cpufreqSysfs "turbo"
  else if p = "driver".toList then at' .cpufreqSysfs "driver"
  else if p = "intel_pstate_mode".toList then at' .cpufreqSysfs "intel_pstate_mode"
  else if p = "governor".toList then at' .cpufreqSysfs "governor"
  else if p = "governors".toList then at' .cpufreqSysfs "available_governors"
  else .error .error

/-- Models: pepclibs/PStates.py:799-812 `_set_freq_prop_cpus_msr()`, 844-857 `_set_freq_prop_cpus_sysfs()` and the choice
between them in 921-925 of `_set_cpu_freq()`: `set_freq_method` is not assigned for mechanisms other than
"sysfs" and "msr". -/
def setCpuFreq (p m : PyStr) : Except Exn Setting :=
  if m = "sysfs".toList then
    if p = "min_freq".toList then at' .cpufreqSysfs "min_freq"
    else if p = "max_freq".toList then at' .cpufreqSysfs "max_freq"
    else .error .error
  else if m = "msr".toList then
    if p = "min_freq".toList then at' .cpufreqMsr "min_freq"
    else if p = "max_freq".toList then at' .cpufreqMsr "max_freq"
    else .error .error
  else .error .pyUnboundLocal

/-- Models: pepclibs/PStates.py:986-1009 `_set_prop_cpus()`, 775-797 `_set_turbo()`, `_set_intel_pstate_mode()`,
`_set_governor()`. -/
def pstatesSet (p m : PyStr) : Except Exn Setting :=
  if p = "epp".toList then .ok ⟨.epp, m⟩
  else if p = "epb".toList then .ok ⟨.epb, m⟩
  else if p = "turbo".toList then at' .cpufreqSysfs "turbo"
  else if p = "intel_pstate_mode".toList then at' .cpufreqSysfs "intel_pstate_mode"
  else if p = "governor".toList then at' .cpufreqSysfs "governor"
  else if p = "min_freq".toList ∨ p = "max_freq".toList then setCpuFreq p m
  else .error .error

/-- Models: pepclibs/PStates.py:1011-1021 `_set_uncore_freq_prop_dies()`. -/
def uncoreSet (p : PyStr) : Except Exn Setting :=
  if p = "min_uncore_freq".toList then at' .uncore "min_freq"
  else if p = "max_uncore_freq".toList then at' .uncore "max_freq"
  else .error .error

/-- The keys of `PowerCtl.FEATURES`. Models: pepclibs/msr/PowerCtl.py:45-77. -/
def powerCtlFeatures : List PyStr := ["c1e_autopromote", "cstate_prewake", "ltr"].map String.toList

/-- The keys of `PCStateConfigCtl.FEATURES`. Models: pepclibs/msr/PCStateConfigCtl.py:128-177. -/
def pcStateFeatures : List PyStr :=
  ["pkg_cstate_limit", "pkg_cstate_limit_lock", "c1_demotion", "c1_undemotion"].map String.toList

/-- Models: pepclibs/CStates.py:198-240 `get_prop_from_msr()`, `_get_pkg_cstate_limit()`, `_get_cpuidle_prop()` and 242-255
`_get_prop_cpus()`. Reading a feature which is not known raises `Error`. The keys of the "pkg_cstate_limit" dictionary are
in pepclibs/msr/PCStateConfigCtl.py:226-228; another key would be a `KeyError`. -/
def cstatesGet (p m : PyStr) : Except Exn Setting :=
  if "pkg_cstate_".toList.isPrefixOf p then
    if p = "pkg_cstate_limit_lock".toList then at' .pcStateCtl "pkg_cstate_limit_lock"
    else if p = "pkg_cstate_limit".toList ∨ p = "pkg_cstate_limits".toList ∨ p = "pkg_cstate_limit_aliases".toList then
      .ok ⟨.pcLimit, p⟩
    else .error .pyKeyError
  else if p = "idle_driver".toList ∨ p = "governor".toList ∨ p = "governors".toList then
    if p = "idle_driver".toList then at' .cpuidle "idle_driver"
    else if p = "governor".toList then at' .cpuidle "current_governor"
    else at' .cpuidle "available_governors"
  else if m = "msr".toList then
    if powerCtlFeatures.contains p then .ok ⟨.powerCtl, p⟩
    else if pcStateFeatures.contains p then .ok ⟨.pcStateCtl, p⟩
    else .error .error
  else .error .error

/-- Models: pepclibs/CStates.py:257-273 `_set_prop_cpus()`. The feature "pkg_cstate_limit" is written through its
dictionary, see `PCStateConfigCtl._set_pkg_cstate_limit()`. -/
def cstatesSet (p m : PyStr) : Except Exn Setting :=
  if m = "msr".toList ∧ powerCtlFeatures.contains p then .ok ⟨.powerCtl, p⟩
  else if m = "msr".toList ∧ pcStateFeatures.contains p then
    if p = "pkg_cstate_limit".toList then .ok ⟨.pcLimit, p⟩ else .ok ⟨.pcStateCtl, p⟩
  else if m = "sysfs".toList ∧ p = "governor".toList then at' .cpuidle "current_governor"
  else .error .error

/-- `pname.replace("ppl", "limit")`. Models: pepclibs/Power.py:126-130 `_pname2fname()`. -/
def toFname : PyStr → PyStr
  | 'p' :: 'p' :: 'l' :: t => "limit".toList ++ toFname t
  | c :: t => c :: toFname t
  | [] => []

/-- The keys of `PackagePowerLimit.FEATURES`. Models: pepclibs/msr/PackagePowerLimit.py:46-130. -/
def limitFeatures : List PyStr :=
  ["limit1", "limit1_enable", "limit1_clamp", "limit1_window", "limit2", "limit2_enable", "limit2_clamp",
    "limit2_window"].map String.toList

/-- Models: pepclibs/Power.py:132-146 `_get_prop_cpus()`; the `assert` is modelled as `Error`. `PackagePowerInfo` has the feature "tdp" only
(pepclibs/msr/PackagePowerInfo.py:45-54). -/
def powerGet (p m : PyStr) : Except Exn Setting :=
  if m ≠ "msr".toList then .error .error
  else if "ppl".toList.isPrefixOf p then
    if limitFeatures.contains (toFname p) then .ok ⟨.powerLimit, toFname p⟩ else .error .error
  else if p = "tdp".toList then at' .powerInfo "tdp"
  else .error .error

/-- Models: pepclibs/Power.py:183-208 `_do_set_prop()`, `_set_prop_cpus()`. -/
def powerSet (p m : PyStr) : Except Exn Setting :=
  if m ≠ "msr".toList then .error .error
  else if limitFeatures.contains (toFname p) then .ok ⟨.powerLimit, toFname p⟩
  else .error .error

/-- Models: pepclibs/PMQoS.py:63-78 `_get_prop_cpus()`. -/
def pmqosGet (p _m : PyStr) : Except Exn Setting :=
  if p = "latency_limit".toList then at' .linuxPMQoS "latency_limit"
  else if p = "global_latency_limit".toList then at' .linuxPMQoS "global_latency_limit"
  else .error .error

/-- Models: pepclibs/PMQoS.py:80-88 `_set_prop_cpus()`. -/
def pmqosSet (p _m : PyStr) : Except Exn Setting :=
  if p = "latency_limit".toList then at' .linuxPMQoS "latency_limit" else .error .error

/-- Reading by CPU. -/
def getCpus : Cls → PyStr → PyStr → Except Exn Setting
  | .pstates => pstatesGet
  | .cstates => cstatesGet
  | .power => powerGet
  | .pmqos => pmqosGet

/-- Setting by CPU. -/
def setCpus : Cls → PyStr → PyStr → Except Exn Setting
  | .pstates => pstatesSet
  | .cstates => cstatesSet
  | .power => powerSet
  | .pmqos => pmqosSet

/-- Reading by die: by CPU unless it is an uncore frequency.
Models: pepclibs/PStates.py:761-773 `_get_prop_dies()`, pepclibs/_PropsClassBase.py:645-661 `_get_prop_dies()`. -/
def getDies (c : Cls) (p m : PyStr) : Except Exn Setting :=
  if c = .pstates ∧ isUncore p then uncoreGet p else getCpus c p m

/-- Setting by die. Models: pepclibs/PStates.py:1089-1095 `_set_prop_dies()`, pepclibs/_PropsClassBase.py:1108-1120
`_set_prop_dies()`. -/
def setDies (c : Cls) (p m : PyStr) : Except Exn Setting :=
  if c = .pstates ∧ (p = "min_uncore_freq".toList ∨ p = "max_uncore_freq".toList) then uncoreSet p
  else setCpus c p m

/-- An entry of a `PROPS` dictionary. -/
structure Prop' where
  name : PyStr
  mnames : List PyStr
  writable : Bool
  deriving DecidableEq, Repr

def prop (name : String) (mnames : List String) (writable : Bool) : Prop' :=
  ⟨name.toList, mnames.map String.toList, writable⟩

/-- The `PROPS` dictionaries: names, mechanisms, and whether the property is writable.
Models: pepclibs/PStates.py:52-223, pepclibs/CStates.py:32-112, pepclibs/Power.py:25-93, pepclibs/PMQoS.py:25-42. -/
def props : Cls → List Prop'
  | .pstates => [prop "turbo" ["sysfs"] true, prop "min_freq" ["sysfs", "msr"] true,
      prop "max_freq" ["sysfs", "msr"] true, prop "min_freq_limit" ["sysfs"] false,
      prop "max_freq_limit" ["sysfs"] false, prop "base_freq" ["sysfs", "msr", "cppc"] false,
      prop "bus_clock" ["msr", "doc"] false, prop "min_oper_freq" ["msr", "cppc"] false,
      prop "max_eff_freq" ["msr"] false, prop "max_turbo_freq" ["msr", "cppc"] false,
      prop "frequencies" ["sysfs", "doc"] false, prop "min_uncore_freq" ["sysfs"] true,
      prop "max_uncore_freq" ["sysfs"] true, prop "min_uncore_freq_limit" ["sysfs"] false,
      prop "max_uncore_freq_limit" ["sysfs"] false, prop "hwp" ["msr"] false, prop "epp" ["sysfs", "msr"] true,
      prop "epb" ["sysfs", "msr"] true, prop "driver" ["sysfs"] false, prop "intel_pstate_mode" ["sysfs"] true,
      prop "governor" ["sysfs"] true, prop "governors" ["sysfs"] false]
  | .cstates => [prop "pkg_cstate_limit" ["msr"] true, prop "pkg_cstate_limit_lock" ["msr"] false,
      prop "pkg_cstate_limits" ["doc"] false, prop "pkg_cstate_limit_aliases" ["doc"] false,
      prop "c1_demotion" ["msr"] true, prop "c1_undemotion" ["msr"] true, prop "c1e_autopromote" ["msr"] true,
      prop "cstate_prewake" ["msr"] true, prop "idle_driver" ["sysfs"] false, prop "governor" ["sysfs"] true,
      prop "governors" ["sysfs"] false]
  | .power => [prop "tdp" ["msr"] false, prop "ppl1" ["msr"] true, prop "ppl1_enable" ["msr"] true,
      prop "ppl1_clamp" ["msr"] true, prop "ppl1_window" ["msr"] false, prop "ppl2" ["msr"] true,
      prop "ppl2_enable" ["msr"] true, prop "ppl2_clamp" ["msr"] true, prop "ppl2_window" ["msr"] false]
  | .pmqos => [prop "latency_limit" ["sysfs"] true, prop "global_latency_limit" ["cdev"] false]

end Verif.Dispatch
