import Verif.Model.Dispatch

/-!
Specification for C125: every property name leads to a setting of its own.
-/

namespace Verif.Dispatch

/-- What the user reads about in the documentation: the mechanism `m` serves the property. -/
def Has (c : Cls) (p m : PyStr) : Prop := ∃ q ∈ props c, q.name = p ∧ m ∈ q.mnames

/-- The property can be written. -/
def HasWritable (c : Cls) (p m : PyStr) : Prop := ∃ q ∈ props c, q.name = p ∧ m ∈ q.mnames ∧ q.writable = true

/-- The objects a mechanism stands for (the descriptions in `_PropsClassBase.MECHANISMS`). The limits of "doc" are those
the documentation has for the register. -/
def ofMech (m : PyStr) : Obj → Bool
  | .epp | .epb => true
  | .cpufreqSysfs | .uncore | .cpuidle => m = "sysfs".toList
  | .linuxPMQoS => m = "sysfs".toList || m = "cdev".toList
  | .cpufreqMsr | .fsbFreq | .powerCtl | .pcStateCtl | .powerLimit | .powerInfo => m = "msr".toList
  | .pcLimit => m = "msr".toList || m = "doc".toList
  | .cppc => m = "cppc".toList
  | .doc => m = "doc".toList

/-- The properties which are per die in the hardware and may have dies without CPUs. -/
def PerDie (p : PyStr) : Prop := p = "min_uncore_freq".toList ∨ p = "max_uncore_freq".toList

end Verif.Dispatch
