import Verif.Props.Closing

/-!
C113: the names of the attributes which tell whether to close, and what is wrong with `CPUFreqMSR`.
-/

namespace Verif.Closing

open Spec

/-- The attribute which tells whether to close, as the constructors have it. -/
def flagOf : List (String × String) :=
  [("_pman", "_close_pman"), ("_cpuinfo", "_close_cpuinfo"), ("_msr", "_close_msr"), ("_sysfs_io", "_close_sysfs_io"),
    ("_cpuidle", "_close_cpuidle"), ("_dmesg_obj", "_close_dmesg_obj")]

/-- **C113** (names): `ClassHelpers.close()` looks at the attributes which the constructors set. -/
theorem C113_flags : ∀ cls ∈ classes ++ [cpufreqMsr], ∀ s ∈ cls.slots, s.2 = .arg →
    ∃ f ∈ flagOf, s.1 = f.1.toList ∧ flagName s.1 = f.2.toList := by
  decide +kernel

/-- **C113** (names, all attributes): one underscore after "_close", whether or not the name starts with it. -/
theorem C113_flag_name (a : PyStr) : flagName ('_' :: a) = "_close_".toList ++ a ∧
    (a.head? ≠ some '_' → flagName a = "_close_".toList ++ a) :=
  ⟨rfl, fun h => if_neg h⟩

/-- **C113** (`CPUFreqMSR`): everything but the MSR object it creates is right. -/
theorem C113_only_msr : ("_msr".toList, Kind.leaky) ∈ cpufreqMsr.slots ∧
    wellFormed { cpufreqMsr with slots := cpufreqMsr.slots.filter fun s => decide (s.1 ≠ "_msr".toList) } = true := by
  decide +kernel

end Verif.Closing
