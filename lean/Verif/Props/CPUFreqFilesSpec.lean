import Verif.Model.CPUFreqFiles

/-! Specification of the files: which settings there are, and the file every one of them lives in. -/

namespace Verif.CPUFreqFiles.Spec

/-- The settings of a cpufreq policy. -/
inductive PolicyFile where
  | minFreq | maxFreq | curFreq | minLimit | maxLimit | driver | governor | governors | frequencies | baseFreq | epp | eppPolicies
  deriving DecidableEq

/-- The file names of the kernel. -/
def PolicyFile.name : PolicyFile → PyStr
  | .minFreq => "scaling_min_freq".toList
  | .maxFreq => "scaling_max_freq".toList
  | .curFreq => "scaling_cur_freq".toList
  | .minLimit => "cpuinfo_min_freq".toList
  | .maxLimit => "cpuinfo_max_freq".toList
  | .driver => "scaling_driver".toList
  | .governor => "scaling_governor".toList
  | .governors => "scaling_available_governors".toList
  | .frequencies => "scaling_available_frequencies".toList
  | .baseFreq => "base_frequency".toList
  | .epp => "energy_performance_preference".toList
  | .eppPolicies => "energy_performance_available_preferences".toList

/-- The settings of a CPU. -/
inductive CpuFile where
  | online | biosLimit | epb | latency | cppc (fname : PyStr)
  deriving DecidableEq

/-- The last components of the path. -/
def CpuFile.tail : CpuFile → List PyStr
  | .online => ["online".toList]
  | .biosLimit => ["cpufreq".toList, "bios_limit".toList]
  | .epb => ["power".toList, "energy_perf_bias".toList]
  | .latency => ["power".toList, "pm_qos_resume_latency_us".toList]
  | .cppc fname => ["acpi_cppc".toList, fname]

/-- The settings of the whole system. -/
inductive SysFile where
  | pstateMode | noTurbo | boost | idleDriver | idleGovernor | idleGovernors | aspmPolicy | dmaLatency
  deriving DecidableEq

/-- The components of the path. -/
def SysFile.comps : SysFile → List PyStr
  | .pstateMode => ["sys".toList, "devices".toList, "system".toList, "cpu".toList, "intel_pstate".toList, "status".toList]
  | .noTurbo => ["sys".toList, "devices".toList, "system".toList, "cpu".toList, "intel_pstate".toList, "no_turbo".toList]
  | .boost => ["sys".toList, "devices".toList, "system".toList, "cpu".toList, "cpufreq".toList, "boost".toList]
  | .idleDriver => ["sys".toList, "devices".toList, "system".toList, "cpu".toList, "cpuidle".toList, "current_driver".toList]
  | .idleGovernor => ["sys".toList, "devices".toList, "system".toList, "cpu".toList, "cpuidle".toList, "current_governor".toList]
  | .idleGovernors =>
    ["sys".toList, "devices".toList, "system".toList, "cpu".toList, "cpuidle".toList, "available_governors".toList]
  | .aspmPolicy => ["sys".toList, "module".toList, "pcie_aspm".toList, "parameters".toList, "policy".toList]
  | .dmaLatency => ["dev".toList, "cpu_dma_latency".toList]

/-- The directories of uncore frequency domains: of a package and a die, or by name. -/
inductive UncoreDir where
  | legacy (package die : Nat)
  | new (name : PyStr)
  deriving DecidableEq

def UncoreDir.name : UncoreDir → PyStr
  | .legacy package die => UncoreFreq.legacyDir package die
  | .new name => name

/-- All the settings. -/
inductive Setting where
  | policy (f : PolicyFile) (cpu : Nat)
  | cpu (f : CpuFile) (cpu : Nat)
  | idle (cpu state : Nat)
  | sys (f : SysFile)
  | uncore (dir : UncoreDir) (key : UncoreFreq.Key) (limit : Bool)
  | l1 (addr : PyStr)
  | msr (cpu : Nat)
  deriving DecidableEq

/-- The components of the path of the file. -/
def Setting.comps : Setting → List PyStr
  | .policy f n =>
    ["sys".toList, "devices".toList, "system".toList, "cpu".toList, "cpufreq".toList, "policy".toList ++ PyStr.ofNat n, f.name]
  | .cpu f n => ["sys".toList, "devices".toList, "system".toList, "cpu".toList, "cpu".toList ++ PyStr.ofNat n] ++ f.tail
  | .idle n i => ["sys".toList, "devices".toList, "system".toList, "cpu".toList, "cpu".toList ++ PyStr.ofNat n, "cpuidle".toList,
      "state".toList ++ PyStr.ofNat i, "disable".toList]
  | .sys f => f.comps
  | .uncore dir key limit => ["sys".toList, "devices".toList, "system".toList, "cpu".toList, "intel_uncore_frequency".toList,
      dir.name, (if limit then "initial_".toList else []) ++ key.str ++ "_freq_khz".toList]
  | .l1 addr =>
    ["sys".toList, "bus".toList, "pci".toList, "devices".toList, addr, "link".toList, "l1_aspm".toList]
  | .msr n => ["dev".toList, "cpu".toList, PyStr.ofNat n, "msr".toList]

/-- The path of the file. -/
def Setting.file (s : Setting) : PyStr := s.comps.flatMap ('/' :: ·)

/-- Addresses and file names have no slashes, directory names of the new interface are `uncore<number>`. -/
def Setting.Valid : Setting → Prop
  | .cpu (.cppc fname) _ => '/' ∉ fname
  | .uncore (.new name) _ _ => UncoreFreq.isUncoreDir name = true
  | .l1 addr => '/' ∉ addr
  | _ => True

/-- What a method reads. -/
def setting : Method → PolicyFile
  | .minFreq => .minFreq
  | .maxFreq => .maxFreq
  | .curFreq => .curFreq
  | .minFreqLimit => .minLimit
  | .maxFreqLimit => .maxLimit

/-- The contents of the files are numbers in kHz; the values in Hz, up to the first file which is missing or not a number. -/
def values (T : SysFiles.Files PyStr) (f : PolicyFile) : List Nat → List (Nat × Int) × Except Exn Unit
  | [] => ([], .ok ())
  | cpu :: cpus =>
    match T (Setting.policy f cpu).file with
    | none => ([], .error .notSupported)
    | some text =>
      match Trivial.strToInt text with
      | .error _ => ([], .error .error)
      | .ok khz => ((cpu, khz * 1000) :: (values T f cpus).1, (values T f cpus).2)

/-- A hybrid host has online CPUs, and every one of them is an E-core CPU or a P-core CPU. -/
def Populated (H : Host) : Prop :=
  H.hybrid = true → (∃ es, H.ecores = .ok es) ∧ (∃ ps, H.pcores = .ok ps) ∧ (H.ecores ≠ .ok [] ∨ H.pcores ≠ .ok [])

/-- The host of a call. -/
def OpPopulated : Op → Prop
  | .get H _ _ => Populated H
  | .set H _ _ _ => Populated H
  | .other _ => True

/-- Affected by the kernel bug: hybrid, there are no E-cores (none are offline either), an old kernel. -/
def Affected (H : Host) : Prop :=
  H.hybrid = true ∧ H.ecores = .ok [] ∧ H.offline = .ok [] ∧
    ∃ kver, H.kver = .ok kver ∧ KernelVersion.kverGe kver "6.5".toList = .ok false

end Verif.CPUFreqFiles.Spec
