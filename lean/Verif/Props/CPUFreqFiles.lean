import Verif.Lemmas.CPUFreqFiles

/-!
C117: every setting lives in a file of its own, and the code finds it. `Setting` lists the settings the project reads and
writes, and `Setting.file` the file every one of them lives in according to the documentation of the kernel.
-/

namespace Verif.CPUFreqFiles

open Spec
open SysFiles (Files)

/-- C117: the paths which the classes build are the files of the settings. -/
theorem C117_paths :
    (∀ m cpu, freqPath (Method.args m).1 cpu m.args.2 = (Setting.policy (setting m) cpu).file) ∧
    (∀ cpu, cpufreqPath (.driver cpu) = (Setting.policy .driver cpu).file) ∧
    (∀ cpu, cpufreqPath (.governor cpu) = (Setting.policy .governor cpu).file) ∧
    (∀ cpu, cpufreqPath (.governors cpu) = (Setting.policy .governors cpu).file) ∧
    cpufreqPath .status = (Setting.sys .pstateMode).file ∧
    cpufreqPath .noTurbo = (Setting.sys .noTurbo).file ∧
    cpufreqPath .boost = (Setting.sys .boost).file ∧
    (∀ cpu, infoPath (.available cpu) = (Setting.policy .frequencies cpu).file) ∧
    (∀ cpu, infoPath (.baseFrequency cpu) = (Setting.policy .baseFreq cpu).file) ∧
    (∀ cpu, infoPath (.biosLimit cpu) = (Setting.cpu .biosLimit cpu).file) ∧
    (∀ cpu fname, infoPath (.cppc cpu fname) = (Setting.cpu (.cppc fname.toList) cpu).file) ∧
    (∀ cpu, eppPath cpu = (Setting.policy .epp cpu).file) ∧
    (∀ cpu, eppPoliciesPath cpu = (Setting.policy .eppPolicies cpu).file) ∧
    (∀ cpu, epbPath cpu = (Setting.cpu .epb cpu).file) ∧
    (∀ cpu, latencyPath cpu = (Setting.cpu .latency cpu).file) ∧
    (∀ cpu, onlinePath cpu = (Setting.cpu .online cpu).file) ∧
    (∀ cpu index, disablePath cpu index = (Setting.idle cpu index).file) ∧
    idlePath "current_driver".toList = (Setting.sys .idleDriver).file ∧
    idlePath "current_governor".toList = (Setting.sys .idleGovernor).file ∧
    idlePath "available_governors".toList = (Setting.sys .idleGovernors).file ∧
    (∀ dir key limit, uncorePath (UncoreDir.name dir) key limit = (Setting.uncore dir key limit).file) ∧
    (∀ addr, l1Path addr = (Setting.l1 addr).file) ∧
    aspmPath = (Setting.sys .aspmPolicy).file ∧
    dmaLatencyPath = (Setting.sys .dmaLatency).file ∧
    (∀ cpu, msrPath cpu = (Setting.msr cpu).file) := by
  have hpol : "/sys/devices/system/cpu/cpufreq/policy".toList =
      text ["sys".toList, "devices".toList, "system".toList, "cpu".toList, "cpufreq".toList] ++ '/' :: "policy".toList := by decide
  have hcpu : "/sys/devices/system/cpu/cpu".toList =
      text ["sys".toList, "devices".toList, "system".toList, "cpu".toList] ++ '/' :: "cpu".toList := by decide
  refine ⟨method_path, fun cpu => policyPath_eq cpu _, fun cpu => policyPath_eq cpu _, fun cpu => policyPath_eq cpu _,
    by decide, by decide, by decide, fun cpu => policyPath_eq cpu _, fun cpu => policyPath_eq cpu _, ?_, ?_, ?_, ?_, ?_, ?_, ?_, ?_,
    by decide, by decide, by decide, ?_, ?_, by decide, by decide, ?_⟩
  · intro cpu
    rw [file_eq]
    refine Eq.trans ?_ (cpuPath_eq cpu ["cpufreq".toList, "bios_limit".toList])
    have : "/cpufreq/bios_limit".toList = text ["cpufreq".toList, "bios_limit".toList] := by decide
    unfold infoPath
    dsimp only
    unfold div
    rw [this, text_cons ("cpu".toList ++ PyStr.ofNat cpu)]
  · intro cpu fname
    rw [file_eq]
    refine Eq.trans ?_ (cpuPath_eq cpu ["acpi_cppc".toList, fname.toList])
    have : "/acpi_cppc".toList = text ["acpi_cppc".toList] := by decide
    unfold infoPath
    dsimp only
    rw [div_eq, this]
    unfold div
    rw [List.append_assoc, List.cons_append, List.append_assoc, ← text_append]
    rfl
  · intro cpu
    unfold eppPath
    rw [file_eq, hpol, List.append_assoc, List.append_assoc]
    exact (policyPath_eq cpu PolicyFile.epp.name).symm ▸ rfl
  · intro cpu
    unfold eppPoliciesPath
    rw [file_eq, hpol, List.append_assoc, List.append_assoc]
    rfl
  · intro cpu
    unfold epbPath
    rw [file_eq, hcpu, List.append_assoc, List.append_assoc]
    rfl
  · intro cpu
    rw [file_eq]
    unfold latencyPath
    rw [div_eq, div_eq, div_eq, List.append_assoc, List.append_assoc, ← text_append, ← text_append]
    exact cpuPath_eq cpu _
  · intro cpu
    rw [file_eq]
    unfold onlinePath
    rw [div_eq, div_eq, List.append_assoc, ← text_append]
    exact cpuPath_eq cpu _
  · intro cpu index
    rw [file_eq]
    unfold disablePath
    rw [div_eq, div_eq, div_eq, div_eq, List.append_assoc, List.append_assoc, List.append_assoc, ← text_append, ← text_append,
      ← text_append]
    exact cpuPath_eq cpu _
  · intro dir key limit
    have : "/sys/devices/system/cpu/intel_uncore_frequency".toList = text ["sys".toList, "devices".toList, "system".toList,
      "cpu".toList, "intel_uncore_frequency".toList] := by decide
    unfold uncorePath
    rw [file_eq, div_eq, div_eq, this, ← text_append, ← text_append]
    rfl
  · intro addr
    have h1 : "/sys/bus/pci/devices".toList = text ["sys".toList, "bus".toList, "pci".toList, "devices".toList] := by decide
    have h2 : '/' :: "link/l1_aspm".toList = text ["link".toList, "l1_aspm".toList] := by decide
    unfold l1Path
    rw [div_eq _ addr]
    unfold div
    rw [h1, h2, file_eq, ← text_append, ← text_append]
    rfl
  · intro cpu
    unfold msrPath
    rw [file_eq, List.append_assoc]
    rfl

/-- C117: different settings live in different files. -/
theorem C117_injective (s t : Setting) (hs : s.Valid) (ht : t.Valid) (h : s.file = t.file) : s = t := file_inj hs ht h

/-- C117: writing one setting leaves all the other ones alone. -/
theorem C117_frame (E : SysFiles.Env PyStr) (T : Files PyStr) (s t : Setting) (hs : s.Valid) (ht : t.Valid) (hne : s ≠ t)
    (v : PyStr) : (SysFiles.write E T s.file v).1 t.file = T t.file := by
  unfold SysFiles.write
  cases T s.file with
  | none => rfl
  | some u =>
    dsimp only
    cases E.wfail s.file v with
    | some e => rfl
    | none => exact if_neg fun h => hne (file_inj hs ht h.symm)

/-- C117: the claims about drivers, governors, modes and turbo, in which the paths of files are the constructors of a type, are
claims about files with names. Reading by the name and reading by the constructor are the same, and so is writing. -/
theorem C117_faithful (E : SysFiles.Env PyStr) (T : Files PyStr) (p : CPUFreq.Path) (v : PyStr) :
    SysFiles.read T (cpufreqPath p) = SysFiles.read (T ∘ cpufreqPath) p ∧
    SysFiles.readInt T (cpufreqPath p) = SysFiles.readInt (T ∘ cpufreqPath) p ∧
    (SysFiles.write E T (cpufreqPath p) v).2 = (SysFiles.write ⟨E.wfail ∘ cpufreqPath⟩ (T ∘ cpufreqPath) p v).2 ∧
    (SysFiles.write E T (cpufreqPath p) v).1 ∘ cpufreqPath =
      (SysFiles.write ⟨E.wfail ∘ cpufreqPath⟩ (T ∘ cpufreqPath) p v).1 ∧
    ∀ q, (∀ p, q ≠ cpufreqPath p) → (SysFiles.write E T (cpufreqPath p) v).1 q = T q := by
  let emb : CPUFreq.Path → Setting
    | .driver cpu => .policy .driver cpu
    | .governor cpu => .policy .governor cpu
    | .governors cpu => .policy .governors cpu
    | .status => .sys .pstateMode
    | .noTurbo => .sys .noTurbo
    | .boost => .sys .boost
  obtain ⟨-, h1, h2, h3, h4, h5, h6, -⟩ := C117_paths
  have hemb : ∀ p, cpufreqPath p = (emb p).file := by
    intro p
    cases p with
    | driver cpu => exact h1 cpu
    | governor cpu => exact h2 cpu
    | governors cpu => exact h3 cpu
    | status => exact h4
    | noTurbo => exact h5
    | boost => exact h6
  have hv : ∀ p, (emb p).Valid := by intro p; cases p <;> exact trivial
  have hinj : ∀ p q, cpufreqPath p = cpufreqPath q → p = q := by
    intro p q h
    rw [hemb, hemb] at h
    have h := file_inj (hv p) (hv q) h
    cases p <;> cases q <;> simp_all [emb]
  refine ⟨rfl, rfl, ?_, ?_, ?_⟩
  · unfold SysFiles.write
    dsimp only [Function.comp]
    cases T (cpufreqPath p) with
    | none => rfl
    | some u =>
      dsimp only
      cases E.wfail (cpufreqPath p) v <;> rfl
  · unfold SysFiles.write
    dsimp only [Function.comp]
    cases T (cpufreqPath p) with
    | none => rfl
    | some u =>
      dsimp only
      cases E.wfail (cpufreqPath p) v with
      | some e => rfl
      | none =>
        funext q
        by_cases hq : q = p
        · subst hq; simp
        · have : cpufreqPath q ≠ cpufreqPath p := fun h => hq (hinj q p h)
          simp [hq, this]
  · intro q hq
    unfold SysFiles.write
    cases T (cpufreqPath p) with
    | none => rfl
    | some u =>
      dsimp only
      cases E.wfail (cpufreqPath p) v with
      | some e => rfl
      | none => exact if_neg (hq p)

/-- C117: whatever was called before, reading a frequency of CPUs gives the numbers in the files of these CPUs times 1000, in the
order of the CPUs, up to the first file which is missing or is not a number. -/
theorem C117_get (E : SysFiles.Env PyStr) (ops : List Op) (T₀ : Files PyStr) (H : Host) (hH : Populated H)
    (m : Method) (cpus : List Nat) :
    (getMethod H (run E ops {} T₀).2.1 m cpus (run E ops {} T₀).1).2.2 = values (run E ops {} T₀).2.1 (setting m) cpus := by
  rw [(getMethod_eq H _ m cpus (coh_run E ops {} T₀ coh_init)).1, ecoresBug_populated hH]

/-- C117: whatever was called before, setting the minimum or the maximum frequency of CPUs writes it, in kHz, to the files of these
CPUs in their order, and to nothing else. It stops at the first CPU whose file is missing or refuses the number; the CPUs before it
are changed then. -/
theorem C117_set (E : SysFiles.Env PyStr) (ops : List Op) (T₀ : Files PyStr) (H : Host) (hH : Populated H) (max : Bool) (freq : Int)
    (cpus : List Nat) :
    let T := (run E ops {} T₀).2.1
    let r := setMethod H E max freq cpus (run E ops {} T₀).1 T
    let file := fun cpu => (Setting.policy (if max then .maxFreq else .minFreq) cpu).file
    let khz := PyStr.ofInt (freq.fdiv 1000)
    ∃ done rest, cpus = done ++ rest ∧
      (∀ s : Setting, s.Valid → r.2.2.1 s.file =
        if ∃ cpu ∈ done, s = .policy (if max then .maxFreq else .minFreq) cpu then some khz else T s.file) ∧
      (∀ p, (∀ cpu ∈ done, p ≠ file cpu) → r.2.2.1 p = T p) ∧
      ((rest = [] ∧ r.2.2.2 = .ok ()) ∨ ∃ cpu rest' e, rest = cpu :: rest' ∧ r.2.2.2 = .error e ∧
        ((T (file cpu) = none ∧ e = .notSupported) ∨ (T (file cpu) ≠ none ∧ E.wfail (file cpu) khz = some e))) := by
  intro T r file khz
  have h := (setMethod_eq H E max freq cpus (coh_run E ops {} T₀ coh_init) T).1
  rw [ecoresBug_populated hH] at h
  obtain ⟨done, rest, h1, h2, h3⟩ := h
  refine ⟨done, rest, h1, fun s hs => ?_, fun p hp => ?_, h3⟩
  · show (setMethod H E max freq cpus (run E ops {} T₀).1 T).2.2.1 s.file = _
    rw [h2]
    dsimp only
    by_cases hx : ∃ cpu ∈ done, s = .policy (if max then .maxFreq else .minFreq) cpu
    · rw [if_pos hx]
      obtain ⟨cpu, hc, rfl⟩ := hx
      rw [if_pos (List.mem_map.2 ⟨cpu, hc, rfl⟩)]
    · rw [if_neg hx, if_neg]
      intro hm
      obtain ⟨cpu, hc, he⟩ := List.mem_map.1 hm
      exact hx ⟨cpu, hc, (file_inj (s := .policy _ cpu) (t := s) trivial hs he).symm⟩
  · show (setMethod H E max freq cpus (run E ops {} T₀).1 T).2.2.1 p = _
    rw [h2]
    dsimp only
    rw [if_neg]
    intro hm
    obtain ⟨cpu, hc, he⟩ := List.mem_map.1 hm
    exact hp cpu hc he.symm

/-- C117: an object warns at most once. -/
theorem C117_warn_once (E : SysFiles.Env PyStr) (ops : List Op) (T : Files PyStr) : (run E ops {} T).2.2.length ≤ 1 :=
  run_once E ops {} T coh_init

/-- C117, the part of the claim about the warning which fails: no object ever warns on a host with online CPUs, whatever the kernel
version and whether or not there are E-cores. -/
theorem C117_never_warns (E : SysFiles.Env PyStr) (ops : List Op) (T : Files PyStr) (hp : ∀ op ∈ ops, OpPopulated op) :
    (run E ops {} T).2.2 = [] := run_populated E ops {} T coh_init hp

/-- A hybrid host whose E-cores are disabled, with a kernel which has the bug. -/
def oldHost : Host := ⟨true, .ok [], .ok [0, 1], .ok "6.4".toList, .ok []⟩

/-- C117 fails: this host is affected by the kernel bug, its CPUs are online, and there is no warning. -/
theorem C117_warning_counterexample :
    Affected oldHost ∧ Populated oldHost ∧ ∀ T m cpus, (getMethod oldHost T m cpus {}).2.1 = [] := by
  refine ⟨⟨rfl, rfl, rfl, "6.4".toList, rfl, by decide +kernel⟩, fun _ => ⟨⟨_, rfl⟩, ⟨_, rfl⟩, .inr nofun⟩, fun T m cpus => ?_⟩
  rw [(getMethod_eq oldHost T m cpus coh_init).2.1]
  rfl

/-! ### The hypotheses are met -/

/-- Two CPUs. -/
def exT : Files PyStr := fun p =>
  if p = "/sys/devices/system/cpu/cpufreq/policy0/scaling_min_freq".toList then some "800000".toList
  else if p = "/sys/devices/system/cpu/cpufreq/policy1/scaling_min_freq".toList then some "900000".toList
  else if p = "/sys/devices/system/cpu/cpufreq/policy0/scaling_max_freq".toList then some "2000000".toList
  else none

example : (Setting.policy .minFreq 12).file = "/sys/devices/system/cpu/cpufreq/policy12/scaling_min_freq".toList := by
  decide +kernel
example : (Setting.idle 3 2).file = "/sys/devices/system/cpu/cpu3/cpuidle/state2/disable".toList := by decide +kernel
example : (Setting.uncore (.legacy 0 1) .max true).file =
    "/sys/devices/system/cpu/intel_uncore_frequency/package_00_die_01/initial_max_freq_khz".toList := by decide +kernel
example : (Setting.uncore (.new "uncore02".toList) .min false).Valid := by
  show UncoreFreq.isUncoreDir "uncore02".toList = true
  decide +kernel
example : Populated oldHost := C117_warning_counterexample.2.1

example : (getMethod oldHost exT .minFreq [1, 0] {}).2.2.1 = [(1, 900000000), (0, 800000000)] := by decide +kernel
example : (getMethod oldHost exT .maxFreq [0, 1] {}).2.2.1 = [(0, 2000000000)] := by decide +kernel
example : (getMethod oldHost exT .maxFreq [0, 1] {}).2.2.2.toOption = none := by decide +kernel
example : (run ⟨fun _ _ => none⟩ [.get oldHost .minFreq [0], .set oldHost false 1000000000 [0, 1]] {} exT).2.1
    (Setting.policy .minFreq 1).file = some "1000000".toList := by decide +kernel
/-- With no CPUs in the two lists there would be a warning, once. -/
example : (run ⟨fun _ _ => none⟩ [.get ⟨true, .ok [], .ok [], .ok "6.4".toList, .ok []⟩ .minFreq [0],
    .get ⟨true, .ok [], .ok [], .ok "6.4".toList, .ok []⟩ .minFreq [0]] {} exT).2.2 = [.ecores "6.4".toList] := by decide +kernel

end Verif.CPUFreqFiles
