import Verif.Lemmas.FreqNames
import Verif.Props.FreqInfo

/-!
**C120**: a CPU frequency limit which is set to a frequency given by name is that frequency of every CPU.
-/

namespace Verif.FreqNames

open Verif.CPUInfo (Info)
open Verif.PropsBase (Gen Mech)
open Verif.FreqInfo
open Verif.PStates (FVal)

variable {σ : Type}

/-- **C120**: when the frequency of that name of every CPU is known (it is what `get_prop_cpus()` shows, or the limit
for "min" and "max", or the min. limit for "eff" of a platform without the max. efficiency frequency), the request is
accepted if and only if it is within the limits of each CPU and does not cross its other limit, and then each CPU gets
its own value. Otherwise it is refused because of the range or of the order, and nothing is written. -/
theorem C120_own_value {i : Info} {E : Env σ} {isMin : Bool} {v : FVal} {cpus : List Nat} {m : Mech} {s : σ}
    {f lo hi cur : Nat → Int} (hne : cpus ≠ []) (hn : CPUInfo.normalizeCpus i (.nums cpus) false = .ok cpus)
    (hf : Means i E cpus f v) (hlo : ∀ c ∈ cpus, E.limit true c = .ok (lo c)) (hhi : ∀ c ∈ cpus, E.limit false c = .ok (hi c))
    (hcur : E.get m (!isMin) cpus s = ⟨cpus.map fun c => (c, cur c), none⟩) :
    ((∀ c ∈ cpus, Allowed isMin (lo c) (hi c) (cur c) (f c)) →
      ∃ d, Assigns d cpus f ∧ setCpuFreq E isMin v cpus m s = PStates.setGroups ⟨fun _ _ _ => .ok [], E.set m⟩ isMin d s) ∧
    ((∃ c ∈ cpus, ¬ Allowed isMin (lo c) (hi c) (cur c) (f c)) →
      setCpuFreq E isMin v cpus m s = (s, .error .freqRange) ∨
      setCpuFreq E isMin v cpus m s = (s, .error .freqOrder)) := by
  unfold setCpuFreq
  rcases plan_means hne hn hf hlo hhi hcur with ⟨a, d, h, hA⟩ | ⟨⟨c, hc, a⟩, e, he, h⟩
  · refine ⟨fun _ => ⟨d, hA, by rw [h]⟩, ?_⟩
    rintro ⟨c, hc, b⟩
    exact absurd (a c hc) b
  · refine ⟨fun b => absurd (b c hc) a, fun _ => ?_⟩
    rw [h]
    rcases he with rfl | rfl
    · exact .inl rfl
    · exact .inr rfl

/-- **C120**: whatever the host is like and whatever can be read of it, a request which gets to writing covers every CPU:
each CPU is given one value, which is its own value of that name, within its own limits. No CPU is left out because
one of the readers ended early, no values are shifted from one CPU to another, and the values of the fall-back of "eff"
are not mixed with others. Missing: "Pm" if it comes from ACPI CPPC and the CPUs have different files, see the
counterexample. -/
theorem C120_no_cpu_left_out_partial {E : Env σ} {isMin : Bool} {v : FVal} {cpus : List Nat} {m : Mech} {s : σ}
    {d : Dict Int (List Nat)} (hnd : cpus.Nodup) (hv : v = .other "Pm" → CppcUniform E.H "lowest_freq" cpus)
    (ho : InOrder E cpus) (h : plan E isMin v cpus m s = .ok d) :
    ∃ f lo hi cur : Nat → Int, numericGen E v cpus = ⟨cpus.map fun c => (c, f c), none⟩ ∧
      (∀ c ∈ cpus, E.limit true c = .ok (lo c) ∧ E.limit false c = .ok (hi c)) ∧
      (∀ c ∈ cpus, Allowed isMin (lo c) (hi c) (cur c) (f c)) ∧ Assigns d cpus f :=
  plan_ok hnd (numericGen_aligned' hnd hv) ho h

/-- **C120**: setting through sysfs, end to end. The request succeeds, the file of each CPU then has the CPU's own
frequency of that name (in kHz), and no other file changes. -/
theorem C120_sysfs {i : Info} {E : Env (PStates.Sysfs Nat)} {isMin : Bool} {v : FVal} {cpus : List Nat}
    {s : PStates.Sysfs Nat} {f lo hi : Nat → Int} (hne : cpus ≠ [])
    (hn : CPUInfo.normalizeCpus i (.nums cpus) false = .ok cpus) (hE : SysfsFiles E)
    (hf : Means i E cpus f v) (hlo : ∀ c ∈ cpus, E.limit true c = .ok (lo c)) (hhi : ∀ c ∈ cpus, E.limit false c = .ok (hi c))
    (hall : ∀ c ∈ cpus, Allowed isMin (lo c) (hi c) (s.file (!isMin) c * 1000) (f c)) :
    ∃ t, setProp E i isMin v (.nums cpus) none s = (t, .ok .sysfs) ∧
      (∀ c ∈ cpus, t.file isMin c = f c / 1000) ∧
      (∀ c, c ∉ cpus → t.file isMin c = s.file isMin c) ∧
      ∀ c, t.file (!isMin) c = s.file (!isMin) c := by
  obtain ⟨d, hA, hd⟩ := (C120_own_value (s := s) hne hn hf hlo hhi (hE.get (!isMin) cpus s)).1 hall
  have hB : setCpuFreq E isMin v cpus .sysfs s =
      PStates.setGroups (PStates.sysfsBackend fun _ : Nat => none) isMin d s := by
    rw [hd]
    exact setGroups_get_irrel _ _ (by funext b g cs s; exact hE.set b g cs s) isMin d s
  obtain ⟨_, k2, k3, k4, k5⟩ := PStates.setGroups_spec (PStates.sysfsLaws fun _ : Nat => none) isMin d s trivial
  have hok := k5 fun _ _ _ => rfl
  have huniq : ∀ c g g', InGroups d g c → InGroups d g' c → g = g' := fun c g g' h h' => by
    rw [((hA c g).1 h).2, ((hA c g').1 h').2]
  refine ⟨(setCpuFreq E isMin v cpus .sysfs s).1, ?_, ?_, ?_, ?_⟩
  · unfold setProp PropsBase.setPropCpus
    have e1 : PropsBase.normalizeMnames limitProp none false = .ok [.sysfs, .msr] := rfl
    have e2 : PropsBase.normalizeInprop limitProp Except.ok (some v) = .ok v := rfl
    have hne' : cpus.isEmpty = false := by cases cpus <;> simp_all
    rw [e1]
    dsimp only
    rw [e2]
    dsimp only
    rw [hn]
    dsimp only
    rw [hne', if_neg (by simp)]
    show PropsBase.setLoop _ [.sysfs, .msr] false s = _
    rw [PropsBase.setLoop]
    have : setCpuFreq E isMin v cpus .sysfs s = ((setCpuFreq E isMin v cpus .sysfs s).1, .ok ()) := by
      rw [hB, ← hok]
    rw [this]
  · intro c hc
    have := k4 huniq hok (f c) c ((hA c (f c)).2 ⟨hc, rfl⟩)
    rw [hB]
    unfold PStates.sysfsView at this
    omega
  · intro c hc
    rcases k3 c with h | ⟨g, hg, _⟩
    · rw [hB]
      unfold PStates.sysfsView at h
      omega
    · exact absurd ((hA c g).1 hg).1 hc
  · intro c
    have := k2 c
    rw [hB]
    unfold PStates.sysfsView at this
    omega

/-- **C120**: a value which is out of the limits of one CPU is not set for any CPU, with any list of mechanisms: the
limits do not depend on the mechanism. -/
theorem C120_out_of_range {i : Info} {E : Env σ} {isMin : Bool} {v : FVal} {cpus : List Nat} {mnames : Option (List Mech)}
    {s : σ} {f : Nat → Int} {c : Nat} {lo hi : Int} (hnd : cpus.Nodup)
    (hn : CPUInfo.normalizeCpus i (.nums cpus) false = .ok cpus) (ho : InOrder E cpus)
    (hf : Means i E cpus f v) (hc : c ∈ cpus) (hlo : E.limit true c = .ok lo) (hhi : E.limit false c = .ok hi)
    (hout : f c < lo * 1000 ∨ hi * 1000 < f c) :
    ∃ e, setProp E i isMin v (.nums cpus) mnames s = (s, .error e) := by
  have hne : cpus ≠ [] := List.ne_nil_of_mem hc
  have hnum := numericGen_means hne hn hf
  have halign : Aligned (numericGen E v cpus) cpus := by
    have : cpusOf (numericGen E v cpus) = cpus := by
      unfold cpusOf
      rw [hnum, List.map_map]
      exact List.map_id cpus
    exact ⟨by rw [this], fun _ => this⟩
  have hfail : ∀ m, ∃ e, setCpuFreq E isMin v cpus m s = (s, .error e) := by
    intro m
    unfold setCpuFreq
    cases hp : plan E isMin v cpus m s with
    | error e => exact ⟨e, rfl⟩
    | ok d =>
      exfalso
      obtain ⟨f', lo', hi', cur, h1, h2, h3, _⟩ := plan_ok hnd halign ho hp
      have hff : f' c = f c := by
        rw [hnum] at h1
        have := congrArg Gen.yields h1
        have := (List.map_inj_left.1 this) c hc
        exact (congrArg Prod.snd this).symm
      have e1 := (h2 c hc).1
      have e2 := (h2 c hc).2
      rw [hlo] at e1
      rw [hhi] at e2
      cases e1
      cases e2
      have := h3 c hc
      unfold Allowed at this
      rw [hff] at this
      omega
  unfold setProp PropsBase.setPropCpus
  cases PropsBase.normalizeMnames limitProp mnames false with
  | error e => exact ⟨e, rfl⟩
  | ok ms =>
    dsimp only
    have e2 : PropsBase.normalizeInprop limitProp Except.ok (some v) = .ok v := rfl
    have hne' : cpus.isEmpty = false := by cases cpus <;> simp_all
    rw [e2]
    dsimp only
    rw [hn]
    dsimp only
    rw [hne', if_neg (by simp)]
    exact setLoop_fail hfail _ _

/-- **C120**: the names of the same frequency are interchangeable. -/
theorem C120_synonyms (E : Env σ) (isMin : Bool) (cpus : List Nat) (m : Mech) (s : σ) :
    (∀ n ∈ ["base", "hfm", "P1"], setCpuFreq E isMin (.other n) cpus m s = setCpuFreq E isMin (.other "base") cpus m s) ∧
    ∀ n ∈ ["eff", "lfm", "Pn"], setCpuFreq E isMin (.other n) cpus m s = setCpuFreq E isMin (.other "eff") cpus m s := by
  constructor
  · intro n hn
    have : n = "base" ∨ n = "hfm" ∨ n = "P1" := by simpa using hn
    rcases this with rfl | rfl | rfl <;> rfl
  · intro n hn
    have : n = "eff" ∨ n = "lfm" ∨ n = "Pn" := by simpa using hn
    rcases this with rfl | rfl | rfl <;> rfl

/-- **C120**: without a max. efficiency frequency, "eff" is the same as "min". -/
theorem C120_eff_is_min {i : Info} {E : Env σ} {isMin : Bool} {cpus : List Nat} {m : Mech} {s : σ} (hne : cpus ≠ [])
    (hn : CPUInfo.normalizeCpus i (.nums cpus) false = .ok cpus) (h : NotShown i E.H .maxEff cpus) :
    setCpuFreq E isMin (.other "eff") cpus m s = setCpuFreq E isMin .min cpus m s := by
  have : numericGen E (.other "eff") cpus = numericGen E .min cpus := by
    show effGen (propGen E.H .maxEff cpus) (limitGen E true cpus .sysfs) = limitGen E true cpus .sysfs
    rw [propGen_notShown hne hn h]
    rfl
  unfold setCpuFreq plan
  rw [this]

/-! ### Examples and counterexamples -/

/-- A hybrid processor (see `exHybrid`). The limits of the P-cores 0 and 1 are 300 MHz and 5.3 GHz, the ones of the
E-core 2 are 300 MHz and 3.8 GHz. -/
def exEnv (H : Host) : Env (PStates.Sysfs Nat) where
  H := H
  limit := fun isMin c => .ok (if isMin then 300000 else if c = 2 then 3800000 else 5300000)
  get := fun _ b cpus s => ⟨cpus.map fun c => (c, s.file b c * 1000), none⟩
  set := fun _ b f cpus s => PStates.sysfsSet (fun _ => none) b f cpus s

/-- The current limits. -/
def exState : PStates.Sysfs Nat := ⟨fun _ => 400000, fun c => if c = 2 then 3800000 else 5300000⟩

/-- The base frequencies of `exHybrid`. -/
def exBase (c : Nat) : Int := if c = 2 then 2600000000 else 3500000000

theorem exInOrder (H : Host) (cpus : List Nat) : InOrder (exEnv H) cpus := by
  intro m b s
  have : cpusOf ((exEnv H).get m b cpus s) = cpus := by
    unfold cpusOf exEnv
    rw [List.map_map]
    exact List.map_id cpus
  exact ⟨by rw [this], fun _ => this⟩

/-- The hypotheses of `C120_own_value` and `C120_sysfs`. -/
example : CPUInfo.normalizeCpus CPUInfo.exInfo (.nums [2, 0]) false = .ok [2, 0] ∧
    Means CPUInfo.exInfo (exEnv exHybrid) [2, 0] exBase (.other "P1") ∧ SysfsFiles (exEnv exHybrid) ∧
    (∀ c ∈ [2, 0], Allowed true 300000 (if c = 2 then 3800000 else 5300000) (exState.file false c * 1000) (exBase c)) ∧
    [2, 0].Nodup :=
  ⟨by decide +kernel, .inl ⟨by decide, .msr, by decide +kernel⟩, ⟨fun _ _ _ => rfl, fun _ _ _ _ => rfl⟩, by
    unfold Allowed exBase exState PStates.Sysfs.file; decide, by decide⟩

/-- Each CPU gets its own base frequency. -/
example : ((setProp (exEnv exHybrid) CPUInfo.exInfo true (.other "hfm") (.nums [2, 0]) none exState).2 = .ok .sysfs) ∧
    (setProp (exEnv exHybrid) CPUInfo.exInfo true (.other "hfm") (.nums [2, 0]) none exState).1.mn 2 = 2600000 ∧
    (setProp (exEnv exHybrid) CPUInfo.exInfo true (.other "hfm") (.nums [2, 0]) none exState).1.mn 0 = 3500000 ∧
    (setProp (exEnv exHybrid) CPUInfo.exInfo true (.other "hfm") (.nums [2, 0]) none exState).1.mn 1 = 400000 := by
  refine ⟨?_, ?_, ?_, ?_⟩ <;> decide +kernel

/-- A number out of the range of the E-core: the final error says that the property is not supported. -/
example : setProp (exEnv exHybrid) CPUInfo.exInfo false (.num 5000000000) (.nums [0, 2]) none exState =
    (exState, .error .notSupported) := by
  obtain ⟨e, he⟩ := C120_out_of_range (i := CPUInfo.exInfo) (E := exEnv exHybrid) (isMin := false) (v := .num 5000000000)
    (cpus := [0, 2]) (mnames := none) (s := exState) (f := fun _ => 5000000000) (c := 2) (lo := 300000) (hi := 3800000)
    (by decide) (by decide +kernel) (exInOrder _ _) (fun _ _ => rfl) (by decide) rfl rfl (.inr (by decide))
  have h2 : (setProp (exEnv exHybrid) CPUInfo.exInfo false (.num 5000000000) (.nums [0, 2]) none exState).2 =
    .error .notSupported := by decide +kernel
  rw [he] at h2 ⊢
  cases h2
  rfl

/-- A host without the max. efficiency frequency. -/
def exNoEff : Host := { exHybrid with platSup := fun _ => false, hwpFlag := fun _ => false }

/-- The hypothesis of `C120_eff_is_min`. -/
example : NotShown CPUInfo.exInfo exNoEff .maxEff [2, 0] := ⟨.msr, by decide +kernel⟩

/-- A host where the min. operating frequency comes from ACPI CPPC, and only CPU 0 has the file with the frequency. -/
def exPm : Host := { exFiles with platSup := fun _ => false, hwpFlag := fun _ => false }

/-- **C120** is false for "Pm" if the CPUs have different ACPI CPPC files: the min. frequency of the CPUs 0 and 2 is set
to "Pm" with success, but CPU 0 is set two times, to the value of CPU 2 in the end, and CPU 2 is not set. -/
theorem C120_pm_counterexample :
    plan (exEnv exPm) true (.other "Pm") [0, 2] .sysfs exState = .ok [(800000000, [0]), (761904761, [0])] ∧
    (setProp (exEnv exPm) CPUInfo.exInfo true (.other "Pm") (.nums [0, 2]) none exState).2 = .ok .sysfs ∧
    (setProp (exEnv exPm) CPUInfo.exInfo true (.other "Pm") (.nums [0, 2]) none exState).1.mn 0 = 761904 ∧
    (setProp (exEnv exPm) CPUInfo.exInfo true (.other "Pm") (.nums [0, 2]) none exState).1.mn 2 = 400000 := by
  refine ⟨?_, ?_, ?_, ?_⟩ <;> decide +kernel

/-- The hypotheses of `C120_no_cpu_left_out_partial` with "Pm". -/
example : CppcUniform exPm "lowest_freq" [2, 1] ∧
    plan (exEnv exPm) true (.other "Pm") [2] .sysfs exState = .ok [(761904761, [2])] :=
  ⟨.inr fun c h => by cases h; decide +kernel, by decide +kernel⟩

/-- The check of `_get_numeric_cpu_freq()` for values before the failure ("idx != 0") does not see a single value. This
is harmless, because the max. efficiency frequency is read for all CPUs or for none. -/
theorem C120_guard_counterexample :
    effGen ⟨[(0, 800000000)], some .notSupported⟩ ⟨[(0, 400000000), (1, 400000000)], none⟩ =
      ⟨[(0, 800000000), (0, 400000000), (1, 400000000)], none⟩ := by
  decide

end Verif.FreqNames
