import Verif.Lemmas.FreqInfo
import Verif.Lemmas.CPUInfo

/-!
C79: the base, min. operating, max. efficiency and max. turbo frequency of CPUs.
-/

namespace Verif.FreqInfo

open Verif.PropsBase (Gen Mech PVInfo)
open CPUInfo (Info Nums normalizeCpus)

/-- **C79** (registers). If the registers of all requested CPUs have the frequency, then every CPU is reported once, in
the order of the request, with the frequency its own registers say. -/
theorem C79_msr_values (H : Host) (R : Regs) (k : Kind) (cpus : List Nat) (b : Nat → Int)
    (w : Regular H R cpus b) (h : ∀ c ∈ cpus, hasMsr H R k c = true) :
    msrFreq H k cpus = ⟨cpus.map fun c => (c, msrHz H R k c (b c)), none⟩ := by
  unfold msrFreq
  dsimp only
  refine from2_ok w.nodup H.hwpFlag ?_ ?_
  · refine legFreq_ok w.readable w.intel w.width k ?_ ?_ ?_
    · intro c hc; exact w.bus c (List.mem_filter.1 hc).1
    · intro c hc; simpa using (List.mem_filter.1 hc).2
    · intro c hc; exact h c (List.mem_filter.1 hc).1
  · refine capFreq_ok w.readable w.intel w.width w.uniform k ?_ ?_ ?_ ?_
    · intro c hc; exact w.bus c (List.mem_filter.1 hc).1
    · intro c hc; exact w.pkg c (List.mem_filter.1 hc).1
    · intro c hc; exact (List.mem_filter.1 hc).2
    · intro c hc; exact h c (List.mem_filter.1 hc).1

/-- **C79** (registers). If the registers of a requested CPU do not have the frequency, the request is refused as not
supported and nothing is reported, so that another mechanism can be used. -/
theorem C79_msr_refuses (H : Host) (R : Regs) (k : Kind) (cpus : List Nat) (b : Nat → Int)
    (w : Regular H R cpus b) (c : Nat) (hc : c ∈ cpus) (h : hasMsr H R k c = false) :
    msrFreq H k cpus = ⟨[], some .notSupported⟩ := by
  unfold msrFreq
  dsimp only
  have hbl : ∀ c ∈ (cpus.filter fun c => !H.hwpFlag c), busClock H R c = some (b c) :=
    fun c hc => w.bus c (List.mem_filter.1 hc).1
  have hbh : ∀ c ∈ (cpus.filter fun c => H.hwpFlag c), busClock H R c = some (b c) :=
    fun c hc => w.bus c (List.mem_filter.1 hc).1
  by_cases hl : ∃ d ∈ (cpus.filter fun c => !H.hwpFlag c), hasMsr H R k d = false
  · obtain ⟨d, hd, hf⟩ := hl
    have : H.hwpFlag d = false := by simpa using (List.mem_filter.1 hd).2
    rw [legFreq_unsup w.readable w.intel w.width k hbl hd this hf]
    rfl
  · have hall : ∀ d ∈ (cpus.filter fun c => !H.hwpFlag c), hasMsr H R k d = true := by
      intro d hd
      cases hm : hasMsr H R k d with
      | true => rfl
      | false => exact absurd ⟨d, hd, hm⟩ hl
    have hfl : H.hwpFlag c = true := by
      cases hf : H.hwpFlag c with
      | true => rfl
      | false =>
        have := hall c (by simp [hc, hf])
        rw [h] at this
        exact absurd this (by simp)
    rw [legFreq_ok w.readable w.intel w.width k hbl (fun d hd => by simpa using (List.mem_filter.1 hd).2) hall,
      capFreq_unsup w.readable w.intel w.width w.uniform k hbh
        (fun d hd => w.pkg d (List.mem_filter.1 hd).1) (c := c) (by simp [hc, hfl]) hfl h]
    rfl

/-- **C79** (registers). Processors of other vendors do not have the registers. -/
theorem C79_msr_other_vendor (H : Host) (k : Kind) (cpus : List Nat) (hne : cpus ≠ []) (h : H.intel = false) :
    msrFreq H k cpus = ⟨[], some .notSupported⟩ := by
  have hp : ∀ l, platFreq H k l = if l.isEmpty then ⟨[], none⟩ else unsupported := by
    intro l; unfold platFreq; rw [h]; rfl
  have ht : ∀ l, trlFreq H l = if l.isEmpty then ⟨[], none⟩ else unsupported := by
    intro l; unfold trlFreq; rw [h]; rfl
  have hl : ∀ l, legFreq H k l = if l.isEmpty then ⟨[], none⟩ else unsupported := by
    intro l
    cases k with
    | maxTurbo => exact ht l
    | base => exact hp l
    | maxEff => exact hp l
    | minOper => exact hp l
  have hcp : ∀ l, capFreq H k l = if l.isEmpty then ⟨[], none⟩ else unsupported := by
    intro l; unfold capFreq; rw [h]; rfl
  unfold msrFreq
  dsimp only
  rw [hl, hcp]
  cases hle : (cpus.filter fun c => !H.hwpFlag c).isEmpty with
  | false => rfl
  | true =>
    cases hhe : (cpus.filter fun c => H.hwpFlag c).isEmpty with
    | false => rfl
    | true =>
      exfalso
      obtain ⟨c, cs, rfl⟩ := List.exists_cons_of_ne_nil hne
      rw [List.isEmpty_iff, List.filter_eq_nil_iff] at hle hhe
      have h1 := hle c (by simp)
      have h2 := hhe c (by simp)
      cases hf : H.hwpFlag c <;> simp [hf] at h1 h2

/-- **C79** (registers). On every host, also if reading a register fails: either all requested CPUs are reported, once
and in order, or none is. -/
theorem C79_msr_all_or_nothing (H : Host) (k : Kind) (cpus : List Nat) :
    ((msrFreq H k cpus).err = none ∧ (msrFreq H k cpus).yields.map (·.1) = cpus) ∨
      ((msrFreq H k cpus).err ≠ none ∧ (msrFreq H k cpus).yields = []) :=
  msrFreq_all_or_nothing H k cpus

theorem msrFreq_mem {H : Host} {R : Regs} {k : Kind} {cpus : List Nat} {b : Nat → Int} (w : Regular H R cpus b)
    {c : Nat} {f : Int} (h : (c, f) ∈ (msrFreq H k cpus).yields) : c ∈ cpus ∧ f = msrHz H R k c (b c) := by
  by_cases hall : ∀ d ∈ cpus, hasMsr H R k d = true
  · rw [C79_msr_values H R k cpus b w hall] at h
    simp only [List.mem_map, Prod.mk.injEq] at h
    obtain ⟨d, hd, rfl, rfl⟩ := h
    exact ⟨hd, rfl⟩
  · exfalso
    simp only [Classical.not_forall] at hall
    obtain ⟨d, hd, hf⟩ := hall
    rw [C79_msr_refuses H R k cpus b w d hd (by simpa using hf)] at h
    simp at h

/-- **C79** (registers). The reported frequencies of a CPU are ordered like the levels in its registers, for instance
the base frequency is not above the max. turbo frequency; they are multiples of the bus clock, also on the P-cores of a
hybrid processor. -/
theorem C79_msr_order (H : Host) (R : Regs) (k k' : Kind) (cpus : List Nat) (b : Nat → Int)
    (w : Regular H R cpus b) (c : Nat) (f f' : Int) (hb : 0 < b c)
    (hf : (c, f) ∈ (msrFreq H k cpus).yields) (hf' : (c, f') ∈ (msrFreq H k' cpus).yields) :
    (level H R k c ≤ level H R k' c → f ≤ f') ∧ b c ∣ f := by
  obtain ⟨_, rfl⟩ := msrFreq_mem w hf
  obtain ⟨_, rfl⟩ := msrFreq_mem w hf'
  have hb' : 0 ≤ b c := by omega
  unfold level msrHz
  cases H.hwpFlag c with
  | false =>
    simp only [Bool.false_eq_true, if_false]
    exact ⟨fun h => Int.mul_le_mul_of_nonneg_right (by exact_mod_cast h) hb', Int.dvd_mul_left _ _⟩
  | true =>
    simp only [if_true]
    by_cases hp : c ∈ H.pcore
    · simp only [if_pos hp]
      refine ⟨fun h => ?_, Int.dvd_mul_right _ _⟩
      refine Int.mul_le_mul_of_nonneg_left ?_ hb'
      refine Int.ediv_le_ediv hb ?_
      exact Int.mul_le_mul_of_nonneg_right (by exact_mod_cast h) (by omega)
    · simp only [if_neg hp]
      exact ⟨fun h => Int.mul_le_mul_of_nonneg_right (by exact_mod_cast h) hb', Int.dvd_mul_left _ _⟩

/-! ### The sysfs files -/

/-- **C79** (base frequency in sysfs), for CPUs which are alike: if all CPUs have the `base_frequency` file (in kHz),
this is the base frequency; if none has it, but all have `bios_limit`, this is the base frequency; without the files
the request is refused and nothing is reported. Missing: CPUs which have different files, see the counterexample. -/
theorem C79_base_sysfs_partial (H : Host) (cpus : List Nat) (khz : Nat → Int) :
    ((∀ c ∈ cpus, num H (.baseFrequency c) = some (khz c)) →
      baseSysfs H cpus = ⟨cpus.map fun c => (c, khz c * 1000), none⟩) ∧
    ((∀ c ∈ cpus, H.files (.baseFrequency c) = none) → (∀ c ∈ cpus, num H (.biosLimit c) = some (khz c)) →
      baseSysfs H cpus = ⟨cpus.map fun c => (c, khz c * 1000), none⟩) ∧
    ((∀ c ∈ cpus, H.files (.baseFrequency c) = none) → (∀ c ∈ cpus, H.files (.biosLimit c) = none) → cpus ≠ [] →
      baseSysfs H cpus = ⟨[], some .notSupported⟩) := by
  refine ⟨?_, ?_, ?_⟩
  · intro h
    unfold baseSysfs basePstate
    rw [readLoop_ok (v := fun c => khz c * 1000) fun c hc => fileNum_some (h c hc)]
  · intro h1 h2
    cases cpus with
    | nil => rfl
    | cons c cs =>
      unfold baseSysfs basePstate
      rw [readLoop_head_fail (fileNum_missing (h1 c (by simp)))]
      dsimp only
      have e : ((c :: cs).filter fun x => !(List.map (fun x : Nat × Int => x.1) []).contains x) = c :: cs := by
        rw [List.filter_eq_self]; intro x _; rfl
      rw [e, if_pos (show Exn.notSupported.isNotSupported = true from rfl), List.nil_append]
      unfold baseBios
      rw [readLoop_ok (v := fun c => khz c * 1000) fun c hc => fileNum_some (h2 c hc)]
  · intro h1 h2 hne
    obtain ⟨c, cs, rfl⟩ := List.exists_cons_of_ne_nil hne
    unfold baseSysfs basePstate
    rw [readLoop_head_fail (fileNum_missing (h1 c (by simp)))]
    dsimp only
    have e : ((c :: cs).filter fun x => !(List.map (fun x : Nat × Int => x.1) []).contains x) = c :: cs := by
      rw [List.filter_eq_self]; intro x _; rfl
    rw [e, if_pos (show Exn.notSupported.isNotSupported = true from rfl), List.nil_append]
    unfold baseBios
    rw [readLoop_head_fail (fileNum_missing (h2 c (by simp)))]

/-- **C79** (available frequencies). The file lists numbers of kHz, the result are the same frequencies in Hz, sorted. -/
theorem C79_available (H : Host) (c : Nat) (khz : List Nat)
    (h : H.files (.available c) = some (PyStr.joinC ' ' (khz.map PyStr.ofNat))) :
    ∃ l, available H c = .ok l ∧ l.Pairwise (· ≤ ·) ∧ l.Perm (khz.map fun n : Nat => (n : Int) * 1000) := by
  refine ⟨sortBy (fun a b => decide (a ≤ b)) (khz.map fun n : Nat => (n : Int) * 1000), ?_, ?_, sortBy_perm _ _⟩
  · unfold available SysFiles.read
    rw [h]
    dsimp only
    rw [splitWs_join, parseFreqs_ok]
  · have := sortBy_sorted (le := fun a b : Int => decide (a ≤ b)) (by intro a b; simp; omega)
      (by intro a b c; simp; omega) (khz.map fun n : Nat => (n : Int) * 1000)
    exact this.imp (by intro a b hab; simpa using hab)

/-! ### ACPI CPPC -/

/-- **C79** (ACPI CPPC), for CPUs which are alike: if all CPUs have the frequency file (in MHz), this is the frequency.
If none has it, the frequency is the base frequency scaled by performance over nominal performance, rounded down; the
base frequency is the one `get_prop_cpus("base_freq")` reports. Missing: CPUs which have different files, see the
counterexample. -/
theorem C79_cppc_partial (H : Host) (k : Kind) (hk : k = .minOper ∨ k = .maxTurbo) (cpus : List Nat) :
    (∀ mhz : Nat → Int, (∀ c ∈ cpus, cppcNum H c (cppcFile k).1 = some (mhz c)) →
      getFreq H k .cppc cpus = ⟨cpus.map fun c => (c, mhz c * 1000000), none⟩) ∧
    (∀ (i : Info) (base nominal perf : Nat → Int) (m : Mech), cpus.Nodup →
      normalizeCpus i (.nums cpus) false = .ok cpus →
      (∀ c ∈ cpus, cppcNum H c (cppcFile k).1 = none) →
      (∀ c ∈ cpus, cppcNum H c (cppcFile k).2 = some (perf c)) →
      (∀ c ∈ cpus, cppcNum H c "nominal_perf" = some (nominal c) ∧ 0 < nominal c) →
      getProp i H .base (.nums cpus) none = ⟨cpus.map fun c => ⟨c, some (base c), m⟩, none⟩ →
      getFreq H k .cppc cpus = ⟨cpus.map fun c => (c, base c * perf c / nominal c), none⟩) := by
  have ek : getFreq H k .cppc cpus = cppcLimit H (cppcFile k).1 (cppcFile k).2 cpus := by
    rcases hk with rfl | rfl <;> rfl
  rw [ek]
  refine ⟨?_, ?_⟩
  · intro mhz h
    unfold cppcLimit cppcFreq
    rw [readLoop_ok (v := fun c => mhz c * 1000000) fun c hc => cppcHz_some (h c hc)]
  · intro i base nominal perf m hnd hnorm hno hperf hnom hbase
    cases cpus with
    | nil => rfl
    | cons c cs =>
      have hb : baseAny H (c :: cs) = ⟨(c :: cs).map fun c => (c, base c), none⟩ := by
        unfold getProp PropsBase.getPropCpus at hbase
        have e1 : PropsBase.normalizeMnames (freqProp .base) none true = .ok [.sysfs, .msr, .cppc] := rfl
        rw [e1, hnorm] at hbase
        dsimp only at hbase
        refine tryMnames_of_getLoop (nums := c :: cs) (last := .cppc)
          (l := (c :: cs).map fun c => ⟨c, some (base c), m⟩) hbase (by simp) ?_
        rw [List.map_map]
        rfl
      unfold cppcLimit cppcFreq
      rw [readLoop_head_fail (cppcHz_none (hno c (by simp)))]
      dsimp only
      rw [if_pos (show Exn.notSupported.isNotSupported = true from rfl), List.nil_append]
      unfold cppcScaled
      dsimp only
      have h1 : cppcPerf H "nominal_perf" (c :: cs) = ⟨(c :: cs).map fun c => (c, nominal c), none⟩ := by
        refine readLoop_ok ?_
        intro d hd
        rw [cppcRead_eq, (hnom d hd).1]
      have h2 : cppcPerf H (cppcFile k).2 (c :: cs) = ⟨(c :: cs).map fun c => (c, perf c), none⟩ := by
        refine readLoop_ok ?_
        intro d hd
        rw [cppcRead_eq, hperf d hd]
      rw [hb, h1, h2]
      dsimp only
      rw [scaleLoop_ok]
      congr 1
      refine List.map_congr_left ?_
      intro d hd
      rw [Int.fdiv_eq_ediv_of_nonneg _ (by have := (hnom d hd).2; omega)]

/-- **C79** (ACPI CPPC). The scaled frequency of a CPU is at most the base frequency if its performance is at most the
nominal one, and at least the base frequency if its performance is at least the nominal one. -/
theorem C79_cppc_order (base perf nominal : Int) (hb : 0 ≤ base) (hn : 0 < nominal) :
    (perf ≤ nominal → base * perf / nominal ≤ base) ∧ (nominal ≤ perf → base ≤ base * perf / nominal) ∧
      base * perf / nominal * nominal ≤ base * perf ∧ base * perf < (base * perf / nominal + 1) * nominal := by
  refine ⟨fun h => ?_, fun h => ?_, Int.ediv_mul_le _ (by omega), Int.lt_ediv_add_one_mul_self _ hn⟩
  · have : base * perf ≤ base * nominal := Int.mul_le_mul_of_nonneg_left h hb
    calc base * perf / nominal ≤ base * nominal / nominal := Int.ediv_le_ediv hn this
      _ = base := Int.mul_ediv_cancel _ (by omega)
  · have : base * nominal ≤ base * perf := Int.mul_le_mul_of_nonneg_left h hb
    calc base = base * nominal / nominal := (Int.mul_ediv_cancel _ (by omega)).symm
      _ ≤ base * perf / nominal := Int.ediv_le_ediv hn this

/-! ### The properties -/

/-- **C79.** When `get_prop_cpus()` succeeds for one of the frequency properties, it has reported every requested CPU
once and in order, whichever mechanisms were asked for. For the min. operating and the max. turbo frequency the ACPI
CPPC files of the CPUs have to be alike (see the counterexample): all have a number, or the one of the first CPU has
none. -/
theorem C79_reported_partial (i : Info) (H : Host) (k : Kind) (cpus : Nums) (mnames : Option (List Mech))
    (norm : List Nat) (hn : normalizeCpus i cpus false = .ok norm)
    (hk : k = .base ∨ k = .maxEff ∨ CppcUniform H (cppcFile k).1 norm)
    (h : (getProp i H k cpus mnames).err = none) :
    (getProp i H k cpus mnames).yields.map (·.num) = norm := by
  have hnd : norm.Nodup := (CPUInfo.normalizeCpus_ok hn).1
  have hmsr : ∀ k', (msrFreq H k' norm).err = none → cpusOf (msrFreq H k' norm) = norm := by
    intro k' he
    rcases msrFreq_all_or_nothing H k' norm with ⟨_, h2⟩ | ⟨h1, _⟩
    · exact h2
    · exact absurd he h1
  have hcomp : ∀ m, (getFreq H k m norm).err = none → cpusOf (getFreq H k m norm) = norm := by
    intro m
    cases k with
    | base => exact (getBase_prefix H hnd m).2
    | maxEff => exact hmsr .maxEff
    | minOper =>
      have hk : CppcUniform H (cppcFile .minOper).1 norm := by simpa using hk
      cases m with
      | msr => exact hmsr .minOper
      | cppc => exact cppcLimit_complete H _ _ hnd hk
      | sysfs => intro h; simp [getFreq] at h
      | cdev => intro h; simp [getFreq] at h
      | doc => intro h; simp [getFreq] at h
    | maxTurbo =>
      have hk : CppcUniform H (cppcFile .maxTurbo).1 norm := by simpa using hk
      cases m with
      | msr => exact hmsr .maxTurbo
      | cppc => exact cppcLimit_complete H _ _ hnd hk
      | sysfs => intro h; simp [getFreq] at h
      | cdev => intro h; simp [getFreq] at h
      | doc => intro h; simp [getFreq] at h
  revert h
  unfold getProp PropsBase.getPropCpus
  cases hm : PropsBase.normalizeMnames (freqProp k) mnames true with
  | error e => intro h; simp at h
  | ok ms =>
    rw [hn]
    dsimp only
    by_cases he : norm.isEmpty = true
    · rw [if_pos he]
      intro _
      rw [List.isEmpty_iff] at he
      subst he
      rfl
    · rw [if_neg he]
      show (PropsBase.getPvinfo _ _ _ _).err = none → (PropsBase.getPvinfo _ _ _ _).yields.map (·.num) = norm
      unfold PropsBase.getPvinfo
      cases (PropsBase.orDefault (freqProp k) ms).getLast? with
      | none => intro h; simp at h
      | some last =>
        dsimp only
        rcases PropsBase.getLoop_spec (fun m => someVals (getFreq H k m norm)) norm last
          (PropsBase.orDefault (freqProp k) ms) with ⟨_, h2⟩ | ⟨pre, m, post, _, _, _, h4, h5⟩
        · intro _
          rw [h2]
          simp [Function.comp_def]
        · intro h
          rw [h5] at h
          have herr : (getFreq H k m norm).err = none := by simpa [someVals] using h
          rw [h4, List.map_map]
          have := hcomp m herr
          unfold cpusOf at this
          unfold someVals
          rw [List.map_map]
          exact this

/-! ### Examples and counterexamples -/

/-- A hybrid processor: the CPUs 0 and 1 are P-cores (scaling factor 78741000), CPU 2 is an E-core. The capabilities of
a P-core are 68 (max. turbo), 45 (base), 24 (efficient) and 5 (lowest). -/
def exHybrid : Host where
  files := fun _ => none
  msr := fun addr c => .ok (
    if addr = 0x770 then 1
    else if addr = 0x771 then (if c = 2 then 38 + 26 * 256 + 15 * 65536 + 4 * 16777216
      else 68 + 45 * 256 + 24 * 65536 + 5 * 16777216)
    else 0)
  packages := [[0, 1, 2]]
  hwpFlag := fun _ => true
  pcore := [0, 1]
  factor := 78741000
  intel := true
  platSup := fun _ => true
  trl1 := true
  trlGrp := false
  fsb := none

example : msrFreq exHybrid .maxTurbo [2, 0] = ⟨[(2, 3800000000), (0, 5300000000)], none⟩ ∧
    msrFreq exHybrid .base [2, 0] = ⟨[(2, 2600000000), (0, 3500000000)], none⟩ ∧
    msrFreq exHybrid .maxEff [0] = ⟨[(0, 1800000000)], none⟩ ∧
    msrFreq exHybrid .minOper [1, 2] = ⟨[(1, 300000000), (2, 400000000)], none⟩ := by
  exact ⟨by decide +kernel, by decide +kernel, by decide +kernel, by decide +kernel⟩

/-- A processor with the bus clock register and without HWP on CPU 1 (in another package); the turbo register has
groups. -/
def exLegacy : Host where
  files := fun _ => none
  msr := fun addr _ => .ok (
    if addr = 0xCD then 0xF0 + 2
    else if addr = 0x771 then 30 + 20 * 256
    else if addr = 0x770 then 1
    else if addr = 0xCE then 21 * 256 + 12 * 2 ^ 40 + 8 * 2 ^ 48
    else 33)
  packages := [[0], [1]]
  hwpFlag := fun c => c == 0
  pcore := []
  factor := 0
  intel := true
  platSup := fun k => k != .minOper
  trl1 := false
  trlGrp := true
  fsb := some (4, [(1, 100000000), (2, 133300000)])

example : msrFreq exLegacy .base [1, 0] = ⟨[(1, 2799300000), (0, 2666000000)], none⟩ ∧
    msrFreq exLegacy .maxTurbo [1] = ⟨[(1, 4398900000)], none⟩ ∧
    msrFreq exLegacy .minOper [0, 1] = ⟨[], some .notSupported⟩ := by
  exact ⟨by decide +kernel, by decide +kernel, by decide +kernel⟩

-- The hypotheses of the theorems about registers hold for both.
example : Regular exHybrid (fun addr c => (if addr = 0x770 then 1
    else if addr = 0x771 then (if c = 2 then 38 + 26 * 256 + 15 * 65536 + 4 * 16777216
      else 68 + 45 * 256 + 24 * 65536 + 5 * 16777216)
    else 0)) [2, 0] (fun _ => 100000000) where
  intel := rfl
  readable := fun _ _ => rfl
  uniform := {
    nonempty := by decide
    once := by decide
    flag := fun _ _ _ _ _ _ => rfl
    enabled := fun _ _ _ _ _ _ => rfl }
  width := by intro w codes h; exact absurd h (by simp [exHybrid])
  nodup := by decide
  pkg := by decide
  bus := fun _ _ => rfl

example : Regular exLegacy (fun addr _ => (if addr = 0xCD then 0xF0 + 2
    else if addr = 0x771 then 30 + 20 * 256
    else if addr = 0x770 then 1
    else if addr = 0xCE then 21 * 256 + 12 * 2 ^ 40 + 8 * 2 ^ 48
    else 33)) [1, 0] (fun _ => 133300000) where
  intel := rfl
  readable := fun _ _ => rfl
  uniform := {
    nonempty := by decide
    once := by decide
    flag := by decide
    enabled := fun _ _ _ _ _ _ => rfl }
  width := by
    intro w codes h
    have : some (4, ([(1, 100000000), (2, 133300000)] : Dict Int Int)) = some (w, codes) := h
    cases this
    omega
  nodup := by decide
  pkg := by decide
  bus := by decide +kernel

/-- Files: CPUs 0 and 2 have `base_frequency`, CPU 1 has `bios_limit` only. The frequency file of ACPI CPPC is there for
CPU 0 only, the performance files for all. -/
def exFiles : Host := { exHybrid with
  files := fun p =>
    if p = .baseFrequency 0 ∨ p = .baseFrequency 2 then some "2000000".toList
    else if p = .biosLimit 1 then some "1900000".toList
    else if p = .cppc 0 "lowest_freq" then some "800".toList
    else match p with
      | .cppc _ "lowest_perf" => some "8".toList
      | .cppc _ "nominal_perf" => some "21".toList
      | .available _ => some "3000000 1000000 2000000".toList
      | _ => none }

/-- **C79** is false for CPUs which have different sysfs files: the base frequency of CPU 2 can be read, but not
together with the one of CPU 1. -/
theorem C79_base_sysfs_counterexample :
    baseSysfs exFiles [2] = ⟨[(2, 2000000000)], none⟩ ∧
      baseSysfs exFiles [1] = ⟨[(1, 1900000000)], none⟩ ∧
      baseSysfs exFiles [1, 2] = ⟨[(1, 1900000000)], some .notSupported⟩ := by
  exact ⟨by decide +kernel, by decide +kernel, by decide +kernel⟩

/-- **C79** is false for CPUs which have different ACPI CPPC files: the request succeeds, and CPU 0 is reported twice,
with different frequencies. -/
theorem C79_cppc_counterexample :
    (getProp CPUInfo.exInfo exFiles .minOper (.nums [0, 2]) (some [.cppc])) =
      ⟨[⟨0, some 800000000, .cppc⟩, ⟨0, some 761904761, .cppc⟩, ⟨2, some 761904761, .cppc⟩], none⟩ := by
  decide +kernel

example : available exFiles 0 = .ok [1000000000, 2000000000, 3000000000] := by decide +kernel

example : (getProp CPUInfo.exInfo exFiles .base (.nums [2, 0]) none) =
    ⟨[⟨2, some 2000000000, .sysfs⟩, ⟨0, some 2000000000, .sysfs⟩], none⟩ ∧
    getFreq exFiles .minOper .cppc [2] = ⟨[(2, 761904761)], none⟩ := by
  exact ⟨by decide +kernel, by decide +kernel⟩

end Verif.FreqInfo
