import Verif.Props.FreqListSpec
import Verif.Props.FreqInfo

/-!
C80: the acceptable frequencies and the bus clock.
-/

namespace Verif.FreqList

open Verif.FreqInfo (Host Regs busClock Readable Width readLoop unsupported fsbClock cpusOf)
open Verif.PropsBase (Gen Mech PVInfo)
open CPUInfo (Info Nums normalizeCpus)

/-- **C80** (frequencies). The list holds exactly the frequencies from the min. to the max. frequency in steps of the
bus clock, in increasing order. -/
theorem C80_range (lo hi b : Int) (hb : 0 < b) : Steps lo hi b (freqRange lo hi b) := by
  fun_induction freqRange lo hi b with
  | case1 f h ih =>
    refine ⟨fun x => ?_, ?_⟩
    · rw [List.mem_cons, ih.mem]
      constructor
      · rintro (rfl | ⟨h1, h2, h3⟩)
        · exact ⟨Int.le_refl _, h.2, by simp⟩
        · refine ⟨by omega, h2, ?_⟩
          have := Int.dvd_add h3 (Int.dvd_refl b)
          rwa [show x - (f + b) + b = x - f from by omega] at this
      · rintro ⟨h1, h2, ⟨q, hq⟩⟩
        by_cases he : x = f
        · exact .inl he
        · right
          have hpos : 0 < b * q := by omega
          have hq1 : 0 < q := Int.pos_of_mul_pos_right hpos (by omega)
          have hge : b * 1 ≤ b * q := Int.mul_le_mul_of_nonneg_left (by omega) (by omega)
          refine ⟨by omega, h2, ⟨q - 1, ?_⟩⟩
          rw [Int.mul_sub, ← hq]
          omega
    · rw [List.pairwise_cons]
      refine ⟨?_, ih.sorted⟩
      intro x hx
      have := (ih.mem x).1 hx
      omega
  | case2 f h =>
    refine ⟨fun x => ?_, List.Pairwise.nil⟩
    simp only [List.not_mem_nil, false_iff]
    omega

theorem intelLoop_ok (e1 e2 e3 e4 : Option Exn) (lo hi b : Nat → Int) (cpus : List Nat) :
    intelLoop e1 e2 e3 e4 (cpus.map fun c => (c, "intel_pstate".toList)) (cpus.map fun c => (c, lo c))
      (cpus.map fun c => (c, hi c)) (cpus.map fun c => (c, b c)) =
      ⟨cpus.map fun c => (c, freqRange (lo c) (hi c) (b c)), e1⟩ := by
  induction cpus with
  | nil => rfl
  | cons c cpus ih =>
    simp only [List.map_cons]
    rw [intelLoop, ih, if_neg (fun h => h rfl)]

theorem bclksCpus_eq (H : Host) (cpus : List Nat) : bclksCpus H cpus = FreqInfo.bclks H cpus := by
  unfold bclksCpus FreqInfo.bclks
  cases H.intel with
  | false => cases H.fsb <;> rfl
  | true => cases H.fsb <;> rfl

/-- **C80** (frequencies). With the `intel_pstate` driver, every CPU gets the list made of its own settings and its own
bus clock, once and in the order of the request. -/
theorem C80_frequencies (H : Host) (R : Regs) (Q : Props) (cpus : List Nat) (lo hi b : Nat → Int)
    (hi' : H.intel = true) (hr : Readable H R) (hw : Width H) (hs : Settings Q cpus lo hi)
    (hb : ∀ c ∈ cpus, busClock H R c = some (b c) ∧ 0 < b c) :
    ∃ l : Nat → List Int, getFrequencies H Q .doc cpus = ⟨cpus.map fun c => (c, l c), none⟩ ∧
      ∀ c ∈ cpus, Steps (lo c) (hi c) (b c) (l c) := by
  refine ⟨fun c => freqRange (lo c) (hi c) (b c), ?_, fun c hc => C80_range _ _ _ (hb c hc).2⟩
  show frequenciesIntel H Q cpus = _
  unfold frequenciesIntel
  dsimp only
  rw [hs.driver, hs.minFreq, hs.maxFreq, bclksCpus_eq, FreqInfo.bclks_ok hr hi' hw fun c hc => (hb c hc).1]
  exact intelLoop_ok _ _ _ _ _ _ _ _

/-- **C80** (frequencies). If the settings are multiples of the bus clock, then so are all acceptable frequencies, and
both settings are acceptable. -/
theorem C80_multiples (lo hi b : Int) (l : List Int) (h : Steps lo hi b l) (h1 : b ∣ lo) (h2 : b ∣ hi)
    (hle : lo ≤ hi) : (∀ f ∈ l, b ∣ f) ∧ lo ∈ l ∧ hi ∈ l := by
  refine ⟨fun f hf => ?_, (h.mem lo).2 ⟨Int.le_refl _, hle, by simp⟩, (h.mem hi).2 ⟨hle, Int.le_refl _, ?_⟩⟩
  · have := Int.dvd_add ((h.mem f).1 hf).2.2 h1
    rwa [show f - lo + lo = f from by omega] at this
  · exact Int.dvd_sub h2 h1

/-- **C80** (frequencies). With another driver on the first CPU nothing is reported, the property is not supported. -/
theorem C80_other_driver (H : Host) (Q : Props) (c : Nat) (cpus : List Nat) (d : PyStr) (ds : List (Nat × PyStr))
    (lo hi : Nat → Int) (R : Regs) (b : Nat → Int) (hi' : H.intel = true) (hr : Readable H R) (hw : Width H)
    (hb : ∀ x ∈ c :: cpus, busClock H R x = some (b x)) (hd : d ≠ "intel_pstate".toList)
    (h1 : (Q.driver (c :: cpus)).yields = (c, d) :: ds)
    (h2 : Q.minFreq (c :: cpus) = ⟨(c :: cpus).map fun x => (x, lo x), none⟩)
    (h3 : Q.maxFreq (c :: cpus) = ⟨(c :: cpus).map fun x => (x, hi x), none⟩) :
    getFrequencies H Q .doc (c :: cpus) = ⟨[], some .notSupported⟩ := by
  show frequenciesIntel H Q (c :: cpus) = _
  unfold frequenciesIntel
  dsimp only
  rw [h1, h2, h3, bclksCpus_eq, FreqInfo.bclks_ok hr hi' hw hb]
  simp only [List.map_cons]
  rw [intelLoop, if_pos hd]

/-- **C80** (frequencies). When there are files with the available frequencies, the list of the CPU's file is reported,
in Hz and sorted. -/
theorem C80_available (H : Host) (Q : Props) (cpus : List Nat) (khz : Nat → List Nat)
    (h : ∀ c ∈ cpus, H.files (.available c) = some (PyStr.joinC ' ' ((khz c).map PyStr.ofNat))) :
    ∃ l : Nat → List Int, getFrequencies H Q .sysfs cpus = ⟨cpus.map fun c => (c, l c), none⟩ ∧
      ∀ c ∈ cpus, (l c).Pairwise (· ≤ ·) ∧ (l c).Perm ((khz c).map fun n : Nat => (n : Int) * 1000) := by
  refine ⟨fun c => ((FreqInfo.available H c).toOption).getD [], ?_, ?_⟩
  · show availableLoop H cpus = _
    induction cpus with
    | nil => rfl
    | cons c cpus ih =>
      obtain ⟨l, hl, _⟩ := FreqInfo.C79_available H c (khz c) (h c (by simp))
      rw [availableLoop, hl, ih fun d hd => h d (by simp [hd])]
      simp only [List.map_cons, hl]
      rfl
  · intro c hc
    obtain ⟨l, hl, h1, h2⟩ := FreqInfo.C79_available H c (khz c) (h c hc)
    simp only [hl]
    exact ⟨h1, h2⟩

/-- **C80** (frequencies). The "frequencies" property reports the lists of the files if there are such files, whatever
the driver and the settings are. -/
theorem C80_property_files (i : Info) (H : Host) (Q : Props) (cpus : Nums) (norm : List Nat) (khz : Nat → List Nat)
    (hn : normalizeCpus i cpus false = .ok norm)
    (h : ∀ c ∈ norm, H.files (.available c) = some (PyStr.joinC ' ' ((khz c).map PyStr.ofNat))) :
    ∃ l : Nat → List Int, getFreqsProp i H Q cpus none = ⟨norm.map fun c => ⟨c, some (l c), .sysfs⟩, none⟩ ∧
      ∀ c ∈ norm, (l c).Pairwise (· ≤ ·) ∧ (l c).Perm ((khz c).map fun n : Nat => (n : Int) * 1000) := by
  obtain ⟨l, h1, h2⟩ := C80_available H Q norm khz h
  refine ⟨l, ?_, h2⟩
  unfold getFreqsProp PropsBase.getPropCpus
  have e1 : PropsBase.normalizeMnames freqsProp none true = .ok [.sysfs, .doc] := rfl
  rw [e1, hn]
  dsimp only
  by_cases he : norm.isEmpty = true
  · rw [if_pos he]
    rw [List.isEmpty_iff] at he
    subst he
    rfl
  · rw [if_neg he]
    show PropsBase.getLoop (fun m => someVals (getFrequencies H Q m norm)) norm .doc [.sysfs, .doc] = _
    rw [PropsBase.getLoop, h1]
    simp [someVals, PropsBase.tag]

/-- **C80** (frequencies). Without a file for the first CPU, and with the `intel_pstate` driver, the "frequencies" property
reports the list made of the settings and the bus clock. -/
theorem C80_property_steps (i : Info) (H : Host) (R : Regs) (Q : Props) (cpus : Nums) (c : Nat) (norm : List Nat)
    (lo hi b : Nat → Int) (hn : normalizeCpus i cpus false = .ok (c :: norm)) (hf : H.files (.available c) = none)
    (hi' : H.intel = true) (hr : Readable H R) (hw : Width H) (hs : Settings Q (c :: norm) lo hi)
    (hb : ∀ x ∈ c :: norm, busClock H R x = some (b x) ∧ 0 < b x) :
    ∃ l : Nat → List Int, getFreqsProp i H Q cpus none = ⟨(c :: norm).map fun x => ⟨x, some (l x), .doc⟩, none⟩ ∧
      ∀ x ∈ c :: norm, Steps (lo x) (hi x) (b x) (l x) := by
  obtain ⟨l, h1, h2⟩ := C80_frequencies H R Q (c :: norm) lo hi b hi' hr hw hs hb
  refine ⟨l, ?_, h2⟩
  unfold getFreqsProp PropsBase.getPropCpus
  have e1 : PropsBase.normalizeMnames freqsProp none true = .ok [.sysfs, .doc] := rfl
  rw [e1, hn]
  dsimp only
  rw [if_neg (by simp)]
  show PropsBase.getLoop (fun m => someVals (getFrequencies H Q m (c :: norm))) (c :: norm) .doc [.sysfs, .doc] = _
  have h3 : getFrequencies H Q .sysfs (c :: norm) = ⟨[], some .notSupported⟩ := by
    show availableLoop H (c :: norm) = _
    rw [availableLoop, FreqInfo.available, SysFiles.read, hf]
  rw [PropsBase.getLoop, PropsBase.getLoop, h1, h3]
  simp [someVals, PropsBase.tag, Exn.isNotSupported]

/-! ### The bus clock -/

/-- The mechanisms which can tell the bus clock. -/
theorem busClock_gen (H : Host) (cpus : List Nat) : FreqInfo.bclks H cpus =
    if H.intel && H.fsb.isSome then getBusClock H .msr cpus else getBusClock H .doc cpus := by
  rw [← bclksCpus_eq]
  unfold bclksCpus getBusClock
  cases H.intel with
  | false => cases H.fsb <;> rfl
  | true => cases H.fsb <;> rfl

/-- **C80** (bus clock). The "bus_clock" property reports for every requested CPU, once and in order, the bus clock
of the processor: what `MSR_FSB_FREQ` says if the processor has the register, 100 MHz otherwise. -/
theorem C80_bus_clock (i : Info) (H : Host) (R : Regs) (module : Bool) (cpus : Nums) (norm : List Nat) (b : Nat → Int)
    (hn : normalizeCpus i cpus false = .ok norm) (hi : H.intel = true) (hr : Readable H R) (hw : Width H)
    (hb : ∀ c ∈ norm, busClock H R c = some (b c)) :
    ∃ m, getBusProp i H module cpus none = ⟨norm.map fun c => ⟨c, some (b c), m⟩, none⟩ ∧
      (m = .msr ↔ H.fsb ≠ none ∨ norm = []) := by
  have hg := FreqInfo.bclks_ok hr hi hw hb
  rw [busClock_gen, hi] at hg
  unfold getBusProp PropsBase.getPropCpus
  have e1 : PropsBase.normalizeMnames (busProp H module) none true = .ok [.msr, .doc] := rfl
  rw [e1, hn]
  dsimp only
  by_cases he : norm.isEmpty = true
  · rw [if_pos he]
    rw [List.isEmpty_iff] at he
    subst he
    exact ⟨.msr, rfl, by simp⟩
  · rw [if_neg he]
    have hne : norm ≠ [] := by intro h; subst h; exact he rfl
    cases hf : H.fsb with
    | none =>
      rw [hf] at hg
      simp only [Option.isSome_none, Bool.and_false, Bool.false_eq_true, if_false] at hg
      refine ⟨.doc, ?_, by simp [hne]⟩
      show PropsBase.getLoop (fun m => someVals (getBusClock H m norm)) norm .doc [.msr, .doc] = _
      have h1 : getBusClock H .msr norm = unsupported := by unfold getBusClock; rw [hf]
      rw [PropsBase.getLoop, PropsBase.getLoop, h1, hg]
      simp [someVals, unsupported, PropsBase.tag, Exn.isNotSupported]
    | some x =>
      rw [hf] at hg
      simp only [Option.isSome_some, Bool.and_true, if_true] at hg
      refine ⟨.msr, ?_, by simp⟩
      show PropsBase.getLoop (fun m => someVals (getBusClock H m norm)) norm .doc [.msr, .doc] = _
      rw [PropsBase.getLoop, hg]
      simp [someVals, PropsBase.tag]

/-- **C80** (bus clock). On processors of other vendors the bus clock is reported as not known. -/
theorem C80_bus_clock_other_vendor (i : Info) (H : Host) (module : Bool) (cpus : Nums) (norm : List Nat)
    (hn : normalizeCpus i cpus false = .ok norm) (hi : H.intel = false) :
    getBusProp i H module cpus none = ⟨norm.map fun c => ⟨c, none, .doc⟩, none⟩ := by
  unfold getBusProp PropsBase.getPropCpus
  have e1 : PropsBase.normalizeMnames (busProp H module) none true = .ok [.msr, .doc] := rfl
  rw [e1, hn]
  dsimp only
  by_cases he : norm.isEmpty = true
  · rw [if_pos he]
    rw [List.isEmpty_iff] at he
    subst he
    rfl
  · rw [if_neg he]
    show PropsBase.getLoop (fun m => someVals (getBusClock H m norm)) norm .doc [.msr, .doc] = _
    have h1 : getBusClock H .msr norm = unsupported := by unfold getBusClock; rw [hi]; cases H.fsb <;> rfl
    have h2 : getBusClock H .doc norm = unsupported := by unfold getBusClock; rw [hi]; cases H.fsb <;> rfl
    rw [PropsBase.getLoop, PropsBase.getLoop, PropsBase.getLoop, h1, h2]
    rfl

/-- **C80** (bus clock). On every host, whatever can be read: when the property has a value for a CPU, this is the
bus clock used for computing the frequencies of the CPU. -/
theorem C80_same_bus_clock (i : Info) (H : Host) (module : Bool) (cpus : Nums) (norm : List Nat)
    (hn : normalizeCpus i cpus false = .ok norm) (mnames : Option (List Mech)) (c : Nat) (v : Int) (m : Mech)
    (h : ⟨c, some v, m⟩ ∈ (getBusProp i H module cpus mnames).yields) : (c, v) ∈ (FreqInfo.bclks H norm).yields := by
  have key : ∀ m', (c, some v) ∈ (someVals (getBusClock H m' norm)).yields → (c, v) ∈ (FreqInfo.bclks H norm).yields := by
    intro m' hm
    have hm : (c, v) ∈ (getBusClock H m' norm).yields := by
      unfold someVals at hm
      simp only [List.mem_map, Prod.mk.injEq] at hm
      obtain ⟨⟨c', v'⟩, h1, rfl, h2⟩ := hm
      cases h2
      exact h1
    rw [← bclksCpus_eq]
    revert hm
    unfold getBusClock bclksCpus
    cases m' <;> cases H.fsb <;> cases H.intel <;> simp [unsupported]
  revert h
  unfold getBusProp PropsBase.getPropCpus
  cases PropsBase.normalizeMnames (busProp H module) mnames true with
  | error e => intro h; simp at h
  | ok ms =>
    rw [hn]
    dsimp only
    by_cases he : norm.isEmpty = true
    · rw [if_pos he]; intro h; simp at h
    · rw [if_neg he]
      show _ ∈ (PropsBase.getPvinfo _ _ _ _).yields → _
      unfold PropsBase.getPvinfo
      cases (PropsBase.orDefault (busProp H module) ms).getLast? with
      | none => intro h; simp at h
      | some last =>
        dsimp only
        rcases PropsBase.getLoop_spec (fun m => someVals (getBusClock H m norm)) norm last
          (PropsBase.orDefault (busProp H module) ms) with ⟨_, h2⟩ | ⟨pre, m', post, _, _, _, h4, _⟩
        · intro h; rw [h2] at h; simp at h
        · intro h
          rw [h4] at h
          simp only [List.mem_map, PVInfo.mk.injEq] at h
          obtain ⟨⟨c', v'⟩, h1, rfl, rfl, _⟩ := h
          exact key m' h1

/-! ### Examples -/

def exQ : Props where
  driver := fun cpus => ⟨cpus.map fun c => (c, "intel_pstate".toList), none⟩
  minFreq := fun cpus => ⟨cpus.map fun c => (c, if c = 0 then 800000000 else 1000000000), none⟩
  maxFreq := fun cpus => ⟨cpus.map fun c => (c, if c = 0 then 1150000000 else 1200000000), none⟩

example : Settings exQ [2, 0] (fun c => if c = 0 then 800000000 else 1000000000)
    (fun c => if c = 0 then 1150000000 else 1200000000) := ⟨rfl, rfl, rfl⟩

example : getFrequencies FreqInfo.exHybrid exQ .doc [2, 0] =
    ⟨[(2, [1000000000, 1100000000, 1200000000]), (0, [800000000, 900000000, 1000000000, 1100000000])], none⟩ := by
  decide +kernel

/-- **C80** is false for the claim that the list tells what the hardware accepts: it is made from the current settings.
With the max. frequency set to 1000 MHz the list ends there, with 1200 MHz it does not, on the same host. -/
theorem C80_settings_counterexample :
    getFreqsProp CPUInfo.exInfo FreqInfo.exHybrid exQ (.nums [2]) none =
      ⟨[⟨2, some [1000000000, 1100000000, 1200000000], .doc⟩], none⟩ ∧
    getFreqsProp CPUInfo.exInfo FreqInfo.exHybrid
      { exQ with maxFreq := fun cpus => ⟨cpus.map fun c => (c, 1000000000), none⟩ } (.nums [2]) none =
      ⟨[⟨2, some [1000000000], .doc⟩], none⟩ := by
  exact ⟨by decide +kernel, by decide +kernel⟩

/-- **C80.** Asking for the "doc" mechanism only fails on processors which have the register: the exception that points
to another mechanism is not caught. -/
theorem C80_doc_only_counterexample :
    getBusProp CPUInfo.exInfo FreqInfo.exLegacy false (.nums [0, 1]) (some [.doc]) = ⟨[], some .tryAnother⟩ ∧
      getBusProp CPUInfo.exInfo FreqInfo.exLegacy false (.nums [0, 1]) (some [.doc, .msr]) =
        ⟨[], some .tryAnother⟩ := by
  exact ⟨by decide +kernel, by decide +kernel⟩

example : getBusProp CPUInfo.exInfo FreqInfo.exLegacy false (.nums [1, 0]) none =
    ⟨[⟨1, some 133300000, .msr⟩, ⟨0, some 133300000, .msr⟩], none⟩ := by decide +kernel

example : getBusProp CPUInfo.exInfo FreqInfo.exHybrid false (.nums [1]) none =
    ⟨[⟨1, some 100000000, .doc⟩], none⟩ := by decide +kernel

/-- There are files. -/
example : getFreqsProp CPUInfo.exInfo { FreqInfo.exHybrid with
      files := fun p => match p with
        | .available _ => some (PyStr.joinC ' ' ([900000, 800000].map PyStr.ofNat))
        | _ => none } exQ (.nums [2]) none = ⟨[⟨2, some [800000000, 900000000], .sysfs⟩], none⟩ := by decide +kernel

/-- There are no files. -/
example : FreqInfo.exHybrid.files (.available 2) = none ∧ FreqInfo.exHybrid.intel = true ∧
    normalizeCpus CPUInfo.exInfo (.nums [2]) false = .ok [2] := by decide +kernel

end Verif.FreqList
