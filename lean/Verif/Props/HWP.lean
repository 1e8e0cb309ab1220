import Verif.Lemmas.HWP
import Verif.Props.PStates

/-!
C34 and C59: the `MSR_HWP_REQUEST` register. Also the "msr" mechanism versions of C30, C32 and C33.
-/

namespace Verif.HWP

open Verif.Bits (InRange getBits)
open Verif.RegFile (Reg64)
open Verif.PStates (Plat FVal Platform)

/-! ### Specification -/

/-- The registers hold 64-bit values. -/
def Valid64 (s : St) : Prop := ∀ c, 0 ≤ s.req c ∧ s.req c < 2 ^ 64

/-- `f` is a multiple of the bus clock of CPU `c`. -/
def OnGrid (E : Env) (c : Nat) (f : Int) : Prop := (E.bclk c : Int) ∣ f

/-- The limits read back from CPU `c` are `mn` and `mx`. -/
def Reads (E : Env) (s : St) (c : Nat) (mn mx : Int) : Prop :=
  getFreq E true [c] s = .ok [(c, mn)] ∧ getFreq E false [c] s = .ok [(c, mx)]

/-! ### C34 -/

theorem onGrid_store {E : Env} (w : Clocks E) {c : Nat} {f : Int} (h : OnGrid E c f) :
    perfToFreq E c (freqToPerf E c f) = f := by
  obtain ⟨k, hk⟩ := h
  rw [Int.mul_comm] at hk
  have h1 := store_le w c f k (by omega)
  have h2 := store_ge w c f k (by omega)
  omega

theorem view_after {E : Env} (hns : ∀ c, E.wfail c ≠ some .notSupported) {m : Bool} {f : Int}
    {cpus : List Nat} (hon : ∀ c ∈ cpus, c ∈ E.online) {s : St} (hR : Valid64 s)
    (hok : (setFreq E m f cpus s).2 = .ok ()) {c : Nat} (hc : c ∈ cpus) :
    controlled E m (setFreq E m f cpus s).1 c = false ∧
    hwpView E (setFreq E m f cpus s).1 m c = perfToFreq E c (freqToPerf E c f) := by
  obtain ⟨_, _, k3, k4, _⟩ := setFreq_spec E m f cpus s hR
  obtain ⟨k4, k5⟩ := k4 hok
  have hctl : controlled E m (setFreq E m f cpus s).1 c = false := by
    unfold controlled
    cases hp : E.pkgSup
    · rfl
    · rw [(k3 c).pkg]
      by_cases h1 : fieldOf (s.req c) pkgControlBits = 1
      · rw [k5 hns hp c (hon c hc) h1]; simp
      · simp [h1]
  refine ⟨hctl, ?_⟩
  unfold hwpView
  rw [hctl, if_neg (by simp), k4 c hc]

/-- C34: a frequency which is a multiple of the bus clock is read back exactly after a successful
write, on ordinary CPUs and on P-cores, also if the limit was controlled by the package register before.
Assumed of the platform: writing a "valid" bit does not fail with "not supported", which the code
suppresses. -/
theorem C34_round_trip (E : Env) (w : Clocks E) (hns : ∀ c, E.wfail c ≠ some .notSupported) (m : Bool)
    (f : Int) (cpus : List Nat) (hn : cpus.Nodup) (hon : ∀ c ∈ cpus, c ∈ E.online)
    (hg : ∀ c ∈ cpus, OnGrid E c f) (s : St) (hR : Valid64 s)
    (hok : (setFreq E m f cpus s).2 = .ok ()) :
    getFreq E m cpus (setFreq E m f cpus s).1 = .ok (cpus.map fun c => (c, f)) := by
  rw [getFreq_eq E m _ cpus hn]
  congr 1
  apply List.map_congr_left
  intro c hc
  rw [(view_after hns hon hR hok hc).2, onGrid_store w (hg c hc)]

/-- C34: a frequency which is not a multiple of the bus clock is read back as one of the two multiples
next to it. -/
theorem C34_rounding (E : Env) (w : Clocks E) (hns : ∀ c, E.wfail c ≠ some .notSupported) (m : Bool)
    (f : Int) (cpus : List Nat) (hn : cpus.Nodup) (hon : ∀ c ∈ cpus, c ∈ E.online) (s : St)
    (hR : Valid64 s) (hok : (setFreq E m f cpus s).2 = .ok ()) :
    ∃ l, getFreq E m cpus (setFreq E m f cpus s).1 = .ok l ∧ l.map Prod.fst = cpus ∧
      ∀ p ∈ l, OnGrid E p.1 p.2 ∧ f - E.bclk p.1 < p.2 ∧ p.2 < f + E.bclk p.1 := by
  refine ⟨_, getFreq_eq E m _ cpus hn, by simp [Function.comp_def], ?_⟩
  intro p hp
  obtain ⟨c, hc, rfl⟩ := List.mem_map.1 hp
  dsimp only
  rw [(view_after hns hon hR hok hc).2]
  obtain ⟨k, hk⟩ := perfToFreq_mul E c (freqToPerf E c f)
  have hb : (0 : Int) < E.bclk c := by have := w.bclk c; omega
  refine ⟨⟨k, by rw [hk, Int.mul_comm]⟩, ?_, ?_⟩
  · have h1 := Int.lt_ediv_add_one_mul_self f hb
    have h2 := store_ge w c f (f / E.bclk c) (Int.ediv_mul_le f (by omega))
    rw [Int.add_mul, Int.one_mul] at h1
    omega
  · have h1 := Int.ediv_mul_le f (b := (E.bclk c : Int)) (by omega)
    have h3 := Int.lt_ediv_add_one_mul_self f hb
    by_cases he : f / E.bclk c * E.bclk c = f
    · have h2 := store_le w c f (f / E.bclk c) (by omega)
      omega
    · have h2 := store_le w c f (f / E.bclk c + 1) (by omega)
      rw [Int.add_mul, Int.one_mul] at h2
      omega

/-- C34: the write is successful if no register write fails and the performance levels fit the 8-bit
field. -/
theorem C34_accepts (E : Env) (hw : ∀ c, E.wfail c = none) (m : Bool) (f : Int) (cpus : List Nat)
    (h0 : 0 ≤ f) (hf : ∀ c ∈ cpus, if c ∈ E.pcore then 0 < E.factor ∧ f ≤ 255 * E.factor
      else 0 < E.bclk c ∧ f < 256 * E.bclk c) (s : St) (hR : Valid64 s) :
    (setFreq E m f cpus s).2 = .ok () := by
  apply (setFreq_spec E m f cpus s hR).2.2.2.2 (fun c _ => hw c) (fun c _ => hw c)
  intro c hc
  have hf := hf c hc
  unfold freqToPerf
  by_cases hp : c ∈ E.pcore
  · rw [if_pos hp] at hf
    rw [if_pos (by simpa using hp)]
    constructor
    · exact Int.ediv_nonneg (by omega) (by omega)
    · apply Int.ediv_lt_of_lt_mul (by omega)
      omega
  · rw [if_neg hp] at hf
    rw [if_neg (by simpa using hp)]
    constructor
    · exact Int.ediv_nonneg (by omega) (by omega)
    · apply Int.ediv_lt_of_lt_mul (by omega)
      exact hf.2

/-- C34: a higher performance level never reads as a lower frequency. -/
theorem C34_monotone (E : Env) (w : Clocks E) (c : Nat) (p q : Int) (h : p ≤ q) :
    perfToFreq E c p ≤ perfToFreq E c q := by
  have hb : (0 : Int) < E.bclk c := by have := w.bclk c; omega
  unfold perfToFreq
  split
  · simp only [sub_emod]
    apply Int.mul_le_mul_of_nonneg_right _ (by omega)
    apply Int.ediv_le_ediv hb
    exact Int.mul_le_mul_of_nonneg_right h (by omega)
  · exact Int.mul_le_mul_of_nonneg_right h (by omega)

theorem view_other (E : Env) (m : Bool) (f : Int) (cpus : List Nat) (s : St) (hR : Valid64 s) (c : Nat) :
    hwpView E (setFreq E m f cpus s).1 (!m) c = hwpView E s (!m) c := by
  obtain ⟨k1, _, k3, _, _⟩ := setFreq_spec E m f cpus s hR
  unfold hwpView controlled
  rw [k1, (k3 c).pkg, (k3 c).otherValid]
  split
  · rfl
  · rw [(k3 c).other]

/-- C34: setting one limit, whether it works or not, does not change the other one on any CPU. -/
theorem C34_other_limit (E : Env) (m : Bool) (f : Int) (cpus : List Nat) (s : St) (hR : Valid64 s)
    (l : List Nat) (hl : l.Nodup) :
    getFreq E (!m) l (setFreq E m f cpus s).1 = getFreq E (!m) l s := by
  rw [getFreq_eq E (!m) _ l hl, getFreq_eq E (!m) _ l hl]
  congr 1
  apply List.map_congr_left
  intro c _
  rw [view_other E m f cpus s hR c]

/-- A hybrid platform: CPUs 0 and 1 are P-cores, package control is supported. -/
def exEnv : Env := ⟨[0, 1, 2], true, [0, 1], 78740000, fun _ => 100000000, fun _ => none⟩

/-- CPUs 0 and 1 take the limits from the package register, min. 8 max. 32; the own registers hold min. 28
and max. 20. CPU 2 has min. 8 and max. 28. -/
def exSt : St :=
  ⟨fun c => if c = 2 then 0x1c08 else 0x4000000141c, fun _ => 0x2008⟩

theorem exClocks : Clocks exEnv := by
  refine ⟨fun c => ?_, fun c _ => ?_⟩
  · show 0 < 100000000
    decide
  · show 0 < 78740000 ∧ 78740000 ≤ 100000000
    decide

example : Clocks exEnv ∧ Valid64 exSt ∧ (∀ c ∈ [0, 2], OnGrid exEnv c 2500000000) ∧
    getFreq exEnv true [0, 2] exSt = .ok [(0, 600000000), (2, 800000000)] ∧
    (setFreq exEnv true 2500000000 [0, 2] exSt).2 = .ok () ∧
    getFreq exEnv true [0, 2] (setFreq exEnv true 2500000000 [0, 2] exSt).1 =
      .ok [(0, 2500000000), (2, 2500000000)] := by
  refine ⟨exClocks, ?_, ?_, by decide +kernel, by decide +kernel, by decide +kernel⟩
  · intro c; unfold exSt; dsimp only; split <;> decide
  · intro c _
    show ((100000000 : Nat) : Int) ∣ 2500000000
    decide

/-! ### C59 -/

/-- C59: after a successful write the limit of the requested CPUs is not controlled by the package
register. -/
theorem C59_not_controlled (E : Env) (hns : ∀ c, E.wfail c ≠ some .notSupported) (m : Bool) (f : Int)
    (cpus : List Nat) (hon : ∀ c ∈ cpus, c ∈ E.online) (s : St) (hR : Valid64 s)
    (hok : (setFreq E m f cpus s).2 = .ok ()) :
    ∀ c ∈ cpus, pkgControlled E m (setFreq E m f cpus s).1 c = .ok false := by
  intro c hc
  rw [pkgControlled_eq, (view_after hns hon hR hok hc).1]

theorem field_bits {r r' : Int} {bits : Bits.BitRange} (h : RegFile.Field bits)
    (he : fieldOf r' bits = fieldOf r bits) (k : Nat) (hk : InRange bits k) : r'.testBit k = r.testBit k := by
  have h1 := RegFile.testBit_field h (getBits_fieldOf h r) (k - bits.2.toNat)
  have h2 := RegFile.testBit_field h (getBits_fieldOf h r') (k - bits.2.toNat)
  rw [he] at h2
  rw [h1] at h2
  obtain ⟨g0, g1, g2⟩ := h
  unfold InRange at hk
  have e1 : bits.2.toNat + (k - bits.2.toNat) = k := by omega
  have e2 : k - bits.2.toNat < Bits.width bits := by unfold Bits.width; omega
  rw [e1] at h2
  simpa [e2] using h2.symm

/-- C59: CPUs which were not requested keep their register contents. What is missing: this holds for the
CPUs without package control only; on the other ones the "valid" bit of the limit gets set, whether they
were requested or not. -/
theorem C59_others_partial (E : Env) (m : Bool) (f : Int) (cpus : List Nat) (s : St) (hR : Valid64 s)
    (c : Nat) (hc : c ∉ cpus) :
    (∀ k : Nat, ¬ InRange (validBits m) k →
      ((setFreq E m f cpus s).1.req c).testBit k = (s.req c).testBit k) ∧
    ((E.pkgSup = false ∨ c ∉ E.online ∨ getBits (s.req c) pkgControlBits ≠ .ok 1 ∨
        getBits (s.req c) (validBits m) = .ok 1) →
      (setFreq E m f cpus s).1.req c = s.req c) := by
  obtain ⟨_, _, k3, _, _⟩ := setFreq_spec E m f cpus s hR
  have hperf : fieldOf ((setFreq E m f cpus s).1.req c) (perfBits m) = fieldOf (s.req c) (perfBits m) := by
    rcases (k3 c).perf with h | h
    · exact h
    · exact absurd h.1 hc
  have hb : ∀ k : Nat, ¬ InRange (validBits m) k →
      ((setFreq E m f cpus s).1.req c).testBit k = (s.req c).testBit k := by
    intro k hk
    by_cases hp : InRange (perfBits m) k
    · exact field_bits (perfField m) hperf k hp
    · exact (k3 c).rest k hp hk
  refine ⟨hb, ?_⟩
  intro h
  have hv : fieldOf ((setFreq E m f cpus s).1.req c) (validBits m) = fieldOf (s.req c) (validBits m) := by
    rcases (k3 c).valid with h' | ⟨h1, h2, h3, h4⟩
    · exact h'
    · rcases h with h | h | h | h
      · rw [h] at h1; cases h1
      · exact absurd h2 h
      · exact absurd (by rw [getBits_fieldOf pkgField, h3]) h
      · rw [h4, fieldOf_eq (validField m) h]
  apply int_ext_testBit
  intro k
  by_cases hk : InRange (validBits m) k
  · exact field_bits (validField m) hv k hk
  · exact hb k hk

/-- The package register is never written. -/
theorem C59_package_register (E : Env) (m : Bool) (f : Int) (cpus : List Nat) (s : St) (hR : Valid64 s) :
    (setFreq E m f cpus s).1.pkg = s.pkg := (setFreq_spec E m f cpus s hR).1

/-- C59 is false for CPUs which were not requested: setting the min. limit of CPU 0 to 1.5 GHz sets the
"valid" bit on CPU 1 as well, so that the min. limit of CPU 1 changes from 0.6 GHz (package register) to
2.2 GHz, the stale contents of its own register. -/
theorem C59_others_counterexample :
    let s' := (setFreq exEnv true 1500000000 [0] exSt).1
    (setFreq exEnv true 1500000000 [0] exSt).2 = .ok () ∧ s'.req 1 ≠ exSt.req 1 ∧
    getFreq exEnv true [1] exSt = .ok [(1, 600000000)] ∧
    getFreq exEnv true [1] s' = .ok [(1, 2200000000)] := by
  refine ⟨by decide +kernel, by decide +kernel, by decide +kernel, by decide +kernel⟩

/-! ### C30, "msr" mechanism -/

/-- Package control is not enabled on any CPU. -/
def NoPackageControl (E : Env) (s : St) : Prop :=
  E.pkgSup = true → ∀ c, getBits (s.req c) pkgControlBits ≠ .ok 1

theorem noPkg_iff (E : Env) (s : St) : NoPackageControl E s ↔ NoPkg E s := by
  unfold NoPackageControl NoPkg
  constructor
  · intro h hp c hc; exact h hp c (by rw [getBits_fieldOf pkgField, hc])
  · intro h hp c hc; exact h hp c (fieldOf_eq pkgField hc)

/-- The hardware limits are multiples of the bus clock. -/
def LimitsOnGrid (E : Env) (P : Plat Nat) : Prop :=
  ∀ c, OnGrid E c (P.loKHz c * 1000) ∧ OnGrid E c (P.hiKHz c * 1000)

theorem LimitsOnGrid.grid {E : Env} {P : Plat Nat} (w : Clocks E) (h : LimitsOnGrid E P) :
    PStates.Grid P (hwpView E) (fun c f => perfToFreq E c (freqToPerf E c f))
      (fun s => Regs s ∧ NoPkg E s) (fun c g => ∃ k : Int, g = k * E.bclk c) :=
  hwpGrid w P (fun c => by obtain ⟨k, hk⟩ := (h c).1; exact ⟨k, by unfold Plat.lo; rw [hk, Int.mul_comm]⟩)
    (fun c => by obtain ⟨k, hk⟩ := (h c).2; exact ⟨k, by unfold Plat.hi; rw [hk, Int.mul_comm]⟩)

/-- The limits in effect on CPU `c` are in order and within the hardware limits. -/
def SaneMsr (E : Env) (P : Plat Nat) (s : St) (c : Nat) : Prop :=
  ∃ mn mx, Reads E s c mn mx ∧ P.loKHz c * 1000 ≤ mn ∧ mn ≤ mx ∧ mx ≤ P.hiKHz c * 1000

theorem reads_view (E : Env) (s : St) (c : Nat) : Reads E s c (hwpView E s true c) (hwpView E s false c) :=
  ⟨getFreq_eq E true s [c] (by simp), getFreq_eq E false s [c] (by simp)⟩

theorem reads_iff (E : Env) (s : St) (c : Nat) (mn mx : Int) :
    Reads E s c mn mx ↔ mn = hwpView E s true c ∧ mx = hwpView E s false c := by
  constructor
  · rintro ⟨h1, h2⟩
    rw [getFreq_eq E true s [c] (by simp)] at h1
    rw [getFreq_eq E false s [c] (by simp)] at h2
    simp at h1 h2
    exact ⟨h1.symm, h2.symm⟩
  · rintro ⟨rfl, rfl⟩; exact reads_view E s c

theorem saneMsr_iff (E : Env) (P : Plat Nat) (s : St) (c : Nat) :
    SaneMsr E P s c ↔ PStates.Within P (hwpView E s true) (hwpView E s false) c := by
  unfold SaneMsr PStates.Within Plat.lo Plat.hi
  constructor
  · rintro ⟨mn, mx, h, h'⟩
    obtain ⟨rfl, rfl⟩ := (reads_iff ..).1 h
    exact h'
  · intro h; exact ⟨_, _, reads_view E s c, h⟩

/-- The state after a sequence of requests, no matter which ones of them succeed. -/
def after (E : Env) (P : Plat Nat) (reqs : List (PStates.Req Nat)) (s : St) : St :=
  reqs.foldl (fun s r =>
    (PStates.setFreq P (backend { E with wfail := r.wfail }) r.isMin r.val r.cpus s).1) s

/-- C30 for the "msr" mechanism. What is missing: package control has to be off. -/
theorem C30_msr_min_le_max_partial (E : Env) (w : Clocks E) (P : Plat Nat) (hP : Platform P)
    (hl : LimitsOnGrid E P) (reqs : List (PStates.Req Nat)) (s : St) (hR : Valid64 s)
    (hp : NoPackageControl E s) (h : ∀ c, SaneMsr E P s c) : ∀ c, SaneMsr E P (after E P reqs s) c := by
  have hp := (noPkg_iff E s).1 hp
  induction reqs generalizing s with
  | nil => exact h
  | cons r reqs ih =>
    have w' : Clocks { E with wfail := r.wfail } := ⟨w.bclk, w.factor⟩
    have key := PStates.within_setFreq (PStates.platform_aligned hP) (hwpLaws { E with wfail := r.wfail })
      (LimitsOnGrid.grid w' (P := P) hl) r.isMin r.val r.cpus s ⟨hR, hp⟩
      (fun c => (saneMsr_iff E P s c).1 (h c))
    exact ih _ key.1.1 ((noPkg_iff E _).2 key.1.2) (fun c => (saneMsr_iff E P _ c).2 (key.2 c)) key.1.2

/-- The example platform as the frequency code sees it. -/
def exPlat : Plat Nat := PStates.cpuPlat (fun _ => .ok 2000000000) (fun _ => .ok 400000000) none
  (fun _ => 400000) (fun _ => 3000000)

theorem exGrid : LimitsOnGrid exEnv exPlat := by
  intro c
  refine ⟨?_, ?_⟩
  · show ((100000000 : Nat) : Int) ∣ 400000 * 1000
    decide
  · show ((100000000 : Nat) : Int) ∣ 3000000 * 1000
    decide

example :
    let s : St := ⟨fun c => if c = 0 then 0x1408 else 0x1c08, fun _ => 0⟩
    LimitsOnGrid exEnv exPlat ∧ Valid64 s ∧ NoPackageControl exEnv s ∧ (∀ c, SaneMsr exEnv exPlat s c) ∧
    Reads exEnv s 0 600000000 1500000000 ∧
    Reads exEnv (after exEnv exPlat [⟨false, .num 2500000000, [0, 2], fun _ => none⟩,
      ⟨true, .num 2600000000, [0], fun _ => none⟩, ⟨true, .num 2000000000, [0], fun _ => none⟩] s) 0
      2000000000 2500000000 := by
  refine ⟨exGrid, ?_, ?_, ?_, ⟨by decide +kernel, by decide +kernel⟩,
    ⟨by decide +kernel, by decide +kernel⟩⟩
  · intro c; dsimp only; split <;> decide
  · intro _ c; dsimp only; split <;> decide +kernel
  · intro c
    rw [saneMsr_iff]
    unfold PStates.Within hwpView controlled perfToFreq exEnv
    by_cases h0 : c = 0
    · subst h0; decide +kernel
    · by_cases h1 : c = 1
      · subst h1; decide +kernel
      · have hc : ([0, 1] : List Nat).contains c = false := by simp; omega
        simp only [hc, if_neg h0]
        show (400000 * 1000 : Int) ≤ _ ∧ _ ∧ _ ≤ (3000000 * 1000 : Int)
        decide +kernel

/-- C30 for the "msr" mechanism is false with package control: the limits of all CPUs are in order, and
after setting the min. limit of CPU 0 the min. limit of CPU 1 is 2.2 GHz and its max. limit is 1.5 GHz. -/
theorem C30_msr_counterexample :
    let s : St := { exSt with req := fun c => if c = 2 then 0x1c08 else 0x400004000000141c }
    (∀ c ∈ [0, 1, 2], SaneMsr exEnv exPlat s c) ∧ Valid64 s ∧
    Reads exEnv s 1 600000000 1500000000 ∧
    Reads exEnv (after exEnv exPlat [⟨true, .num 1000000000, [0], fun _ => none⟩] s) 1
      2200000000 1500000000 := by
  refine ⟨?_, ?_, ⟨by decide +kernel, by decide +kernel⟩, ⟨by decide +kernel, by decide +kernel⟩⟩
  · intro c hc
    rw [saneMsr_iff]
    unfold PStates.Within
    revert c
    decide +kernel
  · intro c; dsimp only; split <;> decide +kernel

/-! ### C32 and C33, "msr" mechanism -/

/-- The performance levels of all frequencies within the hardware limits fit the 8-bit field. -/
def LevelsFit (E : Env) (P : Plat Nat) : Prop :=
  ∀ c, 0 ≤ P.loKHz c ∧ freqToPerf E c (P.hiKHz c * 1000) < 256

theorem levels_fit {E : Env} (w : Clocks E) {P : Plat Nat} (h : LevelsFit E P) (c : Nat) (f : Int)
    (h1 : P.lo c ≤ f) (h2 : f ≤ P.hi c) : 0 ≤ freqToPerf E c f ∧ freqToPerf E c f < 256 := by
  obtain ⟨g1, g2⟩ := h c
  have hb : (0 : Int) < E.bclk c := by have := w.bclk c; omega
  unfold Plat.lo at h1
  unfold Plat.hi at h2
  unfold freqToPerf at g2 ⊢
  split at g2
  · rename_i hc
    obtain ⟨f1, f2⟩ := w.factor c (by simpa using hc)
    rw [if_pos hc]
    refine ⟨Int.ediv_nonneg (by omega) (by omega), ?_⟩
    have := Int.ediv_le_ediv (a := f + E.factor - 1) (b := P.hiKHz c * 1000 + E.factor - 1)
      (c := (E.factor : Int)) (by omega) (by omega)
    omega
  · rename_i hc
    rw [if_neg hc]
    refine ⟨Int.ediv_nonneg (by omega) (by omega), ?_⟩
    have := Int.ediv_le_ediv hb h2
    omega

/-- C33 for the "msr" mechanism: restoring saved limits ends with exactly the saved limits. `mn` and `mx`
are the saved limits in Hz. What is missing: package control has to be off. -/
theorem C33_msr_restore_partial (E : Env) (w : Clocks E) (hw : ∀ c, E.wfail c = none) (P : Plat Nat)
    (hl : LimitsOnGrid E P) (hf : LevelsFit E P) (m : Bool) (mn mx : Nat → Int)
    (i1 i2 : List (FVal × List Nat)) (K : Nat → Prop) (h1 : PStates.Saved i1 K (if m then mn else mx))
    (h2 : PStates.Saved i2 K (if m then mx else mn))
    (hsv : ∀ c, K c → P.loKHz c * 1000 ≤ mn c ∧ mn c ≤ mx c ∧ mx c ≤ P.hiKHz c * 1000)
    (hg : ∀ c, K c → OnGrid E c (mn c) ∧ OnGrid E c (mx c)) (s : St) (hR : Valid64 s)
    (hp : NoPackageControl E s) (hs : ∀ c, K c → SaneMsr E P s c) :
    ∃ s', PStates.restoreProps (fun p v n s => PStates.setFreq P (backend E) p v n s)
        [(m, i1), (!m, i2)] s = (s', .ok ()) ∧
      (∀ c, K c → Reads E s' c (mn c) (mx c)) ∧
      (∀ c, ¬ K c → ∀ a b, Reads E s c a b → Reads E s' c a b) := by
  have hdvd : ∀ c f, OnGrid E c f → ∃ k : Int, f = k * E.bclk c := by
    rintro c f ⟨k, hk⟩; exact ⟨k, by rw [hk, Int.mul_comm]⟩
  obtain ⟨s', h, k1, k2⟩ := PStates.restoreProps_spec (hwpLaws E) (hl.grid w)
    (fun c f _ a b => ⟨hw c, levels_fit w hf c f a b⟩) m (fun m c => if m then mn c else mx c) i1 i2 K
    (by cases m <;> exact ⟨h1.val, h1.cover⟩) (by cases m <;> exact ⟨h2.val, h2.cover⟩)
    (fun m c hc => by cases m <;> simp <;> [exact hdvd c _ (hg c hc).2; exact hdvd c _ (hg c hc).1])
    (fun c hc => hsv c hc) s ⟨hR, (noPkg_iff E s).1 hp⟩ (fun c hc => (saneMsr_iff E P s c).1 (hs c hc))
  refine ⟨s', h, fun c hc => ?_, fun c hc a b hab => ?_⟩
  · rw [reads_iff]
    exact ⟨(k1 c hc true).symm, (k1 c hc false).symm⟩
  · obtain ⟨rfl, rfl⟩ := (reads_iff ..).1 hab
    rw [reads_iff]
    exact ⟨(k2 c true hc).symm, (k2 c false hc).symm⟩

/-- C32 for the "msr" mechanism, the min. limit is requested first and all the requested CPUs have the
same current limits: the command succeeds. What is missing: package control has to be off; CPUs with
different limits; the other order of the options. -/
theorem C32_msr_uniform_partial (E : Env) (w : Clocks E) (hw : ∀ c, E.wfail c = none) (P : Plat Nat)
    (hl : LimitsOnGrid E P) (hf : LevelsFit E P) (cpus : List Nat) (n1 n2 : Int)
    (hr : ∀ c ∈ cpus, P.loKHz c * 1000 ≤ n1 ∧ n1 ≤ n2 ∧ n2 ≤ P.hiKHz c * 1000)
    (hg : ∀ c ∈ cpus, OnGrid E c n1 ∧ OnGrid E c n2) (s : St) (hR : Valid64 s)
    (hp : NoPackageControl E s) (mn mx : Int) (hle : mn ≤ mx) (hs : ∀ c ∈ cpus, Reads E s c mn mx) :
    ∃ s', PStates.setProps (fun p v s => PStates.setFreq P (backend E) p v cpus s)
        [(true, .num n1), (false, .num n2)] s = (s', .ok ()) ∧
      (∀ c ∈ cpus, Reads E s' c n1 n2) ∧
      (∀ c, c ∉ cpus → ∀ a b, Reads E s c a b → Reads E s' c a b) := by
  have hdvd : ∀ c f, OnGrid E c f → ∃ k : Int, f = k * E.bclk c := by
    rintro c f ⟨k, hk⟩; exact ⟨k, by rw [hk, Int.mul_comm]⟩
  have hb : PStates.Both P (fun c f => E.wfail c = none ∧ 0 ≤ freqToPerf E c f ∧ freqToPerf E c f < 256)
      (fun c g => ∃ k : Int, g = k * E.bclk c) cpus (.num n1) (.num n2) (fun _ => n1) (fun _ => n2) :=
    { h1 := rfl, h2 := rfl
      lo := fun c hc => (hr c hc).1, le := fun c hc => (hr c hc).2.1, hi := fun c hc => (hr c hc).2.2
      g1 := fun c hc => hdvd c _ (hg c hc).1, g2 := fun c hc => hdvd c _ (hg c hc).2
      ok1 := fun c hc => ⟨hw c, levels_fit w hf c _ (hr c hc).1
        (Int.le_trans (hr c hc).2.1 (hr c hc).2.2)⟩
      ok2 := fun c hc => ⟨hw c, levels_fit w hf c _ (Int.le_trans (hr c hc).1 (hr c hc).2.1)
        (hr c hc).2.2⟩ }
  rcases PStates.setProps_min_first (hwpLaws E) (hl.grid w) hb s ⟨hR, (noPkg_iff E s).1 hp⟩ with
    ⟨_, s', h, hbs⟩ | ⟨⟨a, ha, ha'⟩, ⟨b, hb, hb'⟩, _⟩
  · refine ⟨s', h, fun c hc => ?_, fun c hc a b hab => ?_⟩
    · rw [reads_iff]; exact ⟨(hbs.1 c hc).1.symm, (hbs.1 c hc).2.symm⟩
    · obtain ⟨rfl, rfl⟩ := (reads_iff ..).1 hab
      rw [reads_iff]
      exact ⟨(hbs.2 c true hc).symm, (hbs.2 c false hc).symm⟩
  · exfalso
    have e1 := ((reads_iff ..).1 (hs a ha)).2
    have e2 := ((reads_iff ..).1 (hs b hb)).1
    have := (hr a ha).2.1
    omega

/-- The hypotheses are met by the example platform: [0.6, 1.5] GHz on CPUs 0 and 1. -/
example :
    let s : St := ⟨fun _ => 0x1408, fun _ => 0⟩
    LevelsFit exEnv exPlat ∧ LimitsOnGrid exEnv exPlat ∧ NoPackageControl exEnv s ∧
    (∀ c ∈ [0, 1], Reads exEnv s c 600000000 1500000000) ∧
    Reads exEnv (PStates.setProps (fun p v s => PStates.setFreq exPlat (backend exEnv) p v [0, 1] s)
        [(true, .num 2000000000), (false, .num 2500000000)] s).1 1 2000000000 2500000000 := by
  refine ⟨?_, exGrid, ?_, ?_,
    ⟨by decide +kernel, by decide +kernel⟩⟩
  · intro c
    refine ⟨?_, ?_⟩
    · show (0 : Int) ≤ 400000
      decide
    · show (if _ then (3000000 * 1000 + ((78740000 : Nat) : Int) - 1) / ((78740000 : Nat) : Int)
        else 3000000 * 1000 / ((100000000 : Nat) : Int)) < 256
      split <;> decide
  · intro _ c
    show getBits 0x1408 pkgControlBits ≠ .ok 1
    decide +kernel
  · intro c hc
    obtain rfl | rfl : c = 0 ∨ c = 1 := by simpa using hc
    · exact ⟨by decide +kernel, by decide +kernel⟩
    · exact ⟨by decide +kernel, by decide +kernel⟩

end Verif.HWP
