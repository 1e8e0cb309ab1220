import Verif.Lemmas.RegFile
import Verif.Lemmas.PStates
import Verif.Model.HWP

/-!
Lemmas about bit-fields of registers in a register file and about the HWP model.
-/

namespace Verif.RegFile

open Verif.Bits

/-- A proper field of a 64-bit register. -/
def Field (bits : BitRange) : Prop := 0 ≤ bits.2 ∧ bits.2 ≤ bits.1 ∧ bits.1 ≤ 63

/-- A proper 64-bit register value. -/
def Reg64 (r : Int) : Prop := 0 ≤ r ∧ r < 2 ^ 64

/-- `r'` is `r` with field `bits` changed to `v`. -/
def Upd (bits : BitRange) (v r r' : Int) : Prop :=
  getBits r' bits = .ok v ∧ ∀ k : Nat, ¬ InRange bits k → r'.testBit k = r.testBit k

theorem upd_of_setBits {bits : BitRange} {v r r' : Int} (h : setBits r bits (.num v) = .ok r')
    (hv : 0 ≤ v) : Upd bits v r r' := C01_get_set_bits r r' v bits (.num v) h rfl hv

theorem Upd.trans {bits : BitRange} {v v' r r' r'' : Int} (h1 : Upd bits v r r')
    (h2 : Upd bits v' r' r'') : Upd bits v' r r'' :=
  ⟨h2.1, fun k hk => (h2.2 k hk).trans (h1.2 k hk)⟩

theorem getBits_field {r : Int} {bits : BitRange} (h : Field bits) :
    getBits r bits = .ok (Int.land (shr r bits.2.toNat) (onesMask (width bits))) := by
  obtain ⟨h0, h1, h2⟩ := h
  have hn : normalizeBits bits = .ok bits := by
    unfold normalizeBits regbits
    rw [if_neg (by omega)]
    dsimp only
    rw [if_neg (by omega)]
  unfold getBits
  rw [hn]
  dsimp only
  rw [if_neg (by omega)]
  rfl

theorem testBit_field {r v : Int} {bits : BitRange} (h : Field bits) (hv : getBits r bits = .ok v)
    (k : Nat) : v.testBit k = (r.testBit (bits.2.toNat + k) && decide (k < width bits)) := by
  rw [getBits_field h] at hv
  injection hv with hv
  rw [← hv, Int.testBit_land, testBit_shr, testBit_onesMask]

theorem getBits_congr {r r' : Int} {bits : BitRange} (h : Field bits)
    (hb : ∀ k : Nat, InRange bits k → r'.testBit k = r.testBit k) : getBits r' bits = getBits r bits := by
  rw [getBits_field h, getBits_field h]
  congr 1
  apply int_ext_testBit
  intro k
  rw [Int.testBit_land, Int.testBit_land, testBit_shr, testBit_shr, testBit_onesMask]
  by_cases hk : k < width bits
  · rw [hb]
    obtain ⟨h0, h1, h2⟩ := h
    unfold width at hk
    unfold InRange
    omega
  · simp [hk]

theorem Upd.other {bits bits' : BitRange} {v r r' : Int} (h : Upd bits v r r') (hf : Field bits')
    (hd : Bits.Disjoint bits bits') : getBits r' bits' = getBits r bits' := by
  apply getBits_congr hf
  intro k hk
  apply h.2
  unfold InRange at *
  unfold Bits.Disjoint at hd
  omega

theorem field_range {r v : Int} {bits : BitRange} (h : Field bits) (hv : getBits r bits = .ok v) :
    0 ≤ v ∧ v < 2 ^ width bits := by
  apply range_of_testBit
  intro k hk
  rw [testBit_field h hv]
  have : ¬ k < width bits := by omega
  simp [this]

/-- A negative field value never gets written. -/
theorem setBits_neg {r r' v : Int} {bits : BitRange} (hv : v < 0)
    (h : setBits r bits (.num v) = .ok r') : ¬ Reg64 r' := by
  rintro ⟨g0, g1⟩
  obtain ⟨v', hv', _, _, _, h3, rfl⟩ := setBits_ok h
  obtain rfl : v = v' := by simpa [numOf] using hv'
  obtain ⟨n, rfl⟩ : ∃ n : Nat, v = Int.negSucc n := by
    cases v with
    | ofNat n => exact absurd hv (by simp)
    | negSucc n => exact ⟨n, rfl⟩
  have hk := testBit_of_range (k := bits.2.toNat + (64 + n)) g0 g1 (by omega)
  rw [Int.testBit_lor, testBit_shl] at hk
  have e : (Int.negSucc n).testBit (bits.2.toNat + (64 + n) - bits.2.toNat) = true := by
    rw [Nat.add_sub_cancel_left]
    simp only [Int.testBit, Bool.not_eq_true']
    apply Nat.testBit_lt_two_pow
    calc n < 2 ^ n := Nat.lt_two_pow_self
      _ ≤ 2 ^ (64 + n) := Nat.pow_le_pow_right (by omega) (by omega)
  rw [Nat.add_sub_cancel_left] at e
  simp [e] at hk

theorem setBits_reg64 {r r' v : Int} {bits : BitRange} (hf : Field bits) (hr : Reg64 r) (hv : 0 ≤ v)
    (h : setBits r bits (.num v) = .ok r') : Reg64 r' := by
  have := C02_set_bits_confined_partial r bits (.num v) hr.1 hr.2 hf.2.2
    (fun w hw => by injection hw with hw; omega)
  rw [h] at this
  exact this.2

theorem writeRegs_error (E : Env) (val : Int) (cpus : List Nat) (R : Reg) (e : Exn)
    (h : (writeRegs E val cpus R).2 = .error e) :
    e = .pyOverflowError ∨ ∃ a ∈ cpus, E.wfail a = some e := by
  induction cpus generalizing R with
  | nil => cases h
  | cons c cpus ih =>
    unfold writeRegs at h
    split at h
    · injection h with h; exact Or.inl h.symm
    · split at h
      · rename_i e' he
        injection h with h; subst h; exact Or.inr ⟨c, by simp, he⟩
      · rcases ih _ h with h | ⟨a, ha, h⟩
        · exact Or.inl h
        · exact Or.inr ⟨a, by simp [ha], h⟩

theorem writeGroups_error (E : Env) (d : Dict Int (List Nat)) (R : Reg) (e : Exn)
    (h : (writeGroups E d R).2 = .error e) :
    e = .pyOverflowError ∨ ∃ v a, InGroups d v a ∧ E.wfail a = some e := by
  induction d generalizing R with
  | nil => cases h
  | cons p d ih =>
    obtain ⟨v, cs⟩ := p
    unfold writeGroups at h
    cases hr : writeRegs E v cs R with
    | mk R1 r =>
      rw [hr] at h
      cases r with
      | error e' =>
        dsimp only at h
        injection h with h; subst h
        rcases writeRegs_error E v cs R e' (by rw [hr]) with h | ⟨a, ha, h⟩
        · exact Or.inl h
        · exact Or.inr ⟨v, a, (inGroups_cons ..).2 (Or.inl ⟨rfl, ha⟩), h⟩
      | ok u =>
        rcases ih _ h with h | ⟨v', a, ha, h⟩
        · exact Or.inl h
        · exact Or.inr ⟨v', a, (inGroups_cons ..).2 (Or.inr ha), h⟩

/-- Where an error of `write_bits()` may come from. -/
theorem writeBits_error (E : Env) (bits : BitRange) (val : FieldVal) (cpus : List Nat) (R : Reg) (e : Exn)
    (h : (writeBits E bits val cpus R).2 = .error e) :
    (∃ a ∈ cpus, setBits (R a) bits val = .error e) ∨ e = .pyOverflowError ∨
      ∃ a ∈ cpus, E.wfail a = some e := by
  have hs := modifyRegs_spec bits val R cpus []
  unfold writeBits at h
  cases hd : modifyRegs bits val R cpus [] with
  | error e' =>
    rw [hd] at h
    injection h with h; subst h
    exact Or.inl (hs.1 e' hd)
  | ok d =>
    rw [hd] at h
    rcases writeGroups_error E d R e h with h | ⟨v, a, ha, h⟩
    · exact Or.inr (Or.inl h)
    · rcases ((hs.2 d hd).2 v a).1 ha with h' | h'
      · exact absurd h' (inGroups_nil _ _)
      · exact Or.inr (Or.inr ⟨a, h'.1, h⟩)

/-- `write_bits()` of a proper field on registers holding proper values. -/
theorem writeBits_field (E : Env) (w : EnvWF E) {bits : BitRange} (hf : Field bits) (v : Int)
    (cpus : List Nat) (R : Reg) (hu : Uniform E R) (hR : ∀ c, Reg64 (R c)) :
    let R' := (writeBits E bits (.num v) cpus R).1
    Uniform E R' ∧ (∀ c, Reg64 (R' c)) ∧
    (∀ c, R' c = R c ∨ (0 ≤ v ∧ (∃ a ∈ cpus, E.same a c = true) ∧ Upd bits v (R c) (R' c))) ∧
    ((writeBits E bits (.num v) cpus R).2 = .ok () →
      ∀ a ∈ cpus, ∀ c, E.same a c = true → 0 ≤ v ∧ Upd bits v (R c) (R' c)) ∧
    ((∀ a ∈ cpus, E.wfail a = none) → 0 ≤ v → v < 2 ^ width bits →
      (writeBits E bits (.num v) cpus R).2 = .ok ()) ∧
    (cpus ≠ [] → 2 ^ width bits ≤ v →
      R' = R ∧ ∃ e, (writeBits E bits (.num v) cpus R).2 = .error e) := by
  intro R'
  obtain ⟨k1, k2, k3, k4, k5⟩ := writeBits_spec E w bits (.num v) cpus R hu
  have hreg : ∀ c, Reg64 (R' c) := by
    intro c
    rcases k2 c with h | ⟨_, _, h⟩
    · show Reg64 ((writeBits E bits (.num v) cpus R).1 c); rw [h]; exact hR c
    · exact h
  have hv : ∀ c, setBits (R c) bits (.num v) = .ok (R' c) → 0 ≤ v := by
    intro c h
    rcases Int.lt_or_le v 0 with hv | hv
    · exact absurd (hreg c) (setBits_neg hv h)
    · exact hv
  refine ⟨k1, hreg, ?_, ?_, ?_, ?_⟩
  · intro c
    rcases k2 c with h | ⟨ha, h, _⟩
    · exact Or.inl h
    · exact Or.inr ⟨hv c h, ha, upd_of_setBits h (hv c h)⟩
  · intro hok a ha c hac
    have h := k3 hok a ha c hac
    exact ⟨hv c h, upd_of_setBits h (hv c h)⟩
  · intro hw h0 h1
    apply k4
    intro a ha
    obtain ⟨r, hr⟩ := C01_set_bits_accepts (R a) v bits hf.1 hf.2.1 hf.2.2 h1
    exact ⟨hw a ha, r, hr, setBits_reg64 hf (hR a) h0 hr⟩
  · intro hne hge
    obtain ⟨a, ha⟩ := List.exists_mem_of_ne_nil cpus hne
    obtain ⟨e, he⟩ := k5 ⟨a, ha, _, C02_set_bits_refuses (R a) v bits (Or.inl hge)⟩
    exact ⟨by show (writeBits E bits (.num v) cpus R).1 = R; rw [he], e, by rw [he]⟩

end Verif.RegFile

namespace Verif.HWP

open Verif.Bits Verif.RegFile

/-- The value of a field. -/
def fieldOf (r : Int) (bits : BitRange) : Int := Int.land (shr r bits.2.toNat) (onesMask (width bits))

theorem fieldOf_eq {r v : Int} {bits : BitRange} (h : Field bits) (hv : getBits r bits = .ok v) :
    fieldOf r bits = v := by
  rw [getBits_field h] at hv
  injection hv

theorem getBits_fieldOf {bits : BitRange} (h : Field bits) (r : Int) :
    getBits r bits = .ok (fieldOf r bits) := getBits_field h

theorem perfField (m : Bool) : Field (perfBits m) := by unfold RegFile.Field; cases m <;> decide
theorem validField (m : Bool) : Field (validBits m) := by unfold RegFile.Field; cases m <;> decide
theorem pkgField : Field pkgControlBits := by unfold RegFile.Field; decide
theorem perf_valid (m m' : Bool) : Bits.Disjoint (perfBits m) (validBits m') := by
  unfold Bits.Disjoint; cases m <;> cases m' <;> decide
theorem perf_pkg (m : Bool) : Bits.Disjoint (perfBits m) pkgControlBits := by
  unfold Bits.Disjoint; cases m <;> decide
theorem perf_perf (m : Bool) : Bits.Disjoint (perfBits m) (perfBits (!m)) := by
  unfold Bits.Disjoint; cases m <;> decide
theorem valid_perf (m m' : Bool) : Bits.Disjoint (validBits m) (perfBits m') := by
  unfold Bits.Disjoint; cases m <;> cases m' <;> decide
theorem valid_pkg (m : Bool) : Bits.Disjoint (validBits m) pkgControlBits := by
  unfold Bits.Disjoint; cases m <;> decide
theorem valid_valid (m : Bool) : Bits.Disjoint (validBits m) (validBits (!m)) := by
  unfold Bits.Disjoint; cases m <;> decide

theorem bitOn_eq {bits : BitRange} (h : Field bits) (r : Int) :
    bitOn r bits = .ok (fieldOf r bits == 1) := by
  unfold bitOn
  rw [getBits_fieldOf h]

/-- Whether the limit of CPU `c` comes from `MSR_HWP_REQUEST_PKG`. -/
def controlled (E : Env) (m : Bool) (s : St) (c : Nat) : Bool :=
  E.pkgSup && fieldOf (s.req c) pkgControlBits == 1 && !(fieldOf (s.req c) (validBits m) == 1)

theorem pkgControlled_eq (E : Env) (m : Bool) (s : St) (c : Nat) :
    pkgControlled E m s c = .ok (controlled E m s c) := by
  unfold pkgControlled controlled
  rw [bitOn_eq pkgField, bitOn_eq (validField m)]
  cases E.pkgSup
  · rfl
  · cases fieldOf (s.req c) pkgControlBits == 1 <;> rfl

/-- The limit which is in effect on CPU `c`, Hz. -/
def hwpView (E : Env) (s : St) (m : Bool) (c : Nat) : Int :=
  perfToFreq E c (fieldOf (if controlled E m s c then s.pkg c else s.req c) (perfBits m))

theorem getLoop2_eq (E : Env) (m : Bool) (s : St) (cpus : List Nat) :
    getLoop2 E m s cpus = .ok (cpus.map fun c => (c, hwpView E s m c)) := by
  induction cpus with
  | nil => rfl
  | cons c cpus ih =>
    simp only [getLoop2, getBits_fieldOf (perfField m), pkgControlled_eq, ih, List.map_cons, hwpView]
    cases controlled E m s c <;> rfl

theorem getLoop1_eq (E : Env) (m : Bool) (s : St) (cpus : List Nat) :
    ∃ l1 l2 again, cpus = l1 ++ l2 ∧
      getLoop1 E m s cpus = .ok (l1.map fun c => (c, hwpView E s m c), again) ∧
      (again = false → l2 = []) ∧ (∀ c ∈ l1, controlled E m s c = false) := by
  induction cpus with
  | nil => exact ⟨[], [], false, rfl, rfl, (fun _ => rfl), (fun _ h => by cases h)⟩
  | cons c cpus ih =>
    unfold getLoop1
    simp only [getBits_fieldOf (perfField m), pkgControlled_eq]
    cases hc : controlled E m s c
    · obtain ⟨l1, l2, again, rfl, h, h2, h3⟩ := ih
      refine ⟨c :: l1, l2, again, rfl, ?_, h2, ?_⟩
      · simp only [h, List.map_cons, hwpView, hc]
        rfl
      · intro d hd
        rcases List.mem_cons.1 hd with rfl | hd
        · exact hc
        · exact h3 d hd
    · exact ⟨[], c :: cpus, true, rfl, rfl, (fun h => by cases h), (fun _ h => by cases h)⟩

/-- The limits which are in effect are read, for every requested CPU once and in the given order. -/
theorem getFreq_eq (E : Env) (m : Bool) (s : St) (cpus : List Nat) (hn : cpus.Nodup) :
    getFreq E m cpus s = .ok (cpus.map fun c => (c, hwpView E s m c)) := by
  obtain ⟨l1, l2, again, rfl, h, h2, _⟩ := getLoop1_eq E m s cpus
  unfold getFreq
  cases again
  · have h2 := h2 rfl
    subst h2
    rw [List.append_nil] at h ⊢
    simp only [h]
  · simp only [h]
    have e : (l1 ++ l2).filter (fun c =>
        !(List.map Prod.fst (l1.map fun c => (c, hwpView E s m c))).contains c) = l2 := by
      have e1 : List.map Prod.fst (l1.map fun c => (c, hwpView E s m c)) = l1 := by
        simp [Function.comp_def]
      rw [e1, List.filter_append]
      have hd := List.nodup_append.1 hn
      rw [List.filter_eq_nil_iff.2 (by intro a ha; simp [ha]), List.nil_append]
      apply List.filter_eq_self.2
      intro a ha
      simp only [Bool.not_eq_true', List.contains_eq_mem, decide_eq_false_iff_not]
      exact fun h => hd.2.2 a h a ha rfl
    rw [e, getLoop2_eq, List.map_append]

/-- Without package control there are no restrictions on the list of CPUs. -/
theorem getFreq_eq_nopkg (E : Env) (m : Bool) (s : St) (cpus : List Nat)
    (hc : ∀ c, controlled E m s c = false) :
    getFreq E m cpus s = .ok (cpus.map fun c => (c, hwpView E s m c)) := by
  have h : getLoop1 E m s cpus = .ok (cpus.map fun c => (c, hwpView E s m c), false) := by
    induction cpus with
    | nil => rfl
    | cons c cpus ih =>
      unfold getLoop1
      simp only [getBits_fieldOf (perfField m), pkgControlled_eq, hc, ih, List.map_cons, hwpView]
      rfl
  unfold getFreq
  simp only [h]

/-! ### Writing -/

theorem envWF (E : Env) : EnvWF (regEnv E) := by
  constructor <;> simp [regEnv]

theorem uniform (E : Env) (R : Reg) : Uniform (regEnv E) R := by
  intro a b h
  simp [regEnv] at h
  rw [h]

theorem pkgControlCpus_eq (s : St) (l : List Nat) :
    pkgControlCpus s l = .ok (l.filter fun c => fieldOf (s.req c) pkgControlBits == 1) := by
  induction l with
  | nil => rfl
  | cons c l ih =>
    simp only [pkgControlCpus, bitOn_eq pkgField, ih, List.filter_cons]

/-- Registers with proper values. -/
def Regs (s : St) : Prop := ∀ c, Reg64 (s.req c)

theorem disablePkgControl_spec (E : Env) (m : Bool) (s : St) (hR : Regs s) :
    let s' := (disablePkgControl E m s).1
    s'.pkg = s.pkg ∧ Regs s' ∧
    (∀ c, s'.req c = s.req c ∨ (E.pkgSup = true ∧ c ∈ E.online ∧
      fieldOf (s.req c) pkgControlBits = 1 ∧ Upd (validBits m) 1 (s.req c) (s'.req c))) ∧
    ((disablePkgControl E m s).2 = .ok () → (∀ c, E.wfail c ≠ some .notSupported) → E.pkgSup = true →
      ∀ c ∈ E.online, fieldOf (s.req c) pkgControlBits = 1 →
        Upd (validBits m) 1 (s.req c) (s'.req c)) ∧
    ((∀ c ∈ E.online, E.wfail c = none) → (disablePkgControl E m s).2 = .ok ()) := by
  intro s'
  have hs' : s' = (disablePkgControl E m s).1 := rfl
  clear_value s'
  subst hs'
  unfold disablePkgControl
  by_cases hp : E.pkgSup = true
  · rw [if_neg (by simp [hp])]
    rw [pkgControlCpus_eq]
    dsimp only
    generalize hl : (E.online.filter fun c => fieldOf (s.req c) pkgControlBits == 1) = l
    have hmem : ∀ c, c ∈ l ↔ c ∈ E.online ∧ fieldOf (s.req c) pkgControlBits = 1 := by
      intro c; rw [← hl]; simp [List.mem_filter]
    obtain ⟨-, k2, k3, k4, k5, k6⟩ := writeBits_field (regEnv E) (envWF E) (validField m) 1 l s.req
      (uniform E _) hR
    have hfail := (writeBits_spec (regEnv E) (envWF E) (validBits m) (.num 1) l s.req (uniform E _))
    cases hw : RegFile.writeBits (regEnv E) (validBits m) (.num 1) l s.req with
    | mk req r =>
      rw [hw] at k2 k3 k4 k5
      dsimp only at k2 k3 k4 k5
      have key : ∀ c, req c = s.req c ∨ (True ∧ c ∈ E.online ∧
          fieldOf (s.req c) pkgControlBits = 1 ∧ Upd (validBits m) 1 (s.req c) (req c)) := by
        intro c
        rcases k3 c with h | ⟨_, ⟨a, ha, hac⟩, h⟩
        · exact Or.inl h
        · have : a = c := by simpa [regEnv] using hac
          subst this
          exact Or.inr ⟨trivial, ((hmem a).1 ha).1, ((hmem a).1 ha).2, h⟩
      have kok : (∀ c ∈ E.online, E.wfail c = none) → r = .ok () := fun h =>
        k5 (fun a ha => h a ((hmem a).1 ha).1) (by omega) (by cases m <;> decide)
      cases r with
      | error e =>
        simp only [hp]
        refine ⟨trivial, k2, key, ?_, fun h => by have := kok h; cases this⟩
        intro he hns
        exfalso
        rcases writeBits_error (regEnv E) (validBits m) (.num 1) l s.req e (by rw [hw]) with
          ⟨a, ha, h⟩ | rfl | ⟨a, ha, h⟩
        · obtain ⟨r, hr⟩ := C01_set_bits_accepts (s.req a) 1 (validBits m) (validField m).1 (validField m).2.1
            (validField m).2.2 (by cases m <;> decide)
          rw [hr] at h; cases h
        · cases he
        · cases e <;> first | exact hns a h | (cases he)
      | ok u =>
        simp only [hp]
        refine ⟨trivial, k2, key, ?_, fun _ => trivial⟩
        intro _ _ _ c hc h1
        exact (k4 rfl c ((hmem c).2 ⟨hc, h1⟩) c (by simp [regEnv])).2
  · rw [if_pos (by simpa using hp)]
    exact ⟨rfl, hR, (fun c => Or.inl rfl), (fun _ _ h => absurd h hp), fun _ => rfl⟩

theorem perfGroups_mem (E : Env) (freq : Int) (cpus : List Nat) (d : Dict Int (List Nat)) (p : Int)
    (c : Nat) : InGroups (perfGroups E freq cpus d) p c ↔
      InGroups d p c ∨ (c ∈ cpus ∧ p = freqToPerf E c freq) := by
  induction cpus generalizing d with
  | nil => simp [perfGroups]
  | cons a cpus ih =>
    unfold perfGroups
    rw [ih, inGroups_set, List.mem_cons, or_assoc]
    constructor
    · rintro (h | ⟨h1, rfl⟩ | ⟨h1, h2⟩)
      · exact Or.inl h
      · exact Or.inr ⟨Or.inl rfl, h1⟩
      · exact Or.inr ⟨Or.inr h1, h2⟩
    · rintro (h | ⟨rfl | h1, h2⟩)
      · exact Or.inl h
      · exact Or.inr (Or.inl ⟨h2, rfl⟩)
      · exact Or.inr (Or.inr ⟨h1, h2⟩)

theorem writePerfs_spec (E : Env) (m : Bool) (f : Nat → Int) (d : Dict Int (List Nat))
    (hd : ∀ p c, InGroups d p c → p = f c) (s : St) (hR : Regs s) :
    let s' := (writePerfs E m d s).1
    s'.pkg = s.pkg ∧ Regs s' ∧
    (∀ c, s'.req c = s.req c ∨ (InGroups d (f c) c ∧ Upd (perfBits m) (f c) (s.req c) (s'.req c))) ∧
    ((writePerfs E m d s).2 = .ok () →
      ∀ c, InGroups d (f c) c → Upd (perfBits m) (f c) (s.req c) (s'.req c)) ∧
    ((∀ c, InGroups d (f c) c → E.wfail c = none ∧ 0 ≤ f c ∧ f c < 256) → (∀ p ∈ d, p.2 ≠ []) →
      (writePerfs E m d s).2 = .ok ()) := by
  induction d generalizing s with
  | nil => exact ⟨rfl, hR, (fun _ => Or.inl rfl), (fun _ c h => absurd h (inGroups_nil _ _)), fun _ _ => rfl⟩
  | cons q d ih =>
    obtain ⟨p, cs⟩ := q
    intro s'
    have hs' : s' = (writePerfs E m ((p, cs) :: d) s).1 := rfl
    clear_value s'
    subst hs'
    have hp : ∀ c ∈ cs, p = f c := fun c hc => hd p c ((inGroups_cons ..).2 (Or.inl ⟨rfl, hc⟩))
    obtain ⟨-, k2, k3, k4, k5, -⟩ := writeBits_field (regEnv E) (envWF E) (perfField m) p cs s.req
      (uniform E _) hR
    have hw8 : (2 : Int) ^ width (perfBits m) = 256 := by cases m <;> decide
    rw [hw8] at k5
    have ihd := ih (fun p c h => hd p c ((inGroups_cons ..).2 (Or.inr h)))
    unfold writePerfs
    cases hw : RegFile.writeBits (regEnv E) (perfBits m) (.num p) cs s.req with
    | mk req r =>
      rw [hw] at k2 k3 k4 k5
      dsimp only at k2 k3 k4 k5
      have key : ∀ c, req c = s.req c ∨ (c ∈ cs ∧ Upd (perfBits m) (f c) (s.req c) (req c)) := by
        intro c
        rcases k3 c with h | ⟨_, ⟨a, ha, hac⟩, h⟩
        · exact Or.inl h
        · have : a = c := by simpa [regEnv] using hac
          subst this
          exact Or.inr ⟨ha, by rw [← hp a ha]; exact h⟩
      cases r with
      | error e =>
        refine ⟨rfl, k2, ?_, (fun h => by cases h), ?_⟩
        · intro c
          rcases key c with h | ⟨h1, h2⟩
          · exact Or.inl h
          · exact Or.inr ⟨(inGroups_cons ..).2 (Or.inl ⟨(hp c h1).symm, h1⟩), h2⟩
        · intro hall hne
          exfalso
          obtain ⟨a, ha⟩ := List.exists_mem_of_ne_nil cs (hne (p, cs) (by simp))
          have hh : ∀ c ∈ cs, E.wfail c = none ∧ 0 ≤ f c ∧ f c < 256 := fun c hc =>
            hall c ((inGroups_cons ..).2 (Or.inl ⟨(hp c hc).symm, hc⟩))
          have := k5 (fun c hc => (hh c hc).1) (by rw [hp a ha]; exact (hh a ha).2.1)
            (by rw [hp a ha]; exact (hh a ha).2.2)
          cases this
      | ok u =>
        dsimp only
        obtain ⟨i1, i2, i3, i4, i5⟩ := ihd { s with req := req } k2
        refine ⟨i1, i2, ?_, ?_, ?_⟩
        · intro c
          rcases i3 c with h | ⟨h1, h2⟩
          · rcases key c with h' | ⟨h1, h2⟩
            · exact Or.inl (h.trans h')
            · exact Or.inr ⟨(inGroups_cons ..).2 (Or.inl ⟨(hp c h1).symm, h1⟩), by rw [h]; exact h2⟩
          · refine Or.inr ⟨(inGroups_cons ..).2 (Or.inr h1), ?_⟩
            rcases key c with h' | ⟨_, h'⟩
            · have h2 := h2; dsimp only at h2; rw [h'] at h2; exact h2
            · exact h'.trans h2
        · intro hok c hc
          have i4 := i4 hok c
          rcases (inGroups_cons ..).1 hc with ⟨_, hcs⟩ | hc
          · have hu := (k4 rfl c hcs c (by simp [regEnv])).2
            rw [hp c hcs] at hu
            rcases i3 c with h | ⟨h1, h2⟩
            · rw [h]; exact hu
            · exact hu.trans h2
          · rcases key c with h' | ⟨_, h'⟩
            · have h2 := i4 hc; dsimp only at h2; rw [h'] at h2; exact h2
            · exact h'.trans (i4 hc)
        · intro hall hne
          exact i5 (fun c h => hall c ((inGroups_cons ..).2 (Or.inr h))) (fun p hp => hne p (by simp [hp]))

theorem perfGroups_ne_nil (E : Env) (freq : Int) (cpus : List Nat) (d : Dict Int (List Nat))
    (h : ∀ p ∈ d, p.2 ≠ []) : ∀ p ∈ perfGroups E freq cpus d, p.2 ≠ [] := by
  induction cpus generalizing d with
  | nil => exact h
  | cons a cpus ih => exact ih _ (set_ne_nil d _ _ h)

/-- What `_set_freq_msr()` does to the register of CPU `c`. -/
structure Effect (E : Env) (m : Bool) (f : Int) (cpus : List Nat) (c : Nat) (r r' : Int) : Prop where
  /-- Only the limit itself and its "valid" bit may change. -/
  rest : ∀ k : Nat, ¬ InRange (perfBits m) k → ¬ InRange (validBits m) k → r'.testBit k = r.testBit k
  perf : fieldOf r' (perfBits m) = fieldOf r (perfBits m) ∨
    (c ∈ cpus ∧ fieldOf r' (perfBits m) = freqToPerf E c f)
  valid : fieldOf r' (validBits m) = fieldOf r (validBits m) ∨
    (E.pkgSup = true ∧ c ∈ E.online ∧ fieldOf r pkgControlBits = 1 ∧ fieldOf r' (validBits m) = 1)

theorem fieldOf_congr {r r' : Int} {bits : BitRange} (h : Field bits)
    (hb : ∀ k : Nat, InRange bits k → r'.testBit k = r.testBit k) : fieldOf r' bits = fieldOf r bits :=
  fieldOf_eq h ((getBits_congr h hb).trans (getBits_fieldOf h r))

theorem Upd.fieldOf {bits bits' : BitRange} {v r r' : Int} (h : Upd bits v r r') (hf : Field bits')
    (hd : Bits.Disjoint bits bits') : fieldOf r' bits' = HWP.fieldOf r bits' :=
  fieldOf_eq hf ((h.other hf hd).trans (getBits_fieldOf hf r))

theorem setFreq_spec (E : Env) (m : Bool) (f : Int) (cpus : List Nat) (s : St) (hR : Regs s) :
    let s' := (setFreq E m f cpus s).1
    s'.pkg = s.pkg ∧ Regs s' ∧
    (∀ c, Effect E m f cpus c (s.req c) (s'.req c)) ∧
    ((setFreq E m f cpus s).2 = .ok () →
      (∀ c ∈ cpus, fieldOf (s'.req c) (perfBits m) = freqToPerf E c f) ∧
      ((∀ c, E.wfail c ≠ some .notSupported) → E.pkgSup = true →
        ∀ c ∈ E.online, fieldOf (s.req c) pkgControlBits = 1 → fieldOf (s'.req c) (validBits m) = 1)) ∧
    ((∀ c ∈ E.online, E.wfail c = none) → (∀ c ∈ cpus, E.wfail c = none) →
      (∀ c ∈ cpus, 0 ≤ freqToPerf E c f ∧ freqToPerf E c f < 256) → (setFreq E m f cpus s).2 = .ok ()) := by
  intro s'
  have hs' : s' = (setFreq E m f cpus s).1 := rfl
  clear_value s'
  subst hs'
  unfold setFreq
  obtain ⟨k1, k2, k3, k4, k5⟩ := disablePkgControl_spec E m s hR
  cases hd : disablePkgControl E m s with
  | mk s1 r =>
    rw [hd] at k1 k2 k3 k4 k5
    dsimp only at k1 k2 k3 k4 k5
    have eff1 : ∀ c, Effect E m f cpus c (s.req c) (s1.req c) := by
      intro c
      rcases k3 c with h | ⟨h1, h2, h3, h4⟩
      · rw [h]; exact ⟨fun _ _ _ => rfl, Or.inl rfl, Or.inl rfl⟩
      · exact ⟨fun k _ hk => h4.2 k hk, Or.inl (Upd.fieldOf h4 (perfField m) (valid_perf m m)),
          Or.inr ⟨h1, h2, h3, fieldOf_eq (validField m) h4.1⟩⟩
    cases r with
    | error e =>
      exact ⟨k1, k2, eff1, (fun h => by cases h), fun h _ _ => by have := k5 h; cases this⟩
    | ok u =>
      dsimp only
      have hg : ∀ p c, InGroups (perfGroups E f cpus []) p c ↔ c ∈ cpus ∧ p = freqToPerf E c f := by
        intro p c
        rw [perfGroups_mem]
        simp [inGroups_nil]
      obtain ⟨i1, i2, i3, i4, i5⟩ := writePerfs_spec E m (fun c => freqToPerf E c f)
        (perfGroups E f cpus []) (fun p c h => ((hg p c).1 h).2) s1 k2
      have hval : ∀ c, fieldOf ((writePerfs E m (perfGroups E f cpus []) s1).1.req c) (validBits m) =
          fieldOf (s1.req c) (validBits m) := by
        intro c
        rcases i3 c with h | ⟨_, h⟩
        · rw [h]
        · exact Upd.fieldOf h (validField m) (perf_valid m m)
      refine ⟨i1.trans k1, i2, ?_, ?_, ?_⟩
      · intro c
        obtain ⟨e1, e2, e3⟩ := eff1 c
        refine ⟨?_, ?_, ?_⟩
        · intro k hk1 hk2
          rw [← e1 k hk1 hk2]
          rcases i3 c with h | ⟨_, h⟩
          · rw [h]
          · exact h.2 k hk1
        · rcases i3 c with h | ⟨h1, h⟩
          · rw [h]; exact e2
          · exact Or.inr ⟨((hg _ _).1 h1).1, fieldOf_eq (perfField m) h.1⟩
        · rw [hval]; exact e3
      · intro hok
        refine ⟨fun c hc => fieldOf_eq (perfField m) (i4 hok c ((hg _ _).2 ⟨hc, rfl⟩)).1, ?_⟩
        intro hns hsup c hc h1
        rw [hval]
        exact fieldOf_eq (validField m) (k4 rfl hns hsup c hc h1).1
      · intro _ hw hr
        exact i5 (fun c h => ⟨hw c ((hg _ _).1 h).1, hr c ((hg _ _).1 h).1⟩)
          (perfGroups_ne_nil E f cpus [] (by simp))

/-! ### The laws of the "msr" mechanism without package control -/

/-- Package control is not in use. -/
def NoPkg (E : Env) (s : St) : Prop := E.pkgSup = true → ∀ c, fieldOf (s.req c) pkgControlBits ≠ 1

theorem NoPkg.controlled {E : Env} {s : St} (h : NoPkg E s) (m : Bool) (c : Nat) :
    controlled E m s c = false := by
  unfold HWP.controlled
  cases hp : E.pkgSup
  · rfl
  · have := h hp c
    simp [this]

theorem NoPkg.view {E : Env} {s : St} (h : NoPkg E s) (m : Bool) (c : Nat) :
    hwpView E s m c = perfToFreq E c (fieldOf (s.req c) (perfBits m)) := by
  unfold hwpView
  rw [h.controlled]
  rfl

theorem NoPkg.disable {E : Env} {s : St} (h : NoPkg E s) (m : Bool) : disablePkgControl E m s = (s, .ok ()) := by
  unfold disablePkgControl
  cases hp : E.pkgSup
  · rfl
  · rw [pkgControlCpus_eq]
    have : E.online.filter (fun c => fieldOf (s.req c) pkgControlBits == 1) = [] := by
      rw [List.filter_eq_nil_iff]
      intro c _
      simp [h hp c]
    rw [this]
    rfl

theorem Effect.pkg {E : Env} {m : Bool} {f : Int} {cpus : List Nat} {c : Nat} {r r' : Int}
    (h : Effect E m f cpus c r r') : fieldOf r' pkgControlBits = fieldOf r pkgControlBits :=
  fieldOf_congr pkgField fun k hk => h.rest k
    (by have := perf_pkg m; unfold InRange at *; unfold Bits.Disjoint at this; omega)
    (by have := valid_pkg m; unfold InRange at *; unfold Bits.Disjoint at this; omega)

theorem Effect.other {E : Env} {m : Bool} {f : Int} {cpus : List Nat} {c : Nat} {r r' : Int}
    (h : Effect E m f cpus c r r') : fieldOf r' (perfBits (!m)) = fieldOf r (perfBits (!m)) :=
  fieldOf_congr (perfField _) fun k hk => h.rest k
    (by have := perf_perf m; unfold InRange at *; unfold Bits.Disjoint at this; omega)
    (by have := valid_perf m (!m); unfold InRange at *; unfold Bits.Disjoint at this; omega)

theorem Effect.otherValid {E : Env} {m : Bool} {f : Int} {cpus : List Nat} {c : Nat} {r r' : Int}
    (h : Effect E m f cpus c r r') : fieldOf r' (validBits (!m)) = fieldOf r (validBits (!m)) :=
  fieldOf_congr (validField _) fun k hk => h.rest k
    (by have := perf_valid m (!m); unfold InRange at *; unfold Bits.Disjoint at this; omega)
    (by have := valid_valid m; unfold InRange at *; unfold Bits.Disjoint at this; omega)

theorem setFreq_noPkg {E : Env} {s : St} (h : NoPkg E s) (hR : Regs s) (m : Bool) (f : Int) (cpus : List Nat) :
    NoPkg E (setFreq E m f cpus s).1 := by
  intro hp c
  rw [((setFreq_spec E m f cpus s hR).2.2.1 c).pkg]
  exact h hp c

theorem hwpLaws (E : Env) :
    PStates.Laws (backend E) (hwpView E) (fun c f => perfToFreq E c (freqToPerf E c f))
      (fun c f => E.wfail c = none ∧ 0 ≤ freqToPerf E c f ∧ freqToPerf E c f < 256)
      (fun s => Regs s ∧ NoPkg E s) where
  get s m cpus h := getFreq_eq_nopkg E m s cpus fun c => h.2.controlled m c
  inv s m f cpus h := ⟨(setFreq_spec E m f cpus s h.1).2.1, setFreq_noPkg h.2 h.1 m f cpus⟩
  other s m f cpus c h := by
    show hwpView E (setFreq E m f cpus s).1 (!m) c = _
    rw [(setFreq_noPkg h.2 h.1 m f cpus).view, h.2.view, ((setFreq_spec E m f cpus s h.1).2.2.1 c).other]
  same s m f cpus c h := by
    show hwpView E (setFreq E m f cpus s).1 m c = _ ∨ c ∈ cpus ∧ hwpView E (setFreq E m f cpus s).1 m c = _
    rw [(setFreq_noPkg h.2 h.1 m f cpus).view, h.2.view]
    rcases ((setFreq_spec E m f cpus s h.1).2.2.1 c).perf with h' | ⟨h1, h2⟩
    · exact Or.inl (by rw [h'])
    · exact Or.inr ⟨h1, by rw [h2]⟩
  done s m f cpus h hok c hc := by
    show hwpView E (setFreq E m f cpus s).1 m c = _
    rw [(setFreq_noPkg h.2 h.1 m f cpus).view, ((setFreq_spec E m f cpus s h.1).2.2.2.1 hok).1 c hc]
  ok s m f cpus h hok := by
    show (setFreq E m f cpus s).2 = .ok ()
    unfold setFreq
    rw [h.2.disable]
    dsimp only
    have hg : ∀ p c, InGroups (perfGroups E f cpus []) p c ↔ c ∈ cpus ∧ p = freqToPerf E c f := by
      intro p c
      rw [perfGroups_mem]
      simp [inGroups_nil]
    exact (writePerfs_spec E m (fun c => freqToPerf E c f) (perfGroups E f cpus [])
      (fun p c h => ((hg p c).1 h).2) s h.1).2.2.2.2 (fun c h => hok c ((hg _ _).1 h).1)
      (perfGroups_ne_nil E f cpus [] (by simp))

/-- The clocks of a platform: the bus clock is not 0, and the P-core scaling factor is neither 0 nor
above the bus clock. -/
structure Clocks (E : Env) : Prop where
  bclk : ∀ c, 0 < E.bclk c
  factor : ∀ c ∈ E.pcore, 0 < E.factor ∧ E.factor ≤ E.bclk c

theorem sub_emod (a b : Int) : a - a % b = a / b * b := by
  have := Int.mul_ediv_add_emod a b
  rw [Int.mul_comm] at this
  omega

theorem perfToFreq_mul (E : Env) (c : Nat) (p : Int) : ∃ k : Int, perfToFreq E c p = k * E.bclk c := by
  unfold perfToFreq
  split
  · exact ⟨_, sub_emod _ _⟩
  · exact ⟨p, rfl⟩

theorem store_le {E : Env} (w : Clocks E) (c : Nat) (f k : Int) (h : f ≤ k * E.bclk c) :
    perfToFreq E c (freqToPerf E c f) ≤ k * E.bclk c := by
  have hb : (0 : Int) < E.bclk c := by have := w.bclk c; omega
  unfold perfToFreq freqToPerf
  by_cases hc : E.pcore.contains c = true
  · obtain ⟨w1, w2⟩ := w.factor c (by simpa using hc)
    have w1 : (0 : Int) < E.factor := by omega
    have w2 : (E.factor : Int) ≤ E.bclk c := by omega
    simp only [hc, if_true, sub_emod]
    apply Int.mul_le_mul_of_nonneg_right _ (by omega)
    have hlt : (f + E.factor - 1) / E.factor * E.factor / E.bclk c < k + 1 := by
      apply Int.ediv_lt_of_lt_mul hb
      have := Int.ediv_mul_le (f + E.factor - 1) (b := (E.factor : Int)) (by omega)
      have e : (k + 1) * (E.bclk c : Int) = k * E.bclk c + E.bclk c := by
        rw [Int.add_mul, Int.one_mul]
      omega
    omega
  · simp only [hc]
    have := Int.ediv_mul_le f (b := (E.bclk c : Int)) (by omega)
    simp only [Bool.false_eq_true, if_false]
    omega

theorem store_ge {E : Env} (w : Clocks E) (c : Nat) (f k : Int) (h : k * E.bclk c ≤ f) :
    k * E.bclk c ≤ perfToFreq E c (freqToPerf E c f) := by
  have hb : (0 : Int) < E.bclk c := by have := w.bclk c; omega
  unfold perfToFreq freqToPerf
  by_cases hc : E.pcore.contains c = true
  · obtain ⟨w1, w2⟩ := w.factor c (by simpa using hc)
    have w1 : (0 : Int) < E.factor := by omega
    simp only [hc, if_true, sub_emod]
    apply Int.mul_le_mul_of_nonneg_right _ (by omega)
    rw [Int.le_ediv_iff_mul_le hb]
    have := Int.lt_ediv_add_one_mul_self (f + E.factor - 1) w1
    have e : ((f + E.factor - 1) / E.factor + 1) * (E.factor : Int) =
        (f + E.factor - 1) / E.factor * E.factor + E.factor := by
      rw [Int.add_mul, Int.one_mul]
    omega
  · simp only [hc, Bool.false_eq_true, if_false]
    apply Int.mul_le_mul_of_nonneg_right _ (by omega)
    rw [Int.le_ediv_iff_mul_le hb]
    exact h

theorem hwpGrid {E : Env} (w : Clocks E) (P : PStates.Plat Nat)
    (hlo : ∀ c, ∃ k : Int, P.lo c = k * E.bclk c) (hhi : ∀ c, ∃ k : Int, P.hi c = k * E.bclk c) :
    PStates.Grid P (hwpView E) (fun c f => perfToFreq E c (freqToPerf E c f))
      (fun s => Regs s ∧ NoPkg E s) (fun c g => ∃ k : Int, g = k * E.bclk c) where
  lo := hlo
  hi := hhi
  view s m c _ := perfToFreq_mul E c _
  le c f g := by rintro ⟨k, rfl⟩ h; exact store_le w c f k h
  ge c f g := by rintro ⟨k, rfl⟩ h; exact store_ge w c f k h

end Verif.HWP
