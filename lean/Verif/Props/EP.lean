import Verif.Lemmas.EP

/-!
C41, C42 and C61: EPP and EPB. Also the EPP half of C59.
-/

namespace Verif.EP

open Verif.Bits (InRange getBits)

/-! ### Specification -/

/-- `val` is the text of the integer `n`, as Python's `int()` reads it. -/
def Num (val : PyStr) (n : Int) : Prop := parse10 val = .ok n

/-- Decimal digits are numbers. -/
theorem num_ofNat (n : Nat) : Num (PyStr.ofNat n) n := parse10_ofNat n

/-- What the documentation promises to accept: integers from 0 to `hi`, and with the sysfs mechanism also
the names of policies. -/
def Accepts (hi : Int) (policies : List PyStr) (m : Mech) (val : PyStr) : Prop :=
  (∃ n, Num val n ∧ 0 ≤ n ∧ n ≤ hi) ∨ (m = .sysfs ∧ val ∈ policies ∧ isInt val = false)

theorem accepts_iff (hi : Int) (policies : List PyStr) (m : Mech) (val : PyStr) :
    validate hi policies val (m == .sysfs) = .ok () ↔ Accepts hi policies m val := by
  rw [validate_ok]
  unfold Accepts Num
  cases m
  · exact or_congr Iff.rfl ⟨fun ⟨a, b, c⟩ => ⟨rfl, c, a⟩, fun ⟨a, b, c⟩ => ⟨c, rfl, b⟩⟩
  · refine or_congr Iff.rfl ⟨fun ⟨a, b, c⟩ => ?_, fun ⟨a, b, c⟩ => ?_⟩
    · cases b
    · cases a

theorem validate_error {hi : Int} {policies : List PyStr} {m : Mech} {val : PyStr}
    (h : ¬ Accepts hi policies m val) : ∃ e, validate hi policies val (m == .sysfs) = .error e := by
  cases hv : validate hi policies val (m == .sysfs) with
  | error e => exact ⟨e, rfl⟩
  | ok u => exact absurd ((accepts_iff hi policies m val).1 hv) h

/-- EPP which is in effect on CPU `c` according to the registers. -/
def EppRegister (E : EppEnv) (s : EppSt) (c : Nat) (n : Int) : Prop :=
  eppReadMsr E c s = (s, .ok (some (.num n)))

/-- EPB of CPU `c` according to the register. -/
def EpbRegister (E : EpbEnv) (s : EpbSt) (c : Nat) (n : Int) : Prop :=
  epbReadMsr E c s = (s, .ok (some n))

/-- The EPP registers hold 64-bit values. -/
def EppValid64 (s : EppSt) : Prop := ∀ c, 0 ≤ s.req c ∧ s.req c < 2 ^ 64

/-- The EPB registers hold 64-bit values, shared ones the same value. -/
def EpbValid64 (E : EpbEnv) (s : EpbSt) : Prop :=
  (∀ c, 0 ≤ s.reg c ∧ s.reg c < 2 ^ 64) ∧ ∀ c d, E.same c d = true → s.reg c = s.reg d

/-- Sharing of the EPB register is an equivalence relation. -/
structure Sharing (E : EpbEnv) : Prop where
  refl : ∀ c, E.same c c = true
  symm : ∀ c d, E.same c d = true → E.same d c = true
  trans : ∀ a b c, E.same a b = true → E.same b c = true → E.same a c = true

theorem Sharing.wf {E : EpbEnv} (h : Sharing E) : RegFile.EnvWF ⟨E.same, E.wfail⟩ := by
  constructor
  · exact h.refl
  · intro a b hab; exact h.symm a b hab
  · intro a b c hab hbc; exact h.trans a b c hab hbc

/-! ### Example -/

/-- Two CPUs with HWP and package control, policies "performance" and "default"; the kernel shows "0" as
"performance" and "default" as "balance_performance", other values are shown as they are. -/
def exEpp : EppEnv where
  hwp := true
  sup c := c == 0 || c == 1
  pkgSup c := c == 0 || c == 1
  wfail _ := none
  kern _ _ v := .ok (if v = ['0'] then "performance".toList
    else if v = "default".toList then "balance_performance".toList else v)
  policies := ["performance".toList, "default".toList]
  cacheOn := true

/-- CPU 0 is package-controlled, CPU 1 is not; the package EPP is 128. -/
def exEppSt : EppSt where
  files c := if c < 2 then some "balance_performance".toList else none
  cache _ := none
  aliases := []
  req c := if c = 0 then 2 ^ 42 else 0x80000000
  pkg _ := 0x80000000

/-- Four CPUs, two per core, EPB is shared by the CPUs of a core. -/
def exEpb : EpbEnv where
  same c d := c / 2 == d / 2
  sup c := c < 4
  wfail _ := none
  kern _ _ v := .ok (if v = "performance".toList then ['0'] else v)
  cacheOn := true

/-- EPB is 6 everywhere. -/
def exEpbSt : EpbSt where
  files c := if c < 4 then some ['6'] else none
  cache _ := none
  policies := []
  reg _ := 6

theorem exSharing : Sharing exEpb := by
  constructor
  · intro c; exact beq_self_eq_true (c / 2)
  · intro c d h
    have h : (c / 2 == d / 2) = true := h
    show (d / 2 == c / 2) = true
    rw [eq_of_beq h]; exact beq_self_eq_true _
  · intro a b c h1 h2
    have h1 : (a / 2 == b / 2) = true := h1
    have h2 : (b / 2 == c / 2) = true := h2
    show (a / 2 == c / 2) = true
    rw [eq_of_beq h1]; exact h2

theorem exEppValid : EppValid64 exEppSt := by
  intro c; unfold exEppSt; dsimp only; split <;> decide

/-! ### C41: refusal -/

/-- C41: an EPP value which none of the mechanisms accepts is refused, and nothing is written. -/
theorem C41_epp_refused (E : EppEnv) (val : PyStr) (cpus : List Nat) (mnames : List Mech) (s : EppSt)
    (h : ∀ m ∈ mnames, ¬ Accepts 255 E.policies m val) :
    ∃ e, setValsApi (eppOps E) val cpus mnames s = (s, .error e) := by
  unfold setValsApi
  split
  · exact ⟨_, rfl⟩
  · apply setVals_refused
    intro m hm
    exact validate_error (h m (by simpa [Trivial.listDedup] using hm))

/-- C41: the same for EPB. -/
theorem C41_epb_refused (E : EpbEnv) (val : PyStr) (cpus : List Nat) (mnames : List Mech) (s : EpbSt)
    (h : ∀ m ∈ mnames, ¬ Accepts 15 epbPolicies m val) :
    ∃ e, setValsApi (epbOps E) val cpus mnames s = (s, .error e) := by
  unfold setValsApi
  split
  · exact ⟨_, rfl⟩
  · apply setVals_refused
    intro m hm
    exact validate_error (h m (by simpa [Trivial.listDedup] using hm))

/-- 256 and -1 are not EPP values, 16 is not an EPB value, and neither is an unknown policy; a policy name
can not be written to the MSR. -/
example : (∀ m, ¬ Accepts 255 exEpp.policies m "256".toList) ∧ (∀ m, ¬ Accepts 255 exEpp.policies m "-1".toList)
    ∧ (∀ m, ¬ Accepts 15 epbPolicies m "16".toList) ∧ (∀ m, ¬ Accepts 15 epbPolicies m "turbo".toList)
    ∧ ¬ Accepts 255 exEpp.policies .msr "performance".toList := by
  have hno : ∀ {hi P m v}, Except.isOk' (validate hi P v (m == Mech.sysfs)) = false → ¬ Accepts hi P m v := by
    intro hi P m v h ha
    rw [(accepts_iff hi P m v).2 ha] at h
    cases h
  refine ⟨fun m => hno ?_, fun m => hno ?_, fun m => hno ?_, fun m => hno ?_, hno ?_⟩
  · cases m <;> decide +kernel
  · cases m <;> decide +kernel
  · cases m <;> decide +kernel
  · cases m <;> decide +kernel
  · decide +kernel

/-! ### C41: effect -/

/-- C41: whatever the outcome of an EPP request, the sysfs files and registers of the CPUs which were not
requested, the package register and all register bits but the EPP field (31:24) and its "valid" bit (60)
stay the same. -/
theorem C41_epp_others (E : EppEnv) (val : PyStr) (cpus : List Nat) (mnames : List Mech) (s : EppSt)
    (hR : EppValid64 s) :
    let s' := (setValsApi (eppOps E) val cpus mnames s).1
    s'.pkg = s.pkg ∧ (∀ c, c ∉ cpus → s'.files c = s.files c ∧ s'.req c = s.req c) ∧
    ∀ c (k : Nat), ¬ (24 ≤ k ∧ k ≤ 31) → k ≠ 60 →
      (s'.req c).testBit k = (s.req c).testBit k := by
  unfold setValsApi
  split
  · exact ⟨rfl, fun _ _ => ⟨rfl, rfl⟩, fun _ _ _ _ => rfl⟩
  · have h := (setVals_epp_rel E val cpus (Trivial.listDedup mnames) s hR).2
    refine ⟨h.pkg, fun c hc => ⟨h.files c hc, h.req c hc⟩, fun c k hk hv => h.bits c k ?_ ?_⟩
    · unfold InRange eppBits
      dsimp only
      omega
    · unfold InRange eppValidBits
      dsimp only
      omega

theorem eppRegister_of {E : EppEnv} {s : EppSt} {c : Nat} {n : Int} (hw : E.hwp = true)
    (hs : E.sup c = true) (hf : EppFree E s c) (hn : HWP.fieldOf (s.req c) eppBits = n) :
    eppPkgControlled E c s = .ok false ∧ EppRegister E s c n := by
  have h1 : eppPkgControlled E c s = .ok false := by
    unfold eppPkgControlled
    by_cases hp : E.pkgSup c = true
    · rw [if_neg (by simp [hp]), HWP.bitOn_eq HWP.pkgField]
      by_cases hb : HWP.fieldOf (s.req c) HWP.pkgControlBits = 1
      · have hv := hf hp hb
        rw [HWP.bitOn_eq eppValidField]
        simp [hb, hs, hv]
      · have : (HWP.fieldOf (s.req c) HWP.pkgControlBits == 1) = false := by simp [hb]
        rw [this]
    · rw [if_pos (by simpa using hp)]
  refine ⟨h1, ?_⟩
  unfold EppRegister eppReadMsr
  rw [h1]
  simp [hw, hs, HWP.getBits_fieldOf eppField, hn]

/-- C41: a successful EPP request was for an acceptable value, and it set the value on every requested CPU:
with the MSR mechanism the register of the CPU holds the number; with the sysfs mechanism the file of the
CPU holds what the kernel made of the value, or it held the value before already. -/
theorem C41_epp_sets (E : EppEnv) (val : PyStr) (cpus : List Nat) (mnames : List Mech) (s s' : EppSt)
    (m : Mech) (hR : EppValid64 s) (h : setValsApi (eppOps E) val cpus mnames s = (s', .ok m)) :
    m ∈ mnames ∧ Accepts 255 E.policies m val ∧
    (m = .msr → ∃ n, Num val n ∧ 0 ≤ n ∧ n ≤ 255 ∧ ∀ c ∈ cpus, EppRegister E s' c n) ∧
    (m = .sysfs → ∀ c ∈ cpus, (∃ cur new, E.kern c cur val = .ok new ∧ s'.files c = some new) ∨
      (s'.files c = some val ∧ ∃ e, E.kern c val val = .error e)) := by
  unfold setValsApi at h
  split at h
  · cases h
  · obtain ⟨k1, k2, k3, k4⟩ := setVals_epp_ok E val cpus _ s s' m hR h
    have ha := (accepts_iff 255 E.policies m val).1 k2
    refine ⟨by simpa [Trivial.listDedup] using k1, ha, ?_, k3⟩
    rintro rfl
    rcases ha with ⟨n, hn, h0, h1⟩ | ⟨hm, _⟩
    · refine ⟨n, hn, h0, h1, ?_⟩
      intro c hc
      obtain ⟨g1, g2, g3, n', g4, g5⟩ := k4 rfl c hc
      have : n' = n := by
        unfold Num at hn
        rw [hn] at g4; injection g4 with g4; exact g4.symm
      subst this
      exact (eppRegister_of g1 g2 g3 g5).2
    · cases hm

/-- Setting EPP to 10 via the MSR, and to "0" via sysfs. -/
example : (setValsApi (eppOps exEpp) "10".toList [0, 1] [.msr] exEppSt).2 = .ok .msr ∧
    (setValsApi (eppOps exEpp) ['0'] [0, 1] [.sysfs, .msr] exEppSt).2 = .ok .sysfs := by
  exact ⟨by decide +kernel, by decide +kernel⟩

/-- C41: whatever the outcome of an EPB request, only the CPUs sharing EPB with the requested ones
change, and bits 3:0 of the register is all that changes in it. -/
theorem C41_epb_others (E : EpbEnv) (hS : Sharing E) (val : PyStr) (cpus : List Nat) (mnames : List Mech)
    (s : EpbSt) (hR : EpbValid64 E s) :
    let s' := (setValsApi (epbOps E) val cpus mnames s).1
    (∀ c, (∀ a ∈ cpus, E.same a c = false) → s'.files c = s.files c ∧ s'.reg c = s.reg c) ∧
    ∀ c (k : Nat), ¬ k ≤ 3 → (s'.reg c).testBit k = (s.reg c).testBit k := by
  unfold setValsApi
  split
  · exact ⟨fun _ _ => ⟨rfl, rfl⟩, fun _ _ _ => rfl⟩
  · have h := (setVals_epb_rel E hS.wf val cpus (Trivial.listDedup mnames) s hR).2
    have hno : ∀ c, (∀ a ∈ cpus, E.same a c = false) → ¬ EpbShare E cpus c := by
      rintro c hc ⟨a, ha, h⟩
      rw [hc a ha] at h; cases h
    refine ⟨fun c hc => ⟨h.files c (hno c hc), h.reg c (hno c hc)⟩, fun c k hk => h.bits c k ?_⟩
    unfold InRange epbBits
    dsimp only
    omega

/-- C41: a successful EPB request was for an acceptable value, and it set the value on every requested
CPU. -/
theorem C41_epb_sets (E : EpbEnv) (hS : Sharing E) (val : PyStr) (cpus : List Nat) (mnames : List Mech)
    (s s' : EpbSt) (m : Mech) (hR : EpbValid64 E s)
    (h : setValsApi (epbOps E) val cpus mnames s = (s', .ok m)) :
    m ∈ mnames ∧ Accepts 15 epbPolicies m val ∧
    (m = .msr → ∃ n, Num val n ∧ 0 ≤ n ∧ n ≤ 15 ∧ ∀ c ∈ cpus, EpbRegister E s' c n) ∧
    (m = .sysfs → ∀ c ∈ cpus, ∃ a cur new, E.same a c = true ∧ E.kern a cur val = .ok new ∧
      s'.files c = some new) := by
  unfold setValsApi at h
  split at h
  · cases h
  · obtain ⟨k1, k2, k3, k4⟩ := setVals_epb_ok E hS.wf val cpus _ s s' m hR h
    have ha := (accepts_iff 15 epbPolicies m val).1 k2
    refine ⟨by simpa [Trivial.listDedup] using k1, ha, ?_, ?_⟩
    · rintro rfl
      rcases ha with ⟨n, hn, h0, h1⟩ | ⟨hm, _⟩
      · refine ⟨n, hn, h0, h1, ?_⟩
        intro c hc
        obtain ⟨g2, n', g4, g5⟩ := k4 rfl c hc
        have : n' = n := by
          unfold Num at hn
          rw [hn] at g4; injection g4 with g4; exact g4.symm
        subst this
        unfold EpbRegister epbReadMsr
        simp [g2, HWP.getBits_fieldOf epbField, g5]
      · cases hm
    · intro hm c hc
      obtain ⟨a, cur, new, g1, g2, g3⟩ := k3 hm c hc
      exact ⟨a, cur, new, g2, g1, g3⟩

example : EpbValid64 exEpb exEpbSt ∧
    (setValsApi (epbOps exEpb) "15".toList [0, 3] [.msr] exEpbSt).2 = .ok .msr ∧
    (setValsApi (epbOps exEpb) "performance".toList [0, 1, 3] [.sysfs] exEpbSt).2 = .ok .sysfs := by
  refine ⟨⟨fun c => ?_, fun _ _ _ => rfl⟩, by decide +kernel, by decide +kernel⟩
  exact (show (0 : Int) ≤ 6 ∧ (6 : Int) < 2 ^ 64 by decide)

/-! ### C41: acceptance -/

theorem setVals_head {σ ν : Type} (O : Ops σ ν) (val : PyStr) (cpus : List Nat) (m : Mech) (ms : List Mech)
    (s : σ) (Inv : σ → Prop) (hi : Inv s) (hv : O.validate val (m == .sysfs) = .ok ())
    (hw : ∀ c ∈ cpus, ∀ s, Inv s → Inv (O.write m val c s).1 ∧ (O.write m val c s).2 = .ok ()) :
    (setVals O val cpus (m :: ms) s).2 = .ok m := by
  have hl : ∀ l s, Inv s → (∀ c ∈ l, c ∈ cpus) → (writeLoop O m val l s).2 = none := by
    intro l
    induction l with
    | nil => intros; rfl
    | cons c l ih =>
      intro s hs hsub
      obtain ⟨h1, h2⟩ := hw c (hsub c (List.mem_cons_self ..)) s hs
      unfold writeLoop
      cases hr : O.write m val c s with
      | mk s1 r =>
        rw [hr] at h1 h2
        dsimp only at h2
        subst h2
        exact ih s1 h1 (fun d hd => hsub d (List.mem_cons_of_mem _ hd))
  have := hl cpus s hi (fun _ h => h)
  unfold setVals
  rw [hv]
  dsimp only
  cases hr : writeLoop O m val cpus s with
  | mk s1 r =>
    rw [hr] at this
    dsimp only at this
    subst this
    rfl

theorem dedup_cons (m : Mech) (ms : List Mech) : ∃ l, Trivial.listDedup (m :: ms) = m :: l := by
  unfold Trivial.listDedup pyDedup dedupAux
  simp

/-- C41: an acceptable EPP value is set if the platform lets it: the sysfs files exist and the kernel takes
the value. What is missing: the mechanism has to be the first one (see
`C41_mechanism_order_counterexample`). -/
theorem C41_epp_accepts_sysfs_partial (E : EppEnv) (val : PyStr) (cpus : List Nat) (ms : List Mech) (s : EppSt)
    (ha : Accepts 255 E.policies .sysfs val) (hf : ∀ c ∈ cpus, s.files c ≠ none)
    (hk : ∀ c cur, ∃ new, E.kern c cur val = .ok new) :
    (setValsApi (eppOps E) val cpus (.sysfs :: ms) s).2 = .ok .sysfs := by
  obtain ⟨l, hl⟩ := dedup_cons .sysfs ms
  unfold setValsApi
  rw [if_neg (by simp), hl]
  refine setVals_head (eppOps E) val cpus .sysfs l s (fun s => ∀ c ∈ cpus, s.files c ≠ none) hf
    ((accepts_iff 255 E.policies .sysfs val).2 ha) ?_
  intro c hc s hs
  refine ⟨fun d hd h => hs d hd (((eppWriteSysfs_spec E val c s).2.1.exist d).1 h), ?_⟩
  show (eppWriteSysfs E val c s).2 = _
  unfold eppWriteSysfs
  dsimp only
  cases hfc : s.files c with
  | none => exact absurd hfc (hs c hc)
  | some cur =>
    obtain ⟨new, hn⟩ := hk c cur
    simp only [hn]
    split <;> rfl

/-- C41: the same with the MSR mechanism: the CPUs support it and the writes succeed. -/
theorem C41_epp_accepts_msr_partial (E : EppEnv) (val : PyStr) (cpus : List Nat) (ms : List Mech) (s : EppSt)
    (hR : EppValid64 s) (ha : Accepts 255 E.policies .msr val) (hh : E.hwp = true)
    (hs : ∀ c ∈ cpus, E.sup c = true) (hw : ∀ c, E.wfail c = none) :
    (setValsApi (eppOps E) val cpus (.msr :: ms) s).2 = .ok .msr := by
  obtain ⟨l, hl⟩ := dedup_cons .msr ms
  unfold setValsApi
  rw [if_neg (by simp), hl]
  refine setVals_head (eppOps E) val cpus .msr l s EppRegs hR
    ((accepts_iff 255 E.policies .msr val).2 ha) ?_
  intro c hc s hR
  refine ⟨(eppWriteMsr_spec E val c s hR).1, ?_⟩
  obtain ⟨n, hn, h0, h1⟩ : ∃ n, Num val n ∧ 0 ≤ n ∧ n ≤ 255 := by
    rcases ha with h | ⟨h, _⟩
    · exact h
    · cases h
  have hd : (eppDisablePkg E c s).2 = .ok () := by
    unfold eppDisablePkg
    split
    · rfl
    · rw [HWP.bitOn_eq HWP.pkgField]
      split
      · rename_i heq; cases heq
      · rfl
      · simp only [hs c hc]
        obtain ⟨-, -, -, -, k, -⟩ := RegFile.writeBits_field (eppRegEnv E) (eppEnvWF E) eppValidField 1 [c]
          s.req (eppUniform E _) hR
        exact k (fun a _ => hw a) (by decide) (by decide)
  show (eppWriteMsr E val c s).2 = _
  unfold eppWriteMsr
  have hR1 := (eppDisablePkg_spec E c s hR).1
  cases hds : eppDisablePkg E c s with
  | mk s1 r =>
    rw [hds] at hd hR1
    dsimp only at hd
    subst hd
    have hfv : fieldVal val = .ok (.num n) := by
      unfold fieldVal
      unfold Num at hn
      rw [if_pos (isInt_of_parse10 hn), hn]
    simp only [hh, hs c hc, hfv]
    obtain ⟨-, -, -, -, k, -⟩ := RegFile.writeBits_field (eppRegEnv E) (eppEnvWF E) eppField n [c]
      s1.req (eppUniform E _) hR1
    refine k (fun a _ => hw a) h0 ?_
    have : (2 : Int) ^ Bits.width eppBits = 256 := by decide
    omega

example : Accepts 255 exEpp.policies .msr "255".toList ∧ Accepts 255 exEpp.policies .sysfs "default".toList ∧
    (∀ c ∈ [0, 1], exEppSt.files c ≠ none) ∧ (∀ c ∈ [0, 1], exEpp.sup c = true) := by
  refine ⟨Or.inl ⟨255, by unfold Num; decide +kernel, by decide, by decide⟩,
    Or.inr ⟨rfl, by decide, by decide +kernel⟩, by decide, by decide⟩

/-- C41, the order of mechanisms: a policy name is acceptable with the sysfs mechanism, but listing "msr"
first makes the request fail without trying sysfs, unless CPU 0 is the first one of the requested CPUs. -/
theorem C41_mechanism_order_counterexample :
    (setValsApi (eppOps exEpp) "performance".toList [0, 1] [.msr, .sysfs] exEppSt).2 = .ok .sysfs ∧
    (setValsApi (eppOps exEpp) "performance".toList [1, 0] [.msr, .sysfs] exEppSt).2
      = .error .notSupported := by
  exact ⟨by decide +kernel, by decide +kernel⟩

/-- A hexadecimal number passes `is_int()`, but crashes `int()`. Nothing is written. -/
theorem C41_hexadecimal_counterexample :
    isInt "0x10".toList = true ∧
    ∀ ms, ms ≠ [] → setVals (eppOps exEpp) "0x10".toList [0] ms exEppSt = (exEppSt, .error .pyValueError) := by
  refine ⟨by decide +kernel, ?_⟩
  intro ms hne
  cases ms with
  | nil => exact absurd rfl hne
  | cons m ms =>
    have hv : (eppOps exEpp).validate "0x10".toList (m == .sysfs) = .error .pyValueError := by
      have : ∀ b, validate 255 exEpp.policies "0x10".toList b = .error .pyValueError := by
        intro b
        have h1 : isInt "0x10".toList = true := by decide +kernel
        have h2 : parse10 "0x10".toList = .error .pyValueError := by decide +kernel
        unfold validate
        rw [if_pos h1, h2]
      exact this (m == .sysfs)
    unfold setVals
    rw [hv]
    rfl

/-! ### C59 for EPP -/

/-- C59, EPP: after EPP was set via the MSR, it is not controlled by the package register on the requested
CPUs. -/
theorem C59_epp_not_controlled (E : EppEnv) (val : PyStr) (cpus : List Nat) (mnames : List Mech)
    (s s' : EppSt) (hR : EppValid64 s) (h : setValsApi (eppOps E) val cpus mnames s = (s', .ok .msr)) :
    ∀ c ∈ cpus, eppPkgControlled E c s' = .ok false := by
  unfold setValsApi at h
  split at h
  · cases h
  · obtain ⟨_, _, _, k4⟩ := setVals_epp_ok E val cpus _ s s' .msr hR h
    intro c hc
    obtain ⟨g1, g2, g3, n', g4, g5⟩ := k4 rfl c hc
    exact (eppRegister_of g1 g2 g3 g5).1

/-- C59, EPP: the CPUs which were not requested keep their register contents, and so does the package
register. -/
theorem C59_epp_others (E : EppEnv) (val : PyStr) (cpus : List Nat) (mnames : List Mech) (s : EppSt)
    (hR : EppValid64 s) :
    (setValsApi (eppOps E) val cpus mnames s).1.pkg = s.pkg ∧
    ∀ c, c ∉ cpus → (setValsApi (eppOps E) val cpus mnames s).1.req c = s.req c :=
  ⟨(C41_epp_others E val cpus mnames s hR).1, fun c hc => ((C41_epp_others E val cpus mnames s hR).2.1 c hc).2⟩

/-- CPU 0 is controlled by the package register before the request. -/
example : eppPkgControlled exEpp 0 exEppSt = .ok true ∧
    (setValsApi (eppOps exEpp) "10".toList [0] [.msr] exEppSt).2 = .ok .msr := by
  exact ⟨by decide +kernel, by decide +kernel⟩

/-! ### C42 -/

/-- C42: with one mechanism, whatever it does, the CPUs are yielded in the requested order, each of them
once, and if there is no error then all of them. -/
theorem C42_one_mechanism {σ ν : Type} (O : Ops σ ν) (cpus : List Nat) (m : Mech) (s : σ) :
    let x := getValsApi O cpus [m] s
    (x.2.1.map (·.1) <+: cpus) ∧ (∀ p ∈ x.2.1, p.2.2 = m) ∧
    (x.2.2 = .ok () → x.2.1.map (·.1) = cpus) := by
  have h := readLoop_spec O m cpus s
  show (let x := getVals O cpus [m] s
    (x.2.1.map (·.1) <+: cpus) ∧ (∀ p ∈ x.2.1, p.2.2 = m) ∧
    (x.2.2 = .ok () → x.2.1.map (·.1) = cpus))
  unfold getVals
  cases hr : readLoop O m cpus s with
  | mk s1 x =>
    rw [hr] at h
    obtain ⟨l, r⟩ := x
    dsimp only at h
    obtain ⟨h1, h2, h3⟩ := h
    cases r with
    | all =>
      dsimp only
      split
      · exact ⟨h2, h1, fun h => by cases h⟩
      · exact ⟨h2, h1, fun _ => h3 rfl⟩
    | failed e => exact ⟨h2, h1, fun h => by cases h⟩
    | noValue =>
      simp only [getVals, List.append_nil]
      exact ⟨h2, h1, fun h => by cases h⟩

/-- C42: with any mechanisms, a read which does not fail ends with a value for each of the requested CPUs
in order, all of them provided by the same mechanism. What is missing: they may be preceded by values of
some of the CPUs provided by mechanisms which turned out not to work for others. -/
theorem C42_partial {σ ν : Type} (O : Ops σ ν) (cpus : List Nat) (mnames : List Mech) (s : σ)
    (hok : (getValsApi O cpus mnames s).2.2 = .ok ()) :
    ∃ pre l m, (getValsApi O cpus mnames s).2.1 = pre ++ l ∧ m ∈ mnames ∧ l.map (·.1) = cpus ∧
      (∀ p ∈ l, p.2.2 = m) ∧ ∀ p ∈ pre, p.1 ∈ cpus := by
  unfold getValsApi at hok ⊢
  split at hok
  · cases hok
  · rename_i hne
    rw [if_neg hne]
    suffices H : ∀ ms s, (getVals O cpus ms s).2.2 = .ok () →
        ∃ pre l m, (getVals O cpus ms s).2.1 = pre ++ l ∧ m ∈ ms ∧ l.map (·.1) = cpus ∧
          (∀ p ∈ l, p.2.2 = m) ∧ ∀ p ∈ pre, p.1 ∈ cpus by
      obtain ⟨pre, l, m, h1, h2, h3⟩ := H _ s hok
      exact ⟨pre, l, m, h1, by simpa [Trivial.listDedup] using h2, h3⟩
    intro ms
    induction ms with
    | nil => intro s h; cases h
    | cons m ms ih =>
      intro s h
      have hs := readLoop_spec O m cpus s
      unfold getVals at h ⊢
      cases hr : readLoop O m cpus s with
      | mk s1 x =>
        rw [hr] at h hs
        obtain ⟨l, r⟩ := x
        dsimp only at hs
        obtain ⟨h1, h2, h3⟩ := hs
        cases r with
        | all =>
          dsimp only at h ⊢
          split
          · exact ⟨[], l, m, rfl, List.mem_cons_self .., h3 rfl, h1, fun p hp => by cases hp⟩
          · exact ⟨[], l, m, rfl, List.mem_cons_self .., h3 rfl, h1, fun p hp => by cases hp⟩
        | failed e => cases h
        | noValue =>
          dsimp only at h ⊢
          obtain ⟨pre, l', m', g1, g2, g3, g4, g5⟩ := ih s1 h
          refine ⟨l ++ pre, l', m', by rw [g1, List.append_assoc], List.mem_cons_of_mem _ g2, g3, g4, ?_⟩
          intro p hp
          rcases List.mem_append.1 hp with hp | hp
          · exact h2.subset (List.mem_map_of_mem (f := (·.1)) hp)
          · exact g5 p hp

/-- C42: if every mechanism which works for the first CPU works for all of them, then the values come from
the first mechanism which works, one per CPU in order. `f m c` is the value mechanism `m` has for CPU
`c`. -/
theorem C42_uniform {σ ν : Type} (O : Ops σ ν) (Inv : σ → Prop) (f : Mech → Nat → Option ν)
    (hread : ∀ m c s, Inv s → Inv (O.read m c s).1 ∧ (O.read m c s).2 = .ok (f m c))
    (c0 : Nat) (rest : List Nat) (mnames : List Mech) (s : σ) (hi : Inv s) (hne : mnames ≠ [])
    (hu : ∀ m ∈ mnames, (f m c0).isSome = true → ∀ c ∈ rest, (f m c).isSome = true) :
    ((getValsApi O (c0 :: rest) mnames s).2.2 = .ok () ∧
      ∃ m ∈ mnames, (getValsApi O (c0 :: rest) mnames s).2.1.map (fun p => (p.1, some p.2.1)) =
        (c0 :: rest).map (fun c => (c, f m c))) ∨
    ((getValsApi O (c0 :: rest) mnames s).2 = ([], .error .notSupported) ∧ ∀ m ∈ mnames, f m c0 = none) := by
  unfold getValsApi
  rw [if_neg (by simpa using hne)]
  have h := (getVals_values O Inv f hread c0 rest (Trivial.listDedup mnames) s hi (by
    intro m hm
    have hm : m ∈ mnames := by simpa [Trivial.listDedup] using hm
    cases hf : f m c0 with
    | none => exact Or.inr rfl
    | some v =>
      refine Or.inl ?_
      intro c hc
      rcases List.mem_cons.1 hc with rfl | hc
      · rw [hf]; rfl
      · exact hu m hm (by rw [hf]; rfl) c hc)).2
  cases hfind : (Trivial.listDedup mnames).find? (fun m => (f m c0).isSome) with
  | none =>
    rw [hfind] at h
    refine Or.inr ⟨h, ?_⟩
    intro m hm
    have := List.find?_eq_none.1 hfind m (by simpa [Trivial.listDedup] using hm)
    simpa using this
  | some m =>
    rw [hfind] at h
    have hm : m ∈ mnames := by
      have := List.mem_of_find?_eq_some hfind
      simpa [Trivial.listDedup] using this
    have hs := List.find?_some hfind
    refine Or.inl ⟨by rw [h], m, hm, ?_⟩
    rw [h]
    dsimp only
    have hall : ∀ c ∈ c0 :: rest, (f m c).isSome = true := by
      intro c hc
      rcases List.mem_cons.1 hc with rfl | hc
      · exact hs
      · exact hu m hm hs c hc
    generalize c0 :: rest = l at hall
    induction l with
    | nil => rfl
    | cons c l ih =>
      have hc := hall c (List.mem_cons_self ..)
      have := ih (fun d hd => hall d (List.mem_cons_of_mem _ hd))
      cases hf : f m c with
      | none => rw [hf] at hc; cases hc
      | some v => simp only [List.filterMap_cons, hf, Option.map_some, List.map_cons, this]

/-- C42 for EPP: the values of sysfs if all CPUs have the files, and those of the registers if they do
not. -/
theorem C42_epp (E : EppEnv) (c0 : Nat) (rest : List Nat) (s : EppSt)
    (hc : E.cacheOn = true → ∀ c v, s.cache c = some v → v = s.files c)
    (hf : ∀ c ∈ c0 :: rest, s.files c ≠ none) :
    (getValsApi (eppOps E) (c0 :: rest) [.sysfs, .msr] s).2.2 = .ok () ∧
    (getValsApi (eppOps E) (c0 :: rest) [.sysfs, .msr] s).2.1 =
      (c0 :: rest).filterMap (fun c => (s.files c).map (fun t => (c, .text t, .sysfs))) := by
  have hcoh : EppCoherent E (fun v => (s.aliases.get? v).getD []) s :=
    ⟨hc, fun v w h => by rw [h]; rfl⟩
  generalize (fun v => (s.aliases.get? v).getD []) = K at hcoh
  have h := readLoop_values (eppOps E) .sysfs (fun s1 => EppCoherent E K s1 ∧ s1.files = s.files)
    (fun c => (s.files c).map .text) (by
      intro c s1 ⟨h1, h2⟩
      obtain ⟨k1, k2, _, _, k5⟩ := eppReadSysfs_eq E K c s1 h1
      refine ⟨⟨k1, k2.trans h2⟩, ?_⟩
      rw [h2] at k5
      exact k5) (c0 :: rest) s ⟨hcoh, rfl⟩
  have h2 := h.2.1 (by
    intro c hc
    cases hfc : s.files c with
    | none => exact absurd hfc (hf c hc)
    | some t => rfl)
  show (getVals (eppOps E) (c0 :: rest) [.sysfs, .msr] s).2.2 = .ok () ∧
    (getVals (eppOps E) (c0 :: rest) [.sysfs, .msr] s).2.1 = _
  unfold getVals
  cases hr : readLoop (eppOps E) .sysfs (c0 :: rest) s with
  | mk s1 x =>
    rw [hr] at h2
    dsimp only at h2
    subst h2
    simp only [List.isEmpty_cons]
    refine ⟨rfl, ?_⟩
    show List.filterMap _ _ = List.filterMap _ _
    congr 1
    funext c
    cases s.files c <;> rfl

example : (∀ c ∈ [1, 0], exEppSt.files c ≠ none) ∧
    (getValsApi (eppOps exEpp) [1, 0] [.sysfs, .msr] exEppSt).2.1 =
      [(1, .text "balance_performance".toList, .sysfs), (0, .text "balance_performance".toList, .sysfs)] := by
  exact ⟨by decide, by decide +kernel⟩

/-- A system with the sysfs file for CPU 0 only. -/
def exMixed : EppSt := { exEppSt with files := fun c => if c = 0 then some "power".toList else none }

/-- C42 is false: if the sysfs file exists for CPU 0, but does not exist for CPU 1, CPU 0 is yielded
twice, with different values. -/
theorem C42_counterexample :
    (getValsApi (eppOps exEpp) [0, 1] [.sysfs, .msr] exMixed).2.1 =
      [(0, .text "power".toList, .sysfs), (0, .num 128, .msr), (1, .num 128, .msr)] ∧
    (getValsApi (eppOps exEpp) [0, 1] [.sysfs, .msr] exMixed).2.2 = .ok () := by
  exact ⟨by decide +kernel, by decide +kernel⟩

/-! ### C61 -/

/-- Requests. -/
inductive Op where
  | set (val : PyStr) (cpus : List Nat) (mnames : List Mech)
  | get (cpus : List Nat) (mnames : List Mech)

/-- The state after the requests. -/
def run {σ ν : Type} (O : Ops σ ν) : List Op → σ → σ
  | [], s => s
  | .set val cpus mnames :: ops, s => run O ops (setValsApi O val cpus mnames s).1
  | .get cpus mnames :: ops, s => run O ops (getValsApi O cpus mnames s).1

theorem run_inv {σ ν : Type} (O : Ops σ ν) (Inv : σ → Prop)
    (hread : ∀ m c s, Inv s → Inv (O.read m c s).1)
    (hwrite : ∀ m val c s, Inv s → Inv (O.write m val c s).1) (ops : List Op) (s : σ) (hi : Inv s) :
    Inv (run O ops s) := by
  induction ops generalizing s with
  | nil => exact hi
  | cons op ops ih =>
    cases op with
    | set val cpus mnames =>
      apply ih
      unfold setValsApi
      split
      · exact hi
      · exact setVals_inv O Inv val (fun m c s _ h => hwrite m val c s h) cpus _ s hi
    | get cpus mnames =>
      apply ih
      unfold getValsApi
      split
      · exact hi
      · exact getVals_inv O Inv hread cpus _ s hi

/-- C61 for EPP: after any requests, starting with nothing cached, sysfs reads return the contents of the
sysfs files. What is missing: this requires that the kernel translates a value the same way on all
CPUs (to `K v`), and that it refuses to write the current value only if the value is not translated. -/
theorem C61_epp_partial (E : EppEnv) (K : PyStr → PyStr)
    (hK : ∀ c cur v w, E.kern c cur v = .ok w → w = K v)
    (hE : ∀ c v e, E.kern c v v = .error e → K v = v)
    (ops : List Op) (s0 : EppSt) (h0 : ∀ c, s0.cache c = none) (ha : s0.aliases = []) (c : Nat) :
    (eppReadSysfs E c (run (eppOps E) ops s0)).2 =
      .ok (((run (eppOps E) ops s0).files c).map .text) := by
  have hc : EppCoherent E K s0 := by
    refine ⟨fun _ c v h => ?_, fun v w h => ?_⟩
    · rw [h0] at h; cases h
    · rw [ha] at h; cases h
  obtain ⟨k1, k2⟩ := epp_coherent E K hK hE
  exact (eppReadSysfs_eq E K c _ (run_inv (eppOps E) _ k1 k2 ops s0 hc)).2.2.2.2

/-- The kernel of the example. -/
example : ∃ K : PyStr → PyStr, (∀ c cur v w, exEpp.kern c cur v = .ok w → w = K v) ∧
    (∀ c v e, exEpp.kern c v v = .error e → K v = v) ∧
    (eppReadSysfs exEpp 1 (run (eppOps exEpp)
      [.get [0, 1] [.sysfs], .set ['0'] [1] [.sysfs], .set "default".toList [0] [.sysfs],
       .set ['0'] [1] [.sysfs]] exEppSt)).2 = .ok (some (.text "performance".toList)) := by
  refine ⟨fun v => if v = ['0'] then "performance".toList
    else if v = "default".toList then "balance_performance".toList else v,
    fun c cur v w h => ?_, fun c v e h => ?_, by decide +kernel⟩
  · injection h with h; exact h.symm
  · cases h

/-- A kernel translating "default" differently on the CPUs. -/
def exHybrid : EppEnv := { exEpp with
  kern := fun c _ v => .ok (if v = "default".toList then
    (if c = 0 then "balance_performance".toList else "balance_power".toList) else v) }

/-- C61 is false for EPP if the CPUs differ: after setting CPUs 0 and 1 to "default", the value
reported for CPU 1 is the one of CPU 0. -/
theorem C61_epp_counterexample :
    let s' := run (eppOps exHybrid) [.set "default".toList [0, 1] [.sysfs]] exEppSt
    s'.files 1 = some "balance_power".toList ∧
    (eppReadSysfs exHybrid 1 s').2 = .ok (some (.text "balance_performance".toList)) := by
  exact ⟨by decide +kernel, by decide +kernel⟩

/-- C61 for EPB: after any requests, starting with nothing cached, sysfs reads return the numbers in the
sysfs files. What is missing: this requires that EPB is not shared between CPUs, and that the kernel reads
numbers like Python's `int()` does and translates a policy name the same way on all CPUs (to `K v`). -/
theorem C61_epb_partial (E : EpbEnv) (K : PyStr → Int) (hs : ∀ c d, E.same c d = true ↔ c = d)
    (hN : ∀ c cur v w, E.kern c cur v = .ok w → ∃ n, Num w n ∧
      (∀ k, Num v k → n = k) ∧ (isInt v = false → n = K v))
    (ops : List Op) (s0 : EpbSt) (h0 : ∀ c, s0.cache c = none) (ha : s0.policies = [])
    (hf : ∀ c t, s0.files c = some t → ∃ n, Num t n) (c : Nat) :
    (∀ t, (run (epbOps E) ops s0).files c = some t → ∃ n, Num t n ∧
      (epbReadSysfs E c (run (epbOps E) ops s0)).2 = .ok (some n)) ∧
    ((run (epbOps E) ops s0).files c = none →
      (epbReadSysfs E c (run (epbOps E) ops s0)).2 = .ok none) := by
  have hc : EpbCoherent E K s0 := by
    refine ⟨hf, fun _ c v h => ?_, fun v w h => ?_⟩
    · rw [h0] at h; cases h
    · rw [ha] at h; cases h
  obtain ⟨k1, k2⟩ := epb_coherent E K hs hN
  have hi := run_inv (epbOps E) _ k1 k2 ops s0 hc
  have h := (epbReadSysfs_eq E K c _ hi).2.2.2.2
  refine ⟨?_, ?_⟩
  · intro t ht
    obtain ⟨n, hn⟩ := hi.num c t ht
    refine ⟨n, hn, ?_⟩
    rw [h, ht]
    simp [epbOf, hn, Except.toOption]
  · intro ht
    rw [h, ht]
    rfl

/-- A kernel which knows numbers and "performance". -/
def exKern (v : PyStr) : Except Exn PyStr :=
  if isInt v then (match parse10 v with | .ok _ => .ok v | .error _ => .error .error)
  else if v = "performance".toList then .ok ['0'] else .error .error

/-- EPB is per-CPU. -/
def exEpbCpu : EpbEnv := { exEpb with same := fun c d => c == d, kern := fun _ _ v => exKern v }

example : (∀ c d, exEpbCpu.same c d = true ↔ c = d) ∧
    (∀ c cur v w, exEpbCpu.kern c cur v = .ok w → ∃ n, Num w n ∧
      (∀ k, Num v k → n = k) ∧ (isInt v = false → n = 0)) ∧
    (epbReadSysfs exEpbCpu 1 (run (epbOps exEpbCpu)
      [.get [0, 1] [.sysfs], .set "performance".toList [1] [.sysfs]] exEpbSt)).2 = .ok (some 0) := by
  refine ⟨fun c d => ⟨fun h => eq_of_beq (show (c == d) = true from h), fun h => by rw [h]; exact beq_self_eq_true d⟩, ?_, by decide +kernel⟩
  intro c cur v w h
  replace h : exKern v = .ok w := h
  unfold exKern at h
  split at h
  · rename_i hi
    cases hp : parse10 v with
    | error e => rw [hp] at h; cases h
    | ok n =>
      rw [hp] at h
      injection h with h
      subst h
      refine ⟨n, hp, ?_, ?_⟩
      · intro k hk
        unfold Num at hk
        rw [hp] at hk; injection hk
      · intro hf; rw [hi] at hf; cases hf
  · rename_i hi
    split at h
    · injection h with h
      subst h
      refine ⟨0, by unfold Num; decide +kernel, ?_, fun _ => rfl⟩
      intro k hk
      exact absurd (isInt_of_parse10 hk) hi
    · cases h

/-- C61 is false for shared EPB: CPUs 0 and 1 share it, CPU 1 is read, CPU 0 is set to "0", and CPU 1 still
reads as 6. -/
theorem C61_epb_counterexample :
    let s' := run (epbOps exEpb) [.get [1] [.sysfs], .set ['0'] [0] [.sysfs]] exEpbSt
    s'.files 1 = some ['0'] ∧ (epbReadSysfs exEpb 1 s').2 = .ok (some 6) := by
  exact ⟨by decide +kernel, by decide +kernel⟩

end Verif.EP
