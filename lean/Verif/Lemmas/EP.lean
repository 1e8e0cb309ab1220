import Verif.Lemmas.HWP
import Verif.Model.EP
import Verif.Lemmas.Trivial

/-!
Lemmas about the EPP and EPB model.
-/

namespace Verif.EP

open Verif.Bits (BitRange FieldVal getBits InRange)
open Verif.RegFile (Reg Reg64 Upd)
open Verif.HWP (fieldOf)

variable {σ ν : Type}

/-! ### The base class -/

theorem readLoop_cons (O : Ops σ ν) (m : Mech) (c : Nat) (cpus : List Nat) (s : σ) :
    readLoop O m (c :: cpus) s = match O.read m c s with
      | (s, .error e) => (s, [], .failed e)
      | (s, .ok none) => (s, [], .noValue)
      | (s, .ok (some v)) => ((readLoop O m cpus s).1, (c, v, m) :: (readLoop O m cpus s).2.1,
          (readLoop O m cpus s).2.2) := rfl

theorem writeLoop_rel (O : Ops σ ν) (m : Mech) (val : PyStr) (R : σ → σ → Prop) (hrefl : ∀ s, R s s)
    (htrans : ∀ a b c, R a b → R b c → R a c) (cpus : List Nat)
    (hw : ∀ c ∈ cpus, ∀ s, R s (O.write m val c s).1) (s : σ) : R s (writeLoop O m val cpus s).1 := by
  induction cpus generalizing s with
  | nil => exact hrefl s
  | cons c cpus ih =>
    have h1 := hw c (List.mem_cons_self ..) s
    unfold writeLoop
    cases h : O.write m val c s with
    | mk s1 r =>
      rw [h] at h1
      cases r with
      | error e => exact h1
      | ok u => exact htrans _ _ _ h1 (ih (fun c hc => hw c (List.mem_cons_of_mem _ hc)) s1)

theorem writeLoop_post (O : Ops σ ν) (m : Mech) (val : PyStr) (Inv : σ → Prop) (Post : Nat → σ → Prop)
    (hinv : ∀ c s, Inv s → Inv (O.write m val c s).1)
    (hpost : ∀ c s, Inv s → (O.write m val c s).2 = .ok () → Post c (O.write m val c s).1)
    (hpres : ∀ c d s, c ≠ d → Inv s → Post c s → (O.write m val d s).2 = .ok () →
      Post c (O.write m val d s).1)
    (cpus : List Nat) (s s' : σ) (hi : Inv s) (h : writeLoop O m val cpus s = (s', none)) :
    (∀ c ∈ cpus, Post c s') ∧ (∀ c, Post c s → Post c s') := by
  induction cpus generalizing s with
  | nil =>
    simp only [writeLoop, Prod.mk.injEq, and_true] at h
    subst h
    exact ⟨(fun _ h => by cases h), fun _ h => h⟩
  | cons c cpus ih =>
    unfold writeLoop at h
    have k1 := hinv c s hi
    have k2 := hpost c s hi
    have k3 := fun d hd hp => hpres d c s hd hi hp
    cases hw : O.write m val c s with
    | mk s1 r =>
      rw [hw] at h k1 k2 k3
      cases r with
      | error e => cases h
      | ok u =>
        obtain ⟨i1, i2⟩ := ih s1 k1 h
        refine ⟨?_, ?_⟩
        · intro d hd
          rcases List.mem_cons.1 hd with rfl | hd
          · exact i2 _ (k2 rfl)
          · exact i1 _ hd
        · intro d hp
          apply i2
          by_cases hd : d = c
          · subst hd; exact k2 rfl
          · exact k3 d hd hp rfl

theorem setVals_rel (O : Ops σ ν) (val : PyStr) (R : σ → σ → Prop) (hrefl : ∀ s, R s s)
    (htrans : ∀ a b c, R a b → R b c → R a c) (cpus : List Nat)
    (hw : ∀ m, ∀ c ∈ cpus, ∀ s, R s (O.write m val c s).1) (ms : List Mech) (s : σ) :
    R s (setVals O val cpus ms s).1 := by
  induction ms generalizing s with
  | nil => exact hrefl s
  | cons m ms ih =>
    unfold setVals
    cases hv : O.validate val (m == .sysfs) with
    | error e =>
      dsimp only
      cases tryNext cpus 0 e with
      | error e' => exact hrefl s
      | ok b => cases b <;> first | exact ih s | exact hrefl s
    | ok u =>
      dsimp only
      have h1 := writeLoop_rel O m val R hrefl htrans cpus (hw m) s
      cases hl : writeLoop O m val cpus s with
      | mk s1 r =>
        rw [hl] at h1
        cases r with
        | none => exact h1
        | some p =>
          dsimp only
          cases tryNext cpus p.1 p.2 with
          | error e' => exact h1
          | ok b => cases b <;> first | exact htrans _ _ _ h1 (ih s1) | exact h1

theorem setVals_refused (O : Ops σ ν) (val : PyStr) (cpus : List Nat) (ms : List Mech) (s : σ)
    (h : ∀ m ∈ ms, ∃ e, O.validate val (m == .sysfs) = .error e) :
    ∃ e, setVals O val cpus ms s = (s, .error e) := by
  induction ms with
  | nil => exact ⟨_, rfl⟩
  | cons m ms ih =>
    obtain ⟨e, he⟩ := h m (List.mem_cons_self ..)
    unfold setVals
    rw [he]
    dsimp only
    cases tryNext cpus 0 e with
    | error e' => exact ⟨_, rfl⟩
    | ok b =>
      cases b
      · exact ⟨_, rfl⟩
      · exact ih (fun m hm => h m (List.mem_cons_of_mem _ hm))

theorem setVals_ok (O : Ops σ ν) (val : PyStr) (R : σ → σ → Prop) (hrefl : ∀ s, R s s)
    (htrans : ∀ a b c, R a b → R b c → R a c) (cpus : List Nat)
    (hw : ∀ m, ∀ c ∈ cpus, ∀ s, R s (O.write m val c s).1) (ms : List Mech) (s s' : σ) (m : Mech)
    (h : setVals O val cpus ms s = (s', .ok m)) :
    m ∈ ms ∧ O.validate val (m == .sysfs) = .ok () ∧
      ∃ s1, R s s1 ∧ writeLoop O m val cpus s1 = (s', none) := by
  induction ms generalizing s with
  | nil => cases h
  | cons m1 ms ih =>
    unfold setVals at h
    cases hv : O.validate val (m1 == .sysfs) with
    | error e =>
      rw [hv] at h
      dsimp only at h
      cases ht : tryNext cpus 0 e with
      | error e' => rw [ht] at h; cases h
      | ok b =>
        rw [ht] at h
        cases b with
        | false => cases h
        | true =>
          obtain ⟨k1, k2, k3⟩ := ih s h
          exact ⟨List.mem_cons_of_mem _ k1, k2, k3⟩
    | ok u =>
      rw [hv] at h
      dsimp only at h
      have h1 := writeLoop_rel O m1 val R hrefl htrans cpus (hw m1) s
      cases hl : writeLoop O m1 val cpus s with
      | mk s1 r =>
        rw [hl] at h h1
        cases r with
        | none =>
          simp only [Prod.mk.injEq, Except.ok.injEq] at h
          obtain ⟨rfl, rfl⟩ := h
          exact ⟨List.mem_cons_self .., hv, s, hrefl s, hl⟩
        | some p =>
          dsimp only at h
          cases ht : tryNext cpus p.1 p.2 with
          | error e' => rw [ht] at h; cases h
          | ok b =>
            rw [ht] at h
            cases b with
            | false => cases h
            | true =>
              obtain ⟨k1, k2, s2, k3, k4⟩ := ih s1 h
              exact ⟨List.mem_cons_of_mem _ k1, k2, s2, htrans _ _ _ h1 k3, k4⟩

/-! ### Validation -/

theorem isInt_of_parse10 {val : PyStr} {n : Int} (h : parse10 val = .ok n) : isInt val = true := by
  unfold isInt
  rw [h]
  simp [Except.isOk']

/-- What `_validate_value()` accepts. -/
theorem validate_ok {hi : Int} {policies : List PyStr} {val : PyStr} {ok : Bool} :
    validate hi policies val ok = .ok () ↔
      (∃ n, parse10 val = .ok n ∧ 0 ≤ n ∧ n ≤ hi) ∨
      (isInt val = false ∧ ok = true ∧ val ∈ policies) := by
  unfold validate
  by_cases hint : isInt val = true
  · rw [if_pos hint]
    cases hp : parse10 val with
    | error e => simp [hint]
    | ok n =>
      by_cases hr : n < 0 ∨ n > hi
      · simp only [if_pos hr, hint]
        constructor
        · intro h; cases h
        · rintro (⟨k, hk, h0, h1⟩ | ⟨h, _⟩)
          · injection hk with hk; omega
          · cases h
      · simp only [if_neg hr]
        exact ⟨fun _ => Or.inl ⟨n, rfl, by omega, by omega⟩, fun _ => trivial⟩
  · rw [if_neg hint]
    have hno : ∀ n, parse10 val ≠ .ok n := fun n h => hint (isInt_of_parse10 h)
    cases ok with
    | false =>
      simp only [Bool.not_false, if_true]
      constructor
      · intro h; cases h
      · rintro (⟨k, hk, _⟩ | ⟨_, h, _⟩)
        · exact absurd hk (hno k)
        · cases h
    | true =>
      simp only [Bool.not_true]
      by_cases hm : val ∈ policies
      · simp [hm, hint]
      · simp only [if_neg hm]
        constructor
        · intro h; cases h
        · rintro (⟨k, hk, _⟩ | ⟨_, _, h⟩)
          · exact absurd hk (hno k)
          · exact absurd h hm

/-! ### EPP -/

theorem eppField : RegFile.Field eppBits := by unfold RegFile.Field; decide
theorem eppValidField : RegFile.Field eppValidBits := by unfold RegFile.Field; decide
theorem epbField : RegFile.Field epbBits := by unfold RegFile.Field; decide

theorem eppEnvWF (E : EppEnv) : RegFile.EnvWF (eppRegEnv E) := by
  constructor <;> intros <;> simp_all [eppRegEnv]

theorem eppUniform (E : EppEnv) (R : Reg) : RegFile.Uniform (eppRegEnv E) R := by
  intro c d h
  have : c = d := by simpa [eppRegEnv] using h
  rw [this]

/-- What a request for `cpus` leaves alone. -/
structure EppFrame (cpus : List Nat) (s s' : EppSt) : Prop where
  pkg : s'.pkg = s.pkg
  files : ∀ c, c ∉ cpus → s'.files c = s.files c
  cache : ∀ c, c ∉ cpus → s'.cache c = s.cache c
  req : ∀ c, c ∉ cpus → s'.req c = s.req c
  bits : ∀ c (k : Nat), ¬ InRange eppBits k → ¬ InRange eppValidBits k →
    (s'.req c).testBit k = (s.req c).testBit k
  exist : ∀ c, (s'.files c = none ↔ s.files c = none)

theorem EppFrame.refl (cpus : List Nat) (s : EppSt) : EppFrame cpus s s :=
  ⟨rfl, fun _ _ => rfl, fun _ _ => rfl, fun _ _ => rfl, fun _ _ _ _ => rfl, fun _ => Iff.rfl⟩

theorem EppFrame.trans {cpus : List Nat} {a b c : EppSt} (h1 : EppFrame cpus a b)
    (h2 : EppFrame cpus b c) : EppFrame cpus a c where
  pkg := h2.pkg.trans h1.pkg
  files d hd := (h2.files d hd).trans (h1.files d hd)
  cache d hd := (h2.cache d hd).trans (h1.cache d hd)
  req d hd := (h2.req d hd).trans (h1.req d hd)
  bits d k h h' := (h2.bits d k h h').trans (h1.bits d k h h')
  exist d := (h2.exist d).trans (h1.exist d)

theorem EppFrame.mono {l l' : List Nat} {a b : EppSt} (h : EppFrame l a b) (hl : ∀ c ∈ l, c ∈ l') :
    EppFrame l' a b where
  pkg := h.pkg
  files d hd := h.files d (fun h => hd (hl _ h))
  cache d hd := h.cache d (fun h => hd (hl _ h))
  req d hd := h.req d (fun h => hd (hl _ h))
  bits := h.bits
  exist := h.exist

theorem setBits_notInt (r : Int) (bits : BitRange) : ∃ e, Bits.setBits r bits .notInt = .error e := by
  unfold Bits.setBits
  cases Bits.normalizeBits bits with
  | error e => exact ⟨_, rfl⟩
  | ok b =>
    exact ⟨.error, rfl⟩

/-- A register file write of the field `bits` of one CPU. -/
theorem eppWriteBits (E : EppEnv) (bits : BitRange) (hf : RegFile.Field bits) (v : FieldVal)
    (hv : v = .notInt ∨ ∃ n, v = .num n) (c : Nat) (R : Reg) (hR : ∀ c, Reg64 (R c)) :
    let w := RegFile.writeBits (eppRegEnv E) bits v [c] R
    (∀ d, Reg64 (w.1 d)) ∧ (∀ d, d ≠ c → w.1 d = R d) ∧
    (∀ d (k : Nat), ¬ InRange bits k → (w.1 d).testBit k = (R d).testBit k) ∧
    (w.2 = .ok () → ∃ n, v = .num n ∧ 0 ≤ n ∧ Upd bits n (R c) (w.1 c)) := by
  intro w
  have hw : w = RegFile.writeBits (eppRegEnv E) bits v [c] R := rfl
  clear_value w
  rcases hv with rfl | ⟨n, rfl⟩
  · obtain ⟨_, k2, k3, _, k5⟩ := RegFile.writeBits_spec (eppRegEnv E) (eppEnvWF E) bits .notInt [c] R
      (eppUniform E R)
    have hset : ∃ e, Bits.setBits (R c) bits .notInt = .error e :=
      setBits_notInt (R c) bits
    obtain ⟨e, he⟩ := k5 ⟨c, List.mem_cons_self .., hset⟩
    rw [he] at hw
    subst hw
    exact ⟨hR, fun _ _ => rfl, fun _ _ _ => rfl, fun h => by cases h⟩
  · obtain ⟨-, k2, k3, k4, -, -⟩ := RegFile.writeBits_field (eppRegEnv E) (eppEnvWF E) hf n [c] R
      (eppUniform E R) hR
    rw [← hw] at k2 k3 k4
    refine ⟨k2, ?_, ?_, ?_⟩
    · intro d hd
      rcases k3 d with h | ⟨_, ⟨a, ha, had⟩, _⟩
      · exact h
      · simp [eppRegEnv] at ha had
        omega
    · intro d k hk
      rcases k3 d with h | ⟨_, _, h⟩
      · rw [h]
      · exact h.2 k hk
    · intro hok
      have := k4 hok c (List.mem_cons_self ..) c (by simp [eppRegEnv])
      exact ⟨n, rfl, this.1, this.2⟩

/-- The registers hold 64-bit values. -/
def EppRegs (s : EppSt) : Prop := ∀ c, Reg64 (s.req c)

theorem fieldVal_cases {val : PyStr} {v : FieldVal} (h : fieldVal val = .ok v) :
    v = .notInt ∨ ∃ n, v = .num n ∧ parse10 val = .ok n := by
  unfold fieldVal at h
  split at h
  · cases hp : parse10 val with
    | error e => rw [hp] at h; cases h
    | ok n => rw [hp] at h; injection h with h; exact Or.inr ⟨n, h.symm, rfl⟩
  · injection h with h; exact Or.inl h.symm

/-- Whether EPP of CPU `c` comes from `MSR_HWP_REQUEST_PKG`. -/
def EppFree (E : EppEnv) (s : EppSt) (c : Nat) : Prop :=
  E.pkgSup c = true → fieldOf (s.req c) HWP.pkgControlBits = 1 → fieldOf (s.req c) eppValidBits = 1

theorem eppDisablePkg_spec (E : EppEnv) (c : Nat) (s : EppSt) (hR : EppRegs s) :
    EppRegs (eppDisablePkg E c s).1 ∧ EppFrame [c] s (eppDisablePkg E c s).1 ∧
    (eppDisablePkg E c s).1.files = s.files ∧
    ((eppDisablePkg E c s).2 = .ok () → EppFree E (eppDisablePkg E c s).1 c) := by
  unfold eppDisablePkg
  by_cases hp : E.pkgSup c = true
  · rw [if_neg (by simp [hp]), HWP.bitOn_eq HWP.pkgField]
    by_cases hb : fieldOf (s.req c) HWP.pkgControlBits = 1
    · have : (fieldOf (s.req c) HWP.pkgControlBits == 1) = true := by simp [hb]
      rw [this]
      dsimp only
      cases hs : E.sup c with
      | false => exact ⟨hR, EppFrame.refl _ _, rfl, fun h => by cases h⟩
      | true =>
        simp only [Bool.not_true, Bool.false_eq_true, if_false]
        obtain ⟨k1, k2, k3, k4⟩ := eppWriteBits E eppValidBits eppValidField (.num 1)
          (Or.inr ⟨1, rfl⟩) c s.req hR
        cases hw : RegFile.writeBits (eppRegEnv E) eppValidBits (.num 1) [c] s.req with
        | mk req r =>
          rw [hw] at k1 k2 k3 k4
          refine ⟨k1, ⟨rfl, fun _ _ => rfl, fun _ _ => rfl, ?_, ?_, fun _ => Iff.rfl⟩, trivial, ?_⟩
          · intro d hd; exact k2 d (by simpa using hd)
          · intro d k _ hk; exact k3 d k hk
          · intro hok _ _
            obtain ⟨n, hn, _, hu⟩ := k4 hok
            injection hn with hn
            subst hn
            exact HWP.fieldOf_eq eppValidField hu.1
    · have : (fieldOf (s.req c) HWP.pkgControlBits == 1) = false := by simp [hb]
      rw [this]
      exact ⟨hR, EppFrame.refl _ _, rfl, fun _ _ h => absurd h hb⟩
  · rw [if_pos (by simpa using hp)]
    exact ⟨hR, EppFrame.refl _ _, rfl, fun _ h => absurd h hp⟩

theorem epp_valid_disj : Bits.Disjoint eppBits eppValidBits := by unfold Bits.Disjoint; decide
theorem epp_pkg_disj : Bits.Disjoint eppBits HWP.pkgControlBits := by unfold Bits.Disjoint; decide

theorem eppWriteMsr_spec (E : EppEnv) (val : PyStr) (c : Nat) (s : EppSt) (hR : EppRegs s) :
    EppRegs (eppWriteMsr E val c s).1 ∧ EppFrame [c] s (eppWriteMsr E val c s).1 ∧
    (eppWriteMsr E val c s).1.files = s.files ∧
    ((eppWriteMsr E val c s).2 = .ok () →
      E.hwp = true ∧ E.sup c = true ∧ EppFree E (eppWriteMsr E val c s).1 c ∧
      ∃ n, parse10 val = .ok n ∧ fieldOf ((eppWriteMsr E val c s).1.req c) eppBits = n) := by
  unfold eppWriteMsr
  cases hh : E.hwp with
  | false => exact ⟨hR, EppFrame.refl _ _, rfl, fun h => by cases h⟩
  | true =>
    simp only [Bool.not_true, Bool.false_eq_true, if_false]
    obtain ⟨k1, k2, k3, k4⟩ := eppDisablePkg_spec E c s hR
    cases hd : eppDisablePkg E c s with
    | mk s1 r =>
      rw [hd] at k1 k2 k3 k4
      cases r with
      | error e => exact ⟨k1, k2, k3, fun h => by cases h⟩
      | ok u =>
        dsimp only
        cases hs : E.sup c with
        | false => exact ⟨k1, k2, k3, fun h => by cases h⟩
        | true =>
          simp only [Bool.not_true, Bool.false_eq_true, if_false]
          cases hv : fieldVal val with
          | error e => exact ⟨k1, k2, k3, fun h => by cases h⟩
          | ok v =>
            dsimp only
            have hvc := fieldVal_cases hv
            obtain ⟨j1, j2, j3, j4⟩ := eppWriteBits E eppBits eppField v
              (hvc.imp id (fun ⟨n, h, _⟩ => ⟨n, h⟩)) c s1.req k1
            cases hw : RegFile.writeBits (eppRegEnv E) eppBits v [c] s1.req with
            | mk req r =>
              rw [hw] at j1 j2 j3 j4
              have hf : EppFrame [c] s1 { s1 with req := req } := by
                refine ⟨rfl, fun _ _ => rfl, fun _ _ => rfl, ?_, ?_, fun _ => Iff.rfl⟩
                · intro d hd; exact j2 d (by simpa using hd)
                · intro d k hk _; exact j3 d k hk
              refine ⟨j1, EppFrame.trans k2 hf, k3, ?_⟩
              intro hok
              obtain ⟨n, rfl, hn, hu⟩ := j4 hok
              rcases hvc with h | ⟨n', h, hp⟩
              · cases h
              · injection h with h
                subst h
                refine ⟨trivial, trivial, ?_, n, hp, HWP.fieldOf_eq eppField hu.1⟩
                intro h1 h2
                have e1 := HWP.Upd.fieldOf hu HWP.pkgField epp_pkg_disj
                have e2 := HWP.Upd.fieldOf hu eppValidField epp_valid_disj
                dsimp only at h2 ⊢
                rw [e1] at h2
                rw [e2]
                exact k4 rfl h1 h2

/-- What CPU `c` reads in sysfs after `val` was accepted. -/
def EppKernel (E : EppEnv) (val : PyStr) (c : Nat) (s : EppSt) : Prop :=
  (∃ cur new, E.kern c cur val = .ok new ∧ s.files c = some new) ∨
  (s.files c = some val ∧ ∃ e, E.kern c val val = .error e)

theorem upd_self {α : Type} (f : Nat → α) (c : Nat) (v : α) : upd f c v c = v := by simp [upd]
theorem upd_ne {α : Type} (f : Nat → α) {c d : Nat} (v : α) (h : d ≠ c) : upd f c v d = f d := by
  simp [upd, h]

theorem cacheRemove_ne {α : Type} (on : Bool) (f : Nat → Option α) {c d : Nat} (h : d ≠ c) :
    cacheRemove on f c d = f d := by
  unfold cacheRemove; split <;> simp [upd, h]
theorem cacheAdd_ne {α : Type} (on : Bool) (f : Nat → Option α) {c d : Nat} (v : α) (h : d ≠ c) :
    cacheAdd on f c v d = f d := by
  unfold cacheAdd; split <;> simp [upd, h]

theorem eppWriteSysfs_spec (E : EppEnv) (val : PyStr) (c : Nat) (s : EppSt) :
    (eppWriteSysfs E val c s).1.req = s.req ∧ EppFrame [c] s (eppWriteSysfs E val c s).1 ∧
    ((eppWriteSysfs E val c s).2 = .ok () → EppKernel E val c (eppWriteSysfs E val c s).1) := by
  have hne : ∀ {d}, d ∉ [c] → d ≠ c := fun hd => by simpa using hd
  unfold eppWriteSysfs
  dsimp only
  cases hf : s.files c with
  | none =>
    refine ⟨rfl, ⟨rfl, fun _ _ => rfl, ?_, fun _ _ => rfl, fun _ _ _ _ => rfl, fun _ => Iff.rfl⟩,
      fun h => by cases h⟩
    intro d hd; exact cacheRemove_ne _ _ (hne hd)
  | some cur =>
    dsimp only
    cases hk : E.kern c cur val with
    | error e =>
      dsimp only
      split
      · refine ⟨rfl, ⟨rfl, fun _ _ => rfl, ?_, fun _ _ => rfl, fun _ _ _ _ => rfl, fun _ => Iff.rfl⟩,
          fun h => by cases h⟩
        intro d hd; exact cacheRemove_ne _ _ (hne hd)
      · rename_i hv
        have hv : val = cur := Decidable.not_not.1 hv
        subst hv
        refine ⟨rfl, ⟨rfl, fun _ _ => rfl, ?_, fun _ _ => rfl, fun _ _ _ _ => rfl, fun _ => Iff.rfl⟩,
          fun _ => Or.inr ⟨hf, e, hk⟩⟩
        intro d hd
        dsimp only
        rw [cacheAdd_ne _ _ _ (hne hd), cacheRemove_ne _ _ (hne hd)]
    | ok new =>
      dsimp only
      have hfiles : ∀ d, d ∉ [c] → upd s.files c (some new) d = s.files d :=
        fun d hd => upd_ne _ _ (hne hd)
      have hex : ∀ d, upd s.files c (some new) d = none ↔ s.files d = none := by
        intro d
        unfold upd
        split
        · rename_i h; subst h; simp [hf]
        · exact Iff.rfl
      cases s.aliases.get? val with
      | none =>
        refine ⟨rfl, ⟨rfl, hfiles, ?_, fun _ _ => rfl, fun _ _ _ _ => rfl, hex⟩,
          fun _ => Or.inl ⟨cur, new, hk, upd_self ..⟩⟩
        intro d hd
        dsimp only
        rw [cacheAdd_ne _ _ _ (hne hd), cacheRemove_ne _ _ (hne hd)]
      | some v1 =>
        refine ⟨rfl, ⟨rfl, hfiles, ?_, fun _ _ => rfl, fun _ _ _ _ => rfl, hex⟩,
          fun _ => Or.inl ⟨cur, new, hk, upd_self ..⟩⟩
        intro d hd
        dsimp only
        rw [cacheAdd_ne _ _ _ (hne hd), cacheRemove_ne _ _ (hne hd)]

/-- The relation between the states before and after a request for `cpus`. -/
def EppRel (cpus : List Nat) (s s' : EppSt) : Prop := EppRegs s → EppRegs s' ∧ EppFrame cpus s s'

theorem EppRel.refl (cpus : List Nat) (s : EppSt) : EppRel cpus s s := fun h => ⟨h, EppFrame.refl _ _⟩

theorem EppRel.trans {cpus : List Nat} (a b c : EppSt) (h1 : EppRel cpus a b) (h2 : EppRel cpus b c) :
    EppRel cpus a c := fun h =>
  ⟨(h2 (h1 h).1).1, EppFrame.trans (h1 h).2 (h2 (h1 h).1).2⟩

theorem eppWrite_rel (E : EppEnv) (cpus : List Nat) (m : Mech) (val : PyStr) (c : Nat) (hc : c ∈ cpus)
    (s : EppSt) : EppRel cpus s ((eppOps E).write m val c s).1 := by
  intro hR
  have hsub : ∀ d ∈ [c], d ∈ cpus := fun d hd => by
    rw [List.mem_singleton] at hd; rw [hd]; exact hc
  cases m with
  | msr =>
    obtain ⟨k1, k2, _⟩ := eppWriteMsr_spec E val c s hR
    exact ⟨k1, k2.mono hsub⟩
  | sysfs =>
    obtain ⟨k1, k2, _⟩ := eppWriteSysfs_spec E val c s
    refine ⟨?_, k2.mono hsub⟩
    show EppRegs (eppWriteSysfs E val c s).1
    unfold EppRegs
    rw [k1]
    exact hR

theorem setVals_epp_rel (E : EppEnv) (val : PyStr) (cpus : List Nat) (ms : List Mech) (s : EppSt) :
    EppRel cpus s (setVals (eppOps E) val cpus ms s).1 :=
  setVals_rel (eppOps E) val (EppRel cpus) (EppRel.refl cpus) EppRel.trans cpus
    (fun m c hc s => eppWrite_rel E cpus m val c hc s) ms s

theorem setVals_epp_ok (E : EppEnv) (val : PyStr) (cpus : List Nat) (ms : List Mech) (s s' : EppSt)
    (m : Mech) (hR : EppRegs s) (h : setVals (eppOps E) val cpus ms s = (s', .ok m)) :
    m ∈ ms ∧ validate 255 E.policies val (m == .sysfs) = .ok () ∧
    (m = .sysfs → ∀ c ∈ cpus, EppKernel E val c s') ∧
    (m = .msr → ∀ c ∈ cpus, E.hwp = true ∧ E.sup c = true ∧ EppFree E s' c ∧
      ∃ n, parse10 val = .ok n ∧ fieldOf (s'.req c) eppBits = n) := by
  obtain ⟨h1, h2, s1, h3, h4⟩ := setVals_ok (eppOps E) val (EppRel cpus) (EppRel.refl cpus) EppRel.trans
    cpus (fun m c hc s => eppWrite_rel E cpus m val c hc s) ms s s' m h
  refine ⟨h1, h2, ?_, ?_⟩
  · rintro rfl
    refine (writeLoop_post (eppOps E) .sysfs val (fun _ => True) (EppKernel E val) ?_ ?_ ?_ cpus s1 s'
      trivial h4).1
    · intros; trivial
    · intro c s _ hok
      exact (eppWriteSysfs_spec E val c s).2.2 hok
    · intro c d s hcd _ hp _
      have := (eppWriteSysfs_spec E val d s).2.1.files c (by simpa using hcd)
      show EppKernel E val c (eppWriteSysfs E val d s).1
      unfold EppKernel
      rw [this]
      exact hp
  · rintro rfl
    refine (writeLoop_post (eppOps E) .msr val EppRegs (fun c s' => E.hwp = true ∧ E.sup c = true ∧
      EppFree E s' c ∧ ∃ n, parse10 val = .ok n ∧ fieldOf (s'.req c) eppBits = n) ?_ ?_ ?_ cpus s1 s'
      (h3 hR).1 h4).1
    · intro c s hi; exact (eppWriteMsr_spec E val c s hi).1
    · intro c s hi hok
      exact (eppWriteMsr_spec E val c s hi).2.2.2 hok
    · intro c d s hcd hi hp _
      have := (eppWriteMsr_spec E val d s hi).2.1.req c (by simpa using hcd)
      show _ ∧ _ ∧ EppFree E (eppWriteMsr E val d s).1 c ∧ _
      unfold EppFree
      dsimp only [eppOps]
      rw [this]
      exact hp

/-! ### EPB -/

/-- CPUs sharing EPB. -/
def EpbShare (E : EpbEnv) (cpus : List Nat) (d : Nat) : Prop := ∃ c ∈ cpus, E.same c d = true

/-- The registers hold 64-bit values, the same ones on CPUs sharing the register. -/
def EpbRegs (E : EpbEnv) (s : EpbSt) : Prop :=
  (∀ c, Reg64 (s.reg c)) ∧ RegFile.Uniform ⟨E.same, E.wfail⟩ s.reg

/-- What a request for `cpus` leaves alone. -/
structure EpbFrame (E : EpbEnv) (cpus : List Nat) (s s' : EpbSt) : Prop where
  files : ∀ c, ¬ EpbShare E cpus c → s'.files c = s.files c
  cache : ∀ c, c ∉ cpus → s'.cache c = s.cache c
  reg : ∀ c, ¬ EpbShare E cpus c → s'.reg c = s.reg c
  bits : ∀ c (k : Nat), ¬ InRange epbBits k → (s'.reg c).testBit k = (s.reg c).testBit k
  exist : ∀ c, (s'.files c = none ↔ s.files c = none)

theorem EpbFrame.refl (E : EpbEnv) (cpus : List Nat) (s : EpbSt) : EpbFrame E cpus s s :=
  ⟨fun _ _ => rfl, fun _ _ => rfl, fun _ _ => rfl, fun _ _ _ => rfl, fun _ => Iff.rfl⟩

theorem EpbFrame.trans {E : EpbEnv} {cpus : List Nat} {a b c : EpbSt} (h1 : EpbFrame E cpus a b)
    (h2 : EpbFrame E cpus b c) : EpbFrame E cpus a c where
  files d hd := (h2.files d hd).trans (h1.files d hd)
  cache d hd := (h2.cache d hd).trans (h1.cache d hd)
  reg d hd := (h2.reg d hd).trans (h1.reg d hd)
  bits d k h := (h2.bits d k h).trans (h1.bits d k h)
  exist d := (h2.exist d).trans (h1.exist d)

theorem EpbFrame.mono {E : EpbEnv} {l l' : List Nat} {a b : EpbSt} (h : EpbFrame E l a b)
    (hl : ∀ c ∈ l, c ∈ l') : EpbFrame E l' a b where
  files d hd := h.files d (fun ⟨c, hc, h⟩ => hd ⟨c, hl _ hc, h⟩)
  cache d hd := h.cache d (fun h => hd (hl _ h))
  reg d hd := h.reg d (fun ⟨c, hc, h⟩ => hd ⟨c, hl _ hc, h⟩)
  bits := h.bits
  exist := h.exist

theorem epbWriteMsr_spec (E : EpbEnv) (w : RegFile.EnvWF ⟨E.same, E.wfail⟩) (val : PyStr) (c : Nat)
    (s : EpbSt) (hR : EpbRegs E s) :
    EpbRegs E (epbWriteMsr E val c s).1 ∧ EpbFrame E [c] s (epbWriteMsr E val c s).1 ∧
    (epbWriteMsr E val c s).1.files = s.files ∧
    ((epbWriteMsr E val c s).2 = .ok () → E.sup c = true ∧
      ∃ n, parse10 val = .ok n ∧
        ∀ d, E.same c d = true → fieldOf ((epbWriteMsr E val c s).1.reg d) epbBits = n) := by
  unfold epbWriteMsr
  cases hs : E.sup c with
  | false => exact ⟨hR, EpbFrame.refl _ _ _, rfl, fun h => by cases h⟩
  | true =>
    simp only [Bool.not_true, Bool.false_eq_true, if_false]
    cases hv : fieldVal val with
    | error e => exact ⟨hR, EpbFrame.refl _ _ _, rfl, fun h => by cases h⟩
    | ok v =>
      dsimp only
      rcases fieldVal_cases hv with rfl | ⟨n, rfl, hp⟩
      · obtain ⟨_, _, _, _, k5⟩ := RegFile.writeBits_spec ⟨E.same, E.wfail⟩ w epbBits .notInt [c]
          s.reg hR.2
        obtain ⟨e, he⟩ := k5 ⟨c, List.mem_cons_self .., setBits_notInt (s.reg c) epbBits⟩
        rw [he]
        exact ⟨hR, EpbFrame.refl _ _ _, rfl, fun h => by cases h⟩
      · obtain ⟨k1, k2, k3, k4, -, -⟩ := RegFile.writeBits_field ⟨E.same, E.wfail⟩ w epbField n [c]
          s.reg hR.2 hR.1
        cases hw : RegFile.writeBits ⟨E.same, E.wfail⟩ epbBits (.num n) [c] s.reg with
        | mk reg r =>
          rw [hw] at k1 k2 k3 k4
          refine ⟨⟨k2, k1⟩, ⟨fun _ _ => rfl, fun _ _ => rfl, ?_, ?_, fun _ => Iff.rfl⟩, rfl, ?_⟩
          · intro d hd
            rcases k3 d with h | ⟨_, h, _⟩
            · exact h
            · exact absurd h hd
          · intro d k hk
            rcases k3 d with h | ⟨_, _, h⟩
            · exact congrArg (Int.testBit · k) h
            · exact h.2 k hk
          · intro hok
            refine ⟨trivial, n, hp, fun d hd => ?_⟩
            exact HWP.fieldOf_eq epbField (k4 hok c (List.mem_cons_self ..) d hd).2.1

theorem epbReadSysfs_frame (E : EpbEnv) (c : Nat) (s : EpbSt) :
    (epbReadSysfs E c s).1.files = s.files ∧ (epbReadSysfs E c s).1.reg = s.reg ∧
    (∀ d, d ≠ c → (epbReadSysfs E c s).1.cache d = s.cache d) := by
  unfold epbReadSysfs
  split
  · exact ⟨rfl, rfl, fun _ _ => rfl⟩
  · split
    · exact ⟨rfl, rfl, fun d hd => cacheAdd_ne _ _ _ hd⟩
    · split
      · exact ⟨rfl, rfl, fun _ _ => rfl⟩
      · exact ⟨rfl, rfl, fun d hd => cacheAdd_ne _ _ _ hd⟩

/-- What CPU `c` reads in sysfs after `val` was accepted. -/
def EpbKernel (E : EpbEnv) (val : PyStr) (c : Nat) (s : EpbSt) : Prop :=
  ∃ a cur new, E.kern a cur val = .ok new ∧ E.same a c = true ∧ s.files c = some new

theorem epbWriteSysfs_spec (E : EpbEnv) (val : PyStr) (c : Nat)
    (s : EpbSt) :
    (epbWriteSysfs E val c s).1.reg = s.reg ∧ EpbFrame E [c] s (epbWriteSysfs E val c s).1 ∧
    ((epbWriteSysfs E val c s).2 = .ok () → ∃ cur new, s.files c = some cur ∧ E.kern c cur val = .ok new ∧
      ∀ d, (epbWriteSysfs E val c s).1.files d =
        if E.same c d then (s.files d).map (fun _ => new) else s.files d) := by
  have hne : ∀ {d}, d ∉ [c] → d ≠ c := fun hd => by simpa using hd
  unfold epbWriteSysfs
  dsimp only
  cases hf : s.files c with
  | none =>
    refine ⟨rfl, ⟨fun _ _ => rfl, ?_, fun _ _ => rfl, fun _ _ _ => rfl, fun _ => Iff.rfl⟩,
      fun h => by cases h⟩
    intro d hd; exact cacheRemove_ne _ _ (hne hd)
  | some cur =>
    dsimp only
    cases hk : E.kern c cur val with
    | error e =>
      refine ⟨rfl, ⟨fun _ _ => rfl, ?_, fun _ _ => rfl, fun _ _ _ => rfl, fun _ => Iff.rfl⟩,
        fun h => by cases h⟩
      intro d hd; exact cacheRemove_ne _ _ (hne hd)
    | ok new =>
      dsimp only
      -- Everything after the write changes the cache of CPU `c` and the policies only.
      suffices H : ∀ (x : EpbSt × Except Exn Unit),
          x.1.reg = s.reg →
          (x.1.files = fun d => if E.same c d then (s.files d).map (fun _ => new) else s.files d) →
          (∀ d, d ≠ c → x.1.cache d = s.cache d) →
          x.1.reg = s.reg ∧ EpbFrame E [c] s x.1 ∧
          (x.2 = .ok () → ∃ cur' new', some cur = some cur' ∧ E.kern c cur' val = .ok new' ∧
            ∀ d, x.1.files d = if E.same c d then (s.files d).map (fun _ => new') else s.files d) by
        split
        · split
          · split
            · refine H _ rfl rfl (fun d hd => ?_)
              dsimp only
              rw [cacheAdd_ne _ _ _ hd, cacheRemove_ne _ _ hd]
            · have hr := epbReadSysfs_frame E c { s with
                cache := cacheRemove E.cacheOn s.cache c,
                files := fun d => if E.same c d then (s.files d).map (fun _ => new) else s.files d }
              split <;> rename_i heq <;> rw [heq] at hr <;>
                refine H _ hr.2.1 hr.1 (fun d hd => ?_) <;>
                first
                  | exact (hr.2.2 d hd).trans (cacheRemove_ne _ _ hd)
                  | (dsimp only; rw [cacheAdd_ne _ _ _ hd];
                     exact (hr.2.2 d hd).trans (cacheRemove_ne _ _ hd))
          · have hr := epbReadSysfs_frame E c { s with
              cache := cacheRemove E.cacheOn s.cache c,
              files := fun d => if E.same c d then (s.files d).map (fun _ => new) else s.files d }
            split <;> rename_i heq <;> rw [heq] at hr <;>
              refine H _ hr.2.1 hr.1 (fun d hd => ?_) <;>
              first
                | exact (hr.2.2 d hd).trans (cacheRemove_ne _ _ hd)
                | (dsimp only; rw [cacheAdd_ne _ _ _ hd];
                   exact (hr.2.2 d hd).trans (cacheRemove_ne _ _ hd))
        · split
          · exact H _ rfl rfl (fun d hd => cacheRemove_ne _ _ hd)
          · refine H _ rfl rfl (fun d hd => ?_)
            dsimp only
            rw [cacheAdd_ne _ _ _ hd, cacheRemove_ne _ _ hd]
      intro x h1 h2 h3
      refine ⟨h1, ⟨?_, ?_, ?_, ?_, ?_⟩, fun _ => ⟨cur, new, rfl, hk, fun d => by rw [h2]⟩⟩
      · intro d hd
        have : E.same c d = false := by
          cases h : E.same c d
          · rfl
          · exact absurd ⟨c, List.mem_cons_self .., h⟩ hd
        rw [h2]; simp [this]
      · intro d hd; exact h3 d (hne hd)
      · intro d _; rw [h1]
      · intro d k _; rw [h1]
      · intro d
        rw [h2]
        dsimp only
        split
        · cases s.files d <;> simp
        · exact Iff.rfl

/-- The relation between the states before and after a request for `cpus`. -/
def EpbRel (E : EpbEnv) (cpus : List Nat) (s s' : EpbSt) : Prop :=
  EpbRegs E s → EpbRegs E s' ∧ EpbFrame E cpus s s'

theorem EpbRel.refl (E : EpbEnv) (cpus : List Nat) (s : EpbSt) : EpbRel E cpus s s :=
  fun h => ⟨h, EpbFrame.refl _ _ _⟩

theorem EpbRel.trans {E : EpbEnv} {cpus : List Nat} (a b c : EpbSt) (h1 : EpbRel E cpus a b)
    (h2 : EpbRel E cpus b c) : EpbRel E cpus a c := fun h =>
  ⟨(h2 (h1 h).1).1, EpbFrame.trans (h1 h).2 (h2 (h1 h).1).2⟩

theorem epbWrite_rel (E : EpbEnv) (w : RegFile.EnvWF ⟨E.same, E.wfail⟩) (cpus : List Nat) (m : Mech)
    (val : PyStr) (c : Nat) (hc : c ∈ cpus) (s : EpbSt) :
    EpbRel E cpus s ((epbOps E).write m val c s).1 := by
  intro hR
  have hsub : ∀ d ∈ [c], d ∈ cpus := fun d hd => by
    rw [List.mem_singleton] at hd; rw [hd]; exact hc
  cases m with
  | msr =>
    obtain ⟨k1, k2, _⟩ := epbWriteMsr_spec E w val c s hR
    exact ⟨k1, k2.mono hsub⟩
  | sysfs =>
    obtain ⟨k1, k2, _⟩ := epbWriteSysfs_spec E val c s
    refine ⟨?_, k2.mono hsub⟩
    show EpbRegs E (epbWriteSysfs E val c s).1
    unfold EpbRegs
    rw [k1]
    exact hR

theorem setVals_epb_rel (E : EpbEnv) (w : RegFile.EnvWF ⟨E.same, E.wfail⟩) (val : PyStr)
    (cpus : List Nat) (ms : List Mech) (s : EpbSt) :
    EpbRel E cpus s (setVals (epbOps E) val cpus ms s).1 :=
  setVals_rel (epbOps E) val (EpbRel E cpus) (EpbRel.refl E cpus) EpbRel.trans cpus
    (fun m c hc s => epbWrite_rel E w cpus m val c hc s) ms s

theorem setVals_epb_ok (E : EpbEnv) (w : RegFile.EnvWF ⟨E.same, E.wfail⟩) (val : PyStr)
    (cpus : List Nat) (ms : List Mech) (s s' : EpbSt)
    (m : Mech) (hR : EpbRegs E s) (h : setVals (epbOps E) val cpus ms s = (s', .ok m)) :
    m ∈ ms ∧ validate 15 epbPolicies val (m == .sysfs) = .ok () ∧
    (m = .sysfs → ∀ c ∈ cpus, EpbKernel E val c s') ∧
    (m = .msr → ∀ c ∈ cpus, E.sup c = true ∧
      ∃ n, parse10 val = .ok n ∧ fieldOf (s'.reg c) epbBits = n) := by
  obtain ⟨h1, h2, s1, h3, h4⟩ := setVals_ok (epbOps E) val (EpbRel E cpus) (EpbRel.refl E cpus)
    EpbRel.trans cpus (fun m c hc s => epbWrite_rel E w cpus m val c hc s) ms s s' m h
  refine ⟨h1, h2, ?_, ?_⟩
  · rintro rfl
    refine (writeLoop_post (epbOps E) .sysfs val (fun _ => True) (EpbKernel E val) ?_ ?_ ?_ cpus s1 s'
      trivial h4).1
    · intros; trivial
    · intro c s _ hok
      obtain ⟨cur, new, hf, hk, hd⟩ := (epbWriteSysfs_spec E val c s).2.2 hok
      refine ⟨c, cur, new, hk, w.refl c, ?_⟩
      have := hd c
      have hr : E.same c c = true := w.refl c
      rw [if_pos hr, hf] at this
      exact this
    · intro c d s hcd _ hp hok
      obtain ⟨cur, new, hf, hk, hd⟩ := (epbWriteSysfs_spec E val d s).2.2 hok
      obtain ⟨a, cur', new', hk', ha, hf'⟩ := hp
      have := hd c
      cases hs : E.same d c with
      | true =>
        rw [if_pos hs, hf'] at this
        exact ⟨d, cur, new, hk, hs, this⟩
      | false =>
        rw [if_neg (by simp [hs]), hf'] at this
        exact ⟨a, cur', new', hk', ha, this⟩
  · rintro rfl
    refine (writeLoop_post (epbOps E) .msr val (EpbRegs E) (fun c s' => E.sup c = true ∧
      ∃ n, parse10 val = .ok n ∧ fieldOf (s'.reg c) epbBits = n) ?_ ?_ ?_ cpus s1 s'
      (h3 hR).1 h4).1
    · intro c s hi; exact (epbWriteMsr_spec E w val c s hi).1
    · intro c s hi hok
      obtain ⟨k1, n, k2, k3⟩ := (epbWriteMsr_spec E w val c s hi).2.2.2 hok
      exact ⟨k1, n, k2, k3 c (w.refl c)⟩
    · intro c d s hcd hi hp hok
      obtain ⟨k0, n, hn, hp⟩ := hp
      refine ⟨k0, n, hn, ?_⟩
      obtain ⟨_, n', hn', k3⟩ := (epbWriteMsr_spec E w val d s hi).2.2.2 hok
      have : n' = n := by rw [hn] at hn'; injection hn' with h; exact h.symm
      subst this
      cases hs : E.same d c with
      | true => exact k3 c hs
      | false =>
        have := (epbWriteMsr_spec E w val d s hi).2.1.reg c (by
          rintro ⟨a, ha, h⟩
          rw [List.mem_singleton] at ha
          subst ha
          rw [hs] at h; cases h)
        show fieldOf ((epbWriteMsr E val d s).1.reg c) epbBits = _
        rw [this]
        exact hp

/-! ### Numbers -/

theorem parse10_ofNat (n : Nat) : parse10 (PyStr.ofNat n) = .ok (n : Int) := by
  unfold parse10
  rw [Trivial.strip_ofNat]
  cases h : PyStr.ofNat n with
  | nil => exact absurd h (PyStr.ofNat_ne_nil n)
  | cons c s =>
    have h1 : c ≠ '-' := fun e => PyStr.ofNat_not_mem n (c := '-') (by decide) (by rw [h, e]; simp)
    have h2 : c ≠ '+' := fun e => PyStr.ofNat_not_mem n (c := '+') (by decide) (by rw [h, e]; simp)
    have h3 := Trivial.parseDigits_ofNat n
    rw [h] at h3
    split
    · rename_i heq; exact absurd (List.cons.inj heq).1 h1
    · rename_i heq; exact absurd (List.cons.inj heq).1 h2
    · rw [h3]; rfl

/-! ### Reading -/

theorem readLoop_spec (O : Ops σ ν) (m : Mech) (cpus : List Nat) (s : σ) :
    let x := readLoop O m cpus s
    (∀ p ∈ x.2.1, p.2.2 = m) ∧ (x.2.1.map (·.1) <+: cpus) ∧
    (x.2.2 = .all → x.2.1.map (·.1) = cpus) := by
  induction cpus generalizing s with
  | nil => exact ⟨(fun p hp => by cases hp), List.prefix_refl _, fun _ => rfl⟩
  | cons c cpus ih =>
    intro x
    have hx : x = readLoop O m (c :: cpus) s := rfl
    clear_value x
    rw [readLoop_cons] at hx
    cases hr : O.read m c s with
    | mk s1 r =>
      rw [hr] at hx
      cases r with
      | error e =>
        subst hx
        exact ⟨(fun p hp => by cases hp), List.nil_prefix, fun h => by cases h⟩
      | ok o =>
        cases o with
        | none =>
          subst hx
          exact ⟨(fun p hp => by cases hp), List.nil_prefix, fun h => by cases h⟩
        | some v =>
          dsimp only at hx
          obtain ⟨i1, i2, i3⟩ := ih s1
          subst hx
          refine ⟨?_, ?_, ?_⟩
          · intro p hp
            rcases List.mem_cons.1 hp with rfl | hp
            · rfl
            · exact i1 p hp
          · simp only [List.map_cons]
            exact List.cons_prefix_cons.2 ⟨rfl, i2⟩
          · intro h
            simp only [List.map_cons]
            rw [i3 h]

theorem readLoop_values (O : Ops σ ν) (m : Mech) (Inv : σ → Prop) (f : Nat → Option ν)
    (hread : ∀ c s, Inv s → Inv (O.read m c s).1 ∧ (O.read m c s).2 = .ok (f c))
    (cpus : List Nat) (s : σ) (hi : Inv s) :
    Inv (readLoop O m cpus s).1 ∧
    ((∀ c ∈ cpus, (f c).isSome = true) →
      (readLoop O m cpus s).2 = (cpus.filterMap (fun c => (f c).map (fun v => (c, v, m))), .all)) ∧
    (∀ c rest, cpus = c :: rest → f c = none → (readLoop O m cpus s).2 = ([], .noValue)) := by
  induction cpus generalizing s with
  | nil => exact ⟨hi, fun _ => rfl, fun c r h => by cases h⟩
  | cons c cpus ih =>
    rw [readLoop_cons]
    obtain ⟨h1, h2⟩ := hread c s hi
    cases hr : O.read m c s with
    | mk s1 r =>
      rw [hr] at h1 h2
      dsimp only at h1 h2
      subst h2
      cases hf : f c with
      | none =>
        refine ⟨h1, ?_, fun _ _ _ _ => rfl⟩
        intro h
        have := h c (List.mem_cons_self ..)
        rw [hf] at this; cases this
      | some v =>
        dsimp only
        obtain ⟨i1, i2, i3⟩ := ih s1 h1
        refine ⟨i1, ?_, ?_⟩
        · intro h
          rw [i2 (fun d hd => h d (List.mem_cons_of_mem _ hd))]
          simp [hf]
        · intro d rest he hd
          injection he with he _
          subst he
          rw [hf] at hd; cases hd

/-- The mechanism which reading uses. -/
theorem getVals_values (O : Ops σ ν) (Inv : σ → Prop) (f : Mech → Nat → Option ν)
    (hread : ∀ m c s, Inv s → Inv (O.read m c s).1 ∧ (O.read m c s).2 = .ok (f m c))
    (c0 : Nat) (rest : List Nat) (ms : List Mech) (s : σ) (hi : Inv s)
    (hu : ∀ m ∈ ms, (∀ c ∈ c0 :: rest, (f m c).isSome = true) ∨ f m c0 = none) :
    Inv (getVals O (c0 :: rest) ms s).1 ∧
    (getVals O (c0 :: rest) ms s).2 = match ms.find? (fun m => (f m c0).isSome) with
      | some m => ((c0 :: rest).filterMap (fun c => (f m c).map (fun v => (c, v, m))), .ok ())
      | none => ([], .error .notSupported) := by
  induction ms generalizing s with
  | nil => exact ⟨hi, rfl⟩
  | cons m ms ih =>
    obtain ⟨k1, k2, k3⟩ := readLoop_values O m Inv (f m) (hread m) (c0 :: rest) s hi
    rcases hu m (List.mem_cons_self ..) with h | h
    · have h0 := h c0 (List.mem_cons_self ..)
      have k2 := k2 h
      unfold getVals
      cases hr : readLoop O m (c0 :: rest) s with
      | mk s1 x =>
        rw [hr] at k1 k2
        dsimp only at k2
        subst k2
        simp only [List.find?_cons, h0, List.isEmpty_cons]
        exact ⟨k1, rfl⟩
    · have k3 := k3 c0 rest rfl h
      obtain ⟨i1, i2⟩ := ih (readLoop O m (c0 :: rest) s).1 k1 (fun m hm => hu m (List.mem_cons_of_mem _ hm))
      unfold getVals
      cases hr : readLoop O m (c0 :: rest) s with
      | mk s1 x =>
        rw [hr] at k3 i1 i2
        dsimp only at k3 i1 i2
        subst k3
        simp only [List.find?_cons, h, Option.isSome_none, List.nil_append]
        refine ⟨i1, ?_⟩
        exact i2

/-! ### Coherence of the caches -/

theorem getVals_inv (O : Ops σ ν) (Inv : σ → Prop) (hread : ∀ m c s, Inv s → Inv (O.read m c s).1)
    (cpus : List Nat) (ms : List Mech) (s : σ) (hi : Inv s) : Inv (getVals O cpus ms s).1 := by
  have hloop : ∀ m l s, Inv s → Inv (readLoop O m l s).1 := by
    intro m l
    induction l with
    | nil => exact fun s h => h
    | cons c l ih =>
      intro s h
      rw [readLoop_cons]
      have h1 := hread m c s h
      cases hr : O.read m c s with
      | mk s1 r =>
        rw [hr] at h1
        cases r with
        | error e => exact h1
        | ok o =>
          cases o with
          | none => exact h1
          | some v => exact ih s1 h1
  induction ms generalizing s with
  | nil => exact hi
  | cons m ms ih =>
    have h1 := hloop m cpus s hi
    unfold getVals
    cases hr : readLoop O m cpus s with
    | mk s1 x =>
      rw [hr] at h1
      obtain ⟨l, r⟩ := x
      cases r with
      | all => dsimp only; split <;> exact h1
      | failed e => exact h1
      | noValue => exact ih s1 h1

theorem setVals_inv (O : Ops σ ν) (Inv : σ → Prop) (val : PyStr)
    (hw : ∀ m c s, O.validate val (m == .sysfs) = .ok () → Inv s → Inv (O.write m val c s).1)
    (cpus : List Nat) (ms : List Mech) (s : σ) (hi : Inv s) : Inv (setVals O val cpus ms s).1 := by
  have hloop : ∀ m l s, O.validate val (m == .sysfs) = .ok () → Inv s → Inv (writeLoop O m val l s).1 :=
    fun m l s hv h =>
      writeLoop_rel O m val (fun a b => Inv a → Inv b) (fun _ h => h) (fun _ _ _ f g h => g (f h)) l
        (fun c _ s => hw m c s hv) s h
  induction ms generalizing s with
  | nil => exact hi
  | cons m ms ih =>
    unfold setVals
    cases hv : O.validate val (m == .sysfs) with
    | error e =>
      dsimp only
      cases tryNext cpus 0 e with
      | error e' => exact hi
      | ok b => cases b <;> first | exact ih s hi | exact hi
    | ok u =>
      dsimp only
      have h1 := hloop m cpus s hv hi
      cases hl : writeLoop O m val cpus s with
      | mk s1 r =>
        rw [hl] at h1
        cases r with
        | none => exact h1
        | some p =>
          dsimp only
          cases tryNext cpus p.1 p.2 with
          | error e' => exact h1
          | ok b => cases b <;> first | exact ih s1 h1 | exact h1

/-- The cache holds what sysfs holds, and the aliases are what the kernel translates values to. -/
structure EppCoherent (E : EppEnv) (K : PyStr → PyStr) (s : EppSt) : Prop where
  cache : E.cacheOn = true → ∀ c v, s.cache c = some v → v = s.files c
  aliases : ∀ v w, s.aliases.get? v = some w → w = K v

theorem cacheAdd_coherent {α : Type} {on : Bool} {cache : Nat → Option α} {f : Nat → α} {c : Nat} {v : α}
    (h : on = true → ∀ d w, d ≠ c → cache d = some w → w = f d) (hv : on = true → v = f c) :
    on = true → ∀ d w, cacheAdd on cache c v d = some w → w = f d := by
  intro ho d w
  unfold cacheAdd upd
  rw [if_pos ho]
  split
  · rename_i hd; subst hd
    intro he; injection he with he; rw [← he]; exact hv ho
  · rename_i hd; exact h ho d w hd

theorem cacheRemove_coherent {α : Type} {on : Bool} {cache : Nat → Option α} {f : Nat → α} {c : Nat}
    (h : on = true → ∀ d w, d ≠ c → cache d = some w → w = f d) :
    on = true → ∀ d w, cacheRemove on cache c d = some w → w = f d := by
  intro ho d w
  unfold cacheRemove upd
  rw [if_pos ho]
  split
  · intro he; cases he
  · rename_i hd; exact h ho d w hd

theorem eppReadSysfs_eq (E : EppEnv) (K : PyStr → PyStr) (c : Nat) (s : EppSt) (h : EppCoherent E K s) :
    EppCoherent E K (eppReadSysfs E c s).1 ∧ (eppReadSysfs E c s).1.files = s.files ∧
    (eppReadSysfs E c s).1.req = s.req ∧ (eppReadSysfs E c s).1.pkg = s.pkg ∧
    (eppReadSysfs E c s).2 = .ok ((s.files c).map .text) := by
  unfold eppReadSysfs
  split
  · rename_i v hv
    split at hv
    · rename_i hon
      rw [h.cache hon c v hv]
      exact ⟨h, rfl, rfl, rfl, rfl⟩
    · cases hv
  · refine ⟨⟨?_, h.aliases⟩, rfl, rfl, rfl, rfl⟩
    exact cacheAdd_coherent (fun ho d w _ => h.cache ho d w) (fun _ => rfl)

theorem eppReadMsr_state (E : EppEnv) (c : Nat) (s : EppSt) : (eppReadMsr E c s).1 = s := by
  unfold eppReadMsr
  split
  · rfl
  · split
    · rfl
    · split
      · rfl
      · split <;> rfl

theorem eppWriteSysfs_coherent (E : EppEnv) (K : PyStr → PyStr)
    (hK : ∀ c cur v w, E.kern c cur v = .ok w → w = K v)
    (hE : ∀ c v e, E.kern c v v = .error e → K v = v)
    (val : PyStr) (c : Nat) (s : EppSt) (h : EppCoherent E K s) :
    EppCoherent E K (eppWriteSysfs E val c s).1 := by
  have hrem : ∀ f : Nat → Option PyStr, (∀ d, d ≠ c → f d = s.files d) → E.cacheOn = true →
      ∀ d w, d ≠ c → cacheRemove E.cacheOn s.cache c d = some w → w = f d := by
    intro f hf ho d w hd hw
    rw [cacheRemove_ne _ _ hd] at hw
    rw [hf d hd]
    exact h.cache ho d w hw
  have hset : ∀ w, w = K val → ∀ v u, (s.aliases.set val w).get? v = some u → u = K v := by
    intro w hw v u hu
    rw [Dict.get?_set] at hu
    split at hu
    · rename_i hv; injection hu with hu; rw [← hu, hw]
      rw [hv]
    · exact h.aliases v u hu
  unfold eppWriteSysfs
  dsimp only
  cases hf : s.files c with
  | none => exact ⟨cacheRemove_coherent (fun ho d w _ => h.cache ho d w), h.aliases⟩
  | some cur =>
    dsimp only
    cases hk : E.kern c cur val with
    | error e =>
      dsimp only
      split
      · exact ⟨cacheRemove_coherent (fun ho d w _ => h.cache ho d w), h.aliases⟩
      · rename_i hv
        have hv : val = cur := Decidable.not_not.1 hv
        subst hv
        exact ⟨cacheAdd_coherent (hrem _ (fun _ _ => rfl)) (fun _ => hf.symm), hset _ (hE c val e hk).symm⟩
    | ok new =>
      dsimp only
      have hn := hK c cur val new hk
      cases ha : s.aliases.get? val with
      | none =>
        exact ⟨cacheAdd_coherent (hrem _ (fun d hd => upd_ne _ _ hd)) (fun _ => (upd_self ..).symm), hset _ hn⟩
      | some v1 =>
        refine ⟨cacheAdd_coherent (hrem _ (fun d hd => upd_ne _ _ hd)) (fun _ => ?_), h.aliases⟩
        show some v1 = upd s.files c (some new) c
        rw [upd_self, h.aliases val v1 ha, hn]

theorem eppDisablePkg_soft (E : EppEnv) (c : Nat) (s : EppSt) :
    (eppDisablePkg E c s).1.files = s.files ∧ (eppDisablePkg E c s).1.cache = s.cache ∧
    (eppDisablePkg E c s).1.aliases = s.aliases := by
  unfold eppDisablePkg
  split
  · exact ⟨rfl, rfl, rfl⟩
  · split
    · exact ⟨rfl, rfl, rfl⟩
    · exact ⟨rfl, rfl, rfl⟩
    · split <;> exact ⟨rfl, rfl, rfl⟩

theorem eppWriteMsr_soft (E : EppEnv) (val : PyStr) (c : Nat) (s : EppSt) :
    (eppWriteMsr E val c s).1.files = s.files ∧ (eppWriteMsr E val c s).1.cache = s.cache ∧
    (eppWriteMsr E val c s).1.aliases = s.aliases := by
  have h := eppDisablePkg_soft E c s
  unfold eppWriteMsr
  split
  · exact ⟨rfl, rfl, rfl⟩
  · cases hd : eppDisablePkg E c s with
    | mk s1 r =>
      rw [hd] at h
      cases r with
      | error e => exact h
      | ok u =>
        dsimp only
        split
        · exact h
        · split <;> exact h

theorem epp_coherent (E : EppEnv) (K : PyStr → PyStr)
    (hK : ∀ c cur v w, E.kern c cur v = .ok w → w = K v)
    (hE : ∀ c v e, E.kern c v v = .error e → K v = v) :
    (∀ m c s, EppCoherent E K s → EppCoherent E K ((eppOps E).read m c s).1) ∧
    (∀ m val c s, EppCoherent E K s → EppCoherent E K ((eppOps E).write m val c s).1) := by
  refine ⟨?_, ?_⟩
  · intro m c s h
    cases m with
    | sysfs => exact (eppReadSysfs_eq E K c s h).1
    | msr =>
      show EppCoherent E K (eppReadMsr E c s).1
      rw [eppReadMsr_state]; exact h
  · intro m val c s h
    cases m with
    | sysfs => exact eppWriteSysfs_coherent E K hK hE val c s h
    | msr =>
      obtain ⟨k1, k2, k3⟩ := eppWriteMsr_soft E val c s
      refine ⟨?_, ?_⟩
      · show _ → ∀ c1 v, (eppWriteMsr E val c s).1.cache c1 = some v → v = (eppWriteMsr E val c s).1.files c1
        rw [k1, k2]; exact h.cache
      · show ∀ v w, (eppWriteMsr E val c s).1.aliases.get? v = some w → w = K v
        rw [k3]; exact h.aliases

/-- The value of an EPB sysfs file. -/
def epbOf (f : Option PyStr) : Option Int := f.bind (fun t => (parse10 t).toOption)

/-- The cache holds what sysfs holds, and the policies are what the kernel translates them to. -/
structure EpbCoherent (E : EpbEnv) (K : PyStr → Int) (s : EpbSt) : Prop where
  num : ∀ c t, s.files c = some t → ∃ n, parse10 t = .ok n
  cache : E.cacheOn = true → ∀ c v, s.cache c = some v → v = epbOf (s.files c)
  policies : ∀ v n, s.policies.get? v = some n → n = K v

theorem epbReadSysfs_eq (E : EpbEnv) (K : PyStr → Int) (c : Nat) (s : EpbSt) (h : EpbCoherent E K s) :
    EpbCoherent E K (epbReadSysfs E c s).1 ∧ (epbReadSysfs E c s).1.files = s.files ∧
    (epbReadSysfs E c s).1.reg = s.reg ∧ (epbReadSysfs E c s).1.policies = s.policies ∧
    (epbReadSysfs E c s).2 = .ok (epbOf (s.files c)) := by
  unfold epbReadSysfs
  split
  · rename_i v hv
    split at hv
    · rename_i hon
      rw [h.cache hon c v hv]
      exact ⟨h, rfl, rfl, rfl, rfl⟩
    · cases hv
  · cases hf : s.files c with
    | none =>
      refine ⟨⟨h.num, ?_, h.policies⟩, rfl, rfl, rfl, rfl⟩
      exact cacheAdd_coherent (f := fun c => epbOf (s.files c)) (fun ho d w _ => h.cache ho d w)
        (fun _ => by rw [hf]; rfl)
    | some t =>
      obtain ⟨n, hn⟩ := h.num c t hf
      simp only [hn]
      have he : epbOf (some t) = some n := by simp [epbOf, hn, Except.toOption]
      refine ⟨⟨h.num, ?_, h.policies⟩, trivial, trivial, trivial, by rw [he]⟩
      exact cacheAdd_coherent (f := fun c => epbOf (s.files c)) (fun ho d w _ => h.cache ho d w)
        (fun _ => by rw [hf, he])

theorem epbReadMsr_state (E : EpbEnv) (c : Nat) (s : EpbSt) : (epbReadMsr E c s).1 = s := by
  unfold epbReadMsr
  split
  · rfl
  · split <;> rfl

theorem epbWriteMsr_soft (E : EpbEnv) (val : PyStr) (c : Nat) (s : EpbSt) :
    (epbWriteMsr E val c s).1.files = s.files ∧ (epbWriteMsr E val c s).1.cache = s.cache ∧
    (epbWriteMsr E val c s).1.policies = s.policies := by
  unfold epbWriteMsr
  split
  · exact ⟨rfl, rfl, rfl⟩
  · split <;> exact ⟨rfl, rfl, rfl⟩

theorem epbWriteSysfs_coherent (E : EpbEnv) (K : PyStr → Int) (hs : ∀ c d, E.same c d = true ↔ c = d)
    (hN : ∀ c cur v w, E.kern c cur v = .ok w → ∃ n, parse10 w = .ok n ∧
      (∀ k, parse10 v = .ok k → n = k) ∧ (isInt v = false → n = K v))
    (val : PyStr) (c : Nat) (s : EpbSt) (h : EpbCoherent E K s) :
    EpbCoherent E K (epbWriteSysfs E val c s).1 := by
  unfold epbWriteSysfs
  dsimp only
  have hrm : EpbCoherent E K { s with cache := cacheRemove E.cacheOn s.cache c } :=
    ⟨h.num, cacheRemove_coherent (f := fun c => epbOf (s.files c)) (fun ho d w _ => h.cache ho d w),
      h.policies⟩
  cases hf : s.files c with
  | none => exact hrm
  | some cur =>
    dsimp only
    cases hk : E.kern c cur val with
    | error e => exact hrm
    | ok new =>
      dsimp only
      obtain ⟨n, hn, hnum, hpol⟩ := hN c cur val new hk
      generalize hfl : (fun d => if E.same c d then (s.files d).map (fun _ => new) else s.files d) = files
      have hc : files c = some new := by
        rw [← hfl]; simp [(hs c c).2 rfl, hf]
      have hd : ∀ d, d ≠ c → files d = s.files d := by
        intro d hd
        rw [← hfl]
        have : ¬ E.same c d = true := fun h => hd ((hs c d).1 h).symm
        simp [this]
      have hnums : ∀ d t, files d = some t → ∃ n, parse10 t = .ok n := by
        intro d t ht
        by_cases hdc : d = c
        · subst hdc; rw [hc] at ht; injection ht with ht; subst ht; exact ⟨n, hn⟩
        · rw [hd d hdc] at ht; exact h.num d t ht
      have hrem : E.cacheOn = true → ∀ d w, d ≠ c → cacheRemove E.cacheOn s.cache c d = some w →
          w = epbOf (files d) := by
        intro ho d w hdc hw
        rw [cacheRemove_ne _ _ hdc] at hw
        rw [hd d hdc]
        exact h.cache ho d w hw
      have hval : epbOf (files c) = some n := by rw [hc]; simp [epbOf, hn, Except.toOption]
      have h1 : EpbCoherent E K { s with cache := cacheRemove E.cacheOn s.cache c, files := files } :=
        ⟨hnums, by
          intro ho d w hw
          by_cases hdc : d = c
          · subst hdc
            dsimp only at hw
            unfold cacheRemove at hw
            rw [if_pos ho, upd_self] at hw
            cases hw
          · exact hrem ho d w hdc hw, h.policies⟩
      have hread : isInt val = false →
          EpbCoherent E K
            (match epbReadSysfs E c { s with cache := cacheRemove E.cacheOn s.cache c, files := files } with
            | (s, .error e) => ((s, .error e) : EpbSt × Except Exn Unit)
            | (s, .ok none) => (s, .error .pyTypeError)
            | (s, .ok (some n)) =>
              ({ s with policies := s.policies.set val n,
                        cache := cacheAdd E.cacheOn s.cache c (some n) }, .ok ())).1 := by
        intro hni
        obtain ⟨r1, r2, _, r4, r5⟩ := epbReadSysfs_eq E K c _ h1
        generalize epbReadSysfs E c { s with cache := cacheRemove E.cacheOn s.cache c, files := files } = x
          at r1 r2 r4 r5
        obtain ⟨s1, r⟩ := x
        dsimp only at r1 r2 r4 r5 ⊢
        subst r5
        rw [hval]
        dsimp only
        refine ⟨?_, ?_, ?_⟩
        · exact r1.num
        · exact cacheAdd_coherent (f := fun c => epbOf (s1.files c)) (fun ho d w _ => r1.cache ho d w)
            (fun _ => by rw [r2, hval])
        · intro v u hu
          rw [Dict.get?_set] at hu
          split at hu
          · rename_i hv
            injection hu with hu
            rw [← hu, hpol hni]
            rw [hv]
          · exact r1.policies v u hu
      by_cases hi : isInt val = true
      · rw [if_neg (by simp [hi])]
        cases hp : parse10 val with
        | error e => exact h1
        | ok k =>
          have := hnum k hp
          subst this
          exact ⟨hnums, cacheAdd_coherent (f := fun c => epbOf (files c)) hrem (fun _ => hval.symm),
            h.policies⟩
      · have hi : isInt val = false := by simpa using hi
        rw [if_pos (by simp [hi])]
        cases hpg : s.policies.get? val with
        | none =>
          dsimp only
          exact hread hi
        | some n1 =>
          dsimp only
          have : n1 = n := by rw [h.policies val n1 hpg, hpol hi]
          subst this
          split
          · exact ⟨hnums, cacheAdd_coherent (f := fun c => epbOf (files c)) hrem (fun _ => hval.symm),
              h.policies⟩
          · exact hread hi

theorem epb_coherent (E : EpbEnv) (K : PyStr → Int) (hs : ∀ c d, E.same c d = true ↔ c = d)
    (hN : ∀ c cur v w, E.kern c cur v = .ok w → ∃ n, parse10 w = .ok n ∧
      (∀ k, parse10 v = .ok k → n = k) ∧ (isInt v = false → n = K v)) :
    (∀ m c s, EpbCoherent E K s → EpbCoherent E K ((epbOps E).read m c s).1) ∧
    (∀ m val c s, EpbCoherent E K s → EpbCoherent E K ((epbOps E).write m val c s).1) := by
  refine ⟨?_, ?_⟩
  · intro m c s h
    cases m with
    | sysfs => exact (epbReadSysfs_eq E K c s h).1
    | msr =>
      show EpbCoherent E K (epbReadMsr E c s).1
      rw [epbReadMsr_state]; exact h
  · intro m val c s h
    cases m with
    | sysfs => exact epbWriteSysfs_coherent E K hs hN val c s h
    | msr =>
      obtain ⟨k1, k2, k3⟩ := epbWriteMsr_soft E val c s
      refine ⟨?_, ?_, ?_⟩
      · show ∀ c1 t, (epbWriteMsr E val c s).1.files c1 = some t → _
        rw [k1]; exact h.num
      · show _ → ∀ c1 v, (epbWriteMsr E val c s).1.cache c1 = some v →
          v = epbOf ((epbWriteMsr E val c s).1.files c1)
        rw [k1, k2]; exact h.cache
      · show ∀ v w, (epbWriteMsr E val c s).1.policies.get? v = some w → w = K v
        rw [k3]; exact h.policies

end Verif.EP
