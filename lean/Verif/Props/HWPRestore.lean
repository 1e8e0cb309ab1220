import Verif.Lemmas.HWPRestore
import Verif.Props.HWP

/-!
C33 for the "msr" mechanism with package control: restoring saved frequency limits gives back the saved
limits, whichever CPUs take their limits from `MSR_HWP_REQUEST_PKG`.
-/

namespace Verif.HWP

open Verif.Bits (getBits)
open Verif.PStates (Plat FVal)

/-! ### Specification -/

/-- Neither of the two registers which may define the limits of CPU `c` holds a min. limit above the
hardware max. frequency, or a max. limit below the hardware min. frequency. The min. limit may be above
the max. limit. -/
def Plausible (E : Env) (P : Plat Nat) (s : St) (c : Nat) : Prop :=
  ∀ r, r = s.req c ∨ r = s.pkg c →
    (∀ v, getBits r (perfBits true) = .ok v → perfToFreq E c v ≤ P.hiKHz c * 1000) ∧
    (∀ v, getBits r (perfBits false) = .ok v → P.loKHz c * 1000 ≤ perfToFreq E c v)

/-- CPU `c` takes its limits from its own register. -/
def OwnLimits (E : Env) (s : St) (c : Nat) : Prop :=
  E.pkgSup = true → getBits (s.req c) pkgControlBits = .ok 1 →
    ∀ isMin, getBits (s.req c) (validBits isMin) = .ok 1

theorem Plausible.inside {E : Env} {P : Plat Nat} {s : St} {c : Nat} (h : Plausible E P s c) :
    Inside E P s c := by
  have h1 := h _ (.inl rfl)
  have h2 := h _ (.inr rfl)
  have a1 := h1.1 _ (getBits_fieldOf (perfField true) _)
  have a2 := h1.2 _ (getBits_fieldOf (perfField false) _)
  have b1 := h2.1 _ (getBits_fieldOf (perfField true) _)
  have b2 := h2.2 _ (getBits_fieldOf (perfField false) _)
  intro m
  refine ⟨?_, ?_⟩
  · rintro rfl
    unfold hwpView own
    split <;> exact ⟨by assumption, by assumption⟩
  · rintro rfl
    unfold hwpView own
    split <;> exact ⟨by assumption, by assumption⟩

theorem OwnLimits.view {E : Env} {s : St} {c : Nat} (h : OwnLimits E s c) (m : Bool) :
    hwpView E s m c = own E s m c := by
  have : controlled E m s c = false := by
    unfold controlled
    cases hp : E.pkgSup
    · rfl
    · by_cases h1 : fieldOf (s.req c) pkgControlBits = 1
      · have := h hp (by rw [getBits_fieldOf pkgField, h1]) m
        rw [getBits_fieldOf (validField m)] at this
        injection this with this
        simp [this]
      · simp [h1]
  unfold hwpView own
  rw [if_neg (by simp [this])]

/-! ### C33 -/

/-- C33 for the "msr" mechanism, with or without package control: restoring saved limits succeeds and ends
with exactly the saved limits of all CPUs in the file, whichever of the two properties comes first (`m`).
The min. and max. limits may be anything plausible before that, also in the wrong order. The CPUs which are
not in the file and do not depend on the package register are not changed. `mn` and `mx` are the saved
limits in Hz. What is missing: the states which are not plausible, for which it is false
(`C33_msr_implausible_counterexample`). -/
theorem C33_msr_package_partial (E : Env) (w : Clocks E) (hw : ∀ c, E.wfail c = none) (P : Plat Nat)
    (hl : LimitsOnGrid E P) (hf : LevelsFit E P) (m : Bool) (mn mx : Nat → Int)
    (i1 i2 : List (FVal × List Nat)) (K : Nat → Prop) (h1 : PStates.Saved i1 K (if m then mn else mx))
    (h2 : PStates.Saved i2 K (if m then mx else mn)) (hnd : ∀ p ∈ i1 ++ i2, p.2.Nodup)
    (hon : ∀ c, K c → c ∈ E.online)
    (hsv : ∀ c, K c → P.loKHz c * 1000 ≤ mn c ∧ mn c ≤ mx c ∧ mx c ≤ P.hiKHz c * 1000)
    (hg : ∀ c, K c → OnGrid E c (mn c) ∧ OnGrid E c (mx c)) (s : St) (hR : Valid64 s)
    (hs : ∀ c, K c → Plausible E P s c) :
    ∃ s', PStates.restoreProps (fun p v n s => PStates.setFreq P (backend E) p v n s)
        [(m, i1), (!m, i2)] s = (s', .ok ()) ∧
      (∀ c, K c → Reads E s' c (mn c) (mx c)) ∧
      (∀ c, ¬ K c → OwnLimits E s c → ∀ a b, Reads E s c a b → Reads E s' c a b) := by
  have F : Fine E P := ⟨hw, fun c => onGrid_store w (hl c).1, fun c => onGrid_store w (hl c).2,
    fun c f a b => levels_fit w hf c f a b⟩
  obtain ⟨s', h, k1, k2⟩ := restoreProps_pkg F m (fun m c => if m then mn c else mx c) i1 i2 K
    (by cases m <;> exact ⟨h1.val, h1.cover⟩) (by cases m <;> exact ⟨h2.val, h2.cover⟩) hnd hon
    (fun m c hc => by cases m <;> simp <;> [exact onGrid_store w (hg c hc).2; exact onGrid_store w (hg c hc).1])
    (fun c hc => hsv c hc) s hR (fun c hc => (hs c hc).inside)
  refine ⟨s', h, fun c hc => ?_, fun c hc ho a b hab => ?_⟩
  · rw [reads_iff]
    exact ⟨(k1 c hc true).symm, (k1 c hc false).symm⟩
  · obtain ⟨rfl, rfl⟩ := (reads_iff ..).1 hab
    rw [reads_iff]
    have e : ∀ m, hwpView E s' m c = hwpView E s m c := by
      intro m
      rcases (k2 c hc m).2 with e | e
      · exact e
      · rw [e, ho.view]
    exact ⟨(e true).symm, (e false).symm⟩

/-- The saved limits of CPU 0: [2.0, 2.5] GHz. -/
def exSaved (isMin : Bool) : List (FVal × List Nat) := [(.num (if isMin then 2000000000 else 2500000000), [0])]

/-- The hypotheses are met by CPU 0 of the example platform, which takes [0.6, 2.5] GHz from the package
register while its own register holds [2.2, 1.5] GHz. CPU 2 does not depend on the package register. -/
example : LimitsOnGrid exEnv exPlat ∧ LevelsFit exEnv exPlat ∧ Valid64 exSt ∧
    PStates.Saved (exSaved true) (· = 0) (fun _ => 2000000000) ∧ Plausible exEnv exPlat exSt 0 ∧
    ¬ OwnLimits exEnv exSt 0 ∧ OwnLimits exEnv exSt 2 ∧
    Reads exEnv exSt 0 600000000 2500000000 ∧
    Reads exEnv (PStates.restoreProps (fun p v n s => PStates.setFreq exPlat (backend exEnv) p v n s)
      [(true, exSaved true), (false, exSaved false)] exSt).1 0 2000000000 2500000000 := by
  refine ⟨exGrid, ?_, ?_, ?_, ?_, ?_, ?_, ⟨by decide +kernel, by decide +kernel⟩,
    ⟨by decide +kernel, by decide +kernel⟩⟩
  · intro c
    refine ⟨?_, ?_⟩
    · show (0 : Int) ≤ 400000
      decide
    · show (if _ then (3000000 * 1000 + ((78740000 : Nat) : Int) - 1) / ((78740000 : Nat) : Int)
        else 3000000 * 1000 / ((100000000 : Nat) : Int)) < 256
      split <;> decide
  · intro c; unfold exSt; dsimp only; split <;> decide
  · refine ⟨?_, ?_⟩
    · intro p hp
      obtain rfl := List.mem_singleton.1 hp
      exact ⟨_, rfl, fun _ _ => rfl⟩
    · intro c
      simp [exSaved]
  · rintro r (rfl | rfl)
    · refine ⟨fun v hv => ?_, fun v hv => ?_⟩
      · have e : getBits (exSt.req 0) (perfBits true) = .ok 28 := by decide +kernel
        rw [e] at hv; injection hv with hv; subst hv; decide +kernel
      · have e : getBits (exSt.req 0) (perfBits false) = .ok 20 := by decide +kernel
        rw [e] at hv; injection hv with hv; subst hv; decide +kernel
    · refine ⟨fun v hv => ?_, fun v hv => ?_⟩
      · have e : getBits (exSt.pkg 0) (perfBits true) = .ok 8 := by decide +kernel
        rw [e] at hv; injection hv with hv; subst hv; decide +kernel
      · have e : getBits (exSt.pkg 0) (perfBits false) = .ok 32 := by decide +kernel
        rw [e] at hv; injection hv with hv; subst hv; decide +kernel
  · intro h
    have := h rfl (by decide +kernel) true
    revert this
    decide +kernel
  · intro _ h
    revert h
    decide +kernel

/-- The CPUs which depend on the package register do change: CPU 1 is not in the file. It shows
[0.6, 2.5] GHz before, and [2.2, 1.5] GHz, which are the limits in its own register, after the limits of
CPU 0 have been restored. -/
theorem C33_msr_others_counterexample :
    Reads exEnv exSt 1 600000000 2500000000 ∧
    (PStates.restoreProps (fun p v n s => PStates.setFreq exPlat (backend exEnv) p v n s)
      [(true, exSaved true), (false, exSaved false)] exSt).2 = .ok () ∧
    Reads exEnv (PStates.restoreProps (fun p v n s => PStates.setFreq exPlat (backend exEnv) p v n s)
      [(true, exSaved true), (false, exSaved false)] exSt).1 1 2200000000 1500000000 :=
  ⟨⟨by decide +kernel, by decide +kernel⟩, by decide +kernel, by decide +kernel, by decide +kernel⟩

/-- From a state which is not plausible restoring may fail: the min. limit of CPU 0 is 20 GHz, the max. limit
is 0.3 GHz, and the saved limits [2.0, 2.5] GHz are not restored: the first value is above the current max.
limit, and the max. limit cannot be moved because the min. limit is above the hardware limit. -/
theorem C33_msr_implausible_counterexample :
    let s : St := ⟨fun _ => 0x05ff, fun _ => 0⟩
    Valid64 s ∧ NoPackageControl exEnv s ∧
    Reads exEnv s 0 20000000000 300000000 ∧
    (PStates.restoreProps (fun p v n s => PStates.setFreq exPlat (backend exEnv) p v n s)
      [(true, exSaved true), (false, exSaved false)] s).2 = .error .freqOrder := by
  refine ⟨?_, ?_, ⟨by decide +kernel, by decide +kernel⟩, by decide +kernel⟩
  · intro c; dsimp only; decide
  · intro _ c
    show getBits 0x05ff pkgControlBits ≠ .ok 1
    decide +kernel

end Verif.HWP
