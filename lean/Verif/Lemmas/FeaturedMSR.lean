import Verif.Lemmas.HWP
import Verif.Model.FeaturedMSR

/-!
Lemmas about feature tables.
-/

namespace Verif.FeaturedMSR

open Verif.Bits Verif.RegFile

theorem rekey_none {β : Type} (f : PyStr → PyStr) (d acc : Dict PyStr β) (k : PyStr)
    (h : ∀ p ∈ d, f p.1 ≠ k) : (rekey f d acc).get? k = acc.get? k := by
  induction d generalizing acc with
  | nil => rfl
  | cons p d ih =>
    obtain ⟨a, b⟩ := p
    unfold rekey
    rw [ih _ (fun q hq => h q (by simp [hq])), Dict.get?_set_ne _ _ (h (a, b) (by simp))]

theorem rekey_some {β : Type} (f : PyStr → PyStr) (d acc : Dict PyStr β) (k : PyStr) (v : β)
    (hu : ∀ p ∈ d, f p.1 = k → p.2 = v) (h : acc.get? k = some v ∨ ∃ p ∈ d, f p.1 = k) :
    (rekey f d acc).get? k = some v := by
  induction d generalizing acc with
  | nil =>
    rcases h with h | ⟨_, h, _⟩
    · exact h
    · cases h
  | cons p d ih =>
    obtain ⟨a, b⟩ := p
    unfold rekey
    apply ih _ (fun q hq => hu q (by simp [hq]))
    by_cases e : f a = k
    · left
      rw [e, Dict.get?_set_self]
      exact congrArg some (hu (a, b) (by simp) e)
    · rcases h with h | ⟨q, hq, h⟩
      · left; rw [Dict.get?_set_ne _ _ e]; exact h
      · right
        rcases List.mem_cons.1 hq with rfl | hq
        · exact absurd h e
        · exact ⟨q, hq, h⟩

theorem reverse_none (d : Dict PyStr Int) (acc : Dict Int PyStr) (c : Int)
    (h : ∀ p ∈ d, p.2 ≠ c) : (reverse d acc).get? c = acc.get? c := by
  induction d generalizing acc with
  | nil => rfl
  | cons p d ih =>
    obtain ⟨a, b⟩ := p
    unfold reverse
    rw [ih _ (fun q hq => h q (by simp [hq])), Dict.get?_set_ne _ _ (h (a, b) (by simp))]

theorem reverse_some (d : Dict PyStr Int) (acc : Dict Int PyStr) (c : Int) (n : PyStr)
    (hu : ∀ p ∈ d, p.2 = c → p.1 = n) (h : acc.get? c = some n ∨ ∃ p ∈ d, p.2 = c) :
    (reverse d acc).get? c = some n := by
  induction d generalizing acc with
  | nil =>
    rcases h with h | ⟨_, h, _⟩
    · exact h
    · cases h
  | cons p d ih =>
    obtain ⟨a, b⟩ := p
    unfold reverse
    apply ih _ (fun q hq => hu q (by simp [hq]))
    by_cases e : b = c
    · left
      rw [e, Dict.get?_set_self]
      exact congrArg some (hu (a, b) (by simp) e)
    · rcases h with h | ⟨q, hq, h⟩
      · left; rw [Dict.get?_set_ne _ _ e]; exact h
      · right
        rcases List.mem_cons.1 hq with rfl | hq
        · exact absurd h e
        · exact ⟨q, hq, h⟩

/-- Whatever is read was written into the table. -/
theorem reverse_mem (d : Dict PyStr Int) (acc : Dict Int PyStr) (c : Int) (n : PyStr)
    (h : (reverse d acc).get? c = some n) : acc.get? c = some n ∨ (n, c) ∈ d := by
  induction d generalizing acc with
  | nil => exact Or.inl h
  | cons p d ih =>
    obtain ⟨a, b⟩ := p
    unfold reverse at h
    rcases ih _ h with h | h
    · rw [Dict.get?_set] at h
      by_cases e : b = c
      · rw [if_pos e] at h
        injection h with h
        rw [← e, ← h]
        exact Or.inr (by simp)
      · rw [if_neg e] at h
        exact Or.inl h
    · exact Or.inr (by simp [h])

theorem validateSupported_ok {F : Feature} {cpus : List Nat} (h : ∀ c ∈ cpus, F.supported c = true) :
    validateSupported F cpus = .ok () := by
  unfold validateSupported
  rw [if_pos (List.all_eq_true.2 h)]

theorem validateSupported_error {F : Feature} {cpus : List Nat}
    (h : ∃ c ∈ cpus, F.supported c = false) : validateSupported F cpus = .error .notSupported := by
  unfold validateSupported
  rw [if_neg]
  intro h2
  obtain ⟨c, hc, h⟩ := h
  rw [List.all_eq_true.1 h2 c hc] at h
  cases h

theorem decodeAll_names (F : Feature) (hv : F.vals ≠ []) (f : Nat → Int) (g : Nat → PyStr)
    (cpus : List Nat) (h : ∀ c ∈ cpus, (rvals F).get? (f c) = some (g c)) :
    decodeAll F (cpus.map fun c => (c, f c)) = .ok (cpus.map fun c => (c, .str (g c))) := by
  induction cpus with
  | nil => rfl
  | cons c cpus ih =>
    simp only [List.map_cons, decodeAll, h c (by simp), ih (fun c hc => h c (by simp [hc])),
      List.isEmpty_iff, if_neg hv]
    rfl

theorem decodeAll_error (F : Feature) (hv : F.vals ≠ []) (f : Nat → Int) (cpus : List Nat)
    (h : ∃ c ∈ cpus, (rvals F).get? (f c) = none) :
    decodeAll F (cpus.map fun c => (c, f c)) = .error .pyKeyError := by
  induction cpus with
  | nil => obtain ⟨_, h, _⟩ := h; cases h
  | cons c cpus ih =>
    simp only [List.map_cons, decodeAll, List.isEmpty_iff, if_neg hv]
    cases hc : (rvals F).get? (f c) with
    | none => rfl
    | some n =>
      dsimp only
      rw [ih]
      · rfl
      · obtain ⟨a, ha, h⟩ := h
        rcases List.mem_cons.1 ha with rfl | ha
        · rw [hc] at h; cases h
        · exact ⟨a, ha, h⟩

theorem readFeature_eq {F : Feature} (hf : Field F.bits) {cpus : List Nat}
    (hs : ∀ c ∈ cpus, F.supported c = true) (R : Reg) :
    readFeature F cpus R = decodeAll F (cpus.map fun c => (c, HWP.fieldOf (R c) F.bits)) := by
  unfold readFeature
  rw [validateSupported_ok hs]
  dsimp only
  rw [readBits_ok F.bits R cpus _ (fun c _ => HWP.getBits_fieldOf hf (R c))]

end Verif.FeaturedMSR
