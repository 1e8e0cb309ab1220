import Verif.Lib.Groups
import Verif.Model.RegFile
import Verif.Props.Bits

/-!
Lemmas about the register file.
-/

namespace Verif.RegFile

open Verif.Bits

/-- `same` is an equivalence and the CPUs sharing the register see the same value. -/
structure EnvWF (E : Env) : Prop where
  refl : ∀ c, E.same c c = true
  symm : ∀ c d, E.same c d = true → E.same d c = true
  trans : ∀ a b c, E.same a b = true → E.same b c = true → E.same a c = true

def Uniform (E : Env) (R : Reg) : Prop := ∀ c d, E.same c d = true → R c = R d

theorem writeRegs_spec (E : Env) (w : EnvWF E) (val : Int) (cpus : List Nat) (R : Reg)
    (hu : Uniform E R) :
    Uniform E (writeRegs E val cpus R).1 ∧
    (∀ c, (writeRegs E val cpus R).1 c = R c ∨
      ((∃ d ∈ cpus, E.same d c = true) ∧ (writeRegs E val cpus R).1 c = val ∧ 0 ≤ val ∧ val < 2 ^ 64)) ∧
    ((writeRegs E val cpus R).2 = .ok () →
      ∀ d ∈ cpus, ∀ c, E.same d c = true → (writeRegs E val cpus R).1 c = val) ∧
    ((∀ d ∈ cpus, E.wfail d = none) → (0 ≤ val ∧ val < 2 ^ 64) → (writeRegs E val cpus R).2 = .ok ()) := by
  induction cpus generalizing R with
  | nil =>
    refine ⟨hu, fun _ => Or.inl rfl, ?_, fun _ _ => rfl⟩
    intro _ d hd; cases hd
  | cons a cpus ih =>
    unfold writeRegs
    by_cases hv : val < 0 ∨ val ≥ 2 ^ 64
    · rw [if_pos hv]
      refine ⟨hu, fun _ => Or.inl rfl, ?_, ?_⟩
      · intro h; cases h
      · intro _ h; exact absurd hv (by omega)
    · rw [if_neg hv]
      cases hw : E.wfail a with
      | some e =>
        refine ⟨hu, fun _ => Or.inl rfl, ?_, ?_⟩
        · intro h; cases h
        · intro h; rw [h a (by simp)] at hw; cases hw
      | none =>
        simp only
        have hu' : Uniform E (fun d => if E.same a d = true then val else R d) := by
          intro c d hcd
          by_cases h : E.same a c = true
          · simp [h, w.trans a c d h hcd]
          · have : ¬ E.same a d = true := fun h' => h (w.trans a d c h' (w.symm c d hcd))
            simp [h, this, hu c d hcd]
        obtain ⟨k1, k2, k3, k4⟩ := ih _ hu'
        refine ⟨k1, ?_, ?_, fun h1 h2 => k4 (fun d hd => h1 d (by simp [hd])) h2⟩
        · intro c
          rcases k2 c with h | ⟨⟨d, hd, hdc⟩, h⟩
          · by_cases hac : E.same a c = true
            · right; rw [h]; exact ⟨⟨a, by simp, hac⟩, by simp [hac], by omega⟩
            · left; rw [h]; simp [hac]
          · right; exact ⟨⟨d, by simp [hd], hdc⟩, h⟩
        · intro hok d hd c hdc
          rcases k2 c with h | ⟨_, h, _⟩
          · rcases List.mem_cons.1 hd with rfl | hd
            · rw [h]; simp [hdc]
            · exact k3 hok d hd c hdc
          · exact h

theorem modifyRegs_spec (bits : BitRange) (val : FieldVal) (R : Reg) (cpus : List Nat)
    (d : Dict Int (List Nat)) :
    (∀ e, modifyRegs bits val R cpus d = .error e → ∃ c ∈ cpus, setBits (R c) bits val = .error e) ∧
    (∀ d', modifyRegs bits val R cpus d = .ok d' →
      (∀ c ∈ cpus, ∃ r, setBits (R c) bits val = .ok r) ∧
      ∀ v c, InGroups d' v c ↔
        InGroups d v c ∨ (c ∈ cpus ∧ setBits (R c) bits val = .ok v ∧ R c ≠ v)) := by
  induction cpus generalizing d with
  | nil =>
    refine ⟨(fun e h => by simp [modifyRegs] at h), ?_⟩
    intro d' h
    injection h with h
    subst h
    exact ⟨by simp, by simp⟩
  | cons a cpus ih =>
    unfold modifyRegs
    cases hs : setBits (R a) bits val with
    | error e =>
      refine ⟨fun e' h => ?_, fun d' h => by cases h⟩
      injection h with h; subst h
      exact ⟨a, by simp, hs⟩
    | ok new =>
      simp only
      by_cases hn : R a = new
      · rw [if_pos hn]
        obtain ⟨k1, k2⟩ := ih d
        refine ⟨fun e h => ?_, fun d' h => ?_⟩
        · obtain ⟨c, hc, h⟩ := k1 e h; exact ⟨c, by simp [hc], h⟩
        · obtain ⟨j1, j2⟩ := k2 d' h
          refine ⟨?_, fun v c => ?_⟩
          · intro c hc
            rcases List.mem_cons.1 hc with rfl | hc
            · exact ⟨_, hs⟩
            · exact j1 c hc
          · rw [j2]
            constructor
            · rintro (h | ⟨h1, h2⟩)
              · exact Or.inl h
              · exact Or.inr ⟨by simp [h1], h2⟩
            · rintro (h | ⟨h1, h2, h3⟩)
              · exact Or.inl h
              · rcases List.mem_cons.1 h1 with rfl | h1
                · rw [hs] at h2; injection h2 with h2; exact absurd (hn.trans h2) h3
                · exact Or.inr ⟨h1, h2, h3⟩
      · rw [if_neg hn]
        obtain ⟨k1, k2⟩ := ih (d.set new ((d.get? new).getD [] ++ [a]))
        refine ⟨fun e h => ?_, fun d' h => ?_⟩
        · obtain ⟨c, hc, h⟩ := k1 e h; exact ⟨c, by simp [hc], h⟩
        · obtain ⟨j1, j2⟩ := k2 d' h
          refine ⟨?_, fun v c => ?_⟩
          · intro c hc
            rcases List.mem_cons.1 hc with rfl | hc
            · exact ⟨_, hs⟩
            · exact j1 c hc
          · rw [j2, inGroups_set]
            constructor
            · rintro ((h | ⟨rfl, rfl⟩) | ⟨h1, h2⟩)
              · exact Or.inl h
              · exact Or.inr ⟨by simp, hs, hn⟩
              · exact Or.inr ⟨by simp [h1], h2⟩
            · rintro (h | ⟨h1, h2, h3⟩)
              · exact Or.inl (Or.inl h)
              · rcases List.mem_cons.1 h1 with rfl | h1
                · rw [hs] at h2; injection h2 with h2; exact Or.inl (Or.inr ⟨h2.symm, rfl⟩)
                · exact Or.inr ⟨h1, h2, h3⟩

theorem writeGroups_spec (E : Env) (w : EnvWF E) (R0 : Reg) (f : Int → Except Exn Int)
    (hu0 : Uniform E R0) (d : Dict Int (List Nat)) (hd : ∀ v c, InGroups d v c → f (R0 c) = .ok v)
    (R : Reg) (hu : Uniform E R) :
    Uniform E (writeGroups E d R).1 ∧
    (∀ c, (writeGroups E d R).1 c = R c ∨
      ((∃ v a, InGroups d v a ∧ E.same a c = true) ∧ f (R0 c) = .ok ((writeGroups E d R).1 c) ∧
        0 ≤ (writeGroups E d R).1 c ∧ (writeGroups E d R).1 c < 2 ^ 64)) ∧
    ((writeGroups E d R).2 = .ok () →
      ∀ v a c, InGroups d v a → E.same a c = true → f (R0 c) = .ok ((writeGroups E d R).1 c)) ∧
    ((∀ v a, InGroups d v a → E.wfail a = none ∧ 0 ≤ v ∧ v < 2 ^ 64) → (∀ p ∈ d, p.2 ≠ []) →
      (writeGroups E d R).2 = .ok ()) := by
  induction d generalizing R with
  | nil =>
    refine ⟨hu, fun _ => Or.inl rfl, ?_, fun _ _ => rfl⟩
    intro _ v a c h; exact absurd h (inGroups_nil v a)
  | cons p d ih =>
    obtain ⟨v, cs⟩ := p
    have hhead : ∀ a ∈ cs, InGroups ((v, cs) :: d) v a := fun a ha => ⟨cs, by simp, ha⟩
    have htail : ∀ v' a, InGroups d v' a → InGroups ((v, cs) :: d) v' a := fun v' a h =>
      (inGroups_cons _ _ _ _ _).2 (Or.inr h)
    obtain ⟨k1, k2, k3, k4⟩ := writeRegs_spec E w v cs R hu
    cases hr : writeRegs E v cs R with
    | mk R1 r =>
      rw [hr] at k1 k2 k3 k4
      dsimp only at k1 k2 k3 k4
      have hval : ∀ a ∈ cs, ∀ c, E.same a c = true → f (R0 c) = .ok v := fun a ha c hac => by
        rw [← hu0 a c hac]; exact hd v a (hhead a ha)
      cases r with
      | error e =>
        have : writeGroups E ((v, cs) :: d) R = (R1, .error e) := by simp only [writeGroups, hr]
        rw [this]
        refine ⟨k1, ?_, (fun h => by cases h), ?_⟩
        · intro c
          rcases k2 c with h | ⟨⟨a, ha, hac⟩, h, hr⟩
          · exact Or.inl h
          · exact Or.inr ⟨⟨v, a, hhead a ha, hac⟩, by dsimp only; rw [h]; exact ⟨hval a ha c hac, hr⟩⟩
        · intro h hne
          have hcs : cs ≠ [] := hne (v, cs) (by simp)
          obtain ⟨a, ha⟩ := List.exists_mem_of_ne_nil cs hcs
          have := k4 (fun a ha => (h v a (hhead a ha)).1) (h v a (hhead a ha)).2
          cases this
      | ok u =>
        have : writeGroups E ((v, cs) :: d) R = writeGroups E d R1 := by simp only [writeGroups, hr]
        rw [this]
        obtain ⟨j1, j2, j3, j4⟩ := ih (fun v c h => hd v c (htail v c h)) R1 k1
        refine ⟨j1, ?_, ?_, fun h hne => j4 (fun v a hva => h v a (htail v a hva))
          (fun p hp => hne p (List.mem_cons_of_mem _ hp))⟩
        · intro c
          rcases j2 c with h | ⟨⟨v', a, ha, hac⟩, h⟩
          · rcases k2 c with h' | ⟨⟨a, ha, hac⟩, h', hr⟩
            · exact Or.inl (h.trans h')
            · exact Or.inr ⟨⟨v, a, hhead a ha, hac⟩, by rw [h, h']; exact ⟨hval a ha c hac, hr⟩⟩
          · exact Or.inr ⟨⟨v', a, htail v' a ha, hac⟩, h⟩
        · intro hok v' a c ha hac
          rcases j2 c with h | ⟨_, h, _⟩
          · rcases (inGroups_cons _ _ _ _ _).1 ha with ⟨_, ha⟩ | ha
            · rw [h, k3 rfl a ha c hac]; exact hval a ha c hac
            · exact j3 hok v' a c ha hac
          · exact h

theorem set_ne_nil (d : Dict Int (List Nat)) (v : Int) (c : Nat) (h : ∀ p ∈ d, p.2 ≠ []) :
    ∀ p ∈ d.set v ((d.get? v).getD [] ++ [c]), p.2 ≠ [] := by
  have key : ∀ (l : List Nat), l ≠ [] → ∀ p ∈ d.set v l, p.2 ≠ [] := by
    intro l hl
    induction d with
    | nil =>
      intro p hp
      simp only [Dict.set, List.mem_singleton] at hp
      subst hp; exact hl
    | cons q d ih =>
      obtain ⟨a, b⟩ := q
      intro p hp
      unfold Dict.set at hp
      split at hp
      · rcases List.mem_cons.1 hp with rfl | hp
        · exact hl
        · exact h p (by simp [hp])
      · rcases List.mem_cons.1 hp with rfl | hp
        · exact h (a, b) (by simp)
        · exact ih (fun p hp => h p (by simp [hp])) p hp
  exact key _ (by simp)

theorem modifyRegs_ne_nil (bits : BitRange) (val : FieldVal) (R : Reg) (cpus : List Nat)
    (d d' : Dict Int (List Nat)) (hd : ∀ p ∈ d, p.2 ≠ []) (h : modifyRegs bits val R cpus d = .ok d') :
    ∀ p ∈ d', p.2 ≠ [] := by
  induction cpus generalizing d with
  | nil => injection h with h; subst h; exact hd
  | cons a cpus ih =>
    unfold modifyRegs at h
    cases hs : setBits (R a) bits val with
    | error e => simp only [hs] at h; cases h
    | ok new =>
      simp only [hs] at h
      by_cases hn : R a = new
      · rw [if_pos hn] at h; exact ih d hd h
      · rw [if_neg hn] at h
        exact ih _ (set_ne_nil d new a hd) h

/-- All about `write_bits()` on a register file. -/
theorem writeBits_spec (E : Env) (w : EnvWF E) (bits : BitRange) (val : FieldVal) (cpus : List Nat)
    (R : Reg) (hu : Uniform E R) :
    Uniform E (writeBits E bits val cpus R).1 ∧
    (∀ c, (writeBits E bits val cpus R).1 c = R c ∨
      ((∃ a ∈ cpus, E.same a c = true) ∧
        setBits (R c) bits val = .ok ((writeBits E bits val cpus R).1 c) ∧
        0 ≤ (writeBits E bits val cpus R).1 c ∧ (writeBits E bits val cpus R).1 c < 2 ^ 64)) ∧
    ((writeBits E bits val cpus R).2 = .ok () →
      ∀ a ∈ cpus, ∀ c, E.same a c = true →
        setBits (R c) bits val = .ok ((writeBits E bits val cpus R).1 c)) ∧
    ((∀ a ∈ cpus, E.wfail a = none ∧ ∃ r, setBits (R a) bits val = .ok r ∧ 0 ≤ r ∧ r < 2 ^ 64) →
      (writeBits E bits val cpus R).2 = .ok ()) ∧
    ((∃ a ∈ cpus, ∃ e, setBits (R a) bits val = .error e) →
      ∃ e, (writeBits E bits val cpus R) = (R, .error e)) := by
  obtain ⟨m1, m2⟩ := modifyRegs_spec bits val R cpus []
  unfold writeBits
  cases hm : modifyRegs bits val R cpus [] with
  | error e =>
    refine ⟨hu, fun _ => Or.inl rfl, (fun h => by cases h), ?_, fun _ => ⟨e, rfl⟩⟩
    intro h
    obtain ⟨c, hc, he⟩ := m1 e hm
    obtain ⟨_, r, hr, _⟩ := h c hc
    rw [he] at hr; cases hr
  | ok d =>
    simp only
    obtain ⟨n1, n2⟩ := m2 d hm
    have n2' : ∀ v c, InGroups d v c ↔ (c ∈ cpus ∧ setBits (R c) bits val = .ok v ∧ R c ≠ v) := by
      intro v c; rw [n2]; simp [inGroups_nil]
    obtain ⟨k1, k2, k3, k4⟩ := writeGroups_spec E w R (fun x => setBits x bits val) hu d
      (fun v c h => ((n2' v c).1 h).2.1) R hu
    refine ⟨k1, ?_, ?_, ?_, ?_⟩
    · intro c
      rcases k2 c with h | ⟨⟨v, a, ha, hac⟩, h⟩
      · exact Or.inl h
      · exact Or.inr ⟨⟨a, ((n2' v a).1 ha).1, hac⟩, h⟩
    · intro hok a ha c hac
      obtain ⟨v, hv⟩ := n1 a ha
      by_cases hne : R a = v
      · -- Nothing to write for this CPU.
        have hvc : setBits (R c) bits val = .ok v := by rw [← hu a c hac]; exact hv
        rcases k2 c with h | ⟨_, h, _⟩
        · rw [h, ← hu a c hac, hne]
          rw [← hu a c hac, hne] at hvc; exact hvc
        · exact h
      · exact k3 hok v a c ((n2' v a).2 ⟨ha, hv, hne⟩) hac
    · intro h
      apply k4
      · intro v a hva
        obtain ⟨ha, hv, _⟩ := (n2' v a).1 hva
        obtain ⟨hw, r, hr, hr'⟩ := h a ha
        rw [hv] at hr; injection hr with hr; subst hr
        exact ⟨hw, hr'⟩
      · exact modifyRegs_ne_nil bits val R cpus [] d (by simp) hm
    · rintro ⟨a, ha, e, he⟩
      obtain ⟨v, hv⟩ := n1 a ha
      rw [he] at hv; cases hv

theorem readBits_ok (bits : BitRange) (R : Reg) (cpus : List Nat) (v : Nat → Int)
    (h : ∀ c ∈ cpus, getBits (R c) bits = .ok (v c)) :
    readBits bits R cpus = .ok (cpus.map fun c => (c, v c)) := by
  induction cpus with
  | nil => rfl
  | cons c cpus ih =>
    simp only [readBits, h c (by simp), ih (fun c hc => h c (by simp [hc])), List.map_cons]

end Verif.RegFile
