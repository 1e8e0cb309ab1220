import Verif.Model.MSR
import Verif.Props.Topology
import Verif.Props.Bits

/-!
Helper lemmas about the per-CPU cache and the MSR module.
-/

namespace Verif

open CPUInfo (Scope Nums)

/-- What the sibling function of a `CPUInfo` object guarantees (C15). -/
structure TopoWF (T : Topo) : Prop where
  refl : ∀ s c, c ∈ T.online → c ∈ T.sib s c
  sub : ∀ s c d, c ∈ T.online → d ∈ T.sib s c → d ∈ T.online
  eqv : ∀ s c d, c ∈ T.online → d ∈ T.sib s c → T.sib s d = T.sib s c

theorem TopoWF.symm {T : Topo} (w : TopoWF T) {s : Scope} {c d : Nat} (hc : c ∈ T.online)
    (hd : d ∈ T.sib s c) : c ∈ T.sib s d := by
  rw [w.eqv s c d hc hd]; exact w.refl s c hc

/-- Two units with a common member are equal. -/
theorem TopoWF.common {T : Topo} (w : TopoWF T) {s : Scope} {c d x : Nat} (hc : c ∈ T.online)
    (hd : d ∈ T.online) (h1 : x ∈ T.sib s c) (h2 : x ∈ T.sib s d) : T.sib s c = T.sib s d := by
  rw [← w.eqv s c x hc h1, ← w.eqv s d x hd h2]

/-- Every well-formed topology table gives a well-formed `Topo`. -/
theorem topoWF_ofInfo (i : CPUInfo.Info) (wf : CPUInfo.WF i) : TopoWF (Topo.ofInfo i) := by
  have key : ∀ s c, c ∈ i.online → ∃ l, CPUInfo.getCpuSiblings i c s = .ok l ∧
      (Topo.ofInfo i).sib s c = l := by
    intro s c hc
    obtain ⟨l, h1, _, _⟩ := CPUInfo.C15_siblings_exact i wf c hc s
    exact ⟨l, h1, by simp [Topo.ofInfo, h1]⟩
  constructor
  · intro s c hc
    obtain ⟨l, h1, h2⟩ := key s c hc
    rw [h2]
    exact (CPUInfo.C15_siblings_partition i wf s c c c l l hc hc h1 h1).1
  · intro s c d hc hd
    obtain ⟨l, h1, h2⟩ := key s c hc
    rw [h2] at hd
    exact (CPUInfo.C15_siblings_partition i wf s c c c l l hc hc h1 h1).2.2.2.1 d hd
  · intro s c d hc hd
    obtain ⟨l, h1, h2⟩ := key s c hc
    rw [h2] at hd
    have hdo := (CPUInfo.C15_siblings_partition i wf s c c c l l hc hc h1 h1).2.2.2.1 d hd
    obtain ⟨l', h3, h4⟩ := key s d hdo
    rw [h2, h4]
    exact ((CPUInfo.C15_siblings_partition i wf s c d c l l' hc hdo h1 h3).2.2.2.2.1 hd).symm

theorem normCpus_ofInfo (i : CPUInfo.Info) (l : List Nat) :
    (Topo.ofInfo i).normCpus (.nums l) = CPUInfo.normalizeCpus i (.nums l) false := by
  simp [Topo.normCpus, Topo.ofInfo, CPUInfo.normalizeCpus]

theorem normCpus_ok {T : Topo} {cpus : Nums} {l : List Nat} (h : T.normCpus cpus = .ok l) :
    l.Nodup ∧ ∀ c ∈ l, c ∈ T.online := by
  cases cpus with
  | all =>
    simp only [Topo.normCpus, Except.ok.injEq] at h
    subst h
    exact ⟨sortNat_nodup (nodup_pyDedup _), fun c hc => by simpa using hc⟩
  | nums l' =>
    simp only [Topo.normCpus] at h
    split at h
    · rename_i ha
      cases h
      refine ⟨nodup_pyDedup _, fun c hc => ?_⟩
      have := List.all_eq_true.1 ha c hc
      simpa using this
    · cases h

theorem normCpus_nums_self {T : Topo} {l : List Nat} (hn : l.Nodup) (h : ∀ c ∈ l, c ∈ T.online) :
    T.normCpus (.nums l) = .ok l := by
  simp only [Topo.normCpus]
  rw [pyDedup_of_nodup hn, if_pos]
  rw [List.all_eq_true]
  intro c hc
  simpa using h c hc

namespace Cache

variable {κ ν : Type} [DecidableEq κ]

theorem get?_add (T : Topo) (c : Cache κ ν) (n : κ) (cpu : Nat) (v : ν) (s : Scope) (n' : κ)
    (x : Nat) : (c.add T n cpu v s).get? n' x =
      if c.enabled = true ∧ n' = n ∧ x ∈ T.sib s cpu then some v else c.get? n' x := by
  unfold add get?
  by_cases he : c.enabled = true
  · simp only [he, Bool.not_true, Bool.false_eq_true, if_false]
    by_cases hn : n' = n
    · subst hn
      by_cases hx : x ∈ T.sib s cpu <;> simp [hx]
    · simp [hn]
  · simp [he]

@[simp] theorem enabled_add (T : Topo) (c : Cache κ ν) (n : κ) (cpu : Nat) (v : ν) (s : Scope) :
    (c.add T n cpu v s).enabled = c.enabled := by
  unfold add; split <;> rfl

omit [DecidableEq κ] in
theorem get?_disabled {c : Cache κ ν} (h : c.enabled = false) (n : κ) (x : Nat) :
    c.get? n x = none := by simp [get?, h]

theorem remove_ok_of_ne_global (T : Topo) (c : Cache κ ν) (n : κ) (cpu : Nat) {s : Scope}
    (hs : s ≠ .global) : ∃ c', c.remove T n cpu s = .ok c' ∧ ∀ n' x, c'.get? n' x =
      if n' = n ∧ x ∈ T.sib s cpu then none else c.get? n' x := by
  unfold remove
  by_cases he : c.enabled = true
  · simp only [he, Bool.not_true, Bool.false_eq_true, if_false, if_neg hs]
    refine ⟨_, rfl, fun n' x => ?_⟩
    simp only [get?, Bool.not_true, Bool.false_eq_true, if_false]
    by_cases hn : n' = n
    · subst hn
      cases c.tab n' <;> by_cases hx : x ∈ T.sib s cpu <;> simp [hx, he]
    · simp [hn, he]
  · have he : c.enabled = false := by simpa using he
    refine ⟨c, by simp [he], fun n' x => ?_⟩
    simp [get?_disabled he]

theorem remove_ok {T : Topo} {c c' : Cache κ ν} {n : κ} {cpu : Nat} {s : Scope}
    (h : c.remove T n cpu s = .ok c') :
    c'.enabled = c.enabled ∧ (∀ n' x, n' ≠ n → c'.get? n' x = c.get? n' x) ∧
    (∀ n' x v, c'.get? n' x = some v → c.get? n' x = some v) ∧
    (∀ x ∈ T.sib s cpu, c'.get? n x = none) := by
  by_cases he : c.enabled = true
  · by_cases hs : s = .global
    · subst hs
      simp only [remove, he, Bool.not_true, Bool.false_eq_true, if_false, if_true] at h
      cases ht : c.tab n with
      | none => rw [ht] at h; cases h
      | some f =>
        rw [ht] at h
        cases h
        refine ⟨he.symm, fun n' x hn => ?_, fun n' x v hv => ?_, fun x _ => ?_⟩
        · simp [get?, hn, he]
        · simp only [get?, he, Bool.not_true, Bool.false_eq_true, if_false] at hv ⊢
          by_cases hn : n' = n <;> simp_all
        · simp [get?]
    · simp only [remove, he, Bool.not_true, Bool.false_eq_true, if_false, if_neg hs,
        Except.ok.injEq] at h
      subst h
      refine ⟨by simp [he], fun n' x hn => ?_, fun n' x v hv => ?_, fun x hx => ?_⟩
      · simp [get?, hn, he]
      · simp only [get?, he, Bool.not_true, Bool.false_eq_true, if_false] at hv ⊢
        by_cases hn : n' = n
        · subst hn
          cases ht : c.tab n' with
          | none => simp [ht] at hv
          | some f =>
            simp only [ht, if_true, Option.map_some] at hv
            simp only
            split at hv
            · cases hv
            · exact hv
        · simp only [if_neg hn] at hv
          exact hv
      · simp only [get?, if_true]
        cases ht : c.tab n <;> simp [hx]
  · have he : c.enabled = false := by simpa using he
    simp only [remove, he, Bool.not_false, if_true, Except.ok.injEq] at h
    subst h
    exact ⟨rfl, fun _ _ _ => rfl, fun _ _ _ h => h, fun x _ => get?_disabled he _ _⟩

end Cache

namespace MSR

open Verif.Bits (BitRange FieldVal setBits getBits)

/-- Only the cache of the object may differ. -/
def SameButCache (st st' : St) : Prop :=
  st'.hw = st.hw ∧ st'.log = st.log ∧ st'.buf = st.buf ∧ st'.inTransaction = st.inTransaction ∧
    st'.cache.enabled = st.cache.enabled

theorem SameButCache.refl (st : St) : SameButCache st st := ⟨rfl, rfl, rfl, rfl, rfl⟩

theorem SameButCache.trans {a b c : St} (h1 : SameButCache a b) (h2 : SameButCache b c) :
    SameButCache a c :=
  ⟨h2.1.trans h1.1, h2.2.1.trans h1.2.1, h2.2.2.1.trans h1.2.2.1, h2.2.2.2.1.trans h1.2.2.2.1,
    h2.2.2.2.2.trans h1.2.2.2.2⟩

/-! ### The read loop -/

theorem readOne_same (E : Env) (st : St) (a : Nat) (s : Scope) (cpu : Nat) :
    SameButCache st (readOne E st a s cpu).1 := by
  unfold readOne
  split
  · exact SameButCache.refl _
  · split
    · exact SameButCache.refl _
    · exact ⟨rfl, rfl, rfl, rfl, by simp⟩

theorem readLoop_same (E : Env) (a : Nat) (s : Scope) (l : List Nat) (st : St) :
    SameButCache st (readLoop E a s l st).1 := by
  induction l generalizing st with
  | nil => exact SameButCache.refl _
  | cons c l ih =>
    have h1 := readOne_same E st a s c
    unfold readLoop
    cases hr : readOne E st a s c with
    | mk st1 r =>
      rw [hr] at h1
      cases r with
      | error e => exact h1
      | ok v =>
        have h2 := ih st1
        cases hl : readLoop E a s l st1 with
        | mk st2 r2 =>
          rw [hl] at h2
          simp only [hl]
          cases r2 <;> exact h1.trans h2

/-- The cache agrees with the reference `R`, and where nothing is cached the hardware does. -/
def Coh (E : Env) (R : Nat → Nat → Int) (st : St) : Prop :=
  ∀ a, ∀ c ∈ E.T.online, (∀ v, st.cache.get? a c = some v → v = R a c) ∧
    (st.cache.get? a c = none → st.hw a c = R a c)

/-- The reference has one value per unit. -/
def Uniform (E : Env) (sc : Nat → Scope) (R : Nat → Nat → Int) : Prop :=
  ∀ a, ∀ c ∈ E.T.online, ∀ d ∈ E.T.sib (sc a) c, R a d = R a c

theorem readOne_coh {E : Env} {sc : Nat → Scope} {R : Nat → Nat → Int}
    (hu : Uniform E sc R) {st : St} (hc : Coh E R st) {a cpu : Nat} (ho : cpu ∈ E.T.online) :
    Coh E R (readOne E st a (sc a) cpu).1 ∧
    (∀ v, (readOne E st a (sc a) cpu).2 = .ok v → v = R a cpu) ∧
    (∀ e, (readOne E st a (sc a) cpu).2 = .error e → E.rfail a cpu = true ∧ e = .error) ∧
    (E.rfail a cpu = false → (readOne E st a (sc a) cpu).2 = .ok (R a cpu)) := by
  unfold readOne
  cases hg : st.cache.get? a cpu with
  | some v =>
    have := (hc a cpu ho).1 v hg
    subst this
    exact ⟨hc, fun v hv => by cases hv; rfl, fun e he => by simp at he, fun _ => rfl⟩
  | none =>
    have hh := (hc a cpu ho).2 hg
    simp only
    by_cases hf : E.rfail a cpu = true
    · rw [if_pos hf]
      exact ⟨hc, fun v hv => by simp at hv, fun e he => ⟨hf, by simpa using he.symm⟩,
        fun h => by simp [hf] at h⟩
    · rw [if_neg hf]
      refine ⟨?_, fun v hv => ?_, fun e he => by simp at he, fun _ => by simp [hh]⟩
      · intro a' x hx
        simp only [Cache.get?_add]
        refine ⟨fun v hv => ?_, fun hn => ?_⟩
        · split at hv
          · rename_i h
            obtain ⟨_, rfl, hxs⟩ := h
            cases hv
            rw [hh]
            exact (hu a' cpu ho x hxs).symm
          · exact (hc a' x hx).1 v hv
        · split at hn
          · cases hn
          · exact (hc a' x hx).2 hn
      · simp only [Except.ok.injEq] at hv
        rw [← hv, hh]

theorem readLoop_coh {E : Env} {sc : Nat → Scope} {R : Nat → Nat → Int}
    (hu : Uniform E sc R) {a : Nat} (l : List Nat) (ho : ∀ c ∈ l, c ∈ E.T.online) {st : St}
    (hc : Coh E R st) :
    Coh E R (readLoop E a (sc a) l st).1 ∧
    (∀ r, (readLoop E a (sc a) l st).2 = .ok r → r = l.map (fun c => (c, R a c))) ∧
    (∀ e, (readLoop E a (sc a) l st).2 = .error e → e = .error ∧ ∃ c ∈ l, E.rfail a c = true) := by
  induction l generalizing st with
  | nil => exact ⟨hc, fun r hr => by cases hr; rfl, fun e he => by simp [readLoop] at he⟩
  | cons c l ih =>
    obtain ⟨h1, h2, h3, _⟩ := readOne_coh hu hc (a := a) (ho c (by simp))
    unfold readLoop
    cases hr : readOne E st a (sc a) c with
    | mk st1 r =>
      rw [hr] at h1 h2 h3
      cases r with
      | error e =>
        refine ⟨h1, fun r hr => by simp at hr, fun e' he => ?_⟩
        simp only [Except.error.injEq] at he
        subst he
        exact ⟨(h3 e rfl).2, c, by simp, (h3 e rfl).1⟩
      | ok v =>
        obtain ⟨g1, g2, g3⟩ := ih (fun x hx => ho x (by simp [hx])) h1
        have hv := h2 v rfl
        cases hl : readLoop E a (sc a) l st1 with
        | mk st2 r2 =>
          rw [hl] at g1 g2 g3
          simp only [hl]
          cases r2 with
          | error e =>
            refine ⟨g1, fun r hr => by simp at hr, fun e' he => ?_⟩
            obtain ⟨k1, c', hc', k2⟩ := g3 e' he
            exact ⟨k1, c', by simp [hc'], k2⟩
          | ok r2 =>
            refine ⟨g1, fun r hr => ?_, fun e' he => by simp at he⟩
            simp only [Except.ok.injEq] at hr
            rw [← hr, g2 r2 rfl, hv]
            rfl

/-! ### Removal from the cache -/

theorem removeLoop_spec {E : Env} {a : Nat} {s : Scope} (l : List Nat) (st : St) :
    SameButCache st (removeLoop E a s l st).1 ∧
    (∀ n x, n ≠ a → (removeLoop E a s l st).1.cache.get? n x = st.cache.get? n x) ∧
    (∀ n x v, (removeLoop E a s l st).1.cache.get? n x = some v → st.cache.get? n x = some v) ∧
    ((removeLoop E a s l st).2 = .ok () → ∀ c ∈ l, ∀ x ∈ E.T.sib s c,
      (removeLoop E a s l st).1.cache.get? a x = none) ∧
    (s ≠ .global → (removeLoop E a s l st).2 = .ok () ∧
      ∀ x, (∀ c ∈ l, x ∉ E.T.sib s c) →
        (removeLoop E a s l st).1.cache.get? a x = st.cache.get? a x) := by
  induction l generalizing st with
  | nil =>
    exact ⟨SameButCache.refl _, fun _ _ _ => rfl, fun _ _ _ h => h, fun _ c hc => by simp at hc,
      fun _ => ⟨rfl, fun _ _ => rfl⟩⟩
  | cons c l ih =>
    unfold removeLoop
    cases hr : st.cache.remove E.T a c s with
    | error e =>
      refine ⟨SameButCache.refl _, fun _ _ _ => rfl, fun _ _ _ h => h, fun h => by simp at h, ?_⟩
      intro hs
      obtain ⟨c', h1, _⟩ := st.cache.remove_ok_of_ne_global E.T a c hs
      rw [hr] at h1; cases h1
    | ok cache =>
      obtain ⟨k0, k1, k2, k3⟩ := Cache.remove_ok hr
      obtain ⟨h1, h2, h3, h4, h5⟩ := ih { st with cache := cache }
      refine ⟨?_, ?_, ?_, ?_, ?_⟩
      · exact ⟨h1.1, h1.2.1, h1.2.2.1, h1.2.2.2.1, h1.2.2.2.2.trans k0⟩
      · intro n x hn
        exact (h2 n x hn).trans (k1 n x hn)
      · intro n x v hv
        exact k2 n x v (h3 n x v hv)
      · intro hok c' hc' x hx
        rcases List.mem_cons.1 hc' with rfl | hc'
        · cases hg : (removeLoop E a s l { st with cache := cache }).1.cache.get? a x with
          | none => rfl
          | some v =>
            have := h3 a x v hg
            rw [show (St.cache { st with cache := cache }) = cache from rfl, k3 x hx] at this
            cases this
        · exact h4 hok c' hc' x hx
      · intro hs
        obtain ⟨g1, g2⟩ := h5 hs
        refine ⟨g1, fun x hx => ?_⟩
        obtain ⟨c', h1', h2'⟩ := st.cache.remove_ok_of_ne_global E.T a c hs
        rw [hr] at h1'; cases h1'
        rw [g2 x (fun c' hc' => hx c' (by simp [hc']))]
        simp only [h2', true_and, if_neg (hx c (by simp))]

theorem verifyLoop_same (E : Env) (a : Nat) (val : Int) (s : Scope) (l : List Nat) (st : St) :
    SameButCache st (verifyLoop E a val s l st).1 := by
  induction l generalizing st with
  | nil => exact SameButCache.refl _
  | cons c l ih =>
    have h1 := readOne_same E st a s c
    unfold verifyLoop
    cases hr : readOne E st a s c with
    | mk st1 r =>
      rw [hr] at h1
      cases r with
      | error e => exact h1
      | ok v =>
        simp only
        split
        · exact h1
        · exact h1.trans (ih st1)

theorem verify_same (E : Env) (a : Nat) (val : Int) (l : List Nat) (s : Scope) (st : St) :
    SameButCache st (verify E a val l s st).1 := by
  have h1 := (removeLoop_spec (E := E) (a := a) (s := s) l st).1
  unfold verify
  cases hr : removeLoop E a s l st with
  | mk st1 r =>
    rw [hr] at h1
    cases r with
    | error e => exact h1
    | ok u => exact h1.trans (verifyLoop_same E a val s l st1)

theorem verifyLoop_coh {E : Env} {sc : Nat → Scope} {R : Nat → Nat → Int}
    (hu : Uniform E sc R) {a : Nat} {val : Int} (l : List Nat) (ho : ∀ c ∈ l, c ∈ E.T.online) {st : St}
    (hc : Coh E R st) :
    Coh E R (verifyLoop E a val (sc a) l st).1 ∧
    ((verifyLoop E a val (sc a) l st).2 = .ok () → ∀ c ∈ l, R a c = val) ∧
    ((∀ c ∈ l, R a c = val) → (∀ c ∈ l, E.rfail a c = false) →
      (verifyLoop E a val (sc a) l st).2 = .ok ()) := by
  induction l generalizing st with
  | nil => exact ⟨hc, fun _ c h => by simp at h, fun _ _ => rfl⟩
  | cons c l ih =>
    obtain ⟨h1, h2, h3, h4⟩ := readOne_coh hu hc (a := a) (ho c (by simp))
    unfold verifyLoop
    cases hr : readOne E st a (sc a) c with
    | mk st1 r =>
      rw [hr] at h1 h2 h3 h4
      cases r with
      | error e =>
        refine ⟨h1, fun h => by simp at h, fun _ hf => ?_⟩
        have := h4 (hf c (by simp)); cases this
      | ok v =>
        have hv := h2 v rfl
        obtain ⟨g1, g2, g3⟩ := ih (fun x hx => ho x (by simp [hx])) h1
        simp only
        by_cases hne : v ≠ val
        · rw [if_pos hne]
          refine ⟨h1, fun h => by simp at h, fun hv' _ => absurd (hv.trans (hv' c (by simp))) hne⟩
        · rw [if_neg hne]
          refine ⟨g1, fun hok x hx => ?_, fun hv' hf => g3 (fun x hx => hv' x (by simp [hx]))
            (fun x hx => hf x (by simp [hx]))⟩
          rcases List.mem_cons.1 hx with rfl | hx
          · rw [← hv]; simpa using hne
          · exact g2 hok x hx

/-- Coherent everywhere but at register `a` in the units of `l`. -/
def CohExcept (E : Env) (a : Nat) (s : Scope) (l : List Nat) (st : St) : Prop :=
  ∀ n, ∀ c ∈ E.T.online, (n ≠ a ∨ ∀ d ∈ l, c ∉ E.T.sib s d) →
    ∀ v, st.cache.get? n c = some v → v = st.hw n c

theorem coh_hw_iff {E : Env} {st : St} :
    Coh E st.hw st ↔ ∀ n, ∀ c ∈ E.T.online, ∀ v, st.cache.get? n c = some v → v = st.hw n c := by
  constructor
  · intro h n c hc; exact (h n c hc).1
  · intro h n c hc; exact ⟨h n c hc, fun _ => rfl⟩

/-- `_verify()` re-reads everything it compares, so it repairs the cache. -/
theorem verify_coh {E : Env} {sc : Nat → Scope} {a : Nat} {val : Int} {l : List Nat}
    (ho : ∀ c ∈ l, c ∈ E.T.online) {st : St} (hu : Uniform E sc st.hw)
    (hc : Coh E st.hw st ∨ (CohExcept E a (sc a) l st ∧ sc a ≠ .global)) :
    Coh E st.hw (verify E a val l (sc a) st).1 ∧
    ((verify E a val l (sc a) st).2 = .ok () → ∀ c ∈ l, st.hw a c = val) ∧
    (sc a ≠ .global → (∀ c ∈ l, st.hw a c = val) → (∀ c ∈ l, E.rfail a c = false) →
      (verify E a val l (sc a) st).2 = .ok ()) := by
  obtain ⟨h1, h2, h3, h4, h5⟩ := removeLoop_spec (E := E) (a := a) (s := sc a) l st
  unfold verify
  cases hr : removeLoop E a (sc a) l st with
  | mk st1 r =>
    rw [hr] at h1 h2 h3 h4 h5
    have hw1 : st1.hw = st.hw := h1.1
    have hc1 : Coh E st.hw st1 := by
      rw [← hw1, coh_hw_iff]
      intro n c hcn v hv
      rw [hw1]
      have hv' := h3 n c v hv
      rcases hc with hc | ⟨hc, hg⟩
      · exact (hc n c hcn).1 v hv'
      · refine hc n c hcn ?_ v hv'
        by_cases hn : n = a
        · refine Or.inr fun d hd hs => ?_
          subst hn
          have := h4 (h5 hg).1 d hd c hs
          rw [hv] at this; cases this
        · exact Or.inl hn
    cases r with
    | error e =>
      refine ⟨hc1, fun h => by simp at h, fun hg _ _ => ?_⟩
      have := (h5 hg).1; simp at this
    | ok u =>
      obtain ⟨g1, g2, g3⟩ := verifyLoop_coh hu (a := a) (val := val) l ho hc1
      exact ⟨g1, g2, fun _ => g3⟩

/-! ### Hardware writes and the immediate write loop -/

/-- The hardware keeps one value per I/O scope unit: CPUs share register `a` exactly if they are
siblings in scope `sc a`. -/
def Scoped (E : Env) (sc : Nat → Scope) : Prop :=
  ∀ a, ∀ c ∈ E.T.online, ∀ d ∈ E.T.online, E.share a c d = true ↔ d ∈ E.T.sib (sc a) c

theorem hwWrite_ok {E : Env} {st st' : St} {a : Nat} {v : Int} {cpu : Nat}
    (h : hwWrite E st a v cpu = (st', .ok ())) :
    (0 ≤ v ∧ v < 2 ^ 64) ∧ E.wfail a cpu = false ∧ st'.cache = st.cache ∧ st'.buf = st.buf ∧
      st'.inTransaction = st.inTransaction ∧ st'.log = st.log ++ [(cpu, a, v)] ∧
      ∀ n x, st'.hw n x = if n = a ∧ E.share a cpu x = true then E.store a (st.hw a cpu) v
        else st.hw n x := by
  unfold hwWrite at h
  split at h
  · cases h
  · split at h
    · cases h
    · rename_i h1 h2
      cases h
      exact ⟨by omega, by simpa using h2, rfl, rfl, rfl, rfl, fun _ _ => rfl⟩

theorem hwWrite_error {E : Env} {st st' : St} {a : Nat} {v : Int} {cpu : Nat} {e : Exn}
    (h : hwWrite E st a v cpu = (st', .error e)) :
    st' = st ∧ ((v < 0 ∨ v ≥ 2 ^ 64) ∨ E.wfail a cpu = true) := by
  unfold hwWrite at h
  split at h
  · rename_i h1
    cases h
    exact ⟨rfl, Or.inl h1⟩
  · split at h
    · rename_i h1
      cases h
      exact ⟨rfl, Or.inr h1⟩
    · cases h

theorem hwWrite_fits {E : Env} (st : St) {a : Nat} {v : Int} {cpu : Nat} (h : 0 ≤ v ∧ v < 2 ^ 64)
    (hf : E.wfail a cpu = false) : ∃ st', hwWrite E st a v cpu = (st', .ok ()) := by
  unfold hwWrite
  rw [if_neg (by omega), if_neg (by simp [hf])]
  exact ⟨_, rfl⟩

/-- Everything about the write loop outside of transactions. -/
theorem writeLoop_imm {E : Env} (w : TopoWF E.T) {sc : Nat → Scope} (hs : Scoped E sc) {a : Nat}
    {val : Int} {vfy : Bool} (l : List Nat) (ho : ∀ c ∈ l, c ∈ E.T.online) (st st' : St)
    (r : Except Exn Unit) (hi : st.inTransaction = false) (hu : Uniform E sc st.hw)
    (h : writeLoop E a val vfy (sc a) l st = (st', r)) :
    st'.buf = st.buf ∧ st'.inTransaction = false ∧ st'.cache.enabled = st.cache.enabled ∧
    Uniform E sc st'.hw ∧
    -- Other registers and units are not affected.
    (∀ n, ∀ x ∈ E.T.online, (n ≠ a ∨ ∀ c ∈ l, x ∉ E.T.sib (sc a) c) →
      st'.hw n x = st.hw n x ∧ st'.cache.get? n x = st.cache.get? n x) ∧
    -- Cache coherence.
    ((∀ o v, E.store a o v = v) → Coh E st.hw st → Coh E st'.hw st') ∧
    -- All the CPUs get the value.
    ((∀ o v, E.store a o v = v) → (∀ c ∈ l, st.cache.isCached a c = true → st.hw a c = val) →
      r = .ok () → ∀ c ∈ l, st'.hw a c = val) ∧
    -- The hardware writes.
    (∃ ws : List Nat, st'.log = st.log ++ ws.map (fun c => (c, a, val)) ∧ ws.Sublist l ∧
      (∀ c ∈ ws, st.cache.isCached a c = false) ∧
      (st.cache.enabled = true → ws.Pairwise (fun c d => d ∉ E.T.sib (sc a) c)) ∧
      (r = .ok () → ∀ c ∈ l, st.cache.isCached a c = true ∨ ∃ d ∈ ws, c ∈ E.T.sib (sc a) d)) ∧
    -- When it fails.
    (∀ e, r = .error e → (val < 0 ∨ val ≥ 2 ^ 64) ∧ st' = st ∨ ∃ c ∈ l, E.wfail a c = true) := by
  induction l generalizing st with
  | nil =>
    unfold writeLoop at h
    cases h
    exact ⟨rfl, hi, rfl, hu, fun _ _ _ _ => ⟨rfl, rfl⟩, fun _ h => h, fun _ _ _ c hc => by simp at hc,
      ⟨[], by simp, by simp, by simp, by simp, by simp⟩, fun e he => by cases he⟩
  | cons c l ih =>
    have hco : c ∈ E.T.online := ho c (by simp)
    have hol : ∀ x ∈ l, x ∈ E.T.online := fun x hx => ho x (by simp [hx])
    unfold writeLoop at h
    by_cases hcc : st.cache.isCached a c = true
    · rw [if_pos hcc] at h
      obtain ⟨k1, k2, k3, k4, k5, k6, k7, ⟨ws, e1, e2, e3, e4, e5⟩, k9⟩ := ih hol st hi hu h
      refine ⟨k1, k2, k3, k4, fun n x hx hn => k5 n x hx ?_, k6, ?_,
        ⟨ws, e1, e2.cons _, e3, e4, ?_⟩, ?_⟩
      · exact hn.imp id (fun hn d hd => hn d (by simp [hd]))
      · intro hst hpre hok d hd
        rcases List.mem_cons.1 hd with rfl | hd'
        · have hval := hpre d (by simp) hcc
          by_cases hex : ∃ d' ∈ l, d ∈ E.T.sib (sc a) d'
          · obtain ⟨d', hd', hdd⟩ := hex
            have := k7 hst (fun x hx => hpre x (by simp [hx])) hok d' hd'
            rw [← this]
            exact k4 a d' (hol d' hd') d hdd
          · have := (k5 a d hco (Or.inr (fun d' hd' hh => hex ⟨d', hd', hh⟩))).1
            rw [this, hval]
        · exact k7 hst (fun x hx => hpre x (by simp [hx])) hok d hd'
      · intro hok d hd
        rcases List.mem_cons.1 hd with rfl | hd
        · exact Or.inl hcc
        · exact e5 hok d hd
      · intro e he
        rcases k9 e he with h | ⟨d, hd, h⟩
        · exact Or.inl h
        · exact Or.inr ⟨d, by simp [hd], h⟩
    · rw [if_neg hcc] at h
      simp only [hi, Bool.not_false, if_true] at h
      cases hw : hwWrite E st a val c with
      | mk st1 r1 =>
        rw [hw] at h
        cases r1 with
        | error e =>
          simp only at h
          obtain ⟨rfl, hwhy⟩ := hwWrite_error hw
          cases h
          refine ⟨rfl, hi, rfl, hu, fun _ _ _ _ => ⟨rfl, rfl⟩, fun _ h => h, (fun _ _ h => by cases h),
            ⟨[], by simp, by simp, by simp, by simp, (fun h => by cases h)⟩, fun e' he => ?_⟩
          rcases hwhy with h | h
          · exact Or.inl ⟨h, rfl⟩
          · exact Or.inr ⟨c, by simp, h⟩
        | ok u =>
          simp only at h
          obtain ⟨f1, f2, f3, f4, f5, f6, f7⟩ := hwWrite_ok hw
          have hu1 : Uniform E sc st1.hw := by
            intro n x hx d hd
            have hdo := w.sub _ _ _ hx hd
            rw [f7, f7]
            by_cases hn : n = a
            · subst hn
              have hiff : E.share n c d = true ↔ E.share n c x = true := by
                rw [hs n c hco d hdo, hs n c hco x hx]
                constructor
                · intro h1
                  rw [w.common hco hx h1 hd]; exact w.refl _ _ hx
                · intro h1
                  rw [w.common hco hx h1 (w.refl _ _ hx)]; exact hd
              by_cases hsh : E.share n c x = true
              · simp [hsh, hiff.2 hsh]
              · have : ¬ E.share n c d = true := fun h => hsh (hiff.1 h)
                simp only [hsh, this]
                exact hu n x hx d hd
            · simp only [hn, false_and, if_false]
              exact hu n x hx d hd
          have hcache : ∀ n x, (st1.cache.add E.T a c val (sc a)).get? n x =
              if st.cache.enabled = true ∧ n = a ∧ x ∈ E.T.sib (sc a) c then some val
              else st.cache.get? n x := by
            intro n x; rw [Cache.get?_add, f3]
          obtain ⟨k1, k2, k3, k4, k5, k6, k7, ⟨ws, e1, e2, e3, e4, e5⟩, k9⟩ :=
            ih hol { st1 with cache := st1.cache.add E.T a c val (sc a) } (f5.trans hi) hu1 h
          simp only at k1 k3 k5 k6 k7 e1 e3 e4 e5 k9
          have hself : (∀ o v, E.store a o v = v) → ∀ d ∈ E.T.sib (sc a) c, st1.hw a d = val := by
            intro hst d hd
            have hdo := w.sub _ _ _ hco hd
            rw [f7, if_pos ⟨rfl, (hs a c hco d hdo).2 hd⟩, hst]
          refine ⟨k1.trans f4, k2, k3.trans (by rw [Cache.enabled_add, f3]), k4, ?_, ?_, ?_,
            ⟨c :: ws, ?_, e2.cons_cons _, ?_, ?_, ?_⟩, ?_⟩
          · intro n x hx hn
            have hn' : n ≠ a ∨ ∀ d ∈ l, x ∉ E.T.sib (sc a) d :=
              hn.imp id (fun hn d hd => hn d (by simp [hd]))
            have hneg : ¬ (n = a ∧ x ∈ E.T.sib (sc a) c) := by
              rintro ⟨rfl, hx'⟩
              rcases hn with hn | hn
              · exact hn rfl
              · exact hn c (by simp) hx'
            obtain ⟨g1, g2⟩ := k5 n x hx hn'
            refine ⟨g1.trans ?_, g2.trans ?_⟩
            · rw [f7, if_neg]
              rintro ⟨rfl, hsh⟩
              exact hneg ⟨rfl, (hs n c hco x hx).1 hsh⟩
            · rw [hcache, if_neg (fun h => hneg h.2)]
          · intro hst hcoh
            refine k6 hst ?_
            rw [coh_hw_iff] at hcoh
            intro n x hx
            refine ⟨fun v hv => ?_, fun _ => rfl⟩
            simp only [hcache] at hv
            simp only [f7]
            split at hv
            · rename_i hh
              obtain ⟨_, rfl, hx'⟩ := hh
              cases hv
              rw [if_pos ⟨rfl, (hs n c hco x hx).2 hx'⟩, hst]
            · rename_i hh
              by_cases hen : st.cache.enabled = true
              · rw [if_neg]
                · exact hcoh n x hx v hv
                · rintro ⟨rfl, hsh⟩
                  exact hh ⟨hen, rfl, (hs n c hco x hx).1 hsh⟩
              · rw [Cache.get?_disabled (by simpa using hen)] at hv; cases hv
          · intro hst hpre hok d hd
            have hpre' : ∀ x ∈ l, (st1.cache.add E.T a c val (sc a)).isCached a x = true →
                st1.hw a x = val := by
              intro x hx hcx
              have hxo := hol x hx
              by_cases hxs : x ∈ E.T.sib (sc a) c
              · exact hself hst x hxs
              · rw [Cache.isCached, hcache, if_neg (fun h => hxs h.2.2)] at hcx
                have := hpre x (by simp [hx]) hcx
                rw [f7, if_neg, this]
                rintro ⟨_, hsh⟩
                exact hxs ((hs a c hco x hxo).1 hsh)
            rcases List.mem_cons.1 hd with rfl | hd'
            · by_cases hex : ∃ d' ∈ l, d ∈ E.T.sib (sc a) d'
              · obtain ⟨d', hd', hdd⟩ := hex
                have := k7 hst hpre' hok d' hd'
                rw [← this]
                exact k4 a d' (hol d' hd') d hdd
              · have := (k5 a d hco (Or.inr (fun d' hd' hh => hex ⟨d', hd', hh⟩))).1
                rw [this]
                exact hself hst d (w.refl _ _ hco)
            · exact k7 hst hpre' hok d hd'
          · rw [e1, f6]; simp
          · intro x hx
            rcases List.mem_cons.1 hx with rfl | hx
            · simpa using hcc
            · have := e3 x hx
              simp only [Cache.isCached, hcache] at this
              split at this
              · simp at this
              · exact this
          · intro hen
            refine List.Pairwise.cons (fun x hx hxs => ?_) (e4 (by rw [Cache.enabled_add, f3, hen]))
            have := e3 x hx
            simp [Cache.isCached, hcache, hen, hxs] at this
          · intro hok d hd
            rcases List.mem_cons.1 hd with rfl | hd
            · exact Or.inr ⟨d, by simp, w.refl _ _ hco⟩
            · rcases e5 hok d hd with h | ⟨x, hx, h⟩
              · simp only [Cache.isCached, hcache] at h
                split at h
                · rename_i hh
                  exact Or.inr ⟨c, by simp, hh.2.2⟩
                · exact Or.inl h
              · exact Or.inr ⟨x, by simp [hx], h⟩
          · intro e he
            rcases k9 e he with ⟨h, _⟩ | ⟨d, hd, h⟩
            · omega
            · exact Or.inr ⟨d, by simp [hd], h⟩

/-- The state of an object outside of transactions whose cache is coherent. -/
structure Good (E : Env) (sc : Nat → Scope) (st : St) : Prop where
  uniform : Uniform E sc st.hw
  coh : Coh E st.hw st
  noTrans : st.inTransaction = false

/-- Register `a` keeps what is written to it, or writes to it are verified and not refused. -/
def Sound (E : Env) (sc : Nat → Scope) (a : Nat) (vfy : Bool) : Prop :=
  (∀ o v, E.store a o v = v) ∨ (vfy = true ∧ (∀ c, E.wfail a c = false) ∧ sc a ≠ .global)

theorem SameButCache.good {E : Env} {sc : Nat → Scope} {st st' : St} (h : SameButCache st st')
    (hg : Good E sc st) (hc : Coh E st.hw st') : Good E sc st' :=
  ⟨by rw [h.1]; exact hg.uniform, by rw [h.1]; exact hc, h.2.2.2.1.trans hg.noTrans⟩

theorem writeNorm_imm {E : Env} (w : TopoWF E.T) {sc : Nat → Scope} (hs : Scoped E sc) {a : Nat}
    {val : Int} {vfy : Bool} {l : List Nat} (ho : ∀ c ∈ l, c ∈ E.T.online) {st st' : St}
    {r : Except Exn Unit} (hg : Good E sc st) (hsound : Sound E sc a vfy)
    (h : writeNorm E st a val l (sc a) vfy = (st', r)) :
    Good E sc st' ∧ st'.buf = st.buf ∧ st'.cache.enabled = st.cache.enabled ∧
    (∀ n, ∀ x ∈ E.T.online, (n ≠ a ∨ ∀ c ∈ l, x ∉ E.T.sib (sc a) c) → st'.hw n x = st.hw n x) ∧
    (r = .ok () → ∀ c ∈ l, st'.hw a c = val) ∧
    (∃ ws : List Nat, st'.log = st.log ++ ws.map (fun c => (c, a, val)) ∧ ws.Sublist l ∧
      (st.cache.enabled = true → ws.Pairwise (fun c d => d ∉ E.T.sib (sc a) c)) ∧
      (r = .ok () → ∀ c ∈ l, ∃ d ∈ ws, c ∈ E.T.sib (sc a) d)) := by
  obtain ⟨h1, h2, h3, h4, h5⟩ := removeLoop_spec (E := E) (a := a) (s := sc a) l st
  unfold writeNorm at h
  cases hr : removeLoop E a (sc a) l st with
  | mk st1 r1 =>
    rw [hr] at h h1 h2 h3 h4 h5
    have hw1 : st1.hw = st.hw := h1.1
    have hg1 : Good E sc st1 := by
      refine h1.good hg ?_
      intro n c hc
      refine ⟨fun v hv => (hg.coh n c hc).1 v (h3 n c v hv), fun _ => by rw [hw1]⟩
    cases r1 with
    | error e =>
      simp only at h
      cases h
      exact ⟨hg1, h1.2.2.1, h1.2.2.2.2, fun _ _ _ _ => by rw [hw1], (fun h => by cases h),
        [], by simpa using h1.2.1, by simp, by simp, (fun h => by cases h)⟩
    | ok u =>
      simp only at h
      have hnc : ∀ c ∈ l, st1.cache.isCached a c = false := by
        intro c hc
        have := h4 rfl c hc c (w.refl _ _ (ho c hc))
        simp only at this
        simp [Cache.isCached, this]
      cases hw : writeLoop E a val vfy (sc a) l st1 with
      | mk st2 r2 =>
        rw [hw] at h
        obtain ⟨k1, k2, k3, k4, k5, k6, k7, ⟨ws, e1, e2, e3, e4, e5⟩, k9⟩ :=
          writeLoop_imm w hs l ho st1 st2 r2 hg1.noTrans hg1.uniform hw
        have e5' : r2 = .ok () → ∀ c ∈ l, ∃ d ∈ ws, c ∈ E.T.sib (sc a) d := by
          intro hok c hc
          rcases e5 hok c hc with hh | hh
          · rw [hnc c hc] at hh; cases hh
          · exact hh
        have hhw : ∀ n, ∀ x ∈ E.T.online, (n ≠ a ∨ ∀ c ∈ l, x ∉ E.T.sib (sc a) c) →
            st2.hw n x = st.hw n x := by
          intro n x hx hn
          rw [(k5 n x hx hn).1, hw1]
        have hlog : st2.log = st.log ++ ws.map (fun c => (c, a, val)) := by rw [e1, h1.2.1]
        have hpre : ∀ c ∈ l, st1.cache.isCached a c = true → st1.hw a c = val := by
          intro c hc hh; rw [hnc c hc] at hh; cases hh
        have hexc : CohExcept E a (sc a) l st2 := by
          intro n c hc hn v hv
          obtain ⟨g1, g2⟩ := k5 n c hc hn
          rw [g2] at hv
          rw [g1]
          exact (hg1.coh n c hc).1 v hv |>.trans rfl
        cases r2 with
        | error e =>
          simp only at h
          cases h
          have hcoh2 : Coh E st'.hw st' := by
            rcases hsound with hst | ⟨_, hnf, _⟩
            · exact k6 hst hg1.coh
            · rcases k9 e rfl with ⟨_, rfl⟩ | ⟨c, _, hf⟩
              · exact hg1.coh
              · rw [hnf c] at hf; cases hf
          exact ⟨⟨k4, hcoh2, k2⟩, k1.trans h1.2.2.1, k3.trans h1.2.2.2.2, hhw, (fun h => by cases h),
            ws, hlog, e2, fun he => e4 (h1.2.2.2.2.trans he), (fun h => by cases h)⟩
        | ok u2 =>
          simp only at h
          rw [k2] at h
          by_cases hv : vfy = true
          · subst hv
            simp only [Bool.not_false, Bool.and_self, if_true] at h
            have hs2 := verify_same E a val l (sc a) st2
            have hvc := verify_coh (val := val) ho (sc := sc) (a := a) k4 (by
              rcases hsound with hst | ⟨_, _, hng⟩
              · exact Or.inl (k6 hst hg1.coh)
              · exact Or.inr ⟨hexc, hng⟩)
            rw [h] at hs2 hvc
            refine ⟨⟨by rw [hs2.1]; exact k4, by rw [hs2.1]; exact hvc.1, hs2.2.2.2.1.trans k2⟩,
              hs2.2.2.1.trans (k1.trans h1.2.2.1), hs2.2.2.2.2.trans (k3.trans h1.2.2.2.2),
              ?_, ?_, ws, hs2.2.1.trans hlog, e2, fun he => e4 (h1.2.2.2.2.trans he),
              fun _ => e5' rfl⟩
            · intro n x hx hn
              rw [hs2.1]; exact hhw n x hx hn
            · intro hok c hc
              rw [hs2.1]; exact hvc.2.1 hok c hc
          · have hv : vfy = false := by simpa using hv
            subst hv
            simp only [Bool.false_and, Bool.false_eq_true, if_false] at h
            cases h
            rcases hsound with hst | ⟨hf, _⟩
            · exact ⟨⟨k4, k6 hst hg1.coh, k2⟩, k1.trans h1.2.2.1, k3.trans h1.2.2.2.2, hhw,
                fun _ => k7 hst hpre rfl, ws, hlog, e2, fun he => e4 (h1.2.2.2.2.trans he),
                fun _ => e5' rfl⟩
            · cases hf

/-! ### Read-modify-write -/

/-- CPU `c` has to be changed to value `v`. -/
def changesTo (R : Nat → Nat → Int) (a : Nat) (bits : BitRange) (val : FieldVal) (v : Int) (c : Nat) :
    Bool := decide (setBits (R a c) bits val = .ok v) && decide (R a c ≠ v)

theorem modifyLoop_spec {E : Env} {sc : Nat → Scope} {R : Nat → Nat → Int} (hu : Uniform E sc R)
    {a : Nat} {bits : BitRange} {val : FieldVal} (l : List Nat) (ho : ∀ c ∈ l, c ∈ E.T.online)
    (st st' : St) (acc : Dict Int (List Nat)) (r : Except Exn (Dict Int (List Nat)))
    (hc : Coh E R st) (h : modifyLoop E a bits val (sc a) l st acc = (st', r)) :
    SameButCache st st' ∧ Coh E R st' ∧
    (∀ g, r = .ok g →
      (∀ c ∈ l, ∃ v, setBits (R a c) bits val = .ok v) ∧
      (∀ v, (g.get? v).getD [] = (acc.get? v).getD [] ++ l.filter (changesTo R a bits val v)) ∧
      ((Dict.keys acc).Nodup → (Dict.keys g).Nodup)) := by
  induction l generalizing st acc with
  | nil =>
    unfold modifyLoop at h
    cases h
    exact ⟨SameButCache.refl _, hc, fun g hg => by
      cases hg; exact ⟨fun c hc => by simp at hc, fun v => by simp, fun h => h⟩⟩
  | cons c l ih =>
    have h0 := readOne_same E st a (sc a) c
    obtain ⟨h1, h2, h3, h4⟩ := readOne_coh hu hc (a := a) (ho c (by simp))
    have hol : ∀ x ∈ l, x ∈ E.T.online := fun x hx => ho x (by simp [hx])
    unfold modifyLoop at h
    cases hr : readOne E st a (sc a) c with
    | mk st1 r1 =>
      rw [hr] at h h0 h1 h2
      cases r1 with
      | error e =>
        simp only at h
        cases h
        exact ⟨h0, h1, fun g hg => by cases hg⟩
      | ok v =>
        obtain rfl := h2 v rfl
        simp only at h
        cases hsb : setBits (R a c) bits val with
        | error e =>
          simp only [hsb] at h
          cases h
          exact ⟨h0, h1, fun g hg => by cases hg⟩
        | ok new =>
          simp only [hsb] at h
          by_cases hne : R a c = new
          · rw [if_pos hne] at h
            obtain ⟨k1, k2, k3⟩ := ih hol st1 acc h1 h
            refine ⟨h0.trans k1, k2, fun g hg => ?_⟩
            obtain ⟨g1, g2, g3⟩ := k3 g hg
            refine ⟨?_, ?_, g3⟩
            · intro x hx
              rcases List.mem_cons.1 hx with rfl | hx
              · exact ⟨new, hsb⟩
              · exact g1 x hx
            · intro v
              rw [g2 v, List.filter_cons_of_neg]
              simp only [changesTo, hsb, Except.ok.injEq, Bool.and_eq_true, decide_eq_true_eq]
              rintro ⟨rfl, h⟩; exact h hne
          · rw [if_neg hne] at h
            obtain ⟨k1, k2, k3⟩ := ih hol st1 _ h1 h
            refine ⟨h0.trans k1, k2, fun g hg => ?_⟩
            obtain ⟨g1, g2, g3⟩ := k3 g hg
            refine ⟨?_, ?_, fun hn => g3 (Dict.nodup_keys_set hn _ _)⟩
            · intro x hx
              rcases List.mem_cons.1 hx with rfl | hx
              · exact ⟨new, hsb⟩
              · exact g1 x hx
            · intro v
              rw [g2 v, Dict.get?_set]
              by_cases hv : new = v
              · subst hv
                rw [if_pos rfl, List.filter_cons_of_pos]
                · simp
                · simp [changesTo, hsb, hne]
              · rw [if_neg hv, List.filter_cons_of_neg]
                simp [changesTo, hsb, hv]

/-- The groups of CPUs have no common units and are made of online CPUs. -/
structure GroupsOK (E : Env) (s : Scope) (gs : Dict Int (List Nat)) : Prop where
  nodup : ∀ p ∈ gs, p.2.Nodup
  online : ∀ p ∈ gs, ∀ c ∈ p.2, c ∈ E.T.online
  disj : gs.Pairwise (fun p q => ∀ c ∈ p.2, ∀ d ∈ q.2, d ∉ E.T.sib s c)

theorem groupsOK_of_modify {E : Env} {sc : Nat → Scope} {R : Nat → Nat → Int}
    (hu : Uniform E sc R) {a : Nat} {bits : BitRange} {val : FieldVal} {l : List Nat} (hn : l.Nodup)
    (ho : ∀ c ∈ l, c ∈ E.T.online) {g : Dict Int (List Nat)} (hk : (Dict.keys g).Nodup)
    (hg : ∀ v, (g.get? v).getD [] = l.filter (changesTo R a bits val v)) :
    (∀ p ∈ g, p.2 = l.filter (changesTo R a bits val p.1)) ∧ GroupsOK E (sc a) g := by
  have hp : ∀ p ∈ g, p.2 = l.filter (changesTo R a bits val p.1) := by
    intro p hp
    have := hg p.1
    rw [Dict.get?_of_mem hk (v := p.2) hp] at this
    exact this
  refine ⟨hp, ?_, ?_, ?_⟩
  · intro p hpm
    rw [hp p hpm]; exact hn.filter _
  · intro p hpm c hc
    rw [hp p hpm] at hc
    exact ho c (List.mem_of_mem_filter hc)
  · have hk' : g.Pairwise (fun p q => p.1 ≠ q.1) := List.pairwise_map.1 hk
    refine hk'.imp_of_mem ?_
    intro p q hpm hqm hne c hc d hd hs
    rw [hp p hpm, List.mem_filter] at hc
    rw [hp q hqm, List.mem_filter] at hd
    have hc2 := hc.2
    have hd2 := hd.2
    simp only [changesTo, Bool.and_eq_true, decide_eq_true_eq] at hc2 hd2
    rw [hu a c (ho c hc.1) d hs, hc2.1] at hd2
    exact hne (by simpa using hd2.1)

theorem writeGroups_imm {E : Env} (w : TopoWF E.T) {sc : Nat → Scope} (hs : Scoped E sc) {a : Nat}
    {vfy : Bool} (hsound : Sound E sc a vfy) (gs : Dict Int (List Nat))
    (hgs : GroupsOK E (sc a) gs) (st st' : St) (r : Except Exn Unit) (hg : Good E sc st)
    (h : writeGroups E a (sc a) vfy gs st = (st', r)) :
    Good E sc st' ∧ st'.buf = st.buf ∧ st'.cache.enabled = st.cache.enabled ∧
    (∀ n, ∀ x ∈ E.T.online, (n ≠ a ∨ ∀ p ∈ gs, ∀ c ∈ p.2, x ∉ E.T.sib (sc a) c) →
      st'.hw n x = st.hw n x) ∧
    (r = .ok () → ∀ p ∈ gs, ∀ c ∈ p.2, st'.hw a c = p.1) := by
  induction gs generalizing st with
  | nil =>
    unfold writeGroups at h
    cases h
    exact ⟨hg, rfl, rfl, fun _ _ _ _ => rfl, fun _ p hp => by simp at hp⟩
  | cons p gs ih =>
    obtain ⟨v, cpus⟩ := p
    have hgs' : GroupsOK E (sc a) gs :=
      ⟨fun p hp => hgs.nodup p (by simp [hp]), fun p hp => hgs.online p (by simp [hp]),
        (List.pairwise_cons.1 hgs.disj).2⟩
    have hon : ∀ c ∈ cpus, c ∈ E.T.online := hgs.online (v, cpus) (by simp)
    have hwn : ∀ st, write E st a v (.nums cpus) (sc a) vfy = writeNorm E st a v cpus (sc a) vfy := by
      intro st
      simp only [write, normCpus_nums_self (hgs.nodup (v, cpus) (by simp)) hon]
    unfold writeGroups at h
    rw [hwn] at h
    cases hw : writeNorm E st a v cpus (sc a) vfy with
    | mk st1 r1 =>
      rw [hw] at h
      obtain ⟨k1, k2, k3, k4, k5, _⟩ := writeNorm_imm w hs hon hg hsound hw
      cases r1 with
      | error e =>
        simp only at h
        cases h
        refine ⟨k1, k2, k3, fun n x hx hn => k4 n x hx ?_, (fun h => by cases h)⟩
        exact hn.imp id (fun hn => hn (v, cpus) (by simp))
      | ok u =>
        simp only at h
        obtain ⟨g1, g2, g3, g4, g5⟩ := ih hgs' st1 k1 h
        refine ⟨g1, g2.trans k2, g3.trans k3, fun n x hx hn => ?_, fun hok p hp => ?_⟩
        · rw [g4 n x hx (hn.imp id (fun hn p hp => hn p (by simp [hp]))),
            k4 n x hx (hn.imp id (fun hn => hn (v, cpus) (by simp)))]
        · rcases List.mem_cons.1 hp with rfl | hp
          · intro c hc
            rw [g4 a c (hon c hc) (Or.inr ?_)]
            · exact k5 rfl c hc
            · intro p hp d hd hcd
              have := (List.pairwise_cons.1 hgs.disj).1 p hp c hc d hd
              have hdo := hgs'.online p hp d hd
              exact this (w.symm hdo hcd)
          · exact g5 hok p hp

end MSR

end Verif
