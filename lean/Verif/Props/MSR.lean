import Verif.Lemmas.MSR

/-!
C04, C05, C08, C09, C10: the per-CPU cache and cached MSR access outside of transactions.
-/

namespace Verif

open CPUInfo (Scope Nums)

/-! ### C10: the per-CPU cache -/

/-- **C10** (add). After `add(name, cpu, val, scope)` every CPU of the scope has the value, all other
CPUs and names are unaffected. -/
theorem C10_cache_add {κ ν : Type} [DecidableEq κ] (T : Topo) (c : Cache κ ν) (he : c.enabled = true)
    (name : κ) (cpu : Nat) (v : ν) (s : Scope) :
    (∀ x ∈ T.sib s cpu, (c.add T name cpu v s).get? name x = some v) ∧
    (∀ x, x ∉ T.sib s cpu → (c.add T name cpu v s).get? name x = c.get? name x) ∧
    (∀ n x, n ≠ name → (c.add T name cpu v s).get? n x = c.get? n x) := by
  refine ⟨fun x hx => ?_, fun x hx => ?_, fun n x hn => ?_⟩ <;> rw [Cache.get?_add]
  · rw [if_pos ⟨he, rfl, hx⟩]
  · rw [if_neg (fun h => hx h.2.2)]
  · rw [if_neg (fun h => hn h.2.1)]

/-- **C10** (disabled). With caching disabled nothing is ever found, whatever was added. -/
theorem C10_cache_disabled {κ ν : Type} [DecidableEq κ] (T : Topo) (c : Cache κ ν)
    (he : c.enabled = false) (name : κ) (cpu : Nat) (v : ν) (s : Scope) (n : κ) (x : Nat) :
    c.get? n x = none ∧ (c.add T name cpu v s).get? n x = none ∧
      c.remove T name cpu s = .ok c := by
  refine ⟨Cache.get?_disabled he _ _, Cache.get?_disabled (by simp [he]) _ _, ?_⟩
  simp [Cache.remove, he]

/-- **C10** is false of the code for the "global" scope: removing a name that is not in the cache
raises `KeyError` (for all other scopes it is a no-op). -/
theorem C10_cache_remove_counterexample (T : Topo) :
    (Cache.empty true : Cache Nat Int).remove T 7 0 .global = .error .pyKeyError := rfl

/-- **C10** (remove, partial). Full property: `remove()` in *any* scope and for *any* cache contents
succeeds, leaves no entry for the CPUs of the scope and keeps all others. Proved here: for every
scope but "global" with any contents, and for the "global" scope if the name is cached. Missing (false
of the code): a name that is not cached in the "global" scope, see the counterexample. -/
theorem C10_cache_remove_partial {κ ν : Type} [DecidableEq κ] (T : Topo) (c : Cache κ ν) (name : κ)
    (cpu : Nat) (s : Scope) (h : s = .global → ∃ x v, c.get? name x = some v) :
    ∃ c', c.remove T name cpu s = .ok c' ∧
      (∀ x ∈ T.sib s cpu, c'.get? name x = none) ∧
      (∀ n x, n ≠ name → c'.get? n x = c.get? n x) ∧
      (s ≠ .global → ∀ x, x ∉ T.sib s cpu → c'.get? name x = c.get? name x) ∧
      (s = .global → ∀ x, c'.get? name x = none) := by
  by_cases hs : s = .global
  · subst hs
    obtain ⟨x, v, hv⟩ := h rfl
    have he : c.enabled = true := by
      cases hc : c.enabled
      · rw [Cache.get?_disabled hc] at hv; cases hv
      · rfl
    have ht : ∃ f, c.tab name = some f := by
      cases hc : c.tab name with
      | none => simp [Cache.get?, he, hc] at hv
      | some f => exact ⟨f, rfl⟩
    obtain ⟨f, hf⟩ := ht
    refine ⟨{ c with tab := fun n => if n = name then none else c.tab n }, ?_, ?_, ?_, ?_, ?_⟩
    · simp [Cache.remove, he, hf]
    · intro x _; simp [Cache.get?]
    · intro n x hn; simp [Cache.get?, hn]
    · intro hg; exact absurd rfl hg
    · intro _ x; simp [Cache.get?]
  · obtain ⟨c', h1, h2⟩ := c.remove_ok_of_ne_global T name cpu hs
    refine ⟨c', h1, ?_, ?_, ?_, fun hg => absurd hg hs⟩
    · intro x hx; rw [h2, if_pos ⟨rfl, hx⟩]
    · intro n x hn; rw [h2, if_neg (fun h => hn h.1)]
    · intro _ x hx; rw [h2, if_neg (fun h => hx h.2)]

/-- Add for the package of CPU 4 (CPUs 0, 1, 4, 5), then remove for the core of CPU 5 (CPUs 1, 5). -/
example :
    let T := Topo.ofInfo CPUInfo.exInfo
    let c := (Cache.empty true : Cache Nat Int).add T 7 4 42 (.lvl .package)
    c.enabled = true ∧ c.get? 7 1 = some 42 ∧ c.get? 7 2 = none ∧
    ∃ c', c.remove T 7 5 (.lvl .core) = .ok c' ∧ c'.get? 7 0 = some 42 ∧ c'.get? 7 1 = none :=
  ⟨rfl, by decide +kernel, by decide +kernel, _, rfl, by decide +kernel, by decide +kernel⟩

example : ∃ x v, ((Cache.empty true : Cache Nat Int).add (Topo.ofInfo CPUInfo.exInfo) 7 4 42
    .global).get? 7 x = some v := ⟨1, 42, by decide +kernel⟩

namespace MSR

open Verif.Bits (BitRange FieldVal setBits getBits)

/-! ### Specification -/

/-- What an argument `cpus` asks for: `norm` lists exactly the requested CPUs once, in the order of
the request (of the first occurrences), and all of them are online. -/
def Asked (T : Topo) (cpus : Nums) (norm : List Nat) : Prop :=
  norm.Nodup ∧ (∀ c ∈ norm, c ∈ T.online) ∧
  match cpus with
  | .all => norm.Pairwise (· < ·) ∧ ∀ c, c ∈ norm ↔ c ∈ T.online
  | .nums l => norm.Pairwise (fun c d => l.idxOf c < l.idxOf d) ∧ ∀ c, c ∈ norm ↔ c ∈ l

/-- A method call on an `MSR` object outside of transactions. -/
inductive Call where
  | read (a : Nat) (cpus : Nums)
  | readBits (a : Nat) (bits : BitRange) (cpus : Nums)
  | write (a : Nat) (val : Int) (cpus : Nums) (vfy : Bool)
  | writeBits (a : Nat) (bits : BitRange) (val : FieldVal) (cpus : Nums) (vfy : Bool)

/-- What a call returns. -/
abbrev Result := Except Exn (List (Nat × Int))

/-- Execute a call, using register `a` with its I/O scope `sc a`. -/
def call (E : Env) (sc : Nat → Scope) (st : St) : Call → St × Result
  | .read a cpus => read E st a cpus (sc a)
  | .readBits a bits cpus => readBits E st a bits cpus (sc a)
  | .write a val cpus vfy =>
    let r := write E st a val cpus (sc a) vfy
    (r.1, r.2.map fun _ => [])
  | .writeBits a bits val cpus vfy =>
    let r := writeBits E st a bits val cpus (sc a) vfy
    (r.1, r.2.map fun _ => [])

/-- Execute a list of calls. A call that fails does not prevent the following ones. -/
def calls (E : Env) (sc : Nat → Scope) : List Call → St → St × List Result
  | [], st => (st, [])
  | c :: cs, st =>
    let r := call E sc st c
    let rs := calls E sc cs r.1
    (rs.1, r.2 :: rs.2)

/-- The register the call writes keeps what is written to it, or (registers with read-only bits) all
writes to it are verified and the kernel does not refuse them. -/
def CallSound (E : Env) (sc : Nat → Scope) : Call → Prop
  | .write a _ _ vfy => Sound E sc a vfy
  | .writeBits a _ _ _ vfy => Sound E sc a vfy
  | _ => True

/-- A new object over arbitrary register contents. -/
def Fresh (E : Env) (sc : Nat → Scope) (st : St) : Prop :=
  (∀ a c, st.cache.get? a c = none) ∧ st.inTransaction = false ∧ Uniform E sc st.hw

/-! ### Lemmas -/

theorem asked_of_normCpus {T : Topo} {cpus : Nums} {norm : List Nat}
    (h : T.normCpus cpus = .ok norm) : Asked T cpus norm := by
  obtain ⟨h1, h2⟩ := normCpus_ok h
  refine ⟨h1, h2, ?_⟩
  cases cpus with
  | all =>
    simp only [Topo.normCpus, Except.ok.injEq] at h
    subst h
    refine ⟨?_, fun c => by simp⟩
    have hs := sortNat_sorted (pyDedup T.online)
    have := List.pairwise_and_iff.2 ⟨hs, h1⟩
    exact this.imp (fun h => by omega)
  | nums l =>
    simp only [Topo.normCpus] at h
    split at h
    · cases h
      exact ⟨pyDedup_idxOf _, fun c => by simp⟩
    · cases h

theorem Fresh.good {E : Env} {sc : Nat → Scope} {st : St} (h : Fresh E sc st) : Good E sc st :=
  ⟨h.2.2, coh_hw_iff.2 (fun n c _ v hv => by rw [h.1] at hv; cases hv), h.2.1⟩

theorem readBitsLoop_same (E : Env) (a : Nat) (bits : BitRange) (s : Scope) (l : List Nat) (st : St) :
    SameButCache st (readBitsLoop E a bits s l st).1 := by
  induction l generalizing st with
  | nil => exact SameButCache.refl _
  | cons c l ih =>
    have h1 := readOne_same E st a s c
    unfold readBitsLoop
    cases hr : readOne E st a s c with
    | mk st1 r =>
      rw [hr] at h1
      cases r with
      | error e => exact h1
      | ok v =>
        simp only
        cases getBits v bits with
        | error e => exact h1
        | ok v =>
          have h2 := ih st1
          cases hl : readBitsLoop E a bits s l st1 with
          | mk st2 r2 =>
            rw [hl] at h2
            simp only
            cases r2 <;> exact h1.trans h2

theorem readBitsLoop_coh {E : Env} {sc : Nat → Scope} {R : Nat → Nat → Int}
    (hu : Uniform E sc R) {a : Nat} {bits : BitRange} (l : List Nat) (ho : ∀ c ∈ l, c ∈ E.T.online)
    {st : St} (hc : Coh E R st) :
    Coh E R (readBitsLoop E a bits (sc a) l st).1 ∧
    (∀ r, (readBitsLoop E a bits (sc a) l st).2 = .ok r →
      r.map Prod.fst = l ∧ ∀ p ∈ r, getBits (R a p.1) bits = .ok p.2) := by
  induction l generalizing st with
  | nil => exact ⟨hc, fun r hr => by cases hr; simp⟩
  | cons c l ih =>
    obtain ⟨h1, h2, h3, _⟩ := readOne_coh hu hc (a := a) (ho c (by simp))
    unfold readBitsLoop
    cases hr : readOne E st a (sc a) c with
    | mk st1 r =>
      rw [hr] at h1 h2 h3
      cases r with
      | error e => exact ⟨h1, fun r hr => by simp at hr⟩
      | ok v =>
        obtain rfl := h2 v rfl
        obtain ⟨g1, g2⟩ := ih (fun x hx => ho x (by simp [hx])) h1
        simp only
        cases hb : getBits (R a c) bits with
        | error e => exact ⟨h1, fun r hr => by simp at hr⟩
        | ok b =>
          cases hl : readBitsLoop E a bits (sc a) l st1 with
          | mk st2 r2 =>
            rw [hl] at g1 g2
            simp only
            cases r2 with
            | error e => exact ⟨g1, fun r hr => by simp at hr⟩
            | ok r2 =>
              refine ⟨g1, fun r hr => ?_⟩
              simp only [Except.ok.injEq] at hr
              obtain ⟨k1, k2⟩ := g2 r2 rfl
              subst hr
              refine ⟨by simp [k1], fun p hp => ?_⟩
              rcases List.mem_cons.1 hp with rfl | hp
              · exact hb
              · exact k2 p hp

theorem call_good {E : Env} (w : TopoWF E.T) {sc : Nat → Scope} (hs : Scoped E sc) {st : St}
    (hg : Good E sc st) (c : Call) (hsound : CallSound E sc c) : Good E sc (call E sc st c).1 := by
  cases c with
  | read a cpus =>
    simp only [call, read]
    split
    · exact hg
    · rename_i norm hn
      exact (readLoop_same E a (sc a) norm st).good hg
        (readLoop_coh hg.uniform norm (normCpus_ok hn).2 hg.coh).1
  | readBits a bits cpus =>
    simp only [call, readBits]
    split
    · exact hg
    · rename_i norm hn
      exact (readBitsLoop_same E a bits (sc a) norm st).good hg
        (readBitsLoop_coh hg.uniform norm (normCpus_ok hn).2 hg.coh).1
  | write a val cpus vfy =>
    simp only [call, write]
    split
    · exact hg
    · rename_i norm hn
      exact (writeNorm_imm w hs (normCpus_ok hn).2 hg hsound rfl).1
  | writeBits a bits val cpus vfy =>
    simp only [call, writeBits]
    split
    · exact hg
    · rename_i norm hn
      obtain ⟨hnd, hon⟩ := normCpus_ok hn
      cases hm : modifyLoop E a bits val (sc a) norm st [] with
      | mk st1 r1 =>
        obtain ⟨k1, k2, k3⟩ := modifyLoop_spec hg.uniform norm hon st st1 [] r1 hg.coh hm
        have hg1 := k1.good hg k2
        cases r1 with
        | error e => exact hg1
        | ok g =>
          obtain ⟨_, g2, g3⟩ := k3 g rfl
          obtain ⟨_, hok⟩ := groupsOK_of_modify hg.uniform (a := a)
            (bits := bits) (val := val) hnd hon (g3 (by simp [Dict.keys]))
            (fun v => by rw [g2 v]; simp)
          exact (writeGroups_imm w hs hsound g hok st1 _ _ hg1 rfl).1

theorem calls_good {E : Env} (w : TopoWF E.T) {sc : Nat → Scope} (hs : Scoped E sc) (cs : List Call)
    (hsound : ∀ c ∈ cs, CallSound E sc c) {st : St} (hg : Good E sc st) :
    Good E sc (calls E sc cs st).1 := by
  induction cs generalizing st with
  | nil => exact hg
  | cons c cs ih =>
    exact ih (fun x hx => hsound x (by simp [hx])) (call_good w hs hg c (hsound c (by simp)))

/-! ### Properties -/

/-- **C04.** After any history of `read()`, `read_bits()`, `write()` and `write_bits()` calls
(successful or not) on a new object, `read()` yields every requested CPU exactly once, in order, with
the value the hardware holds for that CPU; it changes no register, and fails only if a requested CPU
is not online or the kernel refuses the read. -/
theorem C04_cached_reads_coherent (E : Env) (w : TopoWF E.T) (sc : Nat → Scope) (hs : Scoped E sc)
    (st0 : St) (h0 : Fresh E sc st0) (cs : List Call) (hsound : ∀ c ∈ cs, CallSound E sc c)
    (a : Nat) (cpus : Nums) :
    let st := (calls E sc cs st0).1
    (∀ l, (read E st a cpus (sc a)).2 = .ok l →
      ∃ norm, Asked E.T cpus norm ∧ l = norm.map (fun c => (c, st.hw a c))) ∧
    (∀ e, (read E st a cpus (sc a)).2 = .error e →
      (∃ l, cpus = .nums l ∧ ∃ c ∈ l, c ∉ E.T.online) ∨ ∃ c ∈ E.T.online, E.rfail a c = true) ∧
    (read E st a cpus (sc a)).1.hw = st.hw := by
  intro st
  have hg : Good E sc st := calls_good w hs cs hsound h0.good
  cases hn : E.T.normCpus cpus with
  | error e =>
    simp only [read, hn]
    refine ⟨(fun l hl => by cases hl), fun e' he => Or.inl ?_, trivial⟩
    cases cpus with
    | all => simp [Topo.normCpus] at hn
    | nums l =>
      refine ⟨l, rfl, ?_⟩
      simp only [Topo.normCpus] at hn
      split at hn
      · cases hn
      · rename_i hall
        simpa using hall
  | ok norm =>
    have hok := normCpus_ok hn
    obtain ⟨k1, k2, k3⟩ := readLoop_coh hg.uniform (a := a) norm hok.2 hg.coh
    simp only [read, hn]
    refine ⟨fun l hl => ⟨norm, asked_of_normCpus hn, k2 l hl⟩, fun e he => Or.inr ?_,
      (readLoop_same E a (sc a) norm st).1⟩
    obtain ⟨_, c, hc, hf⟩ := k3 e he
    exact ⟨c, hok.2 c hc, hf⟩

/-- **C05.** A successful `write()` after any history leaves every requested CPU and every CPU sharing
the register with it with the new value, changes no other CPU and no other register, and accesses the
hardware once per I/O scope unit (once per CPU if caching is disabled). -/
theorem C05_write_exact (E : Env) (w : TopoWF E.T) (sc : Nat → Scope) (hs : Scoped E sc)
    (st0 : St) (h0 : Fresh E sc st0) (cs : List Call) (hsound : ∀ c ∈ cs, CallSound E sc c)
    (a : Nat) (val : Int) (cpus : Nums) (vfy : Bool) (hsnd : Sound E sc a vfy)
    (hok : (write E (calls E sc cs st0).1 a val cpus (sc a) vfy).2 = .ok ()) :
    let st := (calls E sc cs st0).1
    let st' := (write E st a val cpus (sc a) vfy).1
    ∃ norm, Asked E.T cpus norm ∧
      (∀ c ∈ norm, ∀ d ∈ E.T.online, E.share a c d = true → st'.hw a d = val) ∧
      (∀ n, ∀ d ∈ E.T.online, (n ≠ a ∨ ∀ c ∈ norm, E.share a c d = false) → st'.hw n d = st.hw n d) ∧
      ∃ ws : List Nat, st'.log = st.log ++ ws.map (fun c => (c, a, val)) ∧ ws.Sublist norm ∧
        (∀ c ∈ norm, ∃ d ∈ ws, E.share a d c = true) ∧
        (st.cache.enabled = true → ws.Pairwise (fun c d => E.share a c d = false)) := by
  intro st st'
  have hg : Good E sc st := calls_good w hs cs hsound h0.good
  cases hn : E.T.normCpus cpus with
  | error e => simp [write, hn] at hok
  | ok norm =>
    have hon := (normCpus_ok hn).2
    have he : write E st a val cpus (sc a) vfy = writeNorm E st a val norm (sc a) vfy := by
      simp only [write, hn]
    obtain ⟨k1, k2, k3, k4, k5, ws, e1, e2, e3, e4⟩ :=
      writeNorm_imm w hs hon hg hsnd (st' := st') (r := .ok ()) (by rw [← he]; exact Prod.ext rfl hok)
    refine ⟨norm, asked_of_normCpus hn, ?_, ?_, ws, e1, e2, ?_, ?_⟩
    · intro c hc d hd hsh
      rw [k1.uniform a c (hon c hc) d ((hs a c (hon c hc) d hd).1 hsh)]
      exact k5 rfl c hc
    · intro n d hd hn'
      refine k4 n d hd (hn'.imp id fun h c hc hdc => ?_)
      have := (hs a c (hon c hc) d hd).2 hdc
      rw [h c hc] at this; cases this
    · intro c hc
      obtain ⟨d, hd, hcd⟩ := e4 rfl c hc
      exact ⟨d, hd, (hs a d (hon d (e2.subset hd)) c (hon c hc)).2 hcd⟩
    · intro hen
      refine (e3 hen).imp_of_mem ?_
      intro c d hc hd hcd
      have := hs a c (hon c (e2.subset hc)) d (hon d (e2.subset hd))
      cases hsh : E.share a c d with
      | false => rfl
      | true => exact absurd (this.1 hsh) hcd

/-- **C08.** A successful `write_bits()` after any history is a read-modify-write: every requested CPU
has the value in the requested bits and its old register contents elsewhere; other registers and the
CPUs that share the register with no requested CPU are not changed. -/
theorem C08_write_bits_rmw (E : Env) (w : TopoWF E.T) (sc : Nat → Scope) (hs : Scoped E sc)
    (st0 : St) (h0 : Fresh E sc st0) (cs : List Call) (hsound : ∀ c ∈ cs, CallSound E sc c)
    (a : Nat) (bits : BitRange) (val : FieldVal) (cpus : Nums) (vfy : Bool) (hsnd : Sound E sc a vfy)
    (v : Int) (hv : Bits.numOf bits val = some v) (hv0 : 0 ≤ v)
    (hok : (writeBits E (calls E sc cs st0).1 a bits val cpus (sc a) vfy).2 = .ok ()) :
    let st := (calls E sc cs st0).1
    let st' := (writeBits E st a bits val cpus (sc a) vfy).1
    ∃ norm, Asked E.T cpus norm ∧
      (∀ c ∈ norm, getBits (st'.hw a c) bits = .ok v ∧
        ∀ k : Nat, ¬ Bits.InRange bits k → (st'.hw a c).testBit k = (st.hw a c).testBit k) ∧
      (∀ n, ∀ d ∈ E.T.online, (n ≠ a ∨ ∀ c ∈ norm, E.share a c d = false) → st'.hw n d = st.hw n d) := by
  intro st st'
  have hg : Good E sc st := calls_good w hs cs hsound h0.good
  cases hn : E.T.normCpus cpus with
  | error e => simp [writeBits, hn] at hok
  | ok norm =>
    obtain ⟨hnd, hon⟩ := normCpus_ok hn
    have hst' : (writeBits E st a bits val cpus (sc a) vfy) = (st', .ok ()) := Prod.ext rfl hok
    simp only [writeBits, hn] at hst'
    cases hm : modifyLoop E a bits val (sc a) norm st [] with
    | mk st1 r1 =>
      obtain ⟨k1, k2, k3⟩ := modifyLoop_spec hg.uniform norm hon st st1 [] r1 hg.coh hm
      have hg1 := k1.good hg k2
      rw [hm] at hst'
      cases r1 with
      | error e => simp at hst'
      | ok g =>
        simp only at hst'
        obtain ⟨g1, g2, g3⟩ := k3 g rfl
        obtain ⟨hgp, hgok⟩ := groupsOK_of_modify hg.uniform (a := a)
            (bits := bits) (val := val) hnd hon (g3 (by simp [Dict.keys]))
          (fun v => by rw [g2 v]; simp)
        obtain ⟨q1, q2, q3, q4, q5⟩ := writeGroups_imm w hs hsnd g hgok st1 st' _ hg1 hst'
        have hw1 : st1.hw = st.hw := k1.1
        refine ⟨norm, asked_of_normCpus hn, ?_, ?_⟩
        · intro c hc
          obtain ⟨new, hnew⟩ := g1 c hc
          suffices hfin : st'.hw a c = new by
            rw [hfin]
            exact Bits.C01_get_set_bits _ _ v bits val hnew hv hv0
          by_cases hch : st.hw a c = new
          · rw [q4 a c (hon c hc) (Or.inr ?_), hw1, hch]
            intro p hp d hd hcd
            rw [hgp p hp, List.mem_filter] at hd
            have hd2 := hd.2
            simp only [changesTo, Bool.and_eq_true, decide_eq_true_eq] at hd2
            have hcd' := hg.uniform a d (hon d hd.1) c hcd
            rw [← hcd', hnew] at hd2
            exact hd2.2 (by rw [hch]; simpa using hd2.1)
          · have hmem : c ∈ norm.filter (changesTo st.hw a bits val new) := by
              rw [List.mem_filter]
              exact ⟨hc, by simp [changesTo, hnew, hch]⟩
            have hget := g2 new
            rw [Dict.get?_nil] at hget
            simp only [Option.getD_none, List.nil_append] at hget
            cases hgn : g.get? new with
            | none => rw [hgn] at hget; simp only [Option.getD_none] at hget; rw [← hget] at hmem; cases hmem
            | some gl =>
              rw [hgn] at hget
              simp only [Option.getD_some] at hget
              exact q5 rfl (new, gl) (Dict.mem_of_get? hgn) c (by rw [hget]; exact hmem)
        · intro n d hd hn'
          rw [q4 n d hd ?_, hw1]
          refine hn'.imp id fun h p hp c hc hdc => ?_
          rw [hgp p hp, List.mem_filter] at hc
          have := (hs a c (hon c hc.1) d hd).2 hdc
          rw [h c hc.1] at this; cases this

/-! ### C09: one register, two I/O scopes -/

/-- Two CPUs in different cores of one module. -/
def exModule : CPUInfo.Info :=
  let topology : List CPUInfo.TLine := [⟨0, 0, 0, 0, 0, 0⟩, ⟨1, 1, 0, 0, 0, 0⟩]
  ⟨topology, CPUInfo.cpuNums topology, CPUInfo.cpuNums topology, fun _ => []⟩

/-- The hardware keeps the register per core. -/
def exModuleEnv : Env :=
  ⟨Topo.ofInfo exModule, fun _ c d => c == d, fun _ _ v => v, fun _ _ => false, fun _ _ => false⟩

/-- MSR 0x1A4 has bit 2 ("dcu_hw_prefetcher" off) clear on CPU 0 and set on CPU 1. -/
def exModuleSt : St := ⟨Cache.empty true, false, [], fun a c => if a = 0x1a4 ∧ c = 1 then 4 else 0, []⟩

/-- **C09** is false of the code: MSR 0x1A4 holds "l2_hw_prefetcher", accessed with the "module" I/O
scope, and "dcu_hw_prefetcher", accessed with the "core" I/O scope. Reading the former on CPU 0 makes
the latter read as 0 on CPU 1, although the hardware has 1 there. -/
theorem C09_mixed_scopes_counterexample :
    let r1 := readBits exModuleEnv exModuleSt 0x1a4 (0, 0) (.nums [0]) (.lvl .module)
    let r2 := readBits exModuleEnv r1.1 0x1a4 (2, 2) (.nums [1]) (.lvl .core)
    r1.2 = .ok [(0, 0)] ∧ r2.2 = .ok [(1, 0)] ∧ getBits (r2.1.hw 0x1a4 1) (2, 2) = .ok 1 :=
  ⟨by decide +kernel, by decide +kernel, by decide +kernel⟩

/-- **C09** (partial). Full property: features living in one register are reported correctly after
any history *with mixed I/O scopes*. Proved here: all the features of a register are used with the I/O
scope the hardware keeps the register in; then after any history of feature reads and writes, reading
any field of any register yields what the hardware holds. Missing (false of the code): fields of one
register used with different scopes, see the counterexample. -/
theorem C09_mixed_scopes_partial (E : Env) (w : TopoWF E.T) (sc : Nat → Scope) (hs : Scoped E sc)
    (st0 : St) (h0 : Fresh E sc st0) (cs : List Call) (hsound : ∀ c ∈ cs, CallSound E sc c)
    (a : Nat) (bits : BitRange) (cpus : Nums) (l : List (Nat × Int))
    (hl : (readBits E (calls E sc cs st0).1 a bits cpus (sc a)).2 = .ok l) :
    ∃ norm, Asked E.T cpus norm ∧ l.map Prod.fst = norm ∧
      ∀ p ∈ l, getBits ((calls E sc cs st0).1.hw a p.1) bits = .ok p.2 := by
  have hg : Good E sc _ := calls_good w hs cs hsound h0.good
  cases hn : E.T.normCpus cpus with
  | error e => simp [readBits, hn] at hl
  | ok norm =>
    simp only [readBits, hn] at hl
    exact ⟨norm, asked_of_normCpus hn,
      (readBitsLoop_coh hg.uniform norm (normCpus_ok hn).2 hg.coh).2 l hl⟩

/-! ### Example -/

/-- Registers below 0x100 are per core, the others are per package. -/
def exSc (a : Nat) : Scope := if a < 0x100 then .lvl .core else .lvl .package

def exEnv : Env :=
  ⟨Topo.ofInfo CPUInfo.exInfo, fun a c d => ((Topo.ofInfo CPUInfo.exInfo).sib (exSc a) c).contains d,
    fun a o v => if a = 0x200 then o else v, fun _ _ => false, fun a c => a = 0x50 && c = 3⟩

def exSt : St := ⟨Cache.empty true, false, [], fun _ _ => 5, []⟩

def exCalls : List Call :=
  [.read 0x10 .all, .write 0x10 7 (.nums [5]) false, .writeBits 0x10 (5, 4) (.num 2) (.nums [1, 2]) true,
   .write 0x200 9 (.nums [0]) true, .write 0x50 3 .all false]

/-- The hypotheses of C04, C05, C08 and C09 hold for a history with scope siblings, a register that
ignores writes and refused writes. -/
example : TopoWF exEnv.T ∧ Scoped exEnv exSc ∧ Fresh exEnv exSc exSt ∧
    (∀ c ∈ exCalls, CallSound exEnv exSc c) ∧
    (calls exEnv exSc exCalls exSt).2.map Except.isOk =
      [true, true, true, false, false] ∧
    (write exEnv (calls exEnv exSc exCalls exSt).1 0x10 1 (.nums [1, 2, 5]) (exSc 0x10) true).2 = .ok () ∧
    (writeBits exEnv (calls exEnv exSc exCalls exSt).1 0x10 (7, 4) .allOnes .all (exSc 0x10) false).2
      = .ok () ∧
    (readBits exEnv (calls exEnv exSc exCalls exSt).1 0x10 (7, 4) (.nums [5, 2, 0]) (exSc 0x10)).2
      = .ok [(5, 2), (2, 2), (0, 0)] := by
  refine ⟨topoWF_ofInfo _ CPUInfo.exInfo_wf, ?_, ⟨fun _ _ => rfl, rfl, fun _ _ _ _ _ => rfl⟩, ?_,
    by decide +kernel, by decide +kernel, by decide +kernel, by decide +kernel⟩
  · intro a c _ d _
    simp [exEnv]
  · intro c hc
    simp only [exCalls, List.mem_cons, List.not_mem_nil, or_false] at hc
    rcases hc with rfl | rfl | rfl | rfl | rfl
    · trivial
    · exact Or.inl (fun o v => rfl)
    · exact Or.inl (fun o v => rfl)
    · refine Or.inr ⟨rfl, fun c => rfl, by decide⟩
    · exact Or.inl (fun o v => rfl)

end MSR

end Verif
