import Verif.Lemmas.MSRRefine

/-!
C70: the cache of an MSR object, the grouping of CPUs and the skipping of siblings are not visible to the callers.
-/

namespace Verif.MSR

open CPUInfo (Scope Nums)
open Verif.Bits (BitRange FieldVal)

/-! ### Specification: registers without a cache -/

/-- All the registers: a value per register and CPU. -/
abbrev Regs := Nat → Nat → Int

def Regs.put (rs : Regs) (a : Nat) (R : Nat → Int) : Regs := fun n => if n = a then R else rs n

/-- A call on plain registers. Every CPU is accessed, one after another. -/
def plainCall (E : Env) (rs : Regs) : Call → Regs × Result
  | .read a cpus => match E.T.normCpus cpus with
    | .error e => (rs, .error e)
    | .ok l => (rs, .ok (l.map fun c => (c, rs a c)))
  | .readBits a bits cpus => match E.T.normCpus cpus with
    | .error e => (rs, .error e)
    | .ok l => (rs, RegFile.readBits bits (rs a) l)
  | .write a val cpus _ => match E.T.normCpus cpus with
    | .error e => (rs, .error e)
    | .ok l =>
      let r := RegFile.writeRegs (regEnv E a) val l (rs a)
      (rs.put a r.1, r.2.map fun _ => [])
  | .writeBits a bits val cpus _ => match E.T.normCpus cpus with
    | .error e => (rs, .error e)
    | .ok l =>
      let r := RegFile.writeBits (regEnv E a) bits val l (rs a)
      (rs.put a r.1, r.2.map fun _ => [])

def plainCalls (E : Env) : List Call → Regs → Regs × List Result
  | [], rs => (rs, [])
  | c :: cs, rs =>
    let r := plainCall E rs c
    let q := plainCalls E cs r.1
    (q.1, r.2 :: q.2)

/-- Writes use registers with a scope other than "global". -/
def NotGlobal (sc : Nat → Scope) : Call → Prop
  | .write a _ _ _ => sc a ≠ .global
  | .writeBits a _ _ _ _ => sc a ≠ .global
  | _ => True

/-! ### Proofs -/

theorem call_refines {E : Env} (w : TopoWF E.T) {sc : Nat → Scope} (hs : Scoped E sc) (hp : Plain E) {st : St}
    (hg : Good E sc st) {rs : Regs} (hR : ∀ n, Same E (rs n) (st.hw n)) (c : Call) (hng : NotGlobal sc c) :
    (call E sc st c).2 = (plainCall E rs c).2 ∧
      ∀ n, Same E ((plainCall E rs c).1 n) ((call E sc st c).1.hw n) := by
  have put : ∀ {a : Nat} {S : Nat → Int} {hw : Regs}, Same E S (hw a) →
      (∀ n, ∀ d ∈ E.T.online, n ≠ a → hw n d = st.hw n d) → ∀ n, Same E (rs.put a S n) (hw n) := by
    intro a S hw h1 h2 n
    unfold Regs.put
    by_cases hna : n = a
    · subst hna; rw [if_pos rfl]; exact h1
    · rw [if_neg hna]
      intro d hd
      rw [h2 n d hd hna]
      exact hR n d hd
  cases c with
  | read a cpus =>
    cases hn : E.T.normCpus cpus with
    | error e =>
      simp only [call, plainCall, read, hn]
      exact ⟨trivial, hR⟩
    | ok l =>
      have ho := (normCpus_ok hn).2
      obtain ⟨k1, k2, k3⟩ := readLoop_coh hg.uniform (a := a) l ho hg.coh
      have k4 := readLoop_same E a (sc a) l st
      simp only [call, plainCall, read, hn]
      refine ⟨?_, by rw [k4.1]; exact hR⟩
      cases hr : (readLoop E a (sc a) l st).2 with
      | error e =>
        obtain ⟨_, x, _, hx⟩ := k3 e hr
        rw [hp.read] at hx; cases hx
      | ok r =>
        rw [k2 r hr]
        congr 1
        exact List.map_congr_left fun x hx => by rw [hR a x (ho x hx)]
  | readBits a bits cpus =>
    cases hn : E.T.normCpus cpus with
    | error e =>
      simp only [call, plainCall, readBits, hn]
      exact ⟨trivial, hR⟩
    | ok l =>
      have ho := (normCpus_ok hn).2
      have k4 := readBitsLoop_same E a bits (sc a) l st
      simp only [call, plainCall, readBits, hn]
      exact ⟨readBitsLoop_regs hp l ho st hg.uniform hg.coh (hR a), by rw [k4.1]; exact hR⟩
  | write a val cpus vfy =>
    cases hn : E.T.normCpus cpus with
    | error e =>
      simp only [call, plainCall, write, hn]
      exact ⟨rfl, hR⟩
    | ok l =>
      have ho := (normCpus_ok hn).2
      obtain ⟨k1, k2⟩ := writeNorm_regs w hs hp hng (val := val) (vfy := vfy) ho hg (hR a)
      have k3 := (writeNorm_imm w hs ho hg (hp.sound sc a vfy) (rfl : writeNorm E st a val l (sc a) vfy = _)).2.2.2.1
      simp only [call, plainCall, write, hn]
      exact ⟨by rw [k1], put k2 fun n d hd hna => k3 n d hd (.inl hna)⟩
  | writeBits a bits val cpus vfy =>
    cases hn : E.T.normCpus cpus with
    | error e =>
      simp only [call, plainCall, writeBits, hn]
      exact ⟨rfl, hR⟩
    | ok l =>
      obtain ⟨hnd, ho⟩ := normCpus_ok hn
      have k0 := modifyLoop_regs hp (bits := bits) (val := val) l ho st hg.uniform hg.coh (hR a) []
      cases hm : modifyLoop E a bits val (sc a) l st [] with
      | mk st1 r1 =>
        obtain ⟨m1, m2, m3⟩ := modifyLoop_spec hg.uniform l ho st st1 [] r1 hg.coh hm
        have hg1 := m1.good hg m2
        rw [hm] at k0
        dsimp only at k0
        simp only [call, plainCall, writeBits, RegFile.writeBits, hn, hm, ← k0]
        cases r1 with
        | error e =>
          dsimp only
          exact ⟨rfl, put (by rw [m1.1]; exact hR a) fun n d hd _ => by rw [m1.1]⟩
        | ok g =>
          obtain ⟨g1, g2, g3⟩ := m3 g rfl
          obtain ⟨_, hgok⟩ := groupsOK_of_modify hg.uniform (a := a) (bits := bits) (val := val) hnd ho
            (g3 (by simp [Dict.keys])) (fun v => by rw [g2 v]; simp)
          obtain ⟨k1, k2⟩ := writeGroups_regs w hs hp hng (vfy := vfy) g hgok.nodup hgok.online st1 hg1
            (R := rs a) (by rw [m1.1]; exact hR a)
          have k3 := (writeGroups_imm w hs (hp.sound sc a vfy) g hgok st1 _ _ hg1 rfl).2.2.2.1
          dsimp only
          exact ⟨by rw [k1], put k2 fun n d hd hna => by rw [k3 n d hd (.inl hna), m1.1]⟩

/-- **C70.** Any sequence of `read()`, `read_bits()`, `write()` and `write_bits()` calls on a new object, with caching
enabled or not, has the same results (values and errors of every call), and leaves the same values in the registers as
if there was no cache, the CPUs were not grouped, and CPUs sharing a register were not skipped. -/
theorem C70_refines_plain_registers (E : Env) (w : TopoWF E.T) (sc : Nat → Scope) (hs : Scoped E sc) (hp : Plain E)
    (st0 : St) (h0 : Fresh E sc st0) (cs : List Call) (hng : ∀ c ∈ cs, NotGlobal sc c) :
    (calls E sc cs st0).2 = (plainCalls E cs st0.hw).2 ∧
      ∀ a, ∀ c ∈ E.T.online, (calls E sc cs st0).1.hw a c = (plainCalls E cs st0.hw).1 a c := by
  have key : ∀ (cs : List Call) (st : St) (rs : Regs), Good E sc st → (∀ n, Same E (rs n) (st.hw n)) →
      (∀ c ∈ cs, NotGlobal sc c) →
      (calls E sc cs st).2 = (plainCalls E cs rs).2 ∧
        ∀ n, Same E ((plainCalls E cs rs).1 n) ((calls E sc cs st).1.hw n) := by
    intro cs
    induction cs with
    | nil => intro st rs _ hR _; exact ⟨rfl, hR⟩
    | cons c cs ih =>
      intro st rs hg hR hng
      obtain ⟨k1, k3⟩ := call_refines w hs hp hg hR c (hng c List.mem_cons_self)
      have k2 : Good E sc (call E sc st c).1 := call_good w hs hg c (by
        cases c <;> first | exact trivial | exact hp.sound sc _ _)
      obtain ⟨j1, j2⟩ := ih _ _ k2 k3 (fun x hx => hng x (List.mem_cons_of_mem _ hx))
      unfold calls plainCalls
      dsimp only
      exact ⟨by rw [k1, j1], j2⟩
  obtain ⟨k1, k2⟩ := key cs st0 st0.hw h0.good (fun n d _ => rfl) hng
  exact ⟨k1, fun a c hc => (k2 a c hc).symm⟩

/-- Registers keep what is written to them; writes to register 0x50 are refused in package 1. -/
def exPlain : Env :=
  ⟨Topo.ofInfo CPUInfo.exInfo, fun a c d => ((Topo.ofInfo CPUInfo.exInfo).sib (exSc a) c).contains d,
    fun _ _ v => v, fun _ _ => false, fun a c => a = 0x50 && ((Topo.ofInfo CPUInfo.exInfo).sib (.lvl .package) 2).contains c⟩

/-- The hypotheses hold for a history with siblings, a refused write and a value that does not fit. -/
example : TopoWF exPlain.T ∧ Scoped exPlain exSc ∧ Plain exPlain ∧ Fresh exPlain exSc exSt ∧
    (∀ c ∈ exCalls ++ [.write 0x10 (2 ^ 64) .all true, .readBits 0x10 (5, 4) .all], NotGlobal exSc c) ∧
    (calls exPlain exSc (exCalls ++ [.write 0x10 (2 ^ 64) .all true, .readBits 0x10 (5, 4) .all]) exSt).2.map Except.isOk =
      [true, true, true, true, false, false, true] := by
  refine ⟨topoWF_ofInfo _ CPUInfo.exInfo_wf, ?_, ⟨fun _ _ _ => rfl, fun _ _ => rfl, ?_⟩,
    ⟨fun _ _ => rfl, rfl, fun _ _ _ _ _ => rfl⟩, ?_, by decide +kernel⟩
  · intro a c _ d _
    simp [exPlain]
  · intro a c hc d hd h
    by_cases ha : a = 0x50
    · subst ha
      exact (by decide +kernel : ∀ c ∈ exPlain.T.online, ∀ d ∈ exPlain.T.online, exPlain.share 0x50 c d = true →
        exPlain.wfail 0x50 c = exPlain.wfail 0x50 d) c hc d hd h
    · simp [exPlain, ha]
  · intro c hc
    simp only [exCalls, List.cons_append, List.nil_append, List.mem_cons, List.not_mem_nil, or_false] at hc
    rcases hc with rfl | rfl | rfl | rfl | rfl | rfl | rfl <;> first | trivial | (simp only [NotGlobal]; decide)

/-- Registers with the "global" scope are different: the first `write()` fails with `KeyError` because there is
nothing in the cache to remove. No register of the project has that scope. -/
theorem C70_global_counterexample :
    let E : Env := { exPlain with share := fun _ _ _ => true }
    (call E (fun _ => .global) exSt (.write 0x10 7 (.nums [0]) false)).2 = .error .pyKeyError ∧
      (plainCall E exSt.hw (.write 0x10 7 (.nums [0]) false)).2 = .ok [] := ⟨by rfl, by rfl⟩

end Verif.MSR
