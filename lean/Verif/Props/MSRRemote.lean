import Verif.Lemmas.MSRRemoteOps
import Verif.Props.MSRRefine

/-!
C75: access to the MSRs of a remote host, where a script reads and writes several CPUs at once, does the same as access to
the MSRs of the local host.
-/

namespace Verif.MSR

open CPUInfo (Scope Nums)
open Verif.Bits (BitRange FieldVal setBits getBits)

/-! ### Specification -/

/-- A call outside of transactions on an object of a remote host. -/
def callR (E : Env) (sc : Nat → Scope) (st : St) : Call → St × Result
  | .read a cpus => readR E st a cpus (sc a)
  | .readBits a bits cpus => readBitsR E st a bits cpus (sc a)
  | .write a val cpus vfy =>
    let r := writeR E st a val cpus (sc a) vfy
    (r.1, r.2.map fun _ => [])
  | .writeBits a bits val cpus vfy =>
    let r := writeBitsR E st a bits val cpus (sc a) vfy
    (r.1, r.2.map fun _ => [])

/-- Execute a list of calls on an object of a remote host. A call that fails does not prevent the following ones. -/
def callsR (E : Env) (sc : Nat → Scope) : List Call → St → St × List Result
  | [], st => (st, [])
  | c :: cs, st =>
    let r := callR E sc st c
    let rs := callsR E sc cs r.1
    (rs.1, r.2 :: rs.2)

/-- A call of any method on an object of the local host. -/
def stepLocal (E : Env) (sc : Nat → Scope) (st : St) : TCall → St × Result
  | .call c => call E sc st c
  | .start =>
    let r := startTransaction st
    (r.1, r.2.map fun _ => [])
  | .flush =>
    let r := flushTransaction E st
    (r.1, r.2.map fun _ => [])
  | .commit =>
    let r := commitTransaction E st
    (r.1, r.2.map fun _ => [])

/-- A call of any method on an object of a remote host. -/
def stepRemote (E : Env) (sc : Nat → Scope) (st : St) : TCall → St × Result
  | .call c => callR E sc st c
  | .start =>
    let r := startTransaction st
    (r.1, r.2.map fun _ => [])
  | .flush =>
    let r := flushTransactionR E st
    (r.1, r.2.map fun _ => [])
  | .commit =>
    let r := commitTransactionR E st
    (r.1, r.2.map fun _ => [])

/-- A list of calls up to the first one that fails: the results of the calls or the error. -/
def run (step : St → TCall → St × Result) : List TCall → St → St × Except Exn (List (List (Nat × Int)))
  | [], st => (st, .ok [])
  | c :: cs, st =>
    match step st c with
    | (st, .error e) => (st, .error e)
    | (st, .ok r) =>
      match run step cs st with
      | (st, .error e) => (st, .error e)
      | (st, .ok rs) => (st, .ok (r :: rs))

/-- Run on the local host. -/
def runLocal (E : Env) (sc : Nat → Scope) := run (stepLocal E sc)

/-- Run on a remote host. -/
def runRemote (E : Env) (sc : Nat → Scope) := run (stepRemote E sc)

/-! ### Every call -/

/-- What holds in every state of an object. -/
structure RInv (E : Env) (sc : Nat → Scope) (st : St) : Prop where
  cuni : CUni E sc st
  buf : BufOK st.buf
  ent : EntOK E sc st.buf

theorem entOK_write {E : Env} {sc : Nat → Scope} {a : Nat} {val : Int} {vfy : Bool} (cpus : Nums) (st : St)
    (h : EntOK E sc st.buf) : EntOK E sc (write E st a val cpus (sc a) vfy).1.buf := by
  unfold write
  cases hn : E.T.normCpus cpus with
  | error e => exact h
  | ok l =>
    dsimp only
    have h1 := (removeLoop_spec (E := E) (a := a) (s := sc a) l st).1
    unfold writeNorm
    cases hr : removeLoop E a (sc a) l st with
    | mk st1 r =>
      rw [hr] at h1
      have hb1 : EntOK E sc st1.buf := by rw [show st1.buf = st.buf from h1.2.2.1]; exact h
      cases r with
      | error e => exact hb1
      | ok u =>
        have g := entOK_writeLoop (a := a) (val := val) (vfy := vfy) l (normCpus_ok hn).2 st1 hb1
        dsimp only
        cases hw : writeLoop E a val vfy (sc a) l st1 with
        | mk st2 r2 =>
          rw [hw] at g
          cases r2 with
          | error e => exact g
          | ok u2 =>
            dsimp only
            split
            · rw [(verify_same E a val l (sc a) st2).2.2.1]; exact g
            · exact g

theorem entOK_call {E : Env} {sc : Nat → Scope} (c : Call) (st : St) (h : EntOK E sc st.buf) :
    EntOK E sc (call E sc st c).1.buf := by
  cases c with
  | read a cpus =>
    simp only [call, read]
    split
    · exact h
    · rw [(readLoop_same _ _ _ _ _).2.2.1]; exact h
  | readBits a bits cpus =>
    simp only [call, readBits]
    split
    · exact h
    · rw [(readBitsLoop_same _ _ _ _ _ _).2.2.1]; exact h
  | write a val cpus vfy => exact entOK_write cpus st h
  | writeBits a bits val cpus vfy =>
    simp only [call, writeBits]
    split
    · exact h
    · rename_i l _
      have h1 := (modifyLoop_same (E := E) (a := a) (bits := bits) (val := val) (s := sc a) l st []).2.2.1
      cases hm : modifyLoop E a bits val (sc a) l st [] with
      | mk st1 r =>
        rw [hm] at h1
        have hb1 : EntOK E sc st1.buf := by rw [show st1.buf = st.buf from h1]; exact h
        cases r with
        | error e => exact hb1
        | ok g =>
          dsimp only
          have key : ∀ (g : Dict Int (List Nat)) (st : St), EntOK E sc st.buf →
              EntOK E sc (writeGroups E a (sc a) vfy g st).1.buf := by
            intro g
            induction g with
            | nil => intro st h; exact h
            | cons p g ih =>
              intro st h
              obtain ⟨v, cpus⟩ := p
              have := entOK_write (a := a) (val := v) (vfy := vfy) (.nums cpus) st h
              unfold writeGroups
              cases hw : write E st a v (.nums cpus) (sc a) vfy with
              | mk st2 r2 =>
                rw [hw] at this
                cases r2 with
                | error e => exact this
                | ok u => exact ih st2 this
          exact key g st1 hb1

theorem rinv_call {E : Env} (w : TopoWF E.T) {sc : Nat → Scope} (c : Call) {st : St} (h : RInv E sc st) :
    RInv E sc (call E sc st c).1 := by
  refine ⟨call_cuni w c h.cuni, ?_, entOK_call c st h.ent⟩
  cases hi : st.inTransaction with
  | true => exact (call_trans c st hi h.buf).2
  | false => rw [(call_notrans c st hi).1]; exact h.buf

theorem cuni_verifyAll {E : Env} (w : TopoWF E.T) {sc : Nat → Scope} (info : Dict Int (Dict Nat (Scope × List Nat)))
    (h1 : InfoOK E info) (h2 : ∀ p ∈ info, ∀ q ∈ p.2, q.2.1 = sc q.1) {st : St} (h : CUni E sc st) :
    CUni E sc (verifyAll E info st).1 := by
  have hregs : ∀ (val : Int) (regs : Dict Nat (Scope × List Nat)),
      (∀ q ∈ regs, q.2.2.Nodup ∧ ∀ c ∈ q.2.2, c ∈ E.T.online) → (∀ q ∈ regs, q.2.1 = sc q.1) →
      ∀ st, CUni E sc st → CUni E sc (verifyRegs E val regs st).1 := by
    intro val regs
    induction regs with
    | nil => intro _ _ st h; exact h
    | cons q regs ih =>
      intro g1 g2 st h
      obtain ⟨a, s, l⟩ := q
      have hs : s = sc a := g2 (a, s, l) (by simp)
      subst hs
      have := cuni_verify w (a := a) (val := val) l (g1 (a, sc a, l) (by simp)).2 h
      rw [verifyRegs]
      cases hv : verify E a val l (sc a) st with
      | mk st1 r =>
        rw [hv] at this
        cases r with
        | error e => exact this
        | ok u => exact ih (fun q hq => g1 q (by simp [hq])) (fun q hq => g2 q (by simp [hq])) st1 this
  induction info generalizing st with
  | nil => exact h
  | cons p info ih =>
    obtain ⟨val, regs⟩ := p
    have := hregs val regs (h1 (val, regs) (by simp)) (h2 (val, regs) (by simp)) st h
    rw [verifyAll]
    cases hv : verifyRegs E val regs st with
    | mk st1 r =>
      rw [hv] at this
      cases r with
      | error e => exact this
      | ok u => exact ih (fun q hq => h1 q (by simp [hq])) (fun q hq => h2 q (by simp [hq])) this

theorem flushAll_keeps (E : Env) (st : St) : (flushAll E st.buf st).1.cache = st.cache ∧
    (flushAll E st.buf st).1.buf = st.buf ∧ (flushAll E st.buf st).1.inTransaction = st.inTransaction := by
  have hcpu : ∀ (c : Nat) (regs : Dict Nat TInfo) (st : St), (flushCpu E c regs st).1.cache = st.cache ∧
      (flushCpu E c regs st).1.buf = st.buf ∧ (flushCpu E c regs st).1.inTransaction = st.inTransaction := by
    intro c regs
    induction regs with
    | nil => intro st; exact ⟨rfl, rfl, rfl⟩
    | cons q regs ih =>
      intro st
      obtain ⟨a, ti⟩ := q
      rw [flushCpu]
      cases hw : hwWrite E st a ti.regval c with
      | mk st1 r =>
        cases r with
        | error e =>
          obtain ⟨rfl, _⟩ := hwWrite_error hw
          exact ⟨rfl, rfl, rfl⟩
        | ok u =>
          obtain ⟨_, _, k1, k2, k3, _⟩ := hwWrite_ok hw
          obtain ⟨g1, g2, g3⟩ := ih st1
          exact ⟨g1.trans k1, g2.trans k2, g3.trans k3⟩
  have key : ∀ (buf : Dict Nat (Dict Nat TInfo)) (st : St), (flushAll E buf st).1.cache = st.cache ∧
      (flushAll E buf st).1.buf = st.buf ∧ (flushAll E buf st).1.inTransaction = st.inTransaction := by
    intro buf
    induction buf with
    | nil => intro st; exact ⟨rfl, rfl, rfl⟩
    | cons p buf ih =>
      intro st
      obtain ⟨c, regs⟩ := p
      obtain ⟨k1, k2, k3⟩ := hcpu c regs st
      rw [flushAll]
      cases hw : flushCpu E c regs st with
      | mk st1 r =>
        rw [hw] at k1 k2 k3
        cases r with
        | error e => exact ⟨k1, k2, k3⟩
        | ok u =>
          obtain ⟨g1, g2, g3⟩ := ih st1
          exact ⟨g1.trans k1, g2.trans k2, g3.trans k3⟩
  exact key _ _

theorem flush_agree {E : Env} (w : TopoWF E.T) (hn : SibNodup E.T) {sc : Nat → Scope} {st : St} (h : RInv E sc st) :
    Agree (flushTransaction E st) (flushTransactionR E st) ∧ RInv E sc (flushTransaction E st).1 := by
  obtain ⟨i1, i2⟩ := infoOK h.buf h.ent
  obtain ⟨k1, k2, k3⟩ := flushAll_keeps E st
  unfold flushTransaction flushTransactionR
  split
  · exact ⟨Agree.refl _, h⟩
  · split
    · exact ⟨Agree.refl _, h⟩
    · split
      · exact ⟨Agree.refl _, h⟩
      · have hw : Agree (flushAll E st.buf st) (if st.buf.length > 1 then flushRemote E st.buf st else flushAll E st.buf st) := by
          split
          · unfold flushRemote
            cases flushAll E st.buf st with
            | mk st1 r =>
              cases r with
              | error e => exact ⟨fun v hv => (by cases hv), fun _ _ => ⟨⟨_, rfl⟩, SameButCache.refl _⟩⟩
              | ok u => exact Agree.refl _
          · exact Agree.refl _
        refine ⟨?_, ?_⟩
        · refine Agree.bind hw (fun _ _ h => by rw [h]) (fun _ _ h => by rw [h]) ?_
          intro st1 _ h1 h2
          rw [h2, h1]
          rw [h1] at k2
          dsimp only at k2 ⊢
          rw [k2]
          refine Agree.bind (verifyAllR_agree w hn _ i1 _) (fun _ _ h => by rw [h]) (fun _ _ h => by rw [h]) ?_
          intro st2 _ g1 g2
          rw [g1, g2]
          exact Agree.refl _
        · cases hf : flushAll E st.buf st with
          | mk st1 r =>
            rw [hf] at k1 k2
            dsimp only at k1 k2
            have hc1 : CUni E sc st1 := by unfold CUni; rw [k1]; exact h.cuni
            cases r with
            | error e => exact ⟨hc1, by rw [k2]; exact h.buf, by rw [k2]; exact h.ent⟩
            | ok u =>
              dsimp only
              rw [k2]
              have hv := verifyAll_same E (verifyInfo st.buf) { st1 with buf := [] }
              have hcv := cuni_verifyAll w (verifyInfo st.buf) i1 i2 (st := { st1 with buf := [] }) hc1
              have hbv : RInv E sc (verifyAll E (verifyInfo st.buf) { st1 with buf := [] }).1 := by
                refine ⟨hcv, by rw [hv.2.2.1]; exact bufOK_nil, ?_⟩
                rw [hv.2.2.1]
                intro c a ti hti
                simp [look] at hti
              cases hva : verifyAll E (verifyInfo st.buf) { st1 with buf := [] } with
              | mk st2 r2 =>
                rw [hva] at hbv
                cases r2 <;> exact hbv

theorem Agree.map {α β : Type} {x y : St × Except Exn α} (h : Agree x y) (f : α → β) :
    Agree (x.1, x.2.map f) (y.1, y.2.map f) := by
  refine Agree.bind h ?_ ?_ ?_
  · rintro st e rfl; rfl
  · rintro st e rfl; rfl
  · rintro st v rfl rfl; exact Agree.refl _

theorem callR_agree {E : Env} (w : TopoWF E.T) (hn : SibNodup E.T) {sc : Nat → Scope} (c : Call) {st : St}
    (h : CUni E sc st) : Agree (call E sc st c) (callR E sc st c) := by
  cases c with
  | read a cpus =>
    simp only [call, callR, read, readR]
    cases hc : E.T.normCpus cpus with
    | error e => exact Agree.refl _
    | ok l => exact readLoopR_agree w hn (normCpus_ok hc).1 (normCpus_ok hc).2 (compat_of_cuni h (normCpus_ok hc).2)
  | readBits a bits cpus =>
    simp only [call, callR, readBits, readBitsR, readR]
    cases hc : E.T.normCpus cpus with
    | error e => exact Agree.refl _
    | ok l =>
      dsimp only
      refine (readBitsLoop_eq E a bits (sc a) l st).trans ?_
      refine Agree.bind (readLoopR_agree w hn (normCpus_ok hc).1 (normCpus_ok hc).2
        (compat_of_cuni h (normCpus_ok hc).2)) (fun _ _ h => by rw [h]) (fun _ _ h => by rw [h]) ?_
      intro st1 r h1 h2
      rw [h1, h2]
      exact Agree.refl _
  | write a val cpus vfy => exact (writeR_agree w hn cpus st).map _
  | writeBits a bits val cpus vfy => exact (writeBitsR_agree w hn cpus h).map _

theorem step_agree {E : Env} (w : TopoWF E.T) (hn : SibNodup E.T) {sc : Nat → Scope} (c : TCall) {st : St}
    (h : RInv E sc st) :
    Agree (stepLocal E sc st c) (stepRemote E sc st c) ∧
      RInv E sc (stepLocal E sc st c).1 := by
  obtain ⟨f1, f2⟩ := flush_agree w hn h
  cases c with
  | call c => exact ⟨callR_agree w hn c h.cuni, rinv_call w c h⟩
  | start =>
    refine ⟨Agree.refl _, ?_⟩
    show RInv E sc (startTransaction st).1
    unfold startTransaction
    split
    · exact h
    · split
      · exact h
      · exact ⟨h.cuni, h.buf, h.ent⟩
  | flush => exact ⟨f1.map _, f2⟩
  | commit =>
    refine ⟨Agree.map ?_ _, ?_⟩
    · unfold commitTransaction commitTransactionR
      split
      · exact Agree.refl _
      · refine Agree.bind f1 (fun _ _ h => by rw [h]) (fun _ _ h => by rw [h]) ?_
        intro st1 r h1 h2
        rw [h1, h2]
        exact Agree.refl _
    · show RInv E sc (commitTransaction E st).1
      unfold commitTransaction
      split
      · exact h
      · cases hf : flushTransaction E st with
        | mk st1 r =>
          rw [hf] at f2
          cases r with
          | error e => exact f2
          | ok b => exact ⟨f2.cuni, f2.buf, f2.ent⟩

theorem run_agree {E : Env} (w : TopoWF E.T) (hn : SibNodup E.T) {sc : Nat → Scope} (cs : List TCall) {st : St}
    (h : RInv E sc st) : Agree (runLocal E sc cs st) (runRemote E sc cs st) := by
  induction cs generalizing st with
  | nil => exact Agree.refl _
  | cons c cs ih =>
    obtain ⟨h1, h2⟩ := step_agree w hn c h
    unfold runLocal runRemote at ih ⊢
    rw [run, run]
    refine Agree.bind h1 (fun _ _ h => by rw [h]) (fun _ _ h => by rw [h]) ?_
    intro st1 r g1 g2
    rw [g1, g2]
    rw [g1] at h2
    dsimp only at h2 ⊢
    refine Agree.bind (ih h2) (fun _ _ h => by rw [h]) (fun _ _ h => by rw [h]) ?_
    intro st2 rs k1 k2
    rw [k1, k2]
    exact Agree.refl _

/-- **C75.** Any sequence of `read()`, `read_bits()`, `write()`, `write_bits()` and transaction calls on a new object,
whatever the hardware does (shared registers, read-only bits, refused accesses), has the same outcome on a remote host as
on the local host: if no call fails locally, then none fails remotely, the results are the same, as well as the registers,
the hardware writes done, the cache and the transaction buffer. If a call fails locally, then a call fails remotely, with
the same registers and hardware writes. -/
theorem C75_remote_same (E : Env) (w : TopoWF E.T) (hn : SibNodup E.T) (sc : Nat → Scope) (st0 : St)
    (h0 : ∀ a c, st0.cache.get? a c = none) (hb : st0.buf = []) (cs : List TCall) :
    (∀ rs, (runLocal E sc cs st0).2 = .ok rs → runRemote E sc cs st0 = runLocal E sc cs st0) ∧
    (∀ e, (runLocal E sc cs st0).2 = .error e → (∃ e', (runRemote E sc cs st0).2 = .error e') ∧
      (runRemote E sc cs st0).1.hw = (runLocal E sc cs st0).1.hw ∧
      (runRemote E sc cs st0).1.log = (runLocal E sc cs st0).1.log) := by
  have h := run_agree w hn (sc := sc) cs (st := st0) ⟨fun n c _ d _ => by rw [h0, h0], by rw [hb]; exact bufOK_nil, by
    rw [hb]; intro c a ti hti; simp [look] at hti⟩
  exact ⟨h.ok, fun e he => ⟨(h.err e he).1, (h.err e he).2.1, (h.err e he).2.2.1⟩⟩

/-! ### Plain registers -/

theorem writeLoop_vfy {E : Env} {a : Nat} {val : Int} {s : Scope} (vfy : Bool) (l : List Nat) (st : St)
    (hst : st.inTransaction = false) : writeLoop E a val false s l st = writeLoop E a val vfy s l st := by
  induction l generalizing st with
  | nil => rfl
  | cons c l ih =>
    unfold writeLoop
    split
    · exact ih st hst
    · rw [if_pos (by simp [hst]), if_pos (by simp [hst])]
      cases hh : hwWrite E st a val c with
      | mk s2 r2 =>
        cases r2 with
        | error e => rfl
        | ok u => exact ih _ ((hwWrite_ok hh).2.2.2.2.1.trans hst)

theorem writeNormR_eq {E : Env} (w : TopoWF E.T) (hn : SibNodup E.T) {sc : Nat → Scope} (hs : Scoped E sc) (hp : Plain E)
    {a : Nat} (hng : sc a ≠ .global) {val : Int} {vfy : Bool} {l : List Nat} (hl : l.Nodup)
    (ho : ∀ c ∈ l, c ∈ E.T.online) {st : St} (hg : Good E sc st) :
    writeNormR E st a val l (sc a) vfy = writeNorm E st a val l (sc a) vfy := by
  have h1 := writeNorm_regs w hs hp hng (val := val) (vfy := vfy) ho hg (R := st.hw a) (fun _ _ => rfl)
  have h2 := writeNorm_regs w hs hp hng (val := val) (vfy := false) ho hg (R := st.hw a) (fun _ _ => rfl)
  have hag := writeNormR_agree w hn (a := a) (val := val) (s := sc a) (vfy := vfy) hl ho st
  have h12 := h1.1.trans h2.1.symm
  have hi := (removeLoop_spec (E := E) (a := a) (s := sc a) l st).1.2.2.2.1
  unfold writeNorm at h12 hag ⊢
  unfold writeNormR at hag ⊢
  cases hr : removeLoop E a (sc a) l st with
  | mk st1 r1 =>
    rw [hr] at h12 hi hag
    cases r1 with
    | error e => rfl
    | ok u =>
      dsimp only at h12 hi hag ⊢
      rw [writeLoop_vfy vfy l st1 (hi.trans hg.noTrans)] at h12
      cases hw : writeLoop E a val vfy (sc a) l st1 with
      | mk st2 r2 =>
        rw [hw] at h12 hag
        cases r2 with
        | error e => rfl
        | ok u2 =>
          dsimp only at h12 hag ⊢
          simp only [Bool.false_and, Bool.false_eq_true, if_false] at h12
          exact hag.ok () h12

theorem writeGroupsR_eq {E : Env} (w : TopoWF E.T) (hn : SibNodup E.T) {sc : Nat → Scope} (hs : Scoped E sc) (hp : Plain E)
    {a : Nat} (hng : sc a ≠ .global) {vfy : Bool} (g : Dict Int (List Nat)) (hnd : ∀ p ∈ g, p.2.Nodup)
    (ho : ∀ p ∈ g, ∀ c ∈ p.2, c ∈ E.T.online) (st : St) (hg : Good E sc st) :
    writeGroupsR E a (sc a) vfy g st = writeGroups E a (sc a) vfy g st := by
  induction g generalizing st with
  | nil => rfl
  | cons p g ih =>
    obtain ⟨v, cpus⟩ := p
    have hop := ho _ List.mem_cons_self
    have hnp := hnd _ List.mem_cons_self
    have hw : write E st a v (.nums cpus) (sc a) vfy = writeNorm E st a v cpus (sc a) vfy := by
      unfold write
      rw [normCpus_nums_self hnp hop]
    have hwR : writeR E st a v (.nums cpus) (sc a) vfy = writeNorm E st a v cpus (sc a) vfy := by
      unfold writeR
      rw [normCpus_nums_self hnp hop]
      exact writeNormR_eq w hn hs hp hng hnp hop hg
    rw [writeGroupsR, writeGroups, hw, hwR]
    cases h1 : writeNorm E st a v cpus (sc a) vfy with
    | mk st1 r1 =>
      have hg1 := (writeNorm_imm w hs hop hg (hp.sound sc a vfy) h1).1
      cases r1 with
      | error e => rfl
      | ok u =>
        exact ih (fun p hp => hnd p (List.mem_cons_of_mem _ hp)) (fun p hp => ho p (List.mem_cons_of_mem _ hp)) st1 hg1

theorem readLoopR_plain {E : Env} (w : TopoWF E.T) (hn : SibNodup E.T) {sc : Nat → Scope} (hp : Plain E) {a : Nat}
    {l : List Nat} (hl : l.Nodup) (ho : ∀ c ∈ l, c ∈ E.T.online) {st : St} (hg : Good E sc st) (hc : CUni E sc st) :
    ∃ st', readLoopR E a (sc a) l st = (st', .ok (l.map fun c => (c, st.hw a c))) ∧
      readLoop E a (sc a) l st = (st', .ok (l.map fun c => (c, st.hw a c))) ∧
      SameButCache st st' ∧ Good E sc st' ∧ CUni E sc st' := by
  obtain ⟨k1, k2, k3⟩ := readLoop_coh hg.uniform (a := a) l ho hg.coh
  have k4 := readLoop_same E a (sc a) l st
  have k5 := cuni_readLoop w (a := a) l ho hc
  have hag := readLoopR_agree w hn (a := a) (s := sc a) hl ho (compat_of_cuni hc ho)
  cases hr : readLoop E a (sc a) l st with
  | mk st' r =>
    rw [hr] at k1 k2 k3 k4 k5 hag
    cases r with
    | error e =>
      obtain ⟨_, c, _, hf⟩ := k3 e rfl
      rw [hp.read] at hf; cases hf
    | ok r =>
      obtain rfl := k2 r rfl
      exact ⟨st', hag.ok _ rfl, rfl, k4, k4.good hg k1, k5⟩

/-- The results and the registers are those of a local call; the object stays in order. -/
theorem callR_call {E : Env} (w : TopoWF E.T) (hn : SibNodup E.T) {sc : Nat → Scope} (hs : Scoped E sc) (hp : Plain E)
    {st : St} (hg : Good E sc st) (hc : CUni E sc st) (c : Call) (hng : NotGlobal sc c) :
    (callR E sc st c).2 = (call E sc st c).2 ∧ (callR E sc st c).1.hw = (call E sc st c).1.hw ∧
      Good E sc (callR E sc st c).1 ∧ CUni E sc (callR E sc st c).1 := by
  have hgc : Good E sc (call E sc st c).1 := call_good w hs hg c (by
    cases c <;> first | exact trivial | exact hp.sound sc _ _)
  have hcc : CUni E sc (call E sc st c).1 := call_cuni w c hc
  have eq : ∀ {x : St × Result}, x = call E sc st c → x.2 = (call E sc st c).2 ∧ x.1.hw = (call E sc st c).1.hw ∧
      Good E sc x.1 ∧ CUni E sc x.1 := by
    rintro x rfl; exact ⟨rfl, rfl, hgc, hcc⟩
  cases c with
  | read a cpus =>
    refine eq ?_
    simp only [call, callR, read, readR]
    cases hcp : E.T.normCpus cpus with
    | error e => rfl
    | ok l =>
      obtain ⟨st', h1, h2, _⟩ := readLoopR_plain w hn hp (a := a) (normCpus_ok hcp).1 (normCpus_ok hcp).2 hg hc
      dsimp only
      rw [h1, h2]
  | readBits a bits cpus =>
    cases hcp : E.T.normCpus cpus with
    | error e => refine eq ?_; simp only [call, callR, readBits, readBitsR, readR, hcp]
    | ok l =>
      have ho := (normCpus_ok hcp).2
      obtain ⟨st', h1, h2, h3, h4, h5⟩ := readLoopR_plain w hn hp (a := a) (normCpus_ok hcp).1 ho hg hc
      have k := readBitsLoop_regs hp (bits := bits) l ho st hg.uniform hg.coh (a := a) (R := st.hw a) (fun _ _ => rfl)
      have k4 := readBitsLoop_same E a bits (sc a) l st
      have kb : ∀ l : List Nat, bitsOf bits (l.map fun c => (c, st.hw a c)) = RegFile.readBits bits (st.hw a) l := by
        intro l
        induction l with
        | nil => rfl
        | cons x l ih =>
          rw [List.map_cons, bitsOf, RegFile.readBits]
          cases getBits (st.hw a x) bits with
          | error e => rfl
          | ok v => dsimp only; rw [ih]; cases RegFile.readBits bits (st.hw a) l <;> rfl
      simp only [call, callR, readBits, readBitsR, readR, hcp, h1]
      exact ⟨(kb l).trans k.symm, h3.1.trans k4.1.symm, h4, h5⟩
  | write a val cpus vfy =>
    refine eq ?_
    simp only [call, callR, write, writeR]
    cases hcp : E.T.normCpus cpus with
    | error e => rfl
    | ok l =>
      dsimp only
      rw [writeNormR_eq w hn hs hp hng (normCpus_ok hcp).1 (normCpus_ok hcp).2 hg]
  | writeBits a bits val cpus vfy =>
    cases hcp : E.T.normCpus cpus with
    | error e => refine eq ?_; simp only [call, callR, writeBits, writeBitsR, hcp]
    | ok l =>
      obtain ⟨hnd, ho⟩ := normCpus_ok hcp
      obtain ⟨st', h1, h2, h3, h4, h5⟩ := readLoopR_plain w hn hp (a := a) hnd ho hg hc
      have hag := modifyLoop_eq E a bits val (sc a) l st []
      rw [h2] at hag
      have k := modifyLoop_regs hp (bits := bits) (val := val) l ho st hg.uniform hg.coh (R := st.hw a) (a := a)
        (fun _ _ => rfl) []
      have kb : ∀ (l : List Nat) (acc : Dict Int (List Nat)), modifyAll bits val (l.map fun c => (c, st.hw a c)) acc =
          RegFile.modifyRegs bits val (st.hw a) l acc := by
        intro l
        induction l with
        | nil => intro _; rfl
        | cons x l ih =>
          intro acc
          rw [List.map_cons, modifyAll, RegFile.modifyRegs]
          cases setBits (st.hw a x) bits val with
          | error e => rfl
          | ok v =>
            dsimp only
            split
            · exact ih _
            · exact ih _
      have hsame := modifyLoop_same (E := E) (a := a) (bits := bits) (val := val) (s := sc a) l st []
      cases hm : modifyLoop E a bits val (sc a) l st [] with
      | mk st1 r1 =>
        obtain ⟨m1, m2, m3⟩ := modifyLoop_spec hg.uniform l ho st st1 [] r1 hg.coh hm
        rw [hm] at k hag
        dsimp only at k hag
        simp only [call, callR, writeBits, writeBitsR, hcp, h1, hm, kb, ← k] at eq ⊢
        cases r1 with
        | error e =>
          exact ⟨rfl, h3.1.trans m1.1.symm, h4, h5⟩
        | ok g =>
          have hst : st' = st1 := by
            have := hag.ok g rfl
            exact (Prod.mk.inj this).1
          subst hst
          obtain ⟨g1, g2, g3⟩ := m3 g rfl
          obtain ⟨_, hgok⟩ := groupsOK_of_modify hg.uniform (a := a) (bits := bits) (val := val) hnd ho
            (g3 (by simp [Dict.keys])) (fun v => by rw [g2 v]; simp)
          dsimp only at eq ⊢
          rw [writeGroupsR_eq w hn hs hp hng g hgok.nodup hgok.online st' h4]
          exact eq (x := (_, _)) rfl

/-- **C75.** Any sequence of `read()`, `read_bits()`, `write()` and `write_bits()` calls on a new object of a remote host
has the same results (values and errors of every call, also after failed calls) and leaves the same values in the
registers as if every CPU was accessed one after another, with no cache, no grouping and no scripts. -/
theorem C75_refines_plain_registers (E : Env) (w : TopoWF E.T) (hn : SibNodup E.T) (sc : Nat → Scope) (hs : Scoped E sc)
    (hp : Plain E) (st0 : St) (h0 : Fresh E sc st0) (cs : List Call) (hng : ∀ c ∈ cs, NotGlobal sc c) :
    (callsR E sc cs st0).2 = (plainCalls E cs st0.hw).2 ∧
      ∀ a, ∀ c ∈ E.T.online, (callsR E sc cs st0).1.hw a c = (plainCalls E cs st0.hw).1 a c := by
  have key : ∀ (cs : List Call) (st : St) (rs : Regs), Good E sc st → CUni E sc st → (∀ n, Same E (rs n) (st.hw n)) →
      (∀ c ∈ cs, NotGlobal sc c) →
      (callsR E sc cs st).2 = (plainCalls E cs rs).2 ∧
        ∀ n, Same E ((plainCalls E cs rs).1 n) ((callsR E sc cs st).1.hw n) := by
    intro cs
    induction cs with
    | nil => intro st rs _ _ hR _; exact ⟨rfl, hR⟩
    | cons c cs ih =>
      intro st rs hg hc hR hng
      obtain ⟨k1, k3⟩ := call_refines w hs hp hg hR c (hng c List.mem_cons_self)
      obtain ⟨e1, e2, e3, e4⟩ := callR_call w hn hs hp hg hc c (hng c List.mem_cons_self)
      obtain ⟨j1, j2⟩ := ih _ _ e3 e4 (by rw [e2]; exact k3) (fun x hx => hng x (List.mem_cons_of_mem _ hx))
      unfold callsR plainCalls
      dsimp only
      exact ⟨by rw [e1, k1, j1], j2⟩
  obtain ⟨k1, k2⟩ := key cs st0 st0.hw h0.good (fun n c _ d _ => by rw [h0.1, h0.1]) (fun n d _ => rfl) hng
  exact ⟨k1, fun a c hc => (k2 a c hc).symm⟩

/-- The hypotheses hold for the example of C70, with calls that fail. -/
example : SibNodup exPlain.T ∧
    (callsR exPlain exSc (exCalls ++ [.write 0x10 (2 ^ 64) .all true, .readBits 0x10 (5, 4) .all,
      .readBits 0x10 (70, 4) .all]) exSt).2.map Except.isOk = [true, true, true, true, false, false, true, false] :=
  ⟨sibNodup_ofInfo _ CPUInfo.exInfo_wf, by decide +kernel⟩

/-- A history with a transaction on several CPUs, verified writes and reads; register 0x200 ignores writes, so the last
verification fails. -/
example :
    let cs : List TCall := [.call (.read 0x10 .all), .start, .call (.write 0x10 7 (.nums [5, 1, 0]) true),
      .call (.writeBits 0x300 (5, 4) (.num 2) (.nums [1, 2]) true), .flush, .call (.read 0x10 .all), .commit]
    ((runLocal exEnv exSc cs exSt).2.toOption.map List.length = some 7 ∧
      (runLocal exEnv exSc cs exSt).1.log.length = 4) ∧
      (runRemote exEnv exSc (cs ++ [.call (.write 0x200 9 (.nums [0, 2]) true)]) exSt).2 = .error .verifyFailed := by
  decide +kernel

/-- Registers accessed with one scope by some calls and with another by others are different: after a write of CPU 1
alone, reading the package locally yields the value of CPU 1 and then that of CPU 0, reading it remotely yields the value
of CPU 0 for both. The project has one scope per register. -/
theorem C75_scopes_counterexample :
    let E : Env := ⟨Topo.ofInfo exModule, fun _ c d => c == d, fun _ _ v => v, fun _ _ => false, fun _ _ => false⟩
    let st := (call E (fun _ => .lvl .CPU) exSharedSt (.write 0x10 7 (.nums [1]) false)).1
    (call E (fun _ => .lvl .package) st (.read 0x10 (.nums [1, 0]))).2 = .ok [(1, 7), (0, 0)] ∧
      (callR E (fun _ => .lvl .package) st (.read 0x10 (.nums [1, 0]))).2 = .ok [(1, 0), (0, 0)] := by
  decide +kernel

end Verif.MSR
