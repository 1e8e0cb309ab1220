import Verif.Props.MSR
import Verif.Lemmas.MSRTrans

/-!
C06, C07: MSR transactions.
-/

namespace Verif.MSR

open Verif.CPUInfo (Scope Nums)
open Verif.Bits (BitRange FieldVal setBits getBits)

/-! ### Specification -/

/-- Any method call on an `MSR` object. -/
inductive TCall where
  | call (c : Call)
  | start
  | flush
  | commit

/-- Execute a call; the result is dropped. -/
def tcall (E : Env) (sc : Nat → Scope) (st : St) : TCall → St
  | .call c => (call E sc st c).1
  | .start => (startTransaction st).1
  | .flush => (flushTransaction E st).1
  | .commit => (commitTransaction E st).1

def tcalls (E : Env) (sc : Nat → Scope) (cs : List TCall) (st : St) : St :=
  cs.foldl (tcall E sc) st

/-- The (CPU, register) pairs of a list of hardware writes. -/
def pairs (ws : List (Nat × Nat × Int)) : List (Nat × Nat) := ws.map (fun x => (x.1, x.2.1))

/-- A call which is fit for the partial C06: a write is not in the "global" scope, a verified write
addresses a readable register, and every write names the same CPU, `rep a c`, first among the CPUs
sharing register `a` with `c`. -/
def RepCall (E : Env) (sc : Nat → Scope) (rep : Nat → Nat → Nat) : Call → Prop
  | .write a _ cpus vfy => sc a ≠ .global ∧ (vfy = true → ∀ x, E.rfail a x = false) ∧
      ∀ norm, E.T.normCpus cpus = .ok norm → ∀ c ∈ norm, norm.find? (E.share a c) = some (rep a c)
  | .writeBits a _ _ cpus vfy => sc a ≠ .global ∧ (vfy = true → ∀ x, E.rfail a x = false) ∧
      ∀ norm, E.T.normCpus cpus = .ok norm → ∀ c ∈ norm, norm.find? (E.share a c) = some (rep a c)
  | _ => True

/-! ### Lemmas -/

theorem call_trans {E : Env} {sc : Nat → Scope} (c : Call) (st : St) (hi : st.inTransaction = true)
    (hb : BufOK st.buf) : SameHw st (call E sc st c).1 ∧ BufOK (call E sc st c).1.buf := by
  cases c with
  | read a cpus =>
    simp only [call, read]
    split
    · exact ⟨SameHw.refl _, hb⟩
    · rename_i l _
      have h := readLoop_same E a (sc a) l st
      exact ⟨h.sameHw, by rw [h.2.2.1]; exact hb⟩
  | readBits a bits cpus =>
    simp only [call, readBits]
    split
    · exact ⟨SameHw.refl _, hb⟩
    · rename_i l _
      have h := readBitsLoop_same E a bits (sc a) l st
      exact ⟨h.sameHw, by rw [h.2.2.1]; exact hb⟩
  | write a val cpus vfy => exact write_trans cpus st hi hb
  | writeBits a bits val cpus vfy => exact writeBits_trans cpus st hi hb

theorem call_notrans {E : Env} {sc : Nat → Scope} (c : Call) (st : St) (hi : st.inTransaction = false) :
    (call E sc st c).1.buf = st.buf ∧ (call E sc st c).1.inTransaction = false ∧
      (call E sc st c).1.cache.enabled = st.cache.enabled := by
  cases c with
  | read a cpus =>
    simp only [call, read]
    split
    · exact ⟨rfl, hi, rfl⟩
    · rename_i l _
      have h := readLoop_same E a (sc a) l st
      exact ⟨h.2.2.1, h.2.2.2.1.trans hi, h.2.2.2.2⟩
  | readBits a bits cpus =>
    simp only [call, readBits]
    split
    · exact ⟨rfl, hi, rfl⟩
    · rename_i l _
      have h := readBitsLoop_same E a bits (sc a) l st
      exact ⟨h.2.2.1, h.2.2.2.1.trans hi, h.2.2.2.2⟩
  | write a val cpus vfy => exact write_buf cpus st hi
  | writeBits a bits val cpus vfy => exact writeBits_buf cpus st hi

theorem calls_notrans {E : Env} {sc : Nat → Scope} (cs : List Call) (st : St)
    (hi : st.inTransaction = false) :
    (calls E sc cs st).1.buf = st.buf ∧ (calls E sc cs st).1.inTransaction = false ∧
      (calls E sc cs st).1.cache.enabled = st.cache.enabled := by
  induction cs generalizing st with
  | nil => exact ⟨rfl, hi, rfl⟩
  | cons c cs ih =>
    obtain ⟨h1, h2, h3⟩ := call_notrans (E := E) (sc := sc) c st hi
    obtain ⟨g1, g2, g3⟩ := ih (call E sc st c).1 h2
    exact ⟨g1.trans h1, g2, g3.trans h3⟩

theorem call_cuni {E : Env} (w : TopoWF E.T) {sc : Nat → Scope} (c : Call) {st : St}
    (h : CUni E sc st) : CUni E sc (call E sc st c).1 := by
  cases c with
  | read a cpus =>
    simp only [call, read]
    split
    · exact h
    · rename_i l hn
      exact cuni_readLoop w l (normCpus_ok hn).2 h
  | readBits a bits cpus =>
    simp only [call, readBits]
    split
    · exact h
    · rename_i l hn
      exact cuni_readBitsLoop w l (normCpus_ok hn).2 h
  | write a val cpus vfy => exact cuni_write w cpus h
  | writeBits a bits val cpus vfy =>
    simp only [call, writeBits]
    split
    · exact h
    · rename_i l hn
      have h1 := cuni_modifyLoop w (a := a) (bits := bits) (val := val) l (normCpus_ok hn).2 h []
      cases hm : modifyLoop E a bits val (sc a) l st [] with
      | mk st1 r =>
        rw [hm] at h1
        cases r with
        | error e => exact h1
        | ok g => exact cuni_writeGroups w g h1

theorem calls_cuni {E : Env} (w : TopoWF E.T) {sc : Nat → Scope} (cs : List Call) {st : St}
    (h : CUni E sc st) : CUni E sc (calls E sc cs st).1 := by
  induction cs generalizing st with
  | nil => exact h
  | cons c cs ih => exact ih (call_cuni w c h)

/-- What a flush does to the state, whatever its outcome. -/
theorem flush_spec (E : Env) (st : St) (hb : BufOK st.buf) :
    BufOK (flushTransaction E st).1.buf ∧
    (flushTransaction E st).1.inTransaction = st.inTransaction ∧
    ∃ l1 l2, flat st.buf = l1 ++ l2 ∧
      (flushTransaction E st).1.log = st.log ++ l1.map (fun e => (e.1, e.2.1, e.2.2.regval)) := by
  unfold flushTransaction
  have triv : BufOK st.buf ∧ st.inTransaction = st.inTransaction ∧
      ∃ l1 l2, flat st.buf = l1 ++ l2 ∧
        st.log = st.log ++ l1.map (fun e => (e.1, e.2.1, e.2.2.regval)) :=
    ⟨hb, rfl, [], _, rfl, by simp⟩
  split
  · exact triv
  · split
    · exact triv
    · split
      · exact triv
      · rw [flushAll_eq]
        obtain ⟨l1, l2, h1, h2, _, _, h5, h6⟩ := hwWrites_log E (flat st.buf) st
        cases hw : hwWrites E (flat st.buf) st with
        | mk st1 r =>
          rw [hw] at h2 h5 h6
          cases r with
          | error e =>
            simp only at h2 h5 h6 ⊢
            exact ⟨h5 ▸ hb, h6, l1, l2, h1, h2⟩
          | ok u =>
            simp only at h2 h5 h6 ⊢
            have hv := verifyAll_same E (verifyInfo st1.buf) { st1 with buf := [] }
            cases hva : verifyAll E (verifyInfo st1.buf) { st1 with buf := [] } with
            | mk st2 r2 =>
              rw [hva] at hv
              have k : BufOK st2.buf := by
                have := hv.2.2.1
                simp only at this
                rw [this]; exact bufOK_nil
              cases r2 with
              | error e => exact ⟨k, hv.2.2.2.1.trans h6, l1, l2, h1, hv.2.1.trans h2⟩
              | ok u => exact ⟨k, hv.2.2.2.1.trans h6, l1, l2, h1, hv.2.1.trans h2⟩

theorem commit_spec (E : Env) (st : St) (hb : BufOK st.buf) :
    BufOK (commitTransaction E st).1.buf ∧
    ∃ l1 l2, flat st.buf = l1 ++ l2 ∧
      (commitTransaction E st).1.log = st.log ++ l1.map (fun e => (e.1, e.2.1, e.2.2.regval)) := by
  unfold commitTransaction
  split
  · exact ⟨hb, [], _, rfl, by simp⟩
  · obtain ⟨h1, _, h3⟩ := flush_spec E st hb
    cases hf : flushTransaction E st with
    | mk st1 r =>
      rw [hf] at h1 h3
      cases r with
      | error e => exact ⟨h1, h3⟩
      | ok b => exact ⟨h1, h3⟩

theorem tcalls_bufOK {E : Env} {sc : Nat → Scope} (cs : List TCall) (st : St) (hb : BufOK st.buf) :
    BufOK (tcalls E sc cs st).buf := by
  induction cs generalizing st with
  | nil => exact hb
  | cons c cs ih =>
    refine ih _ ?_
    cases c with
    | call c =>
      cases hi : st.inTransaction with
      | true => exact (call_trans c st hi hb).2
      | false =>
        show BufOK (call E sc st c).1.buf
        rw [(call_notrans c st hi).1]; exact hb
    | start =>
      show BufOK (startTransaction st).1.buf
      unfold startTransaction
      split
      · exact hb
      · split <;> exact hb
    | flush => exact (flush_spec E st hb).1
    | commit => exact (commit_spec E st hb).1

theorem pairs_nodup {buf : Dict Nat (Dict Nat TInfo)} (hb : BufOK buf)
    {l1 l2 : List (Nat × Nat × TInfo)} (h : flat buf = l1 ++ l2) :
    (pairs (l1.map (fun e => (e.1, e.2.1, e.2.2.regval)))).Nodup := by
  have := nodup_flat hb
  rw [h, List.map_append] at this
  have h1 := (List.nodup_append.1 this).1
  unfold pairs
  rw [List.map_map]
  exact h1

theorem find?_congr {α : Type} {p q : α → Bool} {l : List α} (h : ∀ x ∈ l, p x = q x) :
    l.find? p = l.find? q := by
  induction l with
  | nil => rfl
  | cons x l ih =>
    rw [List.find?_cons, List.find?_cons, h x (by simp), ih (fun y hy => h y (by simp [hy]))]

theorem share_eq {E : Env} {sc : Nat → Scope} (hs : Scoped E sc) {a c d : Nat}
    (hc : c ∈ E.T.online) (hd : d ∈ E.T.online) :
    E.share a c d = (E.T.sib (sc a) c).contains d := by
  have := hs a c hc d hd
  cases h : E.share a c d with
  | true => simp [this.1 h]
  | false =>
    have : d ∉ E.T.sib (sc a) c := fun hh => by rw [this.2 hh] at h; cases h
    simp [this]

theorem sim_call {E : Env} (w : TopoWF E.T) {sc : Nat → Scope} (hs : Scoped E sc)
    (hst : ∀ a o v, E.store a o v = v) {rep : Nat → Nat → Nat}
    (hrep : ∀ a, ∀ c ∈ E.T.online, ∀ d ∈ E.T.sib (sc a) c, rep a d = rep a c) (c : Call)
    (hc : RepCall E sc rep c) {si st : St} (h : Sim E sc rep NoP si st)
    (hok : (call E sc si c).2.isOk = true) :
    (call E sc st c).2 = (call E sc si c).2 ∧
    Sim E sc rep NoP (call E sc si c).1 (call E sc st c).1 := by
  cases c with
  | read a cpus =>
    simp only [call, read]
    cases hn : E.T.normCpus cpus with
    | error e => exact ⟨rfl, h⟩
    | ok norm => exact sim_readLoop w norm (normCpus_ok hn).2 h
  | readBits a bits cpus =>
    simp only [call, readBits]
    cases hn : E.T.normCpus cpus with
    | error e => exact ⟨rfl, h⟩
    | ok norm => exact sim_readBitsLoop w norm (normCpus_ok hn).2 h
  | write a val cpus vfy =>
    obtain ⟨hng, hvf, hf⟩ := hc
    simp only [call, write] at hok ⊢
    cases hn : E.T.normCpus cpus with
    | error e => exact ⟨rfl, h⟩
    | ok norm =>
      have hon := (normCpus_ok hn).2
      rw [hn] at hok
      simp only at hok ⊢
      cases hw : writeNorm E si a val norm (sc a) vfy with
      | mk si1 r =>
        rw [hw] at hok
        cases r with
        | error e => simp [Except.map, Except.isOk, Except.toBool] at hok
        | ok u =>
          have hf' : ∀ c ∈ norm, norm.find? (fun d => (E.T.sib (sc a) c).contains d)
              = some (rep a c) := by
            intro c hcm
            rw [← hf norm hn c hcm]
            exact find?_congr (fun x hx => (share_eq hs (hon c hcm) (hon x hx)).symm)
          obtain ⟨st1, k1, k2⟩ := sim_writeNorm w hs hst hrep hng hvf hon h hf' hw
          rw [k1]
          exact ⟨rfl, k2⟩
  | writeBits a bits val cpus vfy =>
    obtain ⟨hng, hvf, hf⟩ := hc
    simp only [call, writeBits] at hok ⊢
    cases hn : E.T.normCpus cpus with
    | error e => exact ⟨rfl, h⟩
    | ok norm =>
      obtain ⟨hnd, hon⟩ := normCpus_ok hn
      rw [hn] at hok
      simp only at hok ⊢
      obtain ⟨m1, m2⟩ := sim_modifyLoop w (a := a) (bits := bits) (val := val) norm hon h []
      have hcoh : Coh E si.hw si := coh_hw_iff.2 h.ccoh
      cases hmi : modifyLoop E a bits val (sc a) norm si [] with
      | mk si1 ri =>
      cases hmt : modifyLoop E a bits val (sc a) norm st [] with
      | mk st1 rt =>
      rw [hmi] at hok m1 m2
      rw [hmt] at m1 m2
      simp only at m1 m2
      subst m1
      cases rt with
      | error e => exact ⟨rfl, m2⟩
      | ok g =>
        obtain ⟨_, _, k3⟩ := modifyLoop_spec h.uni norm hon si si1 [] (.ok g) hcoh hmi
        obtain ⟨_, g2, g3⟩ := k3 g rfl
        obtain ⟨hgp, hgok⟩ := groupsOK_of_modify h.uni (a := a)
          (bits := bits) (val := val) hnd hon (g3 (by simp [Dict.keys]))
          (fun v => by rw [g2 v]; simp)
        simp only at hok ⊢
        cases hw : writeGroups E a (sc a) vfy g si1 with
        | mk si2 r =>
          rw [hw] at hok
          cases r with
          | error e => simp [Except.map, Except.isOk, Except.toBool] at hok
          | ok u =>
            have hfirst : ∀ p ∈ g, ∀ c ∈ p.2,
                p.2.find? (fun d => (E.T.sib (sc a) c).contains d) = some (rep a c) := by
              intro p hp c hcm
              rw [hgp p hp] at hcm ⊢
              rw [List.mem_filter] at hcm
              rw [List.find?_filter, ← hf norm hn c hcm.1]
              refine find?_congr (fun x hx => ?_)
              rw [share_eq hs (hon c hcm.1) (hon x hx)]
              cases hsx : (E.T.sib (sc a) c).contains x with
              | false => simp
              | true =>
                have hxm : x ∈ E.T.sib (sc a) c := by simpa using hsx
                have : changesTo si.hw a bits val p.1 x = true := by
                  have := hcm.2
                  unfold changesTo at this ⊢
                  rw [h.uni a c (hon c hcm.1) x hxm]
                  exact this
                simp [this]
            obtain ⟨st2, k1, k2⟩ := sim_writeGroups w hs hst hrep hng hvf g hgok hfirst m2 hw
            rw [k1]
            exact ⟨rfl, k2⟩

theorem sim_calls {E : Env} (w : TopoWF E.T) {sc : Nat → Scope} (hs : Scoped E sc)
    (hst : ∀ a o v, E.store a o v = v) {rep : Nat → Nat → Nat}
    (hrep : ∀ a, ∀ c ∈ E.T.online, ∀ d ∈ E.T.sib (sc a) c, rep a d = rep a c) (cs : List Call)
    (hcs : ∀ c ∈ cs, RepCall E sc rep c) {si st : St} (h : Sim E sc rep NoP si st)
    (hok : ∀ r ∈ (calls E sc cs si).2, r.isOk = true) :
    (calls E sc cs st).2 = (calls E sc cs si).2 ∧
    Sim E sc rep NoP (calls E sc cs si).1 (calls E sc cs st).1 := by
  induction cs generalizing si st with
  | nil => exact ⟨rfl, h⟩
  | cons c cs ih =>
    simp only [calls, List.mem_cons, forall_eq_or_imp] at hok ⊢
    obtain ⟨h1, h2⟩ := sim_call w hs hst hrep c (hcs c (by simp)) h hok.1
    obtain ⟨h3, h4⟩ := ih (fun x hx => hcs x (by simp [hx])) h2 hok.2
    exact ⟨by rw [h1, h3], h4⟩

theorem sim_flush {E : Env} (w : TopoWF E.T) {sc : Nat → Scope} (hs : Scoped E sc)
    (hst : ∀ a o v, E.store a o v = v) {rep : Nat → Nat → Nat} {si st : St}
    (h : Sim E sc rep NoP si st) :
    ∃ st' b, flushTransaction E st = (st', .ok b) ∧
      (∀ a, ∀ c ∈ E.T.online, st'.hw a c = si.hw a c) ∧ Coh E st'.hw st' ∧ st'.buf = [] := by
  have hcoh : ∀ n, ∀ c ∈ E.T.online, ∀ v, st.cache.get? n c = some v → v = si.hw n c :=
    fun n c hc v hv => h.ccoh n c hc v (by rw [← h.ceq n c hc]; exact hv)
  unfold flushTransaction
  simp only [h.inT, h.enT, Bool.not_true, Bool.false_eq_true, if_false]
  cases hb : st.buf with
  | nil =>
    simp only [List.isEmpty_nil, if_true]
    have heq : ∀ a, ∀ c ∈ E.T.online, st.hw a c = si.hw a c :=
      fun a c hc => h.nobuf a c hc (fun d hd => absurd (by rw [hb]; rfl) hd)
    exact ⟨st, false, rfl, heq,
      coh_hw_iff.2 (fun n c hc v hv => by rw [heq n c hc]; exact hcoh n c hc v hv), hb⟩
  | cons p buf =>
    rw [← hb]
    have hne : st.buf.isEmpty = false := by rw [hb]; rfl
    simp only [hne, Bool.false_eq_true, if_false, flushAll_eq]
    have hent : ∀ c a ti, (c, a, ti) ∈ flat st.buf → _ :=
      fun c a ti he => h.ent c a ti ((mem_flat h.bufok c a ti).1 he)
    obtain ⟨k1, k2⟩ := hwWrites_hw E hst si.hw (flat st.buf) st
      (fun e he => by
        obtain ⟨c, a, ti⟩ := e
        have := hent c a ti he
        exact ⟨this.2.2.2.2.2.1, this.2.2.2.2.2.2.1⟩)
      (fun e he x hx hsh => by
        obtain ⟨c, a, ti⟩ := e
        have := hent c a ti he
        rw [h.uni a c this.1 x ((hs a c this.1 x hx).1 hsh)]
        exact this.2.2.1.symm)
    obtain ⟨l1, l2, _, _, _, j4, j5, j6⟩ := hwWrites_log E (flat st.buf) st
    cases hw : hwWrites E (flat st.buf) st with
    | mk st1 r =>
      rw [hw] at k1 k2 j4 j5 j6
      simp only at k1 k2 j4 j5 j6
      subst k1
      have heq : ∀ a, ∀ c ∈ E.T.online, st1.hw a c = si.hw a c := by
        intro a c hc
        refine k2 a c hc ?_
        by_cases hex : ∃ d, look st.buf d a ≠ none ∧ c ∈ E.T.sib (sc a) d
        · obtain ⟨d, hd, hcd⟩ := hex
          cases hl : look st.buf d a with
          | none => exact absurd hl hd
          | some ti =>
            have he := (mem_flat h.bufok d a ti).2 hl
            exact Or.inl ⟨(d, a, ti), he, rfl, (hs a d (hent d a ti he).1 c hc).2 hcd⟩
        · exact Or.inr (h.nobuf a c hc (fun d hd hcd => hex ⟨d, hd, hcd⟩))
      have huni : Uniform E sc st1.hw := by
        intro a c hc d hd
        rw [heq a d (w.sub (sc a) c d hc hd), heq a c hc]; exact h.uni a c hc d hd
      have hc1 : Coh E st1.hw st1 :=
        coh_hw_iff.2 (fun n c hc v hv => by
          rw [heq n c hc]; exact hcoh n c hc v (by rw [← j4]; exact hv))
      simp only [j5]
      obtain ⟨v1, v2⟩ := verifyAll_ok (E := E) (sc := sc) (verifyInfo st.buf) { st1 with buf := [] }
        huni hc1 (fun p hp q hq => by
          obtain ⟨q1, c0, ti0, q2, q3⟩ := verifyInfo_ok st.buf p hp q hq
          have e0 := hent c0 q.1 ti0 q2
          refine ⟨q3.trans e0.2.2.2.1, e0.2.2.2.2.1, fun c hc => ?_⟩
          obtain ⟨ti, t1, t2, t3⟩ := q1 c hc
          have e1 := hent c q.1 ti t1
          exact ⟨e1.1, by rw [← t2, e1.2.2.1]; exact heq q.1 c e1.1, e1.2.2.2.2.2.2.2 t3 c⟩)
      have vs := verifyAll_same E (verifyInfo st.buf) { st1 with buf := [] }
      cases hv : verifyAll E (verifyInfo st.buf) { st1 with buf := [] } with
      | mk st2 r2 =>
        rw [hv] at v1 v2 vs
        simp only at v1 v2
        subst v1
        refine ⟨st2, true, rfl, ?_, ?_, vs.2.2.1⟩
        · intro a c hc
          rw [vs.1]; exact heq a c hc
        · rw [vs.1]; exact v2

/-! ### Properties -/

/-- **C07** (no write before flush). Whatever the object did before (including earlier and failed
transactions), as long as a transaction is open no sequence of reads and writes changes any register:
no hardware write is issued at all. -/
theorem C07_no_write_before_flush (E : Env) (sc : Nat → Scope) (st0 : St) (h0 : st0.buf = [])
    (hist : List TCall) (hi : (tcalls E sc hist st0).inTransaction = true) (cs : List Call) :
    let st := tcalls E sc hist st0
    (calls E sc cs st).1.hw = st.hw ∧ (calls E sc cs st).1.log = st.log ∧
      (calls E sc cs st).1.inTransaction = true := by
  intro st
  have hb : BufOK st.buf := tcalls_bufOK hist st0 (by rw [h0]; exact bufOK_nil)
  have : ∀ (cs : List Call) (st : St), st.inTransaction = true → BufOK st.buf →
      SameHw st (calls E sc cs st).1 := by
    intro cs
    induction cs with
    | nil => intro st _ _; exact SameHw.refl _
    | cons c cs ih =>
      intro st hi hb
      obtain ⟨h1, h2⟩ := call_trans (E := E) (sc := sc) c st hi hb
      exact h1.trans (ih _ (h1.2.2.trans hi) h2)
  have h := this cs st hi hb
  exact ⟨h.1, h.2.1, h.2.2.trans hi⟩

/-- **C07** (commit). After any history, `flush_transaction()` and `commit_transaction()` write each
register of each CPU at most once. -/
theorem C07_commit_writes_once (E : Env) (sc : Nat → Scope) (st0 : St) (h0 : st0.buf = [])
    (hist : List TCall) :
    let st := tcalls E sc hist st0
    (∃ ws, (flushTransaction E st).1.log = st.log ++ ws ∧ (pairs ws).Nodup) ∧
    (∃ ws, (commitTransaction E st).1.log = st.log ++ ws ∧ (pairs ws).Nodup) := by
  intro st
  have hb : BufOK st.buf := tcalls_bufOK hist st0 (by rw [h0]; exact bufOK_nil)
  obtain ⟨_, _, l1, l2, h1, h2⟩ := flush_spec E st hb
  obtain ⟨_, m1, m2, g1, g2⟩ := commit_spec E st hb
  exact ⟨⟨_, h2, pairs_nodup hb h1⟩, ⟨_, g2, pairs_nodup hb g1⟩⟩

/-- **C06** (partial). Full property: running a sequence of MSR calls inside a transaction gives the
same results and, after the commit, the same register contents as running it without a transaction.
Proved here, after any history of calls without transactions on a new object: if the immediate run
succeeds, so do all the calls inside the transaction, with the same results, and the commit; then every
register has the same value on every CPU, and every later cached read is coherent. Missing: (1) writes
to one shared register through different CPUs (false of the code, see the counterexample), (2) caching
disabled (false of the code, see the counterexample), (3) the "global" scope (where `write()` of an
uncached register raises `KeyError`, see C10), (4) registers with bits that ignore writes, and runs in
which a call fails. -/
theorem C06_transaction_equals_immediate_partial (E : Env) (w : TopoWF E.T) (sc : Nat → Scope)
    (hs : Scoped E sc) (hst : ∀ a o v, E.store a o v = v) (rep : Nat → Nat → Nat)
    (hrep : ∀ a, ∀ c ∈ E.T.online, ∀ d ∈ E.T.online, E.share a c d = true → rep a d = rep a c)
    (st0 : St) (h0 : Fresh E sc st0) (hen : st0.cache.enabled = true) (hbuf : st0.buf = [])
    (hist : List Call) (cs : List Call) (hcs : ∀ c ∈ cs, RepCall E sc rep c)
    (hok : ∀ r ∈ (calls E sc cs (calls E sc hist st0).1).2, r.isOk = true) :
    let st := (calls E sc hist st0).1
    let imm := calls E sc cs st
    let tr := calls E sc cs (startTransaction st).1
    let fin := commitTransaction E tr.1
    (startTransaction st).2 = .ok () ∧ tr.2 = imm.2 ∧ fin.2 = .ok () ∧
      (∀ a, ∀ c ∈ E.T.online, fin.1.hw a c = imm.1.hw a c) ∧
      fin.1.inTransaction = false ∧ fin.1.buf = [] ∧
      (∀ a, ∀ c ∈ E.T.online, ∀ v, fin.1.cache.get? a c = some v → v = fin.1.hw a c) := by
  intro st imm tr fin
  have hsound : ∀ c ∈ hist, CallSound E sc c := by
    intro c _
    cases c with
    | read a cpus => trivial
    | readBits a bits cpus => trivial
    | write a val cpus vfy => exact Or.inl (hst a)
    | writeBits a bits val cpus vfy => exact Or.inl (hst a)
  have hg : Good E sc st := calls_good w hs hist hsound h0.good
  obtain ⟨b1, b2, b3⟩ := calls_notrans (E := E) (sc := sc) hist st0 h0.2.1
  have hstart : startTransaction st = ({ st with inTransaction := true }, .ok ()) := by
    unfold startTransaction
    have e1 : st.cache.enabled = true := b3.trans hen
    have e2 : st.inTransaction = false := b2
    simp [e1, e2]
  have hcu : CUni E sc st := calls_cuni w hist
    (fun n c _ d _ => by rw [h0.1, h0.1])
  have hsim : Sim E sc rep NoP st { st with inTransaction := true } := by
    refine ⟨b3.trans hen, b3.trans hen, b2, rfl, hg.uniform, hcu, fun _ _ _ => rfl,
      coh_hw_iff.1 hg.coh, fun _ _ _ _ => Or.inl rfl, ?_, ?_, fun _ _ _ _ => rfl⟩
    · show BufOK st.buf
      rw [b1, hbuf]; exact bufOK_nil
    · intro c n ti hl
      simp only at hl
      rw [b1, hbuf] at hl
      cases hl
  have hrep' : ∀ a, ∀ c ∈ E.T.online, ∀ d ∈ E.T.sib (sc a) c, rep a d = rep a c := by
    intro a c hc d hd
    have hdo := w.sub (sc a) c d hc hd
    exact hrep a c hc d hdo ((hs a c hc d hdo).2 hd)
  obtain ⟨k1, k2⟩ := sim_calls w hs hst hrep' cs hcs hsim hok
  have htr : tr = calls E sc cs { st with inTransaction := true } := by
    show calls E sc cs (startTransaction st).1 = _
    rw [hstart]
  rw [← htr] at k1 k2
  obtain ⟨st', b, f1, f2, f3, f4⟩ := sim_flush w hs hst k2
  have hfin : fin = ({ st' with inTransaction := false }, .ok ()) := by
    show commitTransaction E tr.1 = _
    unfold commitTransaction
    rw [f1]
    simp [k2.inT]
  refine ⟨by rw [hstart], k1, by rw [hfin], ?_, by rw [hfin], by rw [hfin]; exact f4, ?_⟩
  · intro a c hc
    rw [hfin]; exact f2 a c hc
  · intro a c hc v hv
    rw [hfin] at hv ⊢
    exact coh_hw_iff.1 f3 a c hc v hv

/-! ### Counterexamples -/

/-- Two CPUs in one package, one register per package. -/
def exShared : Env :=
  ⟨Topo.ofInfo exModule, fun _ _ _ => true, fun _ _ v => v, fun _ _ => false, fun _ _ => false⟩

def exSharedSt : St := ⟨Cache.empty true, false, [], fun _ _ => 0, []⟩

def exSharedCalls : List Call :=
  [.write 0x610 1 (.nums [0]) false, .write 0x610 2 (.nums [1]) false, .write 0x610 3 (.nums [0]) false]

/-- **C06** is false of the code: writing 1, 2 and 3 to a package register through CPUs 0, 1 and 0
leaves 3 there without a transaction and 2 with a transaction (the buffer is flushed in the order in
which CPUs were first written). After the commit a cached read returns 3 on both CPUs. -/
theorem C06_transaction_order_counterexample :
    let sc := fun _ => Scope.lvl .package
    let imm := calls exShared sc exSharedCalls exSharedSt
    let tr := calls exShared sc exSharedCalls (startTransaction exSharedSt).1
    let fin := commitTransaction exShared tr.1
    imm.2.map Except.isOk = [true, true, true] ∧ tr.2.map Except.isOk = [true, true, true] ∧
      fin.2 = .ok () ∧ imm.1.hw 0x610 0 = 3 ∧ fin.1.hw 0x610 0 = 2 ∧ fin.1.hw 0x610 1 = 2 ∧
      (read exShared fin.1 0x610 .all (.lvl .package)).2 = .ok [(0, 3), (1, 3)] := by
  decide +kernel

/-- **C06** is false of the code if caching is disabled: `start_transaction()` and the writes succeed,
`commit_transaction()` fails. -/
theorem C06_transaction_nocache_counterexample (E : Env) (sc : Nat → Scope) (st : St)
    (hd : st.cache.enabled = false) (hi : st.inTransaction = false) (cs : List Call) :
    (startTransaction st).2 = .ok () ∧
    (commitTransaction E (calls E sc cs (startTransaction st).1).1).2 = .error .error := by
  have h1 : startTransaction st = (st, .ok ()) := by simp [startTransaction, hd]
  rw [h1]
  refine ⟨rfl, ?_⟩
  unfold commitTransaction
  simp [(calls_notrans (E := E) (sc := sc) cs st hi).2.1]

/-! ### Example -/

/-- Like `exEnv`, all registers keep what is written to them. -/
def exEnvT : Env := { exEnv with store := fun _ _ v => v }

/-- The smallest sibling. -/
def exRep (a c : Nat) : Nat := ((exEnvT.T.sib (exSc a) c).find? (fun _ => true)).getD 0

def exTCalls : List Call :=
  [.write 0x10 7 (.nums [1, 5]) true, .writeBits 0x10 (5, 4) (.num 2) .all false, .read 0x300 .all,
   .write 0x300 9 (.nums [0, 4]) true, .write 0x10 8 (.nums [1]) false]

theorem ex_rep {a : Nat} {cpus : Nums} {l : List Nat} (h : exEnvT.T.normCpus cpus = .ok l)
    (h2 : ∀ c ∈ l, l.find? (exEnvT.share a c) = some (exRep a c)) :
    ∀ norm, exEnvT.T.normCpus cpus = .ok norm →
      ∀ c ∈ norm, norm.find? (exEnvT.share a c) = some (exRep a c) := by
  intro norm hn
  rw [h] at hn
  cases hn
  exact h2

/-- The hypotheses of the partial C06 hold for a transaction with scope siblings, repeated and
overlapping writes. -/
example :
    TopoWF exEnvT.T ∧ Scoped exEnvT exSc ∧ (∀ a o v, exEnvT.store a o v = v) ∧
    (∀ a, ∀ c ∈ exEnvT.T.online, ∀ d ∈ exEnvT.T.online, exEnvT.share a c d = true →
      exRep a d = exRep a c) ∧
    Fresh exEnvT exSc exSt ∧ exSt.cache.enabled = true ∧ exSt.buf = [] ∧
    (∀ c ∈ exTCalls, RepCall exEnvT exSc exRep c) ∧
    (∀ r ∈ (calls exEnvT exSc exTCalls (calls exEnvT exSc exCalls exSt).1).2, r.isOk = true) ∧
    (calls exEnvT exSc exTCalls (calls exEnvT exSc exCalls exSt).1).1.hw 0x10 5 = 8 := by
  have w : TopoWF exEnvT.T := topoWF_ofInfo _ CPUInfo.exInfo_wf
  have hs : Scoped exEnvT exSc := by
    intro a c _ d _
    simp [exEnvT, exEnv]
  refine ⟨w, hs, fun _ _ _ => rfl, ?_, ⟨fun _ _ => rfl, rfl, fun _ _ _ _ _ => rfl⟩, rfl, rfl, ?_,
    by decide +kernel, by decide +kernel⟩
  · intro a c hc d hd h
    have := w.eqv (exSc a) c d hc ((hs a c hc d hd).1 h)
    simp only [exRep, this]
  · intro c hc
    simp only [exTCalls, List.mem_cons, List.not_mem_nil, or_false] at hc
    rcases hc with rfl | rfl | rfl | rfl | rfl
    · exact ⟨by decide, fun _ _ => rfl, ex_rep (l := [1, 5]) (by decide +kernel)
        (by decide +kernel)⟩
    · exact ⟨by decide, fun _ _ => rfl, ex_rep (l := [0, 1, 2, 3, 4, 5, 6, 7]) (by decide +kernel)
        (by decide +kernel)⟩
    · trivial
    · exact ⟨by decide, fun _ _ => rfl, ex_rep (l := [0, 4]) (by decide +kernel)
        (by decide +kernel)⟩
    · exact ⟨by decide, fun _ _ => rfl, ex_rep (l := [1]) (by decide +kernel)
        (by decide +kernel)⟩

/-- The hypotheses of C07 hold within a transaction opened after a flush and a commit; the flush below
issues two writes. -/
example :
    let hist : List TCall := [.start, .call (.write 0x10 7 (.nums [1]) true), .flush, .commit, .start,
      .call (.write 0x10 8 (.nums [1]) false), .call (.write 0x10 9 (.nums [2]) false)]
    exSt.buf = [] ∧ (tcalls exEnv exSc hist exSt).inTransaction = true ∧
    (flushTransaction exEnv (tcalls exEnv exSc hist exSt)).1.log
      = [(1, 0x10, 7), (1, 0x10, 8), (2, 0x10, 9)] := by
  decide +kernel

end Verif.MSR
