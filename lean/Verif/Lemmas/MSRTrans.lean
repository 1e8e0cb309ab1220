import Verif.Lemmas.MSR

/-!
Helper lemmas about MSR transactions.
-/

namespace Verif.MSR

open CPUInfo (Scope Nums)
open Verif.Bits (BitRange FieldVal setBits getBits)

/-! ### The transaction buffer -/

/-- Every key occurs once on both levels of the buffer. -/
def BufOK (buf : Dict Nat (Dict Nat TInfo)) : Prop :=
  (Dict.keys buf).Nodup ∧ ∀ p ∈ buf, (Dict.keys p.2).Nodup

/-- The contents of the buffer as a flat list. -/
def flat (buf : Dict Nat (Dict Nat TInfo)) : List (Nat × Nat × TInfo) :=
  buf.flatMap (fun p => p.2.map (fun q => (p.1, q.1, q.2)))

/-- What is buffered for a CPU and a register. -/
def look (buf : Dict Nat (Dict Nat TInfo)) (c a : Nat) : Option TInfo :=
  match buf.get? c with
  | none => none
  | some regs => regs.get? a

theorem bufOK_nil : BufOK [] := ⟨by simp [Dict.keys], by simp⟩

theorem mem_set {κ β : Type} [DecidableEq κ] {d : Dict κ β} {k : κ} {v : β} {p : κ × β}
    (h : p ∈ d.set k v) : p = (k, v) ∨ p ∈ d := by
  induction d with
  | nil => simp [Dict.set] at h; exact Or.inl h
  | cons q d ih =>
    obtain ⟨k', v'⟩ := q
    unfold Dict.set at h
    split at h
    · rcases List.mem_cons.1 h with h | h
      · exact Or.inl h
      · exact Or.inr (by simp [h])
    · rcases List.mem_cons.1 h with h | h
      · exact Or.inr (by simp [h])
      · rcases ih h with h | h
        · exact Or.inl h
        · exact Or.inr (by simp [h])

theorem bufOK_set {buf : Dict Nat (Dict Nat TInfo)} (h : BufOK buf) (c a : Nat) (ti : TInfo) :
    BufOK (buf.set c (((buf.get? c).getD []).set a ti)) := by
  refine ⟨Dict.nodup_keys_set h.1 _ _, fun p hp => ?_⟩
  rcases mem_set hp with rfl | hp
  · refine Dict.nodup_keys_set ?_ _ _
    cases hg : buf.get? c with
    | none => simp [Dict.keys]
    | some regs => exact h.2 (c, regs) (Dict.mem_of_get? hg)
  · exact h.2 p hp

theorem look_set (buf : Dict Nat (Dict Nat TInfo)) (c a : Nat) (ti : TInfo) (c' a' : Nat) :
    look (buf.set c (((buf.get? c).getD []).set a ti)) c' a' =
      if c = c' ∧ a = a' then some ti else look buf c' a' := by
  unfold look
  rw [Dict.get?_set]
  by_cases hc : c = c'
  · subst hc
    simp only [if_true, true_and]
    rw [Dict.get?_set]
    by_cases ha : a = a'
    · simp [ha]
    · simp only [if_neg ha]
      cases buf.get? c <;> simp
  · simp [hc]

theorem mem_flat {buf : Dict Nat (Dict Nat TInfo)} (h : BufOK buf) (c a : Nat) (ti : TInfo) :
    (c, a, ti) ∈ flat buf ↔ look buf c a = some ti := by
  unfold flat look
  simp only [List.mem_flatMap, List.mem_map, Prod.mk.injEq]
  constructor
  · rintro ⟨p, hp, q, hq, rfl, rfl, rfl⟩
    rw [Dict.get?_of_mem h.1 (v := p.2) hp]
    exact Dict.get?_of_mem (h.2 p hp) hq
  · intro hl
    cases hg : buf.get? c with
    | none => rw [hg] at hl; cases hl
    | some regs =>
      rw [hg] at hl
      exact ⟨(c, regs), Dict.mem_of_get? hg, (a, ti), Dict.mem_of_get? hl, rfl, rfl, rfl⟩

theorem nodup_flat {buf : Dict Nat (Dict Nat TInfo)} (h : BufOK buf) :
    ((flat buf).map (fun e => (e.1, e.2.1))).Nodup := by
  unfold flat
  rw [List.map_flatMap]
  unfold List.Nodup
  rw [List.pairwise_flatMap]
  refine ⟨fun p hp => ?_, ?_⟩
  · have := h.2 p hp
    unfold Dict.keys List.Nodup at this
    rw [List.pairwise_map] at this
    rw [List.map_map, List.pairwise_map]
    refine this.imp ?_
    intro x y hxy hh
    simp only [Function.comp, Prod.mk.injEq, true_and] at hh
    exact hxy hh
  · have := h.1
    unfold Dict.keys List.Nodup at this
    rw [List.pairwise_map] at this
    refine this.imp ?_
    intro p q hpq x hx y hy hxy
    simp only [List.map_map, List.mem_map, Function.comp] at hx hy
    obtain ⟨_, _, rfl⟩ := hx
    obtain ⟨_, _, rfl⟩ := hy
    simp only [Prod.mk.injEq] at hxy
    exact hpq hxy.1

/-! ### No hardware access inside of a transaction -/

/-- Only the cache and the buffer may differ. -/
def SameHw (st st' : St) : Prop :=
  st'.hw = st.hw ∧ st'.log = st.log ∧ st'.inTransaction = st.inTransaction

theorem SameHw.refl (st : St) : SameHw st st := ⟨rfl, rfl, rfl⟩

theorem SameHw.trans {a b c : St} (h1 : SameHw a b) (h2 : SameHw b c) : SameHw a c :=
  ⟨h2.1.trans h1.1, h2.2.1.trans h1.2.1, h2.2.2.trans h1.2.2⟩

theorem SameButCache.sameHw {a b : St} (h : SameButCache a b) : SameHw a b := ⟨h.1, h.2.1, h.2.2.2.1⟩

theorem addForTransaction_ok {st st' : St} {a : Nat} {val : Int} {cpu : Nat} {vfy : Bool} {s : Scope}
    (h : addForTransaction st a val cpu vfy s = .ok st') :
    st.cache.enabled = true ∧
    st' = { st with buf := st.buf.set cpu (((st.buf.get? cpu).getD []).set a ⟨val, vfy, s⟩) } := by
  unfold addForTransaction at h
  split at h
  · cases h
  · rename_i he
    cases h
    exact ⟨by simpa using he, rfl⟩

theorem writeLoop_trans {E : Env} {a : Nat} {val : Int} {vfy : Bool} {s : Scope} (l : List Nat)
    (st : St) (hi : st.inTransaction = true) (hb : BufOK st.buf) :
    SameHw st (writeLoop E a val vfy s l st).1 ∧ BufOK (writeLoop E a val vfy s l st).1.buf := by
  induction l generalizing st with
  | nil => exact ⟨SameHw.refl _, hb⟩
  | cons c l ih =>
    unfold writeLoop
    split
    · exact ih st hi hb
    · simp only [hi, Bool.not_true, Bool.false_eq_true, if_false]
      cases h : addForTransaction st a val c vfy s with
      | error e => exact ⟨SameHw.refl _, hb⟩
      | ok st1 =>
        obtain ⟨_, rfl⟩ := addForTransaction_ok h
        obtain ⟨h1, h2⟩ := ih { st with
            buf := st.buf.set c (((st.buf.get? c).getD []).set a ⟨val, vfy, s⟩),
            cache := st.cache.add E.T a c val s } hi (bufOK_set hb _ _ _)
        exact ⟨SameHw.trans ⟨rfl, rfl, rfl⟩ h1, h2⟩

theorem writeNorm_trans {E : Env} {a : Nat} {val : Int} {vfy : Bool} {s : Scope} (l : List Nat)
    (st : St) (hi : st.inTransaction = true) (hb : BufOK st.buf) :
    SameHw st (writeNorm E st a val l s vfy).1 ∧ BufOK (writeNorm E st a val l s vfy).1.buf := by
  have h1 := (removeLoop_spec (E := E) (a := a) (s := s) l st).1
  unfold writeNorm
  cases hr : removeLoop E a s l st with
  | mk st1 r =>
    rw [hr] at h1
    have hb1 : BufOK st1.buf := by
      have := h1.2.2.1
      simp only at this
      rw [this]; exact hb
    have hi1 : st1.inTransaction = true := h1.2.2.2.1.trans hi
    cases r with
    | error e => exact ⟨h1.sameHw, hb1⟩
    | ok u =>
      obtain ⟨g1, g2⟩ := writeLoop_trans (E := E) (a := a) (val := val) (vfy := vfy) (s := s) l st1 hi1 hb1
      simp only
      cases hw : writeLoop E a val vfy s l st1 with
      | mk st2 r2 =>
        rw [hw] at g1 g2
        cases r2 with
        | error e => exact ⟨h1.sameHw.trans g1, g2⟩
        | ok u2 =>
          have hi2 : st2.inTransaction = true := g1.2.2.trans hi1
          simp only [hi2, Bool.not_true, Bool.and_false, Bool.false_eq_true, if_false]
          exact ⟨h1.sameHw.trans g1, g2⟩

theorem write_trans {E : Env} {a : Nat} {val : Int} {vfy : Bool} {s : Scope} (cpus : Nums)
    (st : St) (hi : st.inTransaction = true) (hb : BufOK st.buf) :
    SameHw st (write E st a val cpus s vfy).1 ∧ BufOK (write E st a val cpus s vfy).1.buf := by
  unfold write
  cases E.T.normCpus cpus with
  | error e => exact ⟨SameHw.refl _, hb⟩
  | ok l => exact writeNorm_trans l st hi hb

theorem modifyLoop_same {E : Env} {a : Nat} {bits : BitRange} {val : FieldVal} {s : Scope}
    (l : List Nat) (st : St) (acc : Dict Int (List Nat)) :
    SameButCache st (modifyLoop E a bits val s l st acc).1 := by
  induction l generalizing st acc with
  | nil => exact SameButCache.refl _
  | cons c l ih =>
    have h1 := readOne_same E st a s c
    unfold modifyLoop
    cases hr : readOne E st a s c with
    | mk st1 r =>
      rw [hr] at h1
      cases r with
      | error e => exact h1
      | ok v =>
        simp only
        cases setBits v bits val with
        | error e => exact h1
        | ok new =>
          simp only
          split
          · exact h1.trans (ih st1 _)
          · exact h1.trans (ih st1 _)

theorem writeGroups_trans {E : Env} {a : Nat} {vfy : Bool} {s : Scope} (gs : Dict Int (List Nat))
    (st : St) (hi : st.inTransaction = true) (hb : BufOK st.buf) :
    SameHw st (writeGroups E a s vfy gs st).1 ∧ BufOK (writeGroups E a s vfy gs st).1.buf := by
  induction gs generalizing st with
  | nil => exact ⟨SameHw.refl _, hb⟩
  | cons p gs ih =>
    obtain ⟨v, cpus⟩ := p
    obtain ⟨h1, h2⟩ := write_trans (E := E) (a := a) (val := v) (vfy := vfy) (s := s) (.nums cpus) st hi hb
    unfold writeGroups
    cases hw : write E st a v (.nums cpus) s vfy with
    | mk st1 r =>
      rw [hw] at h1 h2
      cases r with
      | error e => exact ⟨h1, h2⟩
      | ok u =>
        obtain ⟨g1, g2⟩ := ih st1 (h1.2.2.trans hi) h2
        exact ⟨h1.trans g1, g2⟩

theorem writeBits_trans {E : Env} {a : Nat} {bits : BitRange} {val : FieldVal} {vfy : Bool} {s : Scope}
    (cpus : Nums) (st : St) (hi : st.inTransaction = true) (hb : BufOK st.buf) :
    SameHw st (writeBits E st a bits val cpus s vfy).1 ∧
      BufOK (writeBits E st a bits val cpus s vfy).1.buf := by
  unfold writeBits
  cases E.T.normCpus cpus with
  | error e => exact ⟨SameHw.refl _, hb⟩
  | ok l =>
    have h1 := modifyLoop_same (E := E) (a := a) (bits := bits) (val := val) (s := s) l st []
    simp only
    cases hm : modifyLoop E a bits val s l st [] with
    | mk st1 r =>
      rw [hm] at h1
      have hb1 : BufOK st1.buf := by
        have := h1.2.2.1
        simp only at this
        rw [this]; exact hb
      cases r with
      | error e => exact ⟨h1.sameHw, hb1⟩
      | ok g =>
        obtain ⟨g1, g2⟩ := writeGroups_trans (E := E) (a := a) (vfy := vfy) (s := s) g st1
          (h1.2.2.2.1.trans hi) hb1
        exact ⟨h1.sameHw.trans g1, g2⟩

/-! ### Flushing -/

/-- Write a list of `(cpu, addr, value)` to the hardware. -/
def hwWrites (E : Env) : List (Nat × Nat × TInfo) → St → St × Except Exn Unit
  | [], st => (st, .ok ())
  | (c, a, ti) :: l, st =>
    match hwWrite E st a ti.regval c with
    | (st, .error e) => (st, .error e)
    | (st, .ok ()) => hwWrites E l st

theorem hwWrites_append (E : Env) (l1 l2 : List (Nat × Nat × TInfo)) (st : St) :
    hwWrites E (l1 ++ l2) st =
      match hwWrites E l1 st with
      | (st, .error e) => (st, .error e)
      | (st, .ok ()) => hwWrites E l2 st := by
  induction l1 generalizing st with
  | nil => rfl
  | cons e l1 ih =>
    obtain ⟨c, a, ti⟩ := e
    simp only [List.cons_append, hwWrites]
    cases hwWrite E st a ti.regval c with
    | mk st1 r => cases r with
      | error e => rfl
      | ok u => exact ih st1

theorem flushCpu_eq (E : Env) (c : Nat) (regs : Dict Nat TInfo) (st : St) :
    flushCpu E c regs st = hwWrites E (regs.map (fun q => (c, q.1, q.2))) st := by
  induction regs generalizing st with
  | nil => rfl
  | cons q regs ih =>
    obtain ⟨a, ti⟩ := q
    simp only [flushCpu, List.map_cons, hwWrites]
    cases hwWrite E st a ti.regval c with
    | mk st1 r => cases r with
      | error e => rfl
      | ok u => exact ih st1

theorem flushAll_eq (E : Env) (buf : Dict Nat (Dict Nat TInfo)) (st : St) :
    flushAll E buf st = hwWrites E (flat buf) st := by
  induction buf generalizing st with
  | nil => rfl
  | cons p buf ih =>
    obtain ⟨c, regs⟩ := p
    have : flat ((c, regs) :: buf) = regs.map (fun q => (c, q.1, q.2)) ++ flat buf := by
      simp [flat]
    rw [this, hwWrites_append, flushAll, flushCpu_eq]
    cases hwWrites E (regs.map (fun q => (c, q.1, q.2))) st with
    | mk st1 r => cases r with
      | error e => rfl
      | ok u => exact ih st1

/-- The hardware writes done are a prefix of the list. -/
theorem hwWrites_log (E : Env) (l : List (Nat × Nat × TInfo)) (st : St) :
    ∃ l1 l2, l = l1 ++ l2 ∧
      (hwWrites E l st).1.log = st.log ++ l1.map (fun e => (e.1, e.2.1, e.2.2.regval)) ∧
      ((hwWrites E l st).2 = .ok () → l2 = []) ∧ (hwWrites E l st).1.cache = st.cache ∧
      (hwWrites E l st).1.buf = st.buf ∧ (hwWrites E l st).1.inTransaction = st.inTransaction := by
  induction l generalizing st with
  | nil => exact ⟨[], [], rfl, by simp [hwWrites], fun _ => rfl, rfl, rfl, rfl⟩
  | cons e l ih =>
    obtain ⟨c, a, ti⟩ := e
    unfold hwWrites
    cases hw : hwWrite E st a ti.regval c with
    | mk st1 r => cases r with
      | error e =>
        obtain ⟨rfl, _⟩ := hwWrite_error hw
        exact ⟨[], _, rfl, by simp, (fun h => by cases h), rfl, rfl, rfl⟩
      | ok u =>
        obtain ⟨f1, f2, f3, f4, f5, f6, f7⟩ := hwWrite_ok hw
        obtain ⟨l1, l2, h1, h2, h3, h4, h5, h6⟩ := ih st1
        refine ⟨(c, a, ti) :: l1, l2, by simp [h1], ?_, h3, h4.trans f3, h5.trans f4, h6.trans f5⟩
        simp only [h2, f6]
        simp

/-- The effect on the hardware of a list of writes that agree with a target. -/
theorem hwWrites_hw (E : Env) (hst : ∀ a o v, E.store a o v = v) (R : Nat → Nat → Int)
    (l : List (Nat × Nat × TInfo)) (st : St)
    (hfit : ∀ e ∈ l, (0 ≤ e.2.2.regval ∧ e.2.2.regval < 2 ^ 64) ∧ E.wfail e.2.1 e.1 = false)
    (hR : ∀ e ∈ l, ∀ x ∈ E.T.online, E.share e.2.1 e.1 x = true → R e.2.1 x = e.2.2.regval) :
    (hwWrites E l st).2 = .ok () ∧
    ∀ n, ∀ x ∈ E.T.online, ((∃ e ∈ l, e.2.1 = n ∧ E.share n e.1 x = true) ∨ st.hw n x = R n x) →
      (hwWrites E l st).1.hw n x = R n x := by
  induction l generalizing st with
  | nil =>
    refine ⟨rfl, fun n x hx h => ?_⟩
    rcases h with ⟨e, he, _⟩ | h
    · cases he
    · exact h
  | cons e l ih =>
    obtain ⟨c, a, ti⟩ := e
    unfold hwWrites
    obtain ⟨hf1, hf2⟩ := hfit (c, a, ti) (by simp)
    obtain ⟨st1, hw⟩ := hwWrite_fits (E := E) st (a := a) (v := ti.regval) (cpu := c) hf1 hf2
    obtain ⟨f1, f2, f3, f4, f5, f6, f7⟩ := hwWrite_ok hw
    obtain ⟨g1, g2⟩ := ih st1 (fun e he => hfit e (by simp [he])) (fun e he => hR e (by simp [he]))
    simp only [hw]
    refine ⟨g1, fun n x hx h => g2 n x hx ?_⟩
    by_cases hm : n = a ∧ E.share a c x = true
    · right
      rw [f7, if_pos hm, hst]
      obtain ⟨rfl, hm⟩ := hm
      exact (hR (c, n, ti) (by simp) x hx hm).symm
    · rcases h with ⟨e, he, h1, h2⟩ | h
      · rcases List.mem_cons.1 he with rfl | he
        · exact absurd ⟨h1.symm, by simpa [← h1] using h2⟩ hm
        · exact Or.inl ⟨e, he, h1, h2⟩
      · right
        rw [f7, if_neg hm, h]

/-! ### What is verified after a flush -/

theorem verifyInfo_eq (buf : Dict Nat (Dict Nat TInfo)) :
    verifyInfo buf = (flat buf).foldl (fun d e => addVerifyInfo d e.1 e.2.1 e.2.2) [] := by
  unfold verifyInfo
  generalize ([] : Dict Int (Dict Nat (Scope × List Nat))) = acc
  induction buf generalizing acc with
  | nil => rfl
  | cons p buf ih =>
    obtain ⟨c, regs⟩ := p
    have : flat ((c, regs) :: buf) = regs.map (fun q => (c, q.1, q.2)) ++ flat buf := by
      simp [flat]
    rw [this, List.foldl_append, List.foldl_cons, ih, List.foldl_map]

/-- The verification data comes from the buffer. -/
def VOK (L : List (Nat × Nat × TInfo)) (info : Dict Int (Dict Nat (Scope × List Nat))) : Prop :=
  ∀ p ∈ info, ∀ q ∈ p.2,
    (∀ c ∈ q.2.2, ∃ ti, (c, q.1, ti) ∈ L ∧ ti.regval = p.1 ∧ ti.verify = true) ∧
    ∃ c ti, (c, q.1, ti) ∈ L ∧ q.2.1 = ti.iosname

theorem addVerifyInfo_ok {L : List (Nat × Nat × TInfo)} {info : Dict Int (Dict Nat (Scope × List Nat))}
    (h : VOK L info) {c a : Nat} {ti : TInfo} (hm : (c, a, ti) ∈ L) :
    VOK L (addVerifyInfo info c a ti) := by
  unfold addVerifyInfo
  split
  · exact h
  · rename_i hv
    have hv : ti.verify = true := by simpa using hv
    have hregs : ∀ q ∈ (info.get? ti.regval).getD [],
        (∀ c ∈ q.2.2, ∃ ti', (c, q.1, ti') ∈ L ∧ ti'.regval = ti.regval ∧ ti'.verify = true) ∧
        ∃ c ti', (c, q.1, ti') ∈ L ∧ q.2.1 = ti'.iosname := by
      intro q hq
      cases hg : info.get? ti.regval with
      | none => rw [hg] at hq; cases hq
      | some regs =>
        rw [hg] at hq
        exact h (ti.regval, regs) (Dict.mem_of_get? hg) q hq
    intro p hp q hq
    rcases mem_set hp with rfl | hp
    · rcases mem_set hq with rfl | hq
      · refine ⟨fun x hx => ?_, c, ti, hm, rfl⟩
        rcases List.mem_append.1 hx with hx | hx
        · cases hg : ((info.get? ti.regval).getD []).get? a with
          | none => simp [hg] at hx
          | some q' =>
            simp only [hg, Option.getD_some] at hx
            exact (hregs (a, q') (Dict.mem_of_get? hg)).1 x hx
        · rw [List.mem_singleton] at hx
          subst hx
          exact ⟨ti, hm, rfl, hv⟩
      · exact hregs q hq
    · exact h p hp q hq

theorem verifyInfo_ok (buf : Dict Nat (Dict Nat TInfo)) : VOK (flat buf) (verifyInfo buf) := by
  rw [verifyInfo_eq]
  have : ∀ (l : List (Nat × Nat × TInfo)) (acc : Dict Int (Dict Nat (Scope × List Nat))),
      (∀ e ∈ l, e ∈ flat buf) → VOK (flat buf) acc →
      VOK (flat buf) (l.foldl (fun d e => addVerifyInfo d e.1 e.2.1 e.2.2) acc) := by
    intro l
    induction l with
    | nil => intro acc _ h; exact h
    | cons e l ih =>
      intro acc hl h
      rw [List.foldl_cons]
      exact ih _ (fun e he => hl e (by simp [he])) (addVerifyInfo_ok h (hl e (by simp)))
  exact this _ _ (fun e he => he) (fun p hp => by cases hp)

theorem verifyAll_same (E : Env) (info : Dict Int (Dict Nat (Scope × List Nat))) (st : St) :
    SameButCache st (verifyAll E info st).1 := by
  have hregs : ∀ (val : Int) (regs : Dict Nat (Scope × List Nat)) (st : St),
      SameButCache st (verifyRegs E val regs st).1 := by
    intro val regs
    induction regs with
    | nil => intro st; exact SameButCache.refl _
    | cons q regs ih =>
      intro st
      obtain ⟨a, s, cpus⟩ := q
      have h1 := verify_same E a val cpus s st
      unfold verifyRegs
      cases hv : verify E a val cpus s st with
      | mk st1 r =>
        rw [hv] at h1
        cases r with
        | error e => exact h1
        | ok u => exact h1.trans (ih st1)
  induction info generalizing st with
  | nil => exact SameButCache.refl _
  | cons p info ih =>
    obtain ⟨val, regs⟩ := p
    have h1 := hregs val regs st
    unfold verifyAll
    cases hv : verifyRegs E val regs st with
    | mk st1 r =>
      rw [hv] at h1
      cases r with
      | error e => exact h1
      | ok u => exact h1.trans (ih st1)

/-- Verification succeeds if the hardware holds the buffered values. -/
theorem verifyAll_ok {E : Env} {sc : Nat → Scope} (info : Dict Int (Dict Nat (Scope × List Nat)))
    (st : St) (hg : Uniform E sc st.hw) (hc : Coh E st.hw st)
    (h : ∀ p ∈ info, ∀ q ∈ p.2, q.2.1 = sc q.1 ∧ sc q.1 ≠ .global ∧
      ∀ c ∈ q.2.2, c ∈ E.T.online ∧ st.hw q.1 c = p.1 ∧ E.rfail q.1 c = false) :
    (verifyAll E info st).2 = .ok () ∧ Coh E st.hw (verifyAll E info st).1 := by
  have hregs : ∀ (val : Int) (regs : Dict Nat (Scope × List Nat)) (st : St), Uniform E sc st.hw →
      Coh E st.hw st → (∀ q ∈ regs, q.2.1 = sc q.1 ∧ sc q.1 ≠ .global ∧
      ∀ c ∈ q.2.2, c ∈ E.T.online ∧ st.hw q.1 c = val ∧ E.rfail q.1 c = false) →
      (verifyRegs E val regs st).2 = .ok () ∧ Coh E st.hw (verifyRegs E val regs st).1 ∧
        (verifyRegs E val regs st).1.hw = st.hw := by
    intro val regs
    induction regs with
    | nil => intro st _ hc _; exact ⟨rfl, hc, rfl⟩
    | cons q regs ih =>
      intro st hg hc h
      obtain ⟨a, s, cpus⟩ := q
      obtain ⟨hs, hng, hcp⟩ := h (a, s, cpus) (by simp)
      simp only at hs hng hcp
      subst hs
      have h1 := verify_same E a val cpus (sc a) st
      obtain ⟨k1, k2, k3⟩ := verify_coh (E := E) (sc := sc) (a := a) (val := val) (l := cpus)
        (fun c hc => (hcp c hc).1) hg (Or.inl hc)
      have hok := k3 hng (fun c hc => (hcp c hc).2.1) (fun c hc => (hcp c hc).2.2)
      unfold verifyRegs
      cases hv : verify E a val cpus (sc a) st with
      | mk st1 r =>
        rw [hv] at h1 k1 hok
        simp only at hok
        subst hok
        have hw1 : st1.hw = st.hw := h1.1
        obtain ⟨g1, g2, g3⟩ := ih st1 (by rw [hw1]; exact hg) (by rw [hw1]; exact k1) (by
          intro q hq
          obtain ⟨a1, a2, a3⟩ := h q (by simp [hq])
          rw [hw1]; exact ⟨a1, a2, a3⟩)
        exact ⟨g1, by rw [← hw1]; exact g2, g3.trans hw1⟩
  induction info generalizing st with
  | nil => exact ⟨rfl, hc⟩
  | cons p info ih =>
    obtain ⟨val, regs⟩ := p
    obtain ⟨k1, k2, k3⟩ := hregs val regs st hg hc (h (val, regs) (by simp))
    unfold verifyAll
    cases hv : verifyRegs E val regs st with
    | mk st1 r =>
      rw [hv] at k1 k2 k3
      simp only at k1 k3
      subst k1
      obtain ⟨g1, g2⟩ := ih st1 (by rw [k3]; exact hg) (by rw [k3]; exact k2) (by
        intro p hp q hq
        have := h p (by simp [hp]) q hq
        rw [k3]; exact this)
      exact ⟨g1, by rw [← k3]; exact g2⟩

/-! ### Simulation of immediate writes by a transaction -/

/-- `si` is the state of an object doing immediate writes, `st` the state of an object inside of a
transaction. `rep a c` is the CPU used for accessing register `a` in the unit of `c`. `P` tells which
cache entries were dropped by a write that is in progress. -/
structure Sim (E : Env) (sc : Nat → Scope) (rep : Nat → Nat → Nat) (P : Nat → Nat → Prop)
    (si st : St) : Prop where
  enI : si.cache.enabled = true
  enT : st.cache.enabled = true
  noI : si.inTransaction = false
  inT : st.inTransaction = true
  uni : Uniform E sc si.hw
  cuni : ∀ n, ∀ c ∈ E.T.online, ∀ d ∈ E.T.sib (sc n) c, st.cache.get? n d = st.cache.get? n c
  ceq : ∀ n, ∀ c ∈ E.T.online, st.cache.get? n c = si.cache.get? n c
  ccoh : ∀ n, ∀ c ∈ E.T.online, ∀ v, si.cache.get? n c = some v → v = si.hw n c
  unc : ∀ n, ∀ c ∈ E.T.online, st.cache.get? n c = none → st.hw n c = si.hw n c ∨ P n c
  bufok : BufOK st.buf
  ent : ∀ c n ti, look st.buf c n = some ti → c ∈ E.T.online ∧ rep n c = c ∧ ti.regval = si.hw n c ∧
    ti.iosname = sc n ∧ sc n ≠ .global ∧ (0 ≤ ti.regval ∧ ti.regval < 2 ^ 64) ∧ E.wfail n c = false ∧
    (ti.verify = true → ∀ x, E.rfail n x = false)
  nobuf : ∀ n, ∀ c ∈ E.T.online, (∀ d, look st.buf d n ≠ none → c ∉ E.T.sib (sc n) d) →
    st.hw n c = si.hw n c

/-- No cache entry is missing. -/
def NoP : Nat → Nat → Prop := fun _ _ => False

theorem add_cuni {E : Env} (w : TopoWF E.T) {sc : Nat → Scope} {c : Cache Nat Int}
    (h : ∀ n, ∀ x ∈ E.T.online, ∀ d ∈ E.T.sib (sc n) x, c.get? n d = c.get? n x) {a cpu : Nat}
    (ho : cpu ∈ E.T.online) (v : Int) :
    ∀ n, ∀ x ∈ E.T.online, ∀ d ∈ E.T.sib (sc n) x,
      (c.add E.T a cpu v (sc a)).get? n d = (c.add E.T a cpu v (sc a)).get? n x := by
  intro n x hx d hd
  rw [Cache.get?_add, Cache.get?_add, h n x hx d hd]
  by_cases hn : n = a
  · subst hn
    have : d ∈ E.T.sib (sc n) cpu ↔ x ∈ E.T.sib (sc n) cpu := by
      constructor
      · intro h1
        rw [w.common ho hx h1 hd]; exact w.refl _ _ hx
      · intro h1
        rw [w.common ho hx h1 (w.refl _ _ hx)]; exact hd
    simp [this]
  · simp [hn]

/-- Reading one CPU has the same result in both worlds. -/
theorem sim_readOne {E : Env} (w : TopoWF E.T) {sc : Nat → Scope} {rep : Nat → Nat → Nat} {si st : St}
    (h : Sim E sc rep NoP si st) {a cpu : Nat} (ho : cpu ∈ E.T.online) :
    (readOne E st a (sc a) cpu).2 = (readOne E si a (sc a) cpu).2 ∧
    Sim E sc rep NoP (readOne E si a (sc a) cpu).1 (readOne E st a (sc a) cpu).1 := by
  unfold readOne
  rw [h.ceq a cpu ho]
  cases hg : si.cache.get? a cpu with
  | some v => exact ⟨rfl, h⟩
  | none =>
    simp only
    have hhw : st.hw a cpu = si.hw a cpu := by
      have hn : st.cache.get? a cpu = none := (h.ceq a cpu ho).trans hg
      rcases h.unc a cpu ho hn with hh | hh
      · exact hh
      · exact hh.elim
    by_cases hf : E.rfail a cpu = true
    · simp only [if_pos hf]
      exact ⟨trivial, h⟩
    · simp only [if_neg hf, hhw]
      refine ⟨trivial, { h with enI := ?_, enT := ?_, cuni := ?_, ceq := ?_, ccoh := ?_, unc := ?_ }⟩
      · simp [h.enI]
      · simp [h.enT]
      · exact add_cuni w h.cuni ho _
      · intro n c hc
        simp only [Cache.get?_add, h.enI, h.enT, h.ceq n c hc]
      · intro n c hc v hv
        simp only [Cache.get?_add, h.enI, true_and] at hv
        split at hv
        · rename_i hh
          cases hv
          obtain ⟨rfl, hcs⟩ := hh
          exact (h.uni n cpu ho c hcs).symm
        · exact h.ccoh n c hc v hv
      · intro n c hc hn
        simp only [Cache.get?_add] at hn
        split at hn
        · cases hn
        · exact h.unc n c hc hn

theorem sim_readLoop {E : Env} (w : TopoWF E.T) {sc : Nat → Scope} {rep : Nat → Nat → Nat} {a : Nat}
    (l : List Nat) (ho : ∀ c ∈ l, c ∈ E.T.online) {si st : St} (h : Sim E sc rep NoP si st) :
    (readLoop E a (sc a) l st).2 = (readLoop E a (sc a) l si).2 ∧
    Sim E sc rep NoP (readLoop E a (sc a) l si).1 (readLoop E a (sc a) l st).1 := by
  induction l generalizing si st with
  | nil => exact ⟨rfl, h⟩
  | cons c l ih =>
    obtain ⟨h1, h2⟩ := sim_readOne w h (a := a) (ho c (by simp))
    unfold readLoop
    cases hi : readOne E si a (sc a) c with
    | mk si1 ri =>
      cases ht : readOne E st a (sc a) c with
      | mk st1 rt =>
        rw [hi, ht] at h1 h2
        simp only at h1 h2
        subst h1
        cases rt with
        | error e => exact ⟨rfl, h2⟩
        | ok v =>
          obtain ⟨k1, k2⟩ := ih (fun x hx => ho x (by simp [hx])) h2
          simp only
          cases hi2 : readLoop E a (sc a) l si1 with
          | mk si2 ri2 =>
            cases ht2 : readLoop E a (sc a) l st1 with
            | mk st2 rt2 =>
              rw [hi2, ht2] at k1 k2
              simp only at k1 k2
              subst k1
              cases rt2 <;> exact ⟨rfl, k2⟩

theorem sim_readBitsLoop {E : Env} (w : TopoWF E.T) {sc : Nat → Scope} {rep : Nat → Nat → Nat} {a : Nat}
    {bits : BitRange} (l : List Nat) (ho : ∀ c ∈ l, c ∈ E.T.online) {si st : St}
    (h : Sim E sc rep NoP si st) :
    (readBitsLoop E a bits (sc a) l st).2 = (readBitsLoop E a bits (sc a) l si).2 ∧
    Sim E sc rep NoP (readBitsLoop E a bits (sc a) l si).1 (readBitsLoop E a bits (sc a) l st).1 := by
  induction l generalizing si st with
  | nil => exact ⟨rfl, h⟩
  | cons c l ih =>
    obtain ⟨h1, h2⟩ := sim_readOne w h (a := a) (ho c (by simp))
    unfold readBitsLoop
    cases hi : readOne E si a (sc a) c with
    | mk si1 ri =>
      cases ht : readOne E st a (sc a) c with
      | mk st1 rt =>
        rw [hi, ht] at h1 h2
        simp only at h1 h2
        subst h1
        cases rt with
        | error e => exact ⟨rfl, h2⟩
        | ok v =>
          obtain ⟨k1, k2⟩ := ih (fun x hx => ho x (by simp [hx])) h2
          simp only
          cases getBits v bits with
          | error e => exact ⟨rfl, h2⟩
          | ok b =>
            simp only
            cases hi2 : readBitsLoop E a bits (sc a) l si1 with
            | mk si2 ri2 =>
              cases ht2 : readBitsLoop E a bits (sc a) l st1 with
              | mk st2 rt2 =>
                rw [hi2, ht2] at k1 k2
                simp only at k1 k2
                subst k1
                cases rt2 <;> exact ⟨rfl, k2⟩

theorem sim_modifyLoop {E : Env} (w : TopoWF E.T) {sc : Nat → Scope} {rep : Nat → Nat → Nat} {a : Nat}
    {bits : BitRange} {val : FieldVal} (l : List Nat) (ho : ∀ c ∈ l, c ∈ E.T.online) {si st : St}
    (h : Sim E sc rep NoP si st) (acc : Dict Int (List Nat)) :
    (modifyLoop E a bits val (sc a) l st acc).2 = (modifyLoop E a bits val (sc a) l si acc).2 ∧
    Sim E sc rep NoP (modifyLoop E a bits val (sc a) l si acc).1
      (modifyLoop E a bits val (sc a) l st acc).1 := by
  induction l generalizing si st acc with
  | nil => exact ⟨rfl, h⟩
  | cons c l ih =>
    obtain ⟨h1, h2⟩ := sim_readOne w h (a := a) (ho c (by simp))
    unfold modifyLoop
    cases hi : readOne E si a (sc a) c with
    | mk si1 ri =>
      cases ht : readOne E st a (sc a) c with
      | mk st1 rt =>
        rw [hi, ht] at h1 h2
        simp only at h1 h2
        subst h1
        cases rt with
        | error e => exact ⟨rfl, h2⟩
        | ok v =>
          simp only
          cases setBits v bits val with
          | error e => exact ⟨rfl, h2⟩
          | ok new =>
            simp only
            split
            · exact ih (fun x hx => ho x (by simp [hx])) h2 _
            · exact ih (fun x hx => ho x (by simp [hx])) h2 _

/-- The cache entries dropped by a write to `a` on CPUs `l`. -/
def Pend (E : Env) (sc : Nat → Scope) (a : Nat) (l : List Nat) : Nat → Nat → Prop :=
  fun n x => n = a ∧ ∃ d ∈ l, x ∈ E.T.sib (sc a) d

theorem sim_writeLoop {E : Env} (w : TopoWF E.T) {sc : Nat → Scope} (hs : Scoped E sc)
    (hst : ∀ a o v, E.store a o v = v) {rep : Nat → Nat → Nat}
    (hrep : ∀ a, ∀ c ∈ E.T.online, ∀ d ∈ E.T.sib (sc a) c, rep a d = rep a c) {a : Nat} {val : Int}
    {vfy : Bool} (hng : sc a ≠ .global) (hvf : vfy = true → ∀ x, E.rfail a x = false) (l : List Nat)
    (ho : ∀ c ∈ l, c ∈ E.T.online) {si st si' : St} (h : Sim E sc rep (Pend E sc a l) si st)
    (hfirst : ∀ c ∈ l, st.cache.isCached a c = false →
      l.find? (fun d => (E.T.sib (sc a) c).contains d) = some (rep a c))
    (hok : writeLoop E a val vfy (sc a) l si = (si', .ok ())) :
    ∃ st', writeLoop E a val vfy (sc a) l st = (st', .ok ()) ∧ Sim E sc rep NoP si' st' ∧
      (∀ c ∈ l, st'.cache.isCached a c = true) ∧
      (∀ n c, st.cache.isCached n c = true → st'.cache.isCached n c = true) := by
  induction l generalizing si st with
  | nil =>
    unfold writeLoop at hok ⊢
    cases hok
    refine ⟨st, rfl, { h with unc := ?_ }, by simp, fun _ _ h => h⟩
    intro n c hc hn
    rcases h.unc n c hc hn with hh | ⟨_, d, hd, _⟩
    · exact Or.inl hh
    · cases hd
  | cons cpu l ih =>
    have hco : cpu ∈ E.T.online := ho cpu (by simp)
    have hol : ∀ x ∈ l, x ∈ E.T.online := fun x hx => ho x (by simp [hx])
    unfold writeLoop at hok ⊢
    have hceq : si.cache.isCached a cpu = st.cache.isCached a cpu := by
      simp only [Cache.isCached, h.ceq a cpu hco]
    rw [hceq] at hok
    by_cases hcc : st.cache.isCached a cpu = true
    · rw [if_pos hcc] at hok ⊢
      have hunit : ∀ x ∈ E.T.sib (sc a) cpu, st.cache.isCached a x = true := by
        intro x hx
        unfold Cache.isCached
        rw [h.cuni a cpu hco x hx]; exact hcc
      have hsim : Sim E sc rep (Pend E sc a l) si st := by
        refine { h with unc := ?_ }
        intro n c hc hn
        rcases h.unc n c hc hn with hh | ⟨rfl, d, hd, hcd⟩
        · exact Or.inl hh
        · rcases List.mem_cons.1 hd with rfl | hd
          · have := hunit c hcd
            simp [Cache.isCached, hn] at this
          · exact Or.inr ⟨rfl, d, hd, hcd⟩
      obtain ⟨st', k1, k2, k3, k4⟩ := ih hol hsim (by
        intro c hc hcn
        have := hfirst c (by simp [hc]) hcn
        rw [List.find?_cons_of_neg] at this
        · exact this
        · intro hh
          have hh : cpu ∈ E.T.sib (sc a) c := by simpa using hh
          have := hunit c (w.symm (hol c hc) hh)
          rw [hcn] at this; cases this) hok
      refine ⟨st', k1, k2, fun c hc => ?_, k4⟩
      rcases List.mem_cons.1 hc with rfl | hc
      · exact k4 a c hcc
      · exact k3 c hc
    · rw [if_neg hcc] at hok ⊢
      simp only [h.noI, Bool.not_false, if_true] at hok
      simp only [h.inT, Bool.not_true, Bool.false_eq_true, if_false]
      have hr : rep a cpu = cpu := by
        have := hfirst cpu (by simp) (by simpa using hcc)
        rw [List.find?_cons_of_pos] at this
        · exact (Option.some.inj this).symm
        · simpa using w.refl (sc a) cpu hco
      cases hw : hwWrite E si a val cpu with
      | mk si1 r1 =>
        rw [hw] at hok
        cases r1 with
        | error e => simp at hok
        | ok u =>
          simp only at hok
          obtain ⟨f1, f2, f3, f4, f5, f6, f7⟩ := hwWrite_ok hw
          have hadd : addForTransaction st a val cpu vfy (sc a) = .ok { st with
              buf := st.buf.set cpu (((st.buf.get? cpu).getD []).set a ⟨val, vfy, sc a⟩) } := by
            simp [addForTransaction, h.enT]
          rw [hadd]
          simp only
          have hhw : ∀ n, ∀ x ∈ E.T.online, si1.hw n x =
              if n = a ∧ x ∈ E.T.sib (sc a) cpu then val else si.hw n x := by
            intro n x hx
            rw [f7, hst]
            simp only [hs a cpu hco x hx]
          have hgetT : ∀ n x, (st.cache.add E.T a cpu val (sc a)).get? n x =
              if n = a ∧ x ∈ E.T.sib (sc a) cpu then some val else st.cache.get? n x := by
            intro n x; rw [Cache.get?_add]; simp [h.enT]
          have hgetI : ∀ n x, (si1.cache.add E.T a cpu val (sc a)).get? n x =
              if n = a ∧ x ∈ E.T.sib (sc a) cpu then some val else si.cache.get? n x := by
            intro n x; rw [Cache.get?_add, f3]; simp [h.enI]
          obtain ⟨st', k1, k2, k3, k4⟩ := ih hol
            (si := { si1 with cache := si1.cache.add E.T a cpu val (sc a) })
            (st := { st with
              buf := st.buf.set cpu (((st.buf.get? cpu).getD []).set a ⟨val, vfy, sc a⟩),
              cache := st.cache.add E.T a cpu val (sc a) })
            { enI := by simp [f3, h.enI]
              enT := by simp [h.enT]
              noI := f5.trans h.noI
              inT := h.inT
              uni := by
                intro n c hc d hd
                have hdo := w.sub _ _ _ hc hd
                simp only [hhw n c hc, hhw n d hdo]
                by_cases hn : n = a
                · subst hn
                  have : d ∈ E.T.sib (sc n) cpu ↔ c ∈ E.T.sib (sc n) cpu := by
                    constructor
                    · intro h1
                      rw [w.common hco hc h1 hd]; exact w.refl _ _ hc
                    · intro h1
                      rw [w.common hco hc h1 (w.refl _ _ hc)]; exact hd
                  simp only [this]
                  split
                  · rfl
                  · exact h.uni n c hc d hd
                · simp only [hn, false_and, if_false]
                  exact h.uni n c hc d hd
              cuni := add_cuni w h.cuni hco _
              ceq := by
                intro n c hc
                simp only [hgetT, hgetI, h.ceq n c hc]
              ccoh := by
                intro n c hc v hv
                simp only [hgetI] at hv
                simp only [hhw n c hc]
                split at hv
                · rename_i hh; rw [if_pos hh]; cases hv; rfl
                · rename_i hh; rw [if_neg hh]; exact h.ccoh n c hc v hv
              unc := by
                intro n c hc hn
                simp only [hgetT] at hn
                split at hn
                · cases hn
                · rename_i hh
                  simp only [hhw n c hc, if_neg hh]
                  rcases h.unc n c hc hn with hh' | ⟨rfl, d, hd, hcd⟩
                  · exact Or.inl hh'
                  · rcases List.mem_cons.1 hd with rfl | hd
                    · exact absurd ⟨rfl, hcd⟩ hh
                    · exact Or.inr ⟨rfl, d, hd, hcd⟩
              bufok := bufOK_set h.bufok _ _ _
              ent := by
                intro c n ti hl
                simp only [look_set] at hl
                split at hl
                · rename_i hh
                  obtain ⟨rfl, rfl⟩ := hh
                  cases hl
                  refine ⟨hco, hr, ?_, rfl, hng, f1, f2, hvf⟩
                  simp only [hhw _ _ hco]
                  rw [if_pos ⟨trivial, w.refl _ _ hco⟩]
                · rename_i hh
                  obtain ⟨e1, e2, e3, e4⟩ := h.ent c n ti hl
                  refine ⟨e1, e2, ?_, e4⟩
                  simp only [hhw n c e1]
                  rw [if_neg, e3]
                  rintro ⟨rfl, hcs⟩
                  have := hrep n cpu hco c hcs
                  rw [e2, hr] at this
                  exact hh ⟨this.symm, rfl⟩
              nobuf := by
                intro n c hc hnb
                have h1 : ¬ (n = a ∧ c ∈ E.T.sib (sc a) cpu) := by
                  rintro ⟨rfl, hcs⟩
                  exact hnb cpu (by simp [look_set]) hcs
                simp only [hhw n c hc, if_neg h1]
                refine h.nobuf n c hc (fun d hd => hnb d ?_)
                simp only [look_set]
                split
                · simp
                · exact hd }
            (by
              intro c hc hcn
              simp only [Cache.isCached, hgetT] at hcn
              split at hcn
              · simp at hcn
              · rename_i hh
                have := hfirst c (by simp [hc]) hcn
                rw [List.find?_cons_of_neg] at this
                · exact this
                · intro hh2
                  have hh2 : cpu ∈ E.T.sib (sc a) c := by simpa using hh2
                  exact hh ⟨trivial, w.symm (hol c hc) hh2⟩) hok
          have hmono : ∀ n c, st.cache.isCached n c = true → st'.cache.isCached n c = true := by
            intro n c hc
            refine k4 n c ?_
            simp only [Cache.isCached, hgetT]
            split
            · rfl
            · exact hc
          refine ⟨st', k1, k2, fun c hc => ?_, hmono⟩
          rcases List.mem_cons.1 hc with rfl | hc
          · refine k4 a c ?_
            simp [Cache.isCached, hgetT, w.refl _ _ hco]
          · exact k3 c hc

/-- The cache contents after a successful verification loop. -/
theorem verifyLoop_cache {E : Env} (w : TopoWF E.T) {a : Nat} {val : Int} {s : Scope} (l : List Nat)
    (ho : ∀ c ∈ l, c ∈ E.T.online) {st st' : St} (he : st.cache.enabled = true)
    (hcu : ∀ c ∈ E.T.online, ∀ d ∈ E.T.sib s c, st.cache.get? a d = st.cache.get? a c)
    (hok : verifyLoop E a val s l st = (st', .ok ())) :
    ∀ n x, st'.cache.get? n x =
      if n = a ∧ st.cache.get? a x = none ∧ ∃ c ∈ l, x ∈ E.T.sib s c then some val
      else st.cache.get? n x := by
  induction l generalizing st with
  | nil =>
    unfold verifyLoop at hok
    cases hok
    intro n x; simp
  | cons c l ih =>
    have hco : c ∈ E.T.online := ho c (by simp)
    have hol : ∀ x ∈ l, x ∈ E.T.online := fun x hx => ho x (by simp [hx])
    unfold verifyLoop at hok
    cases hg : st.cache.get? a c with
    | some v =>
      simp only [readOne, hg] at hok
      split at hok
      · cases hok
      · intro n x
        rw [ih hol he hcu hok n x]
        by_cases hx : n = a ∧ st.cache.get? a x = none
        · obtain ⟨rfl, hx⟩ := hx
          have : x ∉ E.T.sib s c := by
            intro hxc
            rw [hcu c hco x hxc, hg] at hx; cases hx
          simp [hx, this]
        · have h1 : ¬ (n = a ∧ st.cache.get? a x = none ∧ ∃ c ∈ l, x ∈ E.T.sib s c) :=
            fun h => hx ⟨h.1, h.2.1⟩
          have h2 : ¬ (n = a ∧ st.cache.get? a x = none ∧ ∃ c' ∈ c :: l, x ∈ E.T.sib s c') :=
            fun h => hx ⟨h.1, h.2.1⟩
          rw [if_neg h1, if_neg h2]
    | none =>
      simp only [readOne, hg] at hok
      by_cases hf : E.rfail a c = true
      · simp only [if_pos hf] at hok; cases hok
      · simp only [if_neg hf] at hok
        split at hok
        · cases hok
        · rename_i hv
          have hv : st.hw a c = val := by simpa using hv
          have hget : ∀ n x, (st.cache.add E.T a c (st.hw a c) s).get? n x =
              if n = a ∧ x ∈ E.T.sib s c then some val else st.cache.get? n x := by
            intro n x; rw [Cache.get?_add, hv]; simp [he]
          intro n x
          have := ih hol (st := { st with cache := st.cache.add E.T a c (st.hw a c) s }) (by simp [he]) (by
            intro y hy d hd
            simp only [hget, true_and]
            have hiff : d ∈ E.T.sib s c ↔ y ∈ E.T.sib s c := by
              constructor
              · intro h1
                rw [w.common hco hy h1 hd]; exact w.refl _ _ hy
              · intro h1
                rw [w.common hco hy h1 (w.refl _ _ hy)]; exact hd
            simp only [hiff, hcu y hy d hd]) hok n x
          rw [this]
          simp only [hget, true_and]
          by_cases hn : n = a
          · subst hn
            simp only [true_and]
            by_cases hxc : x ∈ E.T.sib s c
            · have hxn : st.cache.get? n x = none := by rw [hcu c hco x hxc, hg]
              simp [hxc, hxn]
            · simp [hxc]
          · simp [hn]

/-- A successful verification of values that are in the cache does not change the cache. -/
theorem verify_cache {E : Env} (w : TopoWF E.T) {a : Nat} {val : Int} {s : Scope} (hng : s ≠ .global)
    (l : List Nat) (ho : ∀ c ∈ l, c ∈ E.T.online) {st st' : St} (he : st.cache.enabled = true)
    (hcu : ∀ c ∈ E.T.online, ∀ d ∈ E.T.sib s c, st.cache.get? a d = st.cache.get? a c)
    (hval : ∀ c ∈ l, st.cache.get? a c = some val)
    (hok : verify E a val l s st = (st', .ok ())) :
    ∀ n x, st'.cache.get? n x = st.cache.get? n x := by
  obtain ⟨h1, h2, h3, h4, h5⟩ := removeLoop_spec (E := E) (a := a) (s := s) l st
  unfold verify at hok
  cases hr : removeLoop E a s l st with
  | mk st1 r1 =>
    rw [hr] at hok h1 h2 h3 h4 h5
    cases r1 with
    | error e => simp at hok
    | ok u =>
      simp only at hok h2 h3 h4 h5
      have hrem : ∀ x, (∃ c ∈ l, x ∈ E.T.sib s c) → st1.cache.get? a x = none := by
        rintro x ⟨c, hc, hx⟩
        exact h4 trivial c hc x hx
      have hkeep : ∀ x, ¬ (∃ c ∈ l, x ∈ E.T.sib s c) → st1.cache.get? a x = st.cache.get? a x := by
        intro x hx
        exact (h5 hng).2 x (fun c hc hxc => hx ⟨c, hc, hxc⟩)
      have := verifyLoop_cache w l ho (h1.2.2.2.2.trans he) (by
        intro c hc d hd
        by_cases hex : ∃ c' ∈ l, c ∈ E.T.sib s c'
        · have hex2 : ∃ c' ∈ l, d ∈ E.T.sib s c' := by
            obtain ⟨c', hc', hcc'⟩ := hex
            refine ⟨c', hc', ?_⟩
            rw [← w.eqv s c' c (ho c' hc') hcc']; exact hd
          rw [hrem c hex, hrem d hex2]
        · have hex2 : ¬ ∃ c' ∈ l, d ∈ E.T.sib s c' := by
            rintro ⟨c', hc', hdc'⟩
            refine hex ⟨c', hc', ?_⟩
            rw [w.common (ho c' hc') hc hdc' hd]; exact w.refl _ _ hc
          rw [hkeep c hex, hkeep d hex2]
          exact hcu c hc d hd) hok
      intro n x
      rw [this]
      by_cases hn : n = a
      · subst hn
        by_cases hex : ∃ c ∈ l, x ∈ E.T.sib s c
        · rw [if_pos ⟨rfl, hrem x hex, hex⟩]
          obtain ⟨c, hc, hx⟩ := hex
          rw [hcu c (ho c hc) x hx, hval c hc]
        · rw [if_neg (fun h => hex h.2.2), hkeep x hex]
      · rw [if_neg (fun h => hn h.1)]
        exact h2 n x hn

theorem sim_writeNorm {E : Env} (w : TopoWF E.T) {sc : Nat → Scope} (hs : Scoped E sc)
    (hst : ∀ a o v, E.store a o v = v) {rep : Nat → Nat → Nat}
    (hrep : ∀ a, ∀ c ∈ E.T.online, ∀ d ∈ E.T.sib (sc a) c, rep a d = rep a c) {a : Nat} {val : Int}
    {vfy : Bool} (hng : sc a ≠ .global) (hvf : vfy = true → ∀ x, E.rfail a x = false) {l : List Nat}
    (ho : ∀ c ∈ l, c ∈ E.T.online) {si st si' : St} (h : Sim E sc rep NoP si st)
    (hfirst : ∀ c ∈ l, l.find? (fun d => (E.T.sib (sc a) c).contains d) = some (rep a c))
    (hok : writeNorm E si a val l (sc a) vfy = (si', .ok ())) :
    ∃ st', writeNorm E st a val l (sc a) vfy = (st', .ok ()) ∧ Sim E sc rep NoP si' st' := by
  obtain ⟨i1, i2, i3, i4, i5⟩ := removeLoop_spec (E := E) (a := a) (s := sc a) l si
  obtain ⟨t1, t2, t3, t4, t5⟩ := removeLoop_spec (E := E) (a := a) (s := sc a) l st
  unfold writeNorm at hok ⊢
  cases hri : removeLoop E a (sc a) l si with
  | mk si1 ri =>
  cases hrt : removeLoop E a (sc a) l st with
  | mk st1 rt =>
  rw [hri] at hok i1 i2 i3 i4 i5
  rw [hrt] at t1 t2 t3 t4 t5
  simp only at hok i2 i3 i4 i5 t2 t3 t4 t5 ⊢
  obtain rfl := (i5 hng).1
  obtain rfl := (t5 hng).1
  simp only at hok ⊢
  have hremT : ∀ x, (∃ c ∈ l, x ∈ E.T.sib (sc a) c) → st1.cache.get? a x = none := by
    rintro x ⟨c, hc, hx⟩; exact t4 rfl c hc x hx
  have hkeepT : ∀ x, ¬ (∃ c ∈ l, x ∈ E.T.sib (sc a) c) → st1.cache.get? a x = st.cache.get? a x :=
    fun x hx => (t5 hng).2 x (fun c hc hxc => hx ⟨c, hc, hxc⟩)
  have hremI : ∀ x, (∃ c ∈ l, x ∈ E.T.sib (sc a) c) → si1.cache.get? a x = none := by
    rintro x ⟨c, hc, hx⟩; exact i4 rfl c hc x hx
  have hkeepI : ∀ x, ¬ (∃ c ∈ l, x ∈ E.T.sib (sc a) c) → si1.cache.get? a x = si.cache.get? a x :=
    fun x hx => (i5 hng).2 x (fun c hc hxc => hx ⟨c, hc, hxc⟩)
  have hsim : Sim E sc rep (Pend E sc a l) si1 st1 := by
    have e1 : si1.hw = si.hw := i1.1
    have e2 : st1.hw = st.hw := t1.1
    have e3 : st1.buf = st.buf := t1.2.2.1
    refine ⟨i1.2.2.2.2.trans h.enI, t1.2.2.2.2.trans h.enT, i1.2.2.2.1.trans h.noI,
      t1.2.2.2.1.trans h.inT, by rw [e1]; exact h.uni, ?_, ?_, ?_, ?_, by rw [e3]; exact h.bufok,
      by rw [e1, e3]; exact h.ent, by rw [e1, e2, e3]; exact h.nobuf⟩
    · intro n c hc d hd
      by_cases hn : n = a
      · subst hn
        by_cases hex : ∃ c' ∈ l, c ∈ E.T.sib (sc n) c'
        · have hex2 : ∃ c' ∈ l, d ∈ E.T.sib (sc n) c' := by
            obtain ⟨c', hc', hcc'⟩ := hex
            refine ⟨c', hc', ?_⟩
            rw [← w.eqv (sc n) c' c (ho c' hc') hcc']; exact hd
          rw [hremT c hex, hremT d hex2]
        · have hex2 : ¬ ∃ c' ∈ l, d ∈ E.T.sib (sc n) c' := by
            rintro ⟨c', hc', hdc'⟩
            refine hex ⟨c', hc', ?_⟩
            rw [w.common (ho c' hc') hc hdc' hd]; exact w.refl _ _ hc
          rw [hkeepT c hex, hkeepT d hex2]
          exact h.cuni n c hc d hd
      · rw [t2 n d hn, t2 n c hn]; exact h.cuni n c hc d hd
    · intro n c hc
      by_cases hn : n = a
      · subst hn
        by_cases hex : ∃ c' ∈ l, c ∈ E.T.sib (sc n) c'
        · rw [hremT c hex, hremI c hex]
        · rw [hkeepT c hex, hkeepI c hex]; exact h.ceq n c hc
      · rw [t2 n c hn, i2 n c hn]; exact h.ceq n c hc
    · intro n c hc v hv
      rw [e1]
      exact h.ccoh n c hc v (i3 n c v hv)
    · intro n c hc hn
      rw [e1, e2]
      by_cases hna : n = a
      · subst hna
        by_cases hex : ∃ c' ∈ l, c ∈ E.T.sib (sc n) c'
        · exact Or.inr ⟨rfl, hex⟩
        · rw [hkeepT c hex] at hn
          rcases h.unc n c hc hn with hh | hh
          · exact Or.inl hh
          · exact hh.elim
      · rw [t2 n c hna] at hn
        rcases h.unc n c hc hn with hh | hh
        · exact Or.inl hh
        · exact hh.elim
  cases hwi : writeLoop E a val vfy (sc a) l si1 with
  | mk si2 ri2 =>
    rw [hwi] at hok
    cases ri2 with
    | error e => simp at hok
    | ok u =>
      simp only at hok
      obtain ⟨st2, k1, k2, k3, _⟩ := sim_writeLoop w hs hst hrep hng hvf l ho hsim
        (fun c hc _ => hfirst c hc) hwi
      rw [k1]
      simp only [k2.inT, Bool.not_true, Bool.and_false, Bool.false_eq_true, if_false]
      refine ⟨st2, rfl, ?_⟩
      simp only [k2.noI, Bool.not_false, Bool.and_true] at hok
      by_cases hv : vfy = true
      · simp only [hv, if_true] at hok
        have hsame := verify_same E a val l (sc a) si2
        rw [hok] at hsame
        -- All the written values are in the cache.
        have hu1 : Uniform E sc si1.hw := hsim.uni
        have hval : ∀ c ∈ l, si2.hw a c = val :=
          (writeLoop_imm w hs l ho si1 si2 (.ok ()) hsim.noI hu1 hwi).2.2.2.2.2.2.1 (hst a) (by
            intro c hc hcc
            have := hremI c ⟨c, hc, w.refl _ _ (ho c hc)⟩
            simp [Cache.isCached, this] at hcc) rfl
        have hcached : ∀ c ∈ l, si2.cache.get? a c = some val := by
          intro c hc
          have h1 := k3 c hc
          unfold Cache.isCached at h1
          rw [k2.ceq a c (ho c hc)] at h1
          obtain ⟨v, hv⟩ := Option.isSome_iff_exists.1 h1
          rw [hv, k2.ccoh a c (ho c hc) v hv, hval c hc]
        have hcu : ∀ c ∈ E.T.online, ∀ d ∈ E.T.sib (sc a) c, si2.cache.get? a d = si2.cache.get? a c := by
          intro c hc d hd
          rw [← k2.ceq a c hc, ← k2.ceq a d (w.sub _ _ _ hc hd)]
          exact k2.cuni a c hc d hd
        have hcache := verify_cache w hng l ho k2.enI hcu hcached hok
        have e1 : si'.hw = si2.hw := hsame.1
        exact { k2 with
          enI := hsame.2.2.2.2.trans k2.enI
          noI := hsame.2.2.2.1.trans k2.noI
          uni := by rw [e1]; exact k2.uni
          ceq := fun n c hc => by rw [hcache]; exact k2.ceq n c hc
          ccoh := fun n c hc v hv => by rw [e1]; rw [hcache] at hv; exact k2.ccoh n c hc v hv
          unc := by rw [e1]; exact k2.unc
          ent := by rw [e1]; exact k2.ent
          nobuf := by rw [e1]; exact k2.nobuf }
      · simp only [hv, Bool.false_eq_true, if_false] at hok
        cases hok
        exact k2

theorem sim_writeGroups {E : Env} (w : TopoWF E.T) {sc : Nat → Scope} (hs : Scoped E sc)
    (hst : ∀ a o v, E.store a o v = v) {rep : Nat → Nat → Nat}
    (hrep : ∀ a, ∀ c ∈ E.T.online, ∀ d ∈ E.T.sib (sc a) c, rep a d = rep a c) {a : Nat}
    {vfy : Bool} (hng : sc a ≠ .global) (hvf : vfy = true → ∀ x, E.rfail a x = false)
    (gs : Dict Int (List Nat)) (hgs : GroupsOK E (sc a) gs)
    (hfirst : ∀ p ∈ gs, ∀ c ∈ p.2,
      p.2.find? (fun d => (E.T.sib (sc a) c).contains d) = some (rep a c))
    {si st si' : St} (h : Sim E sc rep NoP si st)
    (hok : writeGroups E a (sc a) vfy gs si = (si', .ok ())) :
    ∃ st', writeGroups E a (sc a) vfy gs st = (st', .ok ()) ∧ Sim E sc rep NoP si' st' := by
  induction gs generalizing si st with
  | nil =>
    unfold writeGroups at hok ⊢
    cases hok
    exact ⟨st, rfl, h⟩
  | cons p gs ih =>
    obtain ⟨v, cpus⟩ := p
    have hgs' : GroupsOK E (sc a) gs :=
      ⟨fun p hp => hgs.nodup p (by simp [hp]), fun p hp => hgs.online p (by simp [hp]),
        (List.pairwise_cons.1 hgs.disj).2⟩
    have hon : ∀ c ∈ cpus, c ∈ E.T.online := hgs.online (v, cpus) (by simp)
    have hwn : ∀ st, write E st a v (.nums cpus) (sc a) vfy = writeNorm E st a v cpus (sc a) vfy := by
      intro st
      simp only [write, normCpus_nums_self (hgs.nodup (v, cpus) (by simp)) hon]
    unfold writeGroups at hok ⊢
    rw [hwn] at hok ⊢
    cases hw : writeNorm E si a v cpus (sc a) vfy with
    | mk si1 r1 =>
      rw [hw] at hok
      cases r1 with
      | error e => simp at hok
      | ok u =>
        simp only at hok
        obtain ⟨st1, k1, k2⟩ := sim_writeNorm w hs hst hrep hng hvf hon h
          (hfirst (v, cpus) (by simp)) hw
        rw [k1]
        exact ih hgs' (fun p hp => hfirst p (by simp [hp])) k2 hok

/-! ### Cache entries are per unit -/

/-- Siblings have the same cache entry. -/
def CUni (E : Env) (sc : Nat → Scope) (st : St) : Prop :=
  ∀ n, ∀ c ∈ E.T.online, ∀ d ∈ E.T.sib (sc n) c, st.cache.get? n d = st.cache.get? n c

theorem cuni_readOne {E : Env} (w : TopoWF E.T) {sc : Nat → Scope} {st : St} (h : CUni E sc st)
    {a cpu : Nat} (ho : cpu ∈ E.T.online) : CUni E sc (readOne E st a (sc a) cpu).1 := by
  unfold readOne
  split
  · exact h
  · split
    · exact h
    · exact add_cuni w h ho _

theorem cuni_removeLoop {E : Env} (w : TopoWF E.T) {sc : Nat → Scope} {a : Nat} (l : List Nat)
    (ho : ∀ c ∈ l, c ∈ E.T.online) {st : St} (h : CUni E sc st) :
    CUni E sc (removeLoop E a (sc a) l st).1 := by
  induction l generalizing st with
  | nil => exact h
  | cons c l ih =>
    have hco : c ∈ E.T.online := ho c (by simp)
    unfold removeLoop
    cases hr : st.cache.remove E.T a c (sc a) with
    | error e => exact h
    | ok cache =>
      refine ih (fun x hx => ho x (by simp [hx])) ?_
      obtain ⟨k0, k1, k2, k3⟩ := Cache.remove_ok hr
      intro n x hx d hd
      simp only
      by_cases hn : n = a
      · subst hn
        by_cases hg : sc n = .global
        · by_cases he : st.cache.enabled = true
          · simp only [Cache.remove, he, hg, Bool.not_true, Bool.false_eq_true, if_false, if_true] at hr
            cases ht : st.cache.tab n with
            | none => rw [ht] at hr; cases hr
            | some f => rw [ht] at hr; cases hr; simp [Cache.get?]
          · have he : st.cache.enabled = false := by simpa using he
            rw [Cache.get?_disabled (k0.trans he), Cache.get?_disabled (k0.trans he)]
        · obtain ⟨c', h1, h2⟩ := st.cache.remove_ok_of_ne_global E.T n c hg
          rw [hr] at h1; cases h1
          rw [h2, h2, h n x hx d hd]
          have : d ∈ E.T.sib (sc n) c ↔ x ∈ E.T.sib (sc n) c := by
            constructor
            · intro h1
              rw [w.common hco hx h1 hd]; exact w.refl _ _ hx
            · intro h1
              rw [w.common hco hx h1 (w.refl _ _ hx)]; exact hd
          simp [this]
      · rw [k1 n d hn, k1 n x hn]; exact h n x hx d hd

theorem cuni_readLoop {E : Env} (w : TopoWF E.T) {sc : Nat → Scope} {a : Nat} (l : List Nat)
    (ho : ∀ c ∈ l, c ∈ E.T.online) {st : St} (h : CUni E sc st) :
    CUni E sc (readLoop E a (sc a) l st).1 := by
  induction l generalizing st with
  | nil => exact h
  | cons c l ih =>
    have h1 := cuni_readOne w h (a := a) (ho c (by simp))
    unfold readLoop
    cases hr : readOne E st a (sc a) c with
    | mk st1 r =>
      rw [hr] at h1
      cases r with
      | error e => exact h1
      | ok v =>
        have h2 := ih (fun x hx => ho x (by simp [hx])) h1
        simp only at h2 ⊢
        cases hl : readLoop E a (sc a) l st1 with
        | mk st2 r2 =>
          rw [hl] at h2
          cases r2 <;> exact h2

theorem cuni_readBitsLoop {E : Env} (w : TopoWF E.T) {sc : Nat → Scope} {a : Nat} {bits : BitRange}
    (l : List Nat) (ho : ∀ c ∈ l, c ∈ E.T.online) {st : St} (h : CUni E sc st) :
    CUni E sc (readBitsLoop E a bits (sc a) l st).1 := by
  induction l generalizing st with
  | nil => exact h
  | cons c l ih =>
    have h1 := cuni_readOne w h (a := a) (ho c (by simp))
    unfold readBitsLoop
    cases hr : readOne E st a (sc a) c with
    | mk st1 r =>
      rw [hr] at h1
      cases r with
      | error e => exact h1
      | ok v =>
        have h2 := ih (fun x hx => ho x (by simp [hx])) h1
        simp only at h2 ⊢
        cases getBits v bits with
        | error e => exact h1
        | ok b =>
          simp only
          cases hl : readBitsLoop E a bits (sc a) l st1 with
          | mk st2 r2 =>
            rw [hl] at h2
            cases r2 <;> exact h2

theorem cuni_modifyLoop {E : Env} (w : TopoWF E.T) {sc : Nat → Scope} {a : Nat} {bits : BitRange}
    {val : FieldVal} (l : List Nat) (ho : ∀ c ∈ l, c ∈ E.T.online) {st : St} (h : CUni E sc st)
    (acc : Dict Int (List Nat)) :
    CUni E sc (modifyLoop E a bits val (sc a) l st acc).1 := by
  induction l generalizing st acc with
  | nil => exact h
  | cons c l ih =>
    have h1 := cuni_readOne w h (a := a) (ho c (by simp))
    unfold modifyLoop
    cases hr : readOne E st a (sc a) c with
    | mk st1 r =>
      rw [hr] at h1
      cases r with
      | error e => exact h1
      | ok v =>
        simp only
        cases setBits v bits val with
        | error e => exact h1
        | ok new =>
          simp only
          split
          · exact ih (fun x hx => ho x (by simp [hx])) h1 _
          · exact ih (fun x hx => ho x (by simp [hx])) h1 _

theorem cuni_verify {E : Env} (w : TopoWF E.T) {sc : Nat → Scope} {a : Nat} {val : Int} (l : List Nat)
    (ho : ∀ c ∈ l, c ∈ E.T.online) {st : St} (h : CUni E sc st) :
    CUni E sc (verify E a val l (sc a) st).1 := by
  have h1 := cuni_removeLoop w (a := a) l ho h
  have hv : ∀ (l : List Nat), (∀ c ∈ l, c ∈ E.T.online) → ∀ (st : St), CUni E sc st →
      CUni E sc (verifyLoop E a val (sc a) l st).1 := by
    intro l
    induction l with
    | nil => intro _ st h; exact h
    | cons c l ih =>
      intro ho st h
      have h1 := cuni_readOne w h (a := a) (ho c (by simp))
      unfold verifyLoop
      cases hr : readOne E st a (sc a) c with
      | mk st1 r =>
        rw [hr] at h1
        cases r with
        | error e => exact h1
        | ok v =>
          simp only
          split
          · exact h1
          · exact ih (fun x hx => ho x (by simp [hx])) st1 h1
  unfold verify
  cases hr : removeLoop E a (sc a) l st with
  | mk st1 r =>
    rw [hr] at h1
    cases r with
    | error e => exact h1
    | ok u => exact hv l ho st1 h1

/-- The immediate write loop: cache entries stay per unit, no transaction data appears. -/
theorem cuni_writeLoop {E : Env} (w : TopoWF E.T) {sc : Nat → Scope} {a : Nat} {val : Int} {vfy : Bool}
    (l : List Nat) (ho : ∀ c ∈ l, c ∈ E.T.online) {st : St} (h : CUni E sc st) :
    CUni E sc (writeLoop E a val vfy (sc a) l st).1 := by
  induction l generalizing st with
  | nil => exact h
  | cons c l ih =>
    have hol : ∀ x ∈ l, x ∈ E.T.online := fun x hx => ho x (by simp [hx])
    unfold writeLoop
    split
    · exact ih hol h
    · split
      · cases hw : hwWrite E st a val c with
        | mk st1 r =>
          cases r with
          | error e =>
            obtain ⟨rfl, _⟩ := hwWrite_error hw
            exact h
          | ok u =>
            obtain ⟨f1, f2, f3, f4, f5, f6, f7⟩ := hwWrite_ok hw
            refine ih hol ?_
            unfold CUni
            rw [f3]
            exact add_cuni w h (ho c (by simp)) _
      · cases hadd : addForTransaction st a val c vfy (sc a) with
        | error e => exact h
        | ok st1 =>
          obtain ⟨_, rfl⟩ := addForTransaction_ok hadd
          refine ih hol ?_
          exact add_cuni w h (ho c (by simp)) _

theorem cuni_write {E : Env} (w : TopoWF E.T) {sc : Nat → Scope} {a : Nat} {val : Int} {vfy : Bool}
    (cpus : Nums) {st : St} (h : CUni E sc st) : CUni E sc (write E st a val cpus (sc a) vfy).1 := by
  unfold write
  cases hn : E.T.normCpus cpus with
  | error e => exact h
  | ok l =>
    have ho := (normCpus_ok hn).2
    have h1 := cuni_removeLoop w (a := a) l ho h
    simp only [writeNorm]
    cases hr : removeLoop E a (sc a) l st with
    | mk st1 r =>
      rw [hr] at h1
      cases r with
      | error e => exact h1
      | ok u =>
        have h2 := cuni_writeLoop w (a := a) (val := val) (vfy := vfy) l ho h1
        simp only at h2 ⊢
        cases hw : writeLoop E a val vfy (sc a) l st1 with
        | mk st2 r2 =>
          rw [hw] at h2
          cases r2 with
          | error e => exact h2
          | ok u2 =>
            simp only
            split
            · exact cuni_verify w l ho h2
            · exact h2

theorem cuni_writeGroups {E : Env} (w : TopoWF E.T) {sc : Nat → Scope} {a : Nat} {vfy : Bool}
    (gs : Dict Int (List Nat)) {st : St} (h : CUni E sc st) :
    CUni E sc (writeGroups E a (sc a) vfy gs st).1 := by
  induction gs generalizing st with
  | nil => exact h
  | cons p gs ih =>
    obtain ⟨v, cpus⟩ := p
    have h1 := cuni_write w (a := a) (val := v) (vfy := vfy) (.nums cpus) h
    unfold writeGroups
    cases hw : write E st a v (.nums cpus) (sc a) vfy with
    | mk st1 r =>
      rw [hw] at h1
      cases r with
      | error e => exact h1
      | ok u => exact ih h1

/-! ### Transaction bookkeeping of calls outside of transactions -/

theorem writeLoop_buf {E : Env} {a : Nat} {val : Int} {vfy : Bool} {s : Scope} (l : List Nat)
    (st : St) (hi : st.inTransaction = false) :
    (writeLoop E a val vfy s l st).1.buf = st.buf ∧
    (writeLoop E a val vfy s l st).1.inTransaction = false ∧
    (writeLoop E a val vfy s l st).1.cache.enabled = st.cache.enabled := by
  induction l generalizing st with
  | nil => exact ⟨rfl, hi, rfl⟩
  | cons c l ih =>
    unfold writeLoop
    split
    · exact ih st hi
    · simp only [hi, Bool.not_false, if_true]
      cases hw : hwWrite E st a val c with
      | mk st1 r =>
        cases r with
        | error e =>
          obtain ⟨rfl, _⟩ := hwWrite_error hw
          exact ⟨rfl, hi, rfl⟩
        | ok u =>
          obtain ⟨f1, f2, f3, f4, f5, f6, f7⟩ := hwWrite_ok hw
          obtain ⟨k1, k2, k3⟩ := ih { st1 with cache := st1.cache.add E.T a c val s } (f5.trans hi)
          exact ⟨k1.trans f4, k2, k3.trans (by rw [Cache.enabled_add, f3])⟩

theorem write_buf {E : Env} {a : Nat} {val : Int} {vfy : Bool} {s : Scope} (cpus : Nums)
    (st : St) (hi : st.inTransaction = false) :
    (write E st a val cpus s vfy).1.buf = st.buf ∧
    (write E st a val cpus s vfy).1.inTransaction = false ∧
    (write E st a val cpus s vfy).1.cache.enabled = st.cache.enabled := by
  unfold write
  cases hn : E.T.normCpus cpus with
  | error e => exact ⟨rfl, hi, rfl⟩
  | ok l =>
    have h1 := (removeLoop_spec (E := E) (a := a) (s := s) l st).1
    simp only [writeNorm]
    cases hr : removeLoop E a s l st with
    | mk st1 r =>
      rw [hr] at h1
      have hi1 : st1.inTransaction = false := h1.2.2.2.1.trans hi
      cases r with
      | error e => exact ⟨h1.2.2.1, hi1, h1.2.2.2.2⟩
      | ok u =>
        obtain ⟨g1, g2, g3⟩ := writeLoop_buf (E := E) (a := a) (val := val) (vfy := vfy) (s := s) l st1 hi1
        simp only
        cases hw : writeLoop E a val vfy s l st1 with
        | mk st2 r2 =>
          rw [hw] at g1 g2 g3
          cases r2 with
          | error e => exact ⟨g1.trans h1.2.2.1, g2, g3.trans h1.2.2.2.2⟩
          | ok u2 =>
            simp only
            split
            · have := verify_same E a val l s st2
              exact ⟨this.2.2.1.trans (g1.trans h1.2.2.1), this.2.2.2.1.trans g2,
                this.2.2.2.2.trans (g3.trans h1.2.2.2.2)⟩
            · exact ⟨g1.trans h1.2.2.1, g2, g3.trans h1.2.2.2.2⟩

theorem writeGroups_buf {E : Env} {a : Nat} {vfy : Bool} {s : Scope} (gs : Dict Int (List Nat))
    (st : St) (hi : st.inTransaction = false) :
    (writeGroups E a s vfy gs st).1.buf = st.buf ∧
    (writeGroups E a s vfy gs st).1.inTransaction = false ∧
    (writeGroups E a s vfy gs st).1.cache.enabled = st.cache.enabled := by
  induction gs generalizing st with
  | nil => exact ⟨rfl, hi, rfl⟩
  | cons p gs ih =>
    obtain ⟨v, cpus⟩ := p
    obtain ⟨h1, h2, h3⟩ := write_buf (E := E) (a := a) (val := v) (vfy := vfy) (s := s) (.nums cpus) st hi
    unfold writeGroups
    cases hw : write E st a v (.nums cpus) s vfy with
    | mk st1 r =>
      rw [hw] at h1 h2 h3
      cases r with
      | error e => exact ⟨h1, h2, h3⟩
      | ok u =>
        obtain ⟨g1, g2, g3⟩ := ih st1 h2
        exact ⟨g1.trans h1, g2, g3.trans h3⟩

theorem writeBits_buf {E : Env} {a : Nat} {bits : BitRange} {val : FieldVal} {vfy : Bool} {s : Scope}
    (cpus : Nums) (st : St) (hi : st.inTransaction = false) :
    (writeBits E st a bits val cpus s vfy).1.buf = st.buf ∧
    (writeBits E st a bits val cpus s vfy).1.inTransaction = false ∧
    (writeBits E st a bits val cpus s vfy).1.cache.enabled = st.cache.enabled := by
  unfold writeBits
  cases E.T.normCpus cpus with
  | error e => exact ⟨rfl, hi, rfl⟩
  | ok l =>
    have h1 := modifyLoop_same (E := E) (a := a) (bits := bits) (val := val) (s := s) l st []
    simp only
    cases hm : modifyLoop E a bits val s l st [] with
    | mk st1 r =>
      rw [hm] at h1
      have hi1 : st1.inTransaction = false := h1.2.2.2.1.trans hi
      cases r with
      | error e => exact ⟨h1.2.2.1, hi1, h1.2.2.2.2⟩
      | ok g =>
        obtain ⟨g1, g2, g3⟩ := writeGroups_buf (E := E) (a := a) (vfy := vfy) (s := s) g st1 hi1
        exact ⟨g1.trans h1.2.2.1, g2, g3.trans h1.2.2.2.2⟩

end Verif.MSR
