import Verif.Props.MSR
import Verif.Model.RegFile

/-!
Lemmas for C70: the MSR object refines the plain registers of `Verif/Model/RegFile.lean`.
-/

namespace Verif.MSR

open CPUInfo (Scope Nums)
open Verif.Bits (BitRange FieldVal setBits getBits)

/-- Register `a` as the environment of the plain registers. -/
def regEnv (E : Env) (a : Nat) : RegFile.Env where
  same := E.share a
  wfail c := if E.wfail a c then some .error else none

/-- The hardware keeps what is written to it, reads are not refused, and writes are refused for all the CPUs
sharing a register or for none of them. -/
structure Plain (E : Env) : Prop where
  store : ∀ a o v, E.store a o v = v
  read : ∀ a c, E.rfail a c = false
  unit : ∀ a, ∀ c ∈ E.T.online, ∀ d ∈ E.T.online, E.share a c d = true → E.wfail a c = E.wfail a d

/-- The same values on all the online CPUs. -/
def Same (E : Env) (R S : Nat → Int) : Prop := ∀ d ∈ E.T.online, R d = S d

theorem share_trans {E : Env} (w : TopoWF E.T) {sc : Nat → Scope} (hs : Scoped E sc) {a c d x : Nat}
    (hc : c ∈ E.T.online) (hd : d ∈ E.T.online) (hx : x ∈ E.T.online) (h1 : E.share a c d = true)
    (h2 : E.share a d x = true) : E.share a c x = true := by
  rw [hs a c hc x hx]
  rw [hs a c hc d hd] at h1
  rw [hs a d hd x hx] at h2
  rwa [w.eqv _ c d hc h1] at h2

theorem writeLoop_regs {E : Env} (w : TopoWF E.T) {sc : Nat → Scope} (hs : Scoped E sc) (hp : Plain E) {a : Nat}
    {val : Int} {vfy : Bool} (l : List Nat) (ho : ∀ c ∈ l, c ∈ E.T.online) (st : St) (R : Nat → Int)
    (hi : st.inTransaction = false) (hR : Same E R (st.hw a))
    (hc : ∀ c ∈ l, st.cache.isCached a c = true →
      (∀ d ∈ E.T.online, E.share a c d = true → st.hw a d = val) ∧ E.wfail a c = false ∧ 0 ≤ val ∧ val < 2 ^ 64) :
    (writeLoop E a val vfy (sc a) l st).2 = (RegFile.writeRegs (regEnv E a) val l R).2 ∧
    Same E (RegFile.writeRegs (regEnv E a) val l R).1 ((writeLoop E a val vfy (sc a) l st).1.hw a) := by
  induction l generalizing st R with
  | nil => exact ⟨rfl, hR⟩
  | cons c l ih =>
    have hoc := ho c List.mem_cons_self
    have hol : ∀ x ∈ l, x ∈ E.T.online := fun x hx => ho x (List.mem_cons_of_mem _ hx)
    unfold writeLoop RegFile.writeRegs
    cases hcc : st.cache.isCached a c with
    | true =>
      obtain ⟨h1, h2, h3, h4⟩ := hc c List.mem_cons_self hcc
      rw [if_pos rfl, if_neg (by omega)]
      have hw : (regEnv E a).wfail c = none := by simp [regEnv, h2]
      simp only [hw]
      refine ih hol st _ hi ?_ (fun x hx => hc x (List.mem_cons_of_mem _ hx))
      intro d hd
      show (if E.share a c d = true then val else R d) = _
      split
      · rename_i hsh; exact (h1 d hd hsh).symm
      · exact hR d hd
    | false =>
      rw [if_neg (by simp), if_pos (by simp [hi])]
      by_cases hv : val < 0 ∨ val ≥ 2 ^ 64
      · rw [if_pos hv]
        unfold hwWrite
        rw [if_pos hv]
        exact ⟨rfl, hR⟩
      · rw [if_neg hv]
        cases hwf : E.wfail a c with
        | true =>
          have hw : (regEnv E a).wfail c = some .error := by simp [regEnv, hwf]
          simp only [hw]
          unfold hwWrite
          rw [if_neg hv, if_pos hwf]
          exact ⟨rfl, hR⟩
        | false =>
          have hw : (regEnv E a).wfail c = none := by simp [regEnv, hwf]
          simp only [hw]
          obtain ⟨st1, h1⟩ := hwWrite_fits (E := E) st (a := a) (v := val) (cpu := c) (by omega) hwf
          obtain ⟨k1, k2, k3, k4, k5, k6, k7⟩ := hwWrite_ok h1
          rw [h1]
          dsimp only
          refine ih hol _ _ (k5.trans hi) ?_ ?_
          · intro d hd
            show (if E.share a c d = true then val else R d) = _
            rw [k7, hp.store]
            by_cases hsh : E.share a c d = true
            · rw [if_pos hsh, if_pos ⟨rfl, hsh⟩]
            · rw [if_neg hsh, if_neg (fun h => hsh h.2)]
              exact hR d hd
          · intro x hx hcx
            dsimp only at hcx ⊢
            have hox := hol x hx
            rw [k3, Cache.isCached, Cache.get?_add] at hcx
            by_cases hin : st.cache.enabled = true ∧ a = a ∧ x ∈ E.T.sib (sc a) c
            · have hsx : E.share a c x = true := (hs a c hoc x hox).2 hin.2.2
              refine ⟨?_, ?_, by omega, by omega⟩
              · intro d hd hxd
                rw [k7, hp.store, if_pos ⟨rfl, share_trans w hs hoc hox hd hsx hxd⟩]
              · rw [← hp.unit a c hoc x hox hsx]; exact hwf
            · rw [if_neg hin] at hcx
              obtain ⟨g1, g2, g3, g4⟩ := hc x (List.mem_cons_of_mem _ hx) hcx
              refine ⟨?_, g2, g3, g4⟩
              intro d hd hxd
              rw [k7, hp.store]
              split
              · rfl
              · exact g1 d hd hxd

theorem Plain.sound {E : Env} (hp : Plain E) (sc : Nat → Scope) (a : Nat) (vfy : Bool) : Sound E sc a vfy :=
  .inl (hp.store a)

theorem writeNorm_regs {E : Env} (w : TopoWF E.T) {sc : Nat → Scope} (hs : Scoped E sc) (hp : Plain E) {a : Nat}
    (hng : sc a ≠ .global) {val : Int} {vfy : Bool} {l : List Nat} (ho : ∀ c ∈ l, c ∈ E.T.online) {st : St}
    (hg : Good E sc st) {R : Nat → Int} (hR : Same E R (st.hw a)) :
    (writeNorm E st a val l (sc a) vfy).2 = (RegFile.writeRegs (regEnv E a) val l R).2 ∧
    Same E (RegFile.writeRegs (regEnv E a) val l R).1 ((writeNorm E st a val l (sc a) vfy).1.hw a) := by
  obtain ⟨h1, h2, h3, h4, h5⟩ := removeLoop_spec (E := E) (a := a) (s := sc a) l st
  have hok := (h5 hng).1
  have hnone := h4 hok
  unfold writeNorm
  cases hr : removeLoop E a (sc a) l st with
  | mk st1 r1 =>
    rw [hr] at h1 hok hnone
    dsimp only at h1 hok hnone
    subst hok
    dsimp only
    have hi1 : st1.inTransaction = false := h1.2.2.2.1.trans hg.noTrans
    have hu1 : Uniform E sc st1.hw := by rw [h1.1]; exact hg.uniform
    have key := writeLoop_regs w hs hp (vfy := vfy) (val := val) l ho st1 R hi1 (by rw [h1.1]; exact hR) (by
      intro c hc hcc
      have := hnone c hc c (w.refl _ c (ho c hc))
      rw [Cache.isCached, this] at hcc
      cases hcc)
    cases hl : writeLoop E a val vfy (sc a) l st1 with
    | mk st2 r2 =>
      rw [hl] at key
      obtain ⟨k1, k2⟩ := key
      dsimp only at k1 k2 ⊢
      cases r2 with
      | error e => exact ⟨k1, k2⟩
      | ok u =>
        dsimp only
        split
        · rename_i hv
          rw [Bool.and_eq_true] at hv
          have hfull := writeNorm_imm w hs (vfy := false) (val := val) (r := .ok ()) (st' := st2) ho hg (hp.sound sc a false) (by
            unfold writeNorm
            rw [hr]
            dsimp only
            have : writeLoop E a val false (sc a) l st1 = writeLoop E a val vfy (sc a) l st1 := by
              have hgen : ∀ (l : List Nat) (st : St), st.inTransaction = false →
                  writeLoop E a val false (sc a) l st = writeLoop E a val vfy (sc a) l st := by
                intro l
                induction l with
                | nil => intro st _; rfl
                | cons c l ih =>
                  intro st hst
                  unfold writeLoop
                  split
                  · exact ih st hst
                  · rw [if_pos (by simp [hst]), if_pos (by simp [hst])]
                    cases hh : hwWrite E st a val c with
                    | mk s2 r2 =>
                      cases r2 with
                      | error e => rfl
                      | ok u => exact ih _ ((hwWrite_ok hh).2.2.2.2.1.trans hst)
              exact hgen l st1 hi1
            rw [this, hl]
            rfl)
          have hg2 := hfull.1
          have hall := hfull.2.2.2.2.1 rfl
          have hver := (verify_coh (a := a) (val := val) ho hg2.uniform (.inl hg2.coh)).2.2 hng hall
            (fun c _ => hp.read a c)
          have hsame := verify_same E a val l (sc a) st2
          refine ⟨hver.trans k1, ?_⟩
          rw [hsame.1]
          exact k2
        · exact ⟨k1, k2⟩

theorem modifyLoop_regs {E : Env} {sc : Nat → Scope} (hp : Plain E) {a : Nat} {bits : BitRange} {val : FieldVal}
    (l : List Nat) (ho : ∀ c ∈ l, c ∈ E.T.online) (st : St) (hu : Uniform E sc st.hw) (hc : Coh E st.hw st)
    {R : Nat → Int} (hR : Same E R (st.hw a)) (g : Dict Int (List Nat)) :
    (modifyLoop E a bits val (sc a) l st g).2 = RegFile.modifyRegs bits val R l g := by
  induction l generalizing st g with
  | nil => rfl
  | cons c l ih =>
    have hoc := ho c List.mem_cons_self
    have hol : ∀ x ∈ l, x ∈ E.T.online := fun x hx => ho x (List.mem_cons_of_mem _ hx)
    obtain ⟨k1, k2, k3, k4⟩ := readOne_coh hu hc (a := a) hoc
    have k5 := k4 (hp.read a c)
    have k6 := readOne_same E st a (sc a) c
    unfold modifyLoop RegFile.modifyRegs
    cases hr : readOne E st a (sc a) c with
    | mk st1 r1 =>
      rw [hr] at k1 k5 k6
      dsimp only at k1 k5 k6
      subst k5
      dsimp only
      rw [hR c hoc]
      have ih' := ih hol st1 (by rw [k6.1]; exact hu) (by rw [k6.1]; exact k1) (by rw [k6.1]; exact hR)
      cases setBits (st.hw a c) bits val with
      | error e => rfl
      | ok new =>
        dsimp only
        split
        · exact ih' _
        · exact ih' _

theorem writeGroups_regs {E : Env} (w : TopoWF E.T) {sc : Nat → Scope} (hs : Scoped E sc) (hp : Plain E) {a : Nat}
    (hng : sc a ≠ .global) {vfy : Bool} (g : Dict Int (List Nat)) (hn : ∀ p ∈ g, p.2.Nodup)
    (ho : ∀ p ∈ g, ∀ c ∈ p.2, c ∈ E.T.online) (st : St) (hg : Good E sc st) {R : Nat → Int} (hR : Same E R (st.hw a)) :
    (writeGroups E a (sc a) vfy g st).2 = (RegFile.writeGroups (regEnv E a) g R).2 ∧
    Same E (RegFile.writeGroups (regEnv E a) g R).1 ((writeGroups E a (sc a) vfy g st).1.hw a) := by
  induction g generalizing st R with
  | nil => exact ⟨rfl, hR⟩
  | cons p g ih =>
    obtain ⟨v, cpus⟩ := p
    have hop := ho _ List.mem_cons_self
    have hw : write E st a v (.nums cpus) (sc a) vfy = writeNorm E st a v cpus (sc a) vfy := by
      unfold write
      rw [normCpus_nums_self (hn _ List.mem_cons_self) hop]
    obtain ⟨k1, k2⟩ := writeNorm_regs w hs hp hng (val := v) (vfy := vfy) hop hg hR
    unfold writeGroups RegFile.writeGroups
    rw [hw]
    cases h1 : writeNorm E st a v cpus (sc a) vfy with
    | mk st1 r1 =>
      rw [h1] at k1 k2
      have hg1 := (writeNorm_imm w hs hop hg (hp.sound sc a vfy) h1).1
      cases h2 : RegFile.writeRegs (regEnv E a) v cpus R with
      | mk R1 r2 =>
        rw [h2] at k1 k2
        dsimp only at k1 k2
        subst k1
        cases r1 with
        | error e => exact ⟨rfl, k2⟩
        | ok u =>
          exact ih (fun p hp => hn p (List.mem_cons_of_mem _ hp)) (fun p hp => ho p (List.mem_cons_of_mem _ hp)) st1 hg1 k2

theorem readBitsLoop_regs {E : Env} {sc : Nat → Scope} (hp : Plain E) {a : Nat} {bits : BitRange}
    (l : List Nat) (ho : ∀ c ∈ l, c ∈ E.T.online) (st : St) (hu : Uniform E sc st.hw) (hc : Coh E st.hw st)
    {R : Nat → Int} (hR : Same E R (st.hw a)) :
    (readBitsLoop E a bits (sc a) l st).2 = RegFile.readBits bits R l := by
  induction l generalizing st with
  | nil => rfl
  | cons c l ih =>
    have hoc := ho c List.mem_cons_self
    have hol : ∀ x ∈ l, x ∈ E.T.online := fun x hx => ho x (List.mem_cons_of_mem _ hx)
    obtain ⟨k1, k2, k3, k4⟩ := readOne_coh hu hc (a := a) hoc
    have k5 := k4 (hp.read a c)
    have k6 := readOne_same E st a (sc a) c
    unfold readBitsLoop RegFile.readBits
    cases hr : readOne E st a (sc a) c with
    | mk st1 r1 =>
      rw [hr] at k1 k5 k6
      dsimp only at k1 k5 k6
      subst k5
      dsimp only
      rw [hR c hoc]
      have ih' := ih hol st1 (by rw [k6.1]; exact hu) (by rw [k6.1]; exact k1) (by rw [k6.1]; exact hR)
      cases getBits (st.hw a c) bits with
      | error e => rfl
      | ok v =>
        dsimp only
        rw [← ih']
        cases readBitsLoop E a bits (sc a) l st1 with
        | mk st2 r2 => cases r2 <;> rfl

end Verif.MSR
