import Verif.Lemmas.MSRRemote
import Verif.Props.MSRTrans

/-!
Helper lemmas about calls on remote hosts: they do the same as calls on the local host.
-/

namespace Verif.MSR

open CPUInfo (Scope Nums)
open Verif.Bits (BitRange FieldVal setBits getBits)

theorem SameButCache.symm {a b : St} (h : SameButCache a b) : SameButCache b a :=
  ⟨h.1.symm, h.2.1.symm, h.2.2.1.symm, h.2.2.2.1.symm, h.2.2.2.2.symm⟩

/-- The second outcome is the same if the first is a success. If the first is a failure, the second is, too, and only
the cache may be different. -/
structure Agree {α : Type} (x y : St × Except Exn α) : Prop where
  ok : ∀ v, x.2 = .ok v → y = x
  err : ∀ e, x.2 = .error e → (∃ e', y.2 = .error e') ∧ SameButCache x.1 y.1

theorem Agree.refl {α : Type} (x : St × Except Exn α) : Agree x x :=
  ⟨fun _ _ => rfl, fun e h => ⟨⟨e, h⟩, SameButCache.refl _⟩⟩

/-- Sequential composition: `X` starts with `x`, and `Y` starts with `y`. -/
theorem Agree.bind {α β : Type} {x y : St × Except Exn α} {X Y : St × Except Exn β} (h : Agree x y)
    (hx : ∀ st e, x = (st, .error e) → X = (st, .error e)) (hy : ∀ st e, y = (st, .error e) → Y = (st, .error e))
    (hok : ∀ st v, x = (st, .ok v) → y = (st, .ok v) → Agree X Y) : Agree X Y := by
  obtain ⟨st, r⟩ := x
  cases r with
  | ok v =>
    have := h.ok v rfl
    subst this
    exact hok st v rfl rfl
  | error e =>
    obtain ⟨⟨e', h1⟩, h2⟩ := h.err e rfl
    obtain ⟨st', r'⟩ := y
    dsimp only at h1 h2
    subst h1
    rw [hx st e rfl, hy st' e' rfl]
    exact ⟨fun v hv => (by cases hv), fun _ _ => ⟨⟨e', rfl⟩, h2⟩⟩

/-! ### Reading -/

theorem compat_of_none {E : Env} {a : Nat} {s : Scope} {l : List Nat} {st : St}
    (h : ∀ c ∈ l, st.cache.get? a c = none) : Compat E a s l st := by
  intro c hc v hv
  rw [h c hc] at hv
  cases hv

theorem compat_of_cuni {E : Env} {sc : Nat → Scope} {a : Nat} {l : List Nat} {st : St} (h : CUni E sc st)
    (ho : ∀ c ∈ l, c ∈ E.T.online) : Compat E a (sc a) l st := by
  intro c hc v hv r hr hrn hcr
  rw [h a r (ho r hr) c hcr, hrn] at hv
  cases hv

theorem readRemote_agree {E : Env} (w : TopoWF E.T) (hn : SibNodup E.T) {a : Nat} {s : Scope} {l : List Nat}
    (hl : l.Nodup) (ho : ∀ c ∈ l, c ∈ E.T.online) {st : St} (hC : Compat E a s l st) :
    Agree (readLoop E a s l st) (readRemote E a s l st) := by
  obtain ⟨h1, h2⟩ := readRemote_eq w hn a s l hl ho st hC
  refine ⟨h1, fun e he => ?_⟩
  rw [(h2 e he).2]
  exact ⟨⟨_, rfl⟩, (readLoop_same E a s l st).symm⟩

theorem readLoopR_agree {E : Env} (w : TopoWF E.T) (hn : SibNodup E.T) {a : Nat} {s : Scope} {l : List Nat}
    (hl : l.Nodup) (ho : ∀ c ∈ l, c ∈ E.T.online) {st : St} (hC : Compat E a s l st) :
    Agree (readLoop E a s l st) (readLoopR E a s l st) := by
  unfold readLoopR
  split
  · exact readRemote_agree w hn hl ho hC
  · exact Agree.refl _

theorem readBitsLoop_eq (E : Env) (a : Nat) (bits : BitRange) (s : Scope) (l : List Nat) (st : St) :
    Agree (readBitsLoop E a bits s l st) (match readLoop E a s l st with
      | (st, .error e) => (st, .error e)
      | (st, .ok r) => (st, bitsOf bits r)) := by
  induction l generalizing st with
  | nil => exact Agree.refl _
  | cons c l ih =>
    rw [readBitsLoop, readLoop]
    cases hr : readOne E st a s c with
    | mk st1 r =>
      cases r with
      | error e => exact Agree.refl _
      | ok v =>
        dsimp only
        cases hg : getBits v bits with
        | error e =>
          dsimp only
          have h2 := readLoop_same E a s l st1
          cases hl : readLoop E a s l st1 with
          | mk st2 r2 =>
            rw [hl] at h2
            cases r2 with
            | error e2 => exact ⟨fun v hv => (by cases hv), fun _ _ => ⟨⟨e2, rfl⟩, h2⟩⟩
            | ok q =>
              refine ⟨fun v hv => (by cases hv), fun _ _ => ⟨⟨e, ?_⟩, h2⟩⟩
              simp only [bitsOf, hg]
        | ok u =>
          dsimp only
          have ih' := ih st1
          cases hl : readLoop E a s l st1 with
          | mk st2 r2 =>
            rw [hl] at ih'
            cases hb : readBitsLoop E a bits s l st1 with
            | mk st3 r3 =>
              rw [hb] at ih'
              cases r3 with
              | error e =>
                obtain ⟨⟨e', k1⟩, k2⟩ := ih'.err e rfl
                refine ⟨fun v hv => (by cases hv), fun _ _ => ?_⟩
                cases r2 with
                | error e2 => exact ⟨⟨e2, rfl⟩, k2⟩
                | ok q =>
                  dsimp only at k1 k2 ⊢
                  exact ⟨⟨e', by simp only [bitsOf, hg, k1]⟩, k2⟩
              | ok q3 =>
                have k1 := ih'.ok q3 rfl
                cases r2 with
                | error e2 =>
                  cases k1
                | ok q =>
                  dsimp only at k1 ⊢
                  obtain ⟨rfl, k2⟩ := Prod.mk.inj k1
                  refine ⟨fun v hv => ?_, fun e he => (by cases he)⟩
                  simp only [bitsOf, hg, k2]

theorem Agree.trans {α : Type} {x y z : St × Except Exn α} (h1 : Agree x y) (h2 : Agree y z) : Agree x z := by
  refine ⟨fun v hv => ?_, fun e he => ?_⟩
  · have := h1.ok v hv
    subst this
    exact h2.ok v hv
  · obtain ⟨⟨e', k1⟩, k2⟩ := h1.err e he
    obtain ⟨k3, k4⟩ := h2.err e' k1
    exact ⟨k3, k2.trans k4⟩

/-! ### Verification -/

theorem verifyLoop_eq (E : Env) (a : Nat) (val : Int) (s : Scope) (l : List Nat) (st : St) :
    Agree (verifyLoop E a val s l st) (match readLoop E a s l st with
      | (st, .error e) => (st, .error e)
      | (st, .ok r) => (st, checkAll val r)) := by
  induction l generalizing st with
  | nil => exact Agree.refl _
  | cons c l ih =>
    rw [verifyLoop, readLoop]
    cases hr : readOne E st a s c with
    | mk st1 r =>
      cases r with
      | error e => exact Agree.refl _
      | ok v =>
        dsimp only
        by_cases hv : v ≠ val
        · rw [if_pos hv]
          have h2 := readLoop_same E a s l st1
          cases hl : readLoop E a s l st1 with
          | mk st2 r2 =>
            rw [hl] at h2
            cases r2 with
            | error e2 => exact ⟨fun v hv => (by cases hv), fun _ _ => ⟨⟨e2, rfl⟩, h2⟩⟩
            | ok q =>
              refine ⟨fun v hv => (by cases hv), fun _ _ => ⟨⟨.verifyFailed, ?_⟩, h2⟩⟩
              simp only [checkAll]
              rw [if_pos hv]
        · rw [if_neg hv]
          refine Agree.trans (ih st1) ?_
          cases hl : readLoop E a s l st1 with
          | mk st2 r2 =>
            cases r2 with
            | error e2 => exact Agree.refl _
            | ok q =>
              dsimp only
              rw [checkAll, if_neg hv]
              exact Agree.refl _

theorem verifyR_agree {E : Env} (w : TopoWF E.T) (hn : SibNodup E.T) {a : Nat} {val : Int} {s : Scope} {l : List Nat}
    (hl : l.Nodup) (ho : ∀ c ∈ l, c ∈ E.T.online) (st : St) :
    Agree (verify E a val l s st) (verifyR E a val l s st) := by
  unfold verifyR
  split
  · unfold verify
    obtain ⟨h1, h2, h3, h4, h5⟩ := removeLoop_spec (E := E) (a := a) (s := s) l st
    refine Agree.bind (Agree.refl (removeLoop E a s l st)) (fun _ _ h => by rw [h]) (fun _ _ h => by rw [h]) ?_
    intro st1 u hx _
    rw [hx] at h4 ⊢
    dsimp only
    refine Agree.trans (verifyLoop_eq E a val s l st1) ?_
    refine Agree.bind (readRemote_agree w hn hl ho (compat_of_none fun c hc => h4 rfl c hc c (w.refl _ _ (ho c hc))))
      (fun _ _ h => by rw [h]) (fun _ _ h => by rw [h]) fun _ _ h1 h2 => ?_
    rw [h1, h2]
    exact Agree.refl _
  · exact Agree.refl _

/-! ### Writing -/

theorem writeNormR_agree {E : Env} (w : TopoWF E.T) (hn : SibNodup E.T) {a : Nat} {val : Int} {s : Scope} {vfy : Bool}
    {l : List Nat} (hl : l.Nodup) (ho : ∀ c ∈ l, c ∈ E.T.online) (st : St) :
    Agree (writeNorm E st a val l s vfy) (writeNormR E st a val l s vfy) := by
  unfold writeNorm writeNormR
  refine Agree.bind (Agree.refl (removeLoop E a s l st)) (fun _ _ h => by rw [h]) (fun _ _ h => by rw [h]) ?_
  intro st1 u hx _
  rw [hx]
  dsimp only
  refine Agree.bind (Agree.refl (writeLoop E a val vfy s l st1)) (fun _ _ h => by rw [h]) (fun _ _ h => by rw [h]) ?_
  intro st2 u2 hx2 _
  rw [hx2]
  dsimp only
  split
  · exact verifyR_agree w hn hl ho st2
  · exact Agree.refl _

theorem writeR_agree {E : Env} (w : TopoWF E.T) (hn : SibNodup E.T) {a : Nat} {val : Int} {s : Scope} {vfy : Bool}
    (cpus : Nums) (st : St) : Agree (write E st a val cpus s vfy) (writeR E st a val cpus s vfy) := by
  unfold write writeR
  cases hc : E.T.normCpus cpus with
  | error e => exact Agree.refl _
  | ok l => exact writeNormR_agree w hn (normCpus_ok hc).1 (normCpus_ok hc).2 st

theorem writeGroupsR_agree {E : Env} (w : TopoWF E.T) (hn : SibNodup E.T) {a : Nat} {s : Scope} {vfy : Bool}
    (gs : Dict Int (List Nat)) (st : St) : Agree (writeGroups E a s vfy gs st) (writeGroupsR E a s vfy gs st) := by
  induction gs generalizing st with
  | nil => exact Agree.refl _
  | cons p gs ih =>
    obtain ⟨v, cpus⟩ := p
    rw [writeGroups, writeGroupsR]
    refine Agree.bind (writeR_agree w hn (.nums cpus) st) (fun _ _ h => by rw [h]) (fun _ _ h => by rw [h]) ?_
    intro st1 _ h1 h2
    rw [h1, h2]
    exact ih st1

theorem modifyLoop_eq (E : Env) (a : Nat) (bits : BitRange) (val : FieldVal) (s : Scope) (l : List Nat) (st : St)
    (acc : Dict Int (List Nat)) :
    Agree (modifyLoop E a bits val s l st acc) (match readLoop E a s l st with
      | (st, .error e) => (st, .error e)
      | (st, .ok r) => (st, modifyAll bits val r acc)) := by
  induction l generalizing st acc with
  | nil => exact Agree.refl _
  | cons c l ih =>
    rw [modifyLoop, readLoop]
    cases hr : readOne E st a s c with
    | mk st1 r =>
      cases r with
      | error e => exact Agree.refl _
      | ok v =>
        dsimp only
        cases hg : setBits v bits val with
        | error e =>
          dsimp only
          have h2 := readLoop_same E a s l st1
          cases hl : readLoop E a s l st1 with
          | mk st2 r2 =>
            rw [hl] at h2
            cases r2 with
            | error e2 => exact ⟨fun v hv => (by cases hv), fun _ _ => ⟨⟨e2, rfl⟩, h2⟩⟩
            | ok q =>
              refine ⟨fun v hv => (by cases hv), fun _ _ => ⟨⟨e, ?_⟩, h2⟩⟩
              simp only [modifyAll, hg]
        | ok new =>
          dsimp only
          have key : ∀ acc', Agree (modifyLoop E a bits val s l st1 acc') (match (match readLoop E a s l st1 with
              | (st, .error e) => (st, .error e)
              | (st, .ok r) => (st, .ok ((c, v) :: r)) : St × Except Exn (List (Nat × Int))) with
            | (st, .error e) => (st, .error e)
            | (st, .ok r) => (st, modifyAll bits val r.tail acc')) := by
            intro acc'
            refine Agree.trans (ih st1 acc') ?_
            cases readLoop E a s l st1 with
            | mk st2 r2 => cases r2 <;> exact Agree.refl _
          split
          · rename_i he
            refine Agree.trans (key acc) ?_
            cases readLoop E a s l st1 with
            | mk st2 r2 =>
              cases r2 with
              | error e2 => exact Agree.refl _
              | ok q =>
                dsimp only
                rw [modifyAll, hg]
                dsimp only
                rw [if_pos he]
                exact Agree.refl _
          · rename_i he
            refine Agree.trans (key _) ?_
            cases readLoop E a s l st1 with
            | mk st2 r2 =>
              cases r2 with
              | error e2 => exact Agree.refl _
              | ok q =>
                dsimp only
                rw [modifyAll, hg]
                dsimp only
                rw [if_neg he]
                exact Agree.refl _

theorem writeBitsR_agree {E : Env} (w : TopoWF E.T) (hn : SibNodup E.T) {sc : Nat → Scope} {a : Nat} {bits : BitRange}
    {val : FieldVal} {vfy : Bool} (cpus : Nums) {st : St} (h : CUni E sc st) :
    Agree (writeBits E st a bits val cpus (sc a) vfy) (writeBitsR E st a bits val cpus (sc a) vfy) := by
  unfold writeBits writeBitsR
  cases hc : E.T.normCpus cpus with
  | error e => exact Agree.refl _
  | ok l =>
    obtain ⟨hl, ho⟩ := normCpus_ok hc
    dsimp only
    have hm : Agree (modifyLoop E a bits val (sc a) l st []) (match readLoopR E a (sc a) l st with
        | (st, .error e) => (st, .error e)
        | (st, .ok r) => (st, modifyAll bits val r [])) := by
      refine (modifyLoop_eq E a bits val (sc a) l st []).trans ?_
      refine Agree.bind (readLoopR_agree w hn hl ho (compat_of_cuni h ho)) (fun _ _ h => by rw [h])
        (fun _ _ h => by rw [h]) fun _ _ h1 h2 => ?_
      rw [h1, h2]
      exact Agree.refl _
    refine Agree.bind hm (fun _ _ h => by rw [h]) (fun st' e h => ?_) (fun st' g h1 h2 => ?_)
    · cases hr : readLoopR E a (sc a) l st with
      | mk st1 r =>
        rw [hr] at h
        cases r with
        | error e => cases h; rfl
        | ok q =>
          dsimp only at h ⊢
          obtain ⟨rfl, k⟩ := Prod.mk.inj h
          rw [k]
    · rw [h1]
      cases hr : readLoopR E a (sc a) l st with
      | mk st1 r =>
        rw [hr] at h2
        cases r with
        | error e => cases h2
        | ok q =>
          dsimp only at h2 ⊢
          obtain ⟨rfl, k⟩ := Prod.mk.inj h2
          rw [k]
          exact writeGroupsR_agree w hn g _

/-! ### Transactions -/

/-- The CPUs to verify a register value on are different and online. -/
def InfoOK (E : Env) (info : Dict Int (Dict Nat (Scope × List Nat))) : Prop :=
  ∀ p ∈ info, ∀ q ∈ p.2, q.2.2.Nodup ∧ ∀ c ∈ q.2.2, c ∈ E.T.online

theorem verifyAllR_agree {E : Env} (w : TopoWF E.T) (hn : SibNodup E.T) (info : Dict Int (Dict Nat (Scope × List Nat)))
    (h : InfoOK E info) (st : St) : Agree (verifyAll E info st) (verifyAllR E info st) := by
  have hregs : ∀ (val : Int) (regs : Dict Nat (Scope × List Nat)),
      (∀ q ∈ regs, q.2.2.Nodup ∧ ∀ c ∈ q.2.2, c ∈ E.T.online) → ∀ st,
      Agree (verifyRegs E val regs st) (verifyRegsR E val regs st) := by
    intro val regs
    induction regs with
    | nil => intro _ st; exact Agree.refl _
    | cons q regs ih =>
      intro hq st
      obtain ⟨a, s, l⟩ := q
      obtain ⟨h1, h2⟩ := hq (a, s, l) (by simp)
      rw [verifyRegs, verifyRegsR]
      refine Agree.bind (verifyR_agree w hn h1 h2 st) (fun _ _ h => by rw [h]) (fun _ _ h => by rw [h]) ?_
      intro st1 _ g1 g2
      rw [g1, g2]
      exact ih (fun q hh => hq q (by simp [hh])) st1
  induction info generalizing st with
  | nil => exact Agree.refl _
  | cons p info ih =>
    obtain ⟨val, regs⟩ := p
    rw [verifyAll, verifyAllR]
    refine Agree.bind (hregs val regs (h (val, regs) (by simp)) st) (fun _ _ h => by rw [h]) (fun _ _ h => by rw [h]) ?_
    intro st1 _ g1 g2
    rw [g1, g2]
    exact ih (fun p hp => h p (by simp [hp])) st1

/-- Every CPU is listed once per register. -/
theorem verifyInfo_nodup {buf : Dict Nat (Dict Nat TInfo)} (hb : BufOK buf) :
    ∀ p ∈ verifyInfo buf, ∀ q ∈ p.2, q.2.2.Nodup := by
  rw [verifyInfo_eq]
  have key : ∀ (l done : List (Nat × Nat × TInfo)) (acc : Dict Int (Dict Nat (Scope × List Nat))),
      ((done ++ l).map (fun e => (e.1, e.2.1))).Nodup →
      (∀ p ∈ acc, ∀ q ∈ p.2, q.2.2.Nodup ∧ ∀ c ∈ q.2.2, (c, q.1) ∈ done.map (fun e => (e.1, e.2.1))) →
      ∀ p ∈ l.foldl (fun d e => addVerifyInfo d e.1 e.2.1 e.2.2) acc, ∀ q ∈ p.2, q.2.2.Nodup := by
    intro l
    induction l with
    | nil => intro done acc _ h p hp q hq; exact (h p hp q hq).1
    | cons e l ih =>
      intro done acc hnd h
      obtain ⟨c, a, ti⟩ := e
      rw [List.foldl_cons]
      refine ih (done ++ [(c, a, ti)]) _ (by rw [List.append_assoc]; exact hnd) ?_
      have hfresh : (c, a) ∉ done.map (fun e => (e.1, e.2.1)) := by
        intro hm
        rw [List.map_append, List.nodup_append] at hnd
        exact hnd.2.2 _ hm _ (by simp) rfl
      have weak : ∀ p ∈ acc, ∀ q ∈ p.2, q.2.2.Nodup ∧
          ∀ c' ∈ q.2.2, (c', q.1) ∈ (done ++ [(c, a, ti)]).map (fun e => (e.1, e.2.1)) := by
        intro p hp q hq
        obtain ⟨k1, k2⟩ := h p hp q hq
        exact ⟨k1, fun c' hc' => by rw [List.map_append]; exact List.mem_append_left _ (k2 c' hc')⟩
      dsimp only
      unfold addVerifyInfo
      split
      · exact weak
      · have hregs : ∀ q ∈ (acc.get? ti.regval).getD [], ∃ p ∈ acc, q ∈ p.2 := by
          intro q hq
          cases hg : acc.get? ti.regval with
          | none => rw [hg] at hq; cases hq
          | some regs =>
            rw [hg] at hq
            exact ⟨(ti.regval, regs), Dict.mem_of_get? hg, hq⟩
        intro p hp q hq
        rcases mem_set hp with rfl | hp
        · rcases mem_set hq with rfl | hq
          · dsimp only
            cases hg : ((acc.get? ti.regval).getD []).get? a with
            | none => simp
            | some q' =>
              obtain ⟨p', hp', hq'⟩ := hregs (a, q') (Dict.mem_of_get? hg)
              obtain ⟨k1, k2⟩ := h p' hp' _ hq'
              simp only [Option.getD_some]
              refine ⟨?_, fun c' hc' => ?_⟩
              · rw [List.nodup_append]
                refine ⟨k1, by simp, ?_⟩
                intro x hx y hy e
                rw [List.mem_singleton] at hy
                subst hy; subst e
                exact hfresh (k2 x hx)
              · rw [List.map_append]
                rcases List.mem_append.1 hc' with hc' | hc'
                · exact List.mem_append_left _ (k2 c' hc')
                · rw [List.mem_singleton] at hc'
                  subst hc'
                  exact List.mem_append_right _ (by simp)
          · obtain ⟨p', hp', hq'⟩ := hregs q hq
            exact weak p' hp' q hq'
        · exact weak p hp q hq
  exact key (flat buf) [] [] (nodup_flat hb) (fun p hp => by cases hp)

/-- The buffer is about online CPUs, with the scopes of the registers. -/
def EntOK (E : Env) (sc : Nat → Scope) (buf : Dict Nat (Dict Nat TInfo)) : Prop :=
  ∀ c a ti, look buf c a = some ti → c ∈ E.T.online ∧ ti.iosname = sc a

theorem infoOK {E : Env} {sc : Nat → Scope} {buf : Dict Nat (Dict Nat TInfo)} (hb : BufOK buf) (he : EntOK E sc buf) :
    InfoOK E (verifyInfo buf) ∧ ∀ p ∈ verifyInfo buf, ∀ q ∈ p.2, q.2.1 = sc q.1 := by
  refine ⟨fun p hp q hq => ⟨verifyInfo_nodup hb p hp q hq, fun c hc => ?_⟩, fun p hp q hq => ?_⟩
  · obtain ⟨ti, h1, _⟩ := (verifyInfo_ok buf p hp q hq).1 c hc
    exact (he c q.1 ti ((mem_flat hb _ _ _).1 h1)).1
  · obtain ⟨c, ti, h1, h2⟩ := (verifyInfo_ok buf p hp q hq).2
    rw [h2]
    exact (he c q.1 ti ((mem_flat hb _ _ _).1 h1)).2

theorem entOK_writeLoop {E : Env} {sc : Nat → Scope} {a : Nat} {val : Int} {vfy : Bool} (l : List Nat)
    (ho : ∀ c ∈ l, c ∈ E.T.online) (st : St) (h : EntOK E sc st.buf) :
    EntOK E sc (writeLoop E a val vfy (sc a) l st).1.buf := by
  induction l generalizing st with
  | nil => exact h
  | cons c l ih =>
    have hol : ∀ x ∈ l, x ∈ E.T.online := fun x hx => ho x (by simp [hx])
    unfold writeLoop
    split
    · exact ih hol st h
    · split
      · cases hw : hwWrite E st a val c with
        | mk st1 r =>
          cases r with
          | error e => rw [(hwWrite_error hw).1]; exact h
          | ok u =>
            dsimp only
            refine ih hol _ ?_
            have := (hwWrite_ok hw).2.2.2.1
            dsimp only
            rw [this]; exact h
      · cases hw : addForTransaction st a val c vfy (sc a) with
        | error e => exact h
        | ok st1 =>
          dsimp only
          refine ih hol _ ?_
          obtain ⟨_, rfl⟩ := addForTransaction_ok hw
          intro c' a' ti hti
          dsimp only at hti
          rw [look_set] at hti
          split at hti
          · rename_i hh
            obtain ⟨rfl, rfl⟩ := hh
            cases hti
            exact ⟨ho c (by simp), rfl⟩
          · exact h c' a' ti hti

end Verif.MSR
