import Verif.Lemmas.MSRTrans

/-!
Helper lemmas about one register of an `MSR` object whose cache may differ from the hardware: what the object shows for the
register (`view`), and what the operations do to it and to the hardware.
-/

namespace Verif.MSR

open CPUInfo (Scope Nums)
open Verif.Bits (BitRange FieldVal setBits getBits)

/-- What the object shows: the cached value, or what the hardware holds. -/
def view (st : St) (a c : Nat) : Int := (st.cache.get? a c).getD (st.hw a c)

/-- One value per unit. -/
def Uni {α : Type} (E : Env) (s : Scope) (f : Nat → α) : Prop := ∀ c ∈ E.T.online, ∀ d ∈ E.T.sib s c, f d = f c

/-- The hardware and the cache have one value of register `a` per unit. -/
structure One (E : Env) (s : Scope) (a : Nat) (st : St) : Prop where
  hw : Uni E s (st.hw a)
  cache : Uni E s (st.cache.get? a)

theorem One.view {E : Env} {s : Scope} {a : Nat} {st : St} (h : One E s a st) : Uni E s (MSR.view st a) := by
  intro c hc d hd
  unfold MSR.view
  rw [h.hw c hc d hd, h.cache c hc d hd]

/-- Nothing but the cache of register `a` may differ, and the object shows the same. -/
structure SameView (E : Env) (s : Scope) (a : Nat) (st st' : St) : Prop where
  same : SameButCache st st'
  one : One E s a st'
  view : ∀ x ∈ E.T.online, MSR.view st' a x = MSR.view st a x
  other : ∀ n x, n ≠ a → st'.cache.get? n x = st.cache.get? n x

theorem SameView.refl {E : Env} {s : Scope} {a : Nat} {st : St} (h : One E s a st) : SameView E s a st st :=
  ⟨SameButCache.refl _, h, fun _ _ => rfl, fun _ _ _ => rfl⟩

theorem SameView.trans {E : Env} {s : Scope} {a : Nat} {st st1 st2 : St} (h1 : SameView E s a st st1)
    (h2 : SameView E s a st1 st2) : SameView E s a st st2 :=
  ⟨h1.same.trans h2.same, h2.one, fun x hx => (h2.view x hx).trans (h1.view x hx),
    fun n x hn => (h2.other n x hn).trans (h1.other n x hn)⟩

theorem view_none {st : St} {a c : Nat} (h : st.cache.get? a c = none) : view st a c = st.hw a c := by
  simp [view, h]

theorem view_some {st : St} {a c : Nat} {v : Int} (h : st.cache.get? a c = some v) : view st a c = v := by
  simp [view, h]

/-! ### Reading -/

theorem readOne_view {E : Env} (w : TopoWF E.T) {s : Scope} {a : Nat} {st : St} (h : One E s a st) {c : Nat}
    (hc : c ∈ E.T.online) :
    SameView E s a st (readOne E st a s c).1 ∧
    (∀ v, (readOne E st a s c).2 = .ok v → v = view st a c) ∧
    (E.rfail a c = false → (readOne E st a s c).2 = .ok (view st a c)) := by
  unfold readOne
  cases hg : st.cache.get? a c with
  | some v =>
    exact ⟨SameView.refl h, fun u hu => by cases hu; exact (view_some hg).symm, fun _ => by rw [view_some hg]⟩
  | none =>
    simp only
    split
    · rename_i hf
      exact ⟨SameView.refl h, (fun u hu => by cases hu), fun h => by rw [h] at hf; cases hf⟩
    · refine ⟨⟨⟨rfl, rfl, rfl, rfl, by simp⟩, ⟨h.hw, ?_⟩, ?_, ?_⟩, fun u hu => by cases hu; exact (view_none hg).symm,
        fun _ => by rw [view_none hg]⟩
      · intro x hx y hy
        simp only [Cache.get?_add]
        have hiff : y ∈ E.T.sib s c ↔ x ∈ E.T.sib s c := by
          constructor
          · intro hh
            rw [w.common hc hx hh hy]; exact w.refl _ _ hx
          · intro hh
            rw [w.common hc hx hh (w.refl _ _ hx)]; exact hy
        by_cases hh : x ∈ E.T.sib s c
        · simp only [hh, hiff.2 hh, h.cache x hx y hy]
        · have : ¬ y ∈ E.T.sib s c := fun h => hh (hiff.1 h)
          simp only [hh, this, h.cache x hx y hy]
      · intro x hx
        unfold view
        simp only [Cache.get?_add]
        split
        · rename_i hh
          have h1 := h.cache c hc x hh.2.2
          rw [h1, hg]
          exact (h.hw c hc x hh.2.2).symm
        · rfl
      · intro n x hn
        simp only [Cache.get?_add]
        rw [if_neg (fun h => hn h.2.1)]

/-- Reading another register. -/
theorem readOne_other {E : Env} {s s' : Scope} {a n : Nat} (hn : n ≠ a) {st : St} (h : One E s a st) (c : Nat) :
    SameButCache st (readOne E st n s' c).1 ∧ One E s a (readOne E st n s' c).1 ∧
    ∀ x, (readOne E st n s' c).1.cache.get? a x = st.cache.get? a x := by
  have hs := readOne_same E st n s' c
  have : ∀ x, (readOne E st n s' c).1.cache.get? a x = st.cache.get? a x := by
    intro x
    unfold readOne
    split
    · rfl
    · split
      · rfl
      · simp only [Cache.get?_add]
        rw [if_neg (fun h => hn h.2.1.symm)]
  refine ⟨hs, ⟨by rw [hs.1]; exact h.hw, fun x hx y hy => ?_⟩, this⟩
  rw [this, this]
  exact h.cache x hx y hy

theorem readBitsLoop_view {E : Env} (w : TopoWF E.T) {s : Scope} {a : Nat} {bits : BitRange} (l : List Nat)
    (ho : ∀ c ∈ l, c ∈ E.T.online) {st : St} (h : One E s a st) :
    SameView E s a st (readBitsLoop E a bits s l st).1 ∧
    (∀ r, (readBitsLoop E a bits s l st).2 = .ok r →
      r.map Prod.fst = l ∧ ∀ p ∈ r, getBits (view st a p.1) bits = .ok p.2) ∧
    ((∀ c ∈ l, E.rfail a c = false ∧ ∃ v, getBits (view st a c) bits = .ok v) →
      ∃ r, (readBitsLoop E a bits s l st).2 = .ok r) := by
  induction l generalizing st with
  | nil => exact ⟨SameView.refl h, fun r hr => by cases hr; exact ⟨rfl, by simp⟩, fun _ => ⟨_, rfl⟩⟩
  | cons c l ih =>
    obtain ⟨h1, h2, h3⟩ := readOne_view w h (ho c (by simp))
    have hol : ∀ x ∈ l, x ∈ E.T.online := fun x hx => ho x (by simp [hx])
    unfold readBitsLoop
    cases hr : readOne E st a s c with
    | mk st1 r =>
      rw [hr] at h1 h2 h3
      cases r with
      | error e =>
        refine ⟨h1, (fun r hr => by cases hr), fun hf => ?_⟩
        have := h3 (hf c (by simp)).1; cases this
      | ok v =>
        obtain rfl := h2 v rfl
        simp only
        cases hg : getBits (view st a c) bits with
        | error e =>
          refine ⟨h1, (fun r hr => by cases hr), fun hf => ?_⟩
          obtain ⟨v, hv⟩ := (hf c (by simp)).2
          rw [hg] at hv; cases hv
        | ok v =>
          obtain ⟨k1, k2, k3⟩ := ih hol h1.one
          simp only
          cases hl : readBitsLoop E a bits s l st1 with
          | mk st2 r2 =>
            rw [hl] at k1 k2 k3
            cases r2 with
            | error e =>
              refine ⟨h1.trans k1, (fun r hr => by cases hr), fun hf => ?_⟩
              obtain ⟨r, hr⟩ := k3 fun x hx => by
                rw [h1.view x (hol x hx)]; exact hf x (by simp [hx])
              cases hr
            | ok r2 =>
              refine ⟨h1.trans k1, fun r hr => ?_, fun _ => ⟨_, rfl⟩⟩
              cases hr
              obtain ⟨g1, g2⟩ := k2 r2 rfl
              refine ⟨by simp [g1], fun p hp => ?_⟩
              rcases List.mem_cons.1 hp with rfl | hp
              · exact hg
              · have hm : p.1 ∈ l := by rw [← g1]; exact List.mem_map_of_mem hp
                rw [← h1.view p.1 (hol _ hm)]
                exact g2 p hp

theorem modifyLoop_view {E : Env} (w : TopoWF E.T) {s : Scope} {a : Nat} {bits : BitRange} {val : FieldVal}
    {f : Nat → Int} (l : List Nat) (ho : ∀ c ∈ l, c ∈ E.T.online) (st st' : St) (acc : Dict Int (List Nat))
    (r : Except Exn (Dict Int (List Nat))) (h1 : One E s a st) (hf : ∀ x ∈ E.T.online, view st a x = f x)
    (h : modifyLoop E a bits val s l st acc = (st', r)) :
    SameView E s a st st' ∧
    (∀ g, r = .ok g →
      (∀ c ∈ l, ∃ v, setBits (f c) bits val = .ok v) ∧
      (∀ v, (g.get? v).getD [] = (acc.get? v).getD [] ++ l.filter (changesTo (fun _ => f) a bits val v)) ∧
      ((Dict.keys acc).Nodup → (Dict.keys g).Nodup)) ∧
    ((∀ c ∈ l, E.rfail a c = false ∧ ∃ v, setBits (f c) bits val = .ok v) → ∃ g, r = .ok g) := by
  induction l generalizing st acc with
  | nil =>
    unfold modifyLoop at h
    cases h
    exact ⟨SameView.refl h1, fun g hg => by
      cases hg; exact ⟨fun c hc => by simp at hc, fun v => by simp, fun h => h⟩, fun _ => ⟨_, rfl⟩⟩
  | cons c l ih =>
    obtain ⟨k1, k2, k3⟩ := readOne_view w h1 (ho c (by simp))
    have hol : ∀ x ∈ l, x ∈ E.T.online := fun x hx => ho x (by simp [hx])
    unfold modifyLoop at h
    cases hr : readOne E st a s c with
    | mk st1 r1 =>
      rw [hr] at h k1 k2 k3
      have hf1 : ∀ x ∈ E.T.online, view st1 a x = f x := fun x hx => (k1.view x hx).trans (hf x hx)
      cases r1 with
      | error e =>
        simp only at h
        cases h
        refine ⟨k1, (fun g hg => by cases hg), fun hh => ?_⟩
        have := k3 (hh c (by simp)).1; cases this
      | ok v =>
        obtain rfl := k2 v rfl
        rw [hf c (ho c (by simp))] at h
        simp only at h
        cases hsb : setBits (f c) bits val with
        | error e =>
          simp only [hsb] at h
          cases h
          refine ⟨k1, (fun g hg => by cases hg), fun hh => ?_⟩
          obtain ⟨v, hv⟩ := (hh c (by simp)).2
          rw [hsb] at hv; cases hv
        | ok new =>
          simp only [hsb] at h
          by_cases hne : f c = new
          · rw [if_pos hne] at h
            obtain ⟨q1, q3, q4⟩ := ih hol st1 acc k1.one hf1 h
            refine ⟨k1.trans q1, fun g hg => ?_, fun hh => q4 fun x hx => hh x (by simp [hx])⟩
            obtain ⟨g1, g2, g3⟩ := q3 g hg
            refine ⟨?_, ?_, g3⟩
            · intro x hx
              rcases List.mem_cons.1 hx with rfl | hx
              · exact ⟨new, hsb⟩
              · exact g1 x hx
            · intro v
              rw [g2 v, List.filter_cons_of_neg]
              simp only [changesTo, hsb, Except.ok.injEq, Bool.and_eq_true, decide_eq_true_eq]
              rintro ⟨rfl, h⟩; exact h hne
          · rw [if_neg hne] at h
            obtain ⟨q1, q3, q4⟩ := ih hol st1 _ k1.one hf1 h
            refine ⟨k1.trans q1, fun g hg => ?_, fun hh => q4 fun x hx => hh x (by simp [hx])⟩
            obtain ⟨g1, g2, g3⟩ := q3 g hg
            refine ⟨?_, ?_, fun hn => g3 (Dict.nodup_keys_set hn _ _)⟩
            · intro x hx
              rcases List.mem_cons.1 hx with rfl | hx
              · exact ⟨new, hsb⟩
              · exact g1 x hx
            · intro v
              rw [g2 v, Dict.get?_set]
              by_cases hv : new = v
              · subst hv
                rw [if_pos rfl, List.filter_cons_of_pos]
                · simp
                · simp [changesTo, hsb, hne]
              · rw [if_neg hv, List.filter_cons_of_neg]
                simp [changesTo, hsb, hv]

/-! ### Removal and verification -/

/-- CPU `x` is in the unit of a CPU of the list. -/
def InU (E : Env) (s : Scope) (l : List Nat) (x : Nat) : Prop := ∃ c ∈ l, x ∈ E.T.sib s c

theorem InU.congr {E : Env} (w : TopoWF E.T) {s : Scope} {l : List Nat} (ho : ∀ c ∈ l, c ∈ E.T.online) {x y : Nat}
    (hx : x ∈ E.T.online) (hy : y ∈ E.T.sib s x) : InU E s l y ↔ InU E s l x := by
  constructor
  · rintro ⟨c, hc, h⟩
    refine ⟨c, hc, ?_⟩
    rw [w.common (ho c hc) hx h hy]; exact w.refl _ _ hx
  · rintro ⟨c, hc, h⟩
    refine ⟨c, hc, ?_⟩
    rw [w.common (ho c hc) hx h (w.refl _ _ hx)]; exact hy

theorem removeLoop_view {E : Env} (w : TopoWF E.T) {s : Scope} (hs : s ≠ .global) {a : Nat} (l : List Nat)
    (ho : ∀ c ∈ l, c ∈ E.T.online) {st : St} (h : One E s a st) :
    (removeLoop E a s l st).2 = .ok () ∧ SameButCache st (removeLoop E a s l st).1 ∧
    One E s a (removeLoop E a s l st).1 ∧
    (∀ x, InU E s l x → (removeLoop E a s l st).1.cache.get? a x = none) ∧
    (∀ x, ¬ InU E s l x → (removeLoop E a s l st).1.cache.get? a x = st.cache.get? a x) ∧
    (∀ n x, n ≠ a → (removeLoop E a s l st).1.cache.get? n x = st.cache.get? n x) := by
  obtain ⟨h1, h2, h3, h4, h5⟩ := removeLoop_spec (E := E) (a := a) (s := s) l st
  obtain ⟨g1, g2⟩ := h5 hs
  have k1 : ∀ x, InU E s l x → (removeLoop E a s l st).1.cache.get? a x = none :=
    fun x ⟨c, hc, hx⟩ => h4 g1 c hc x hx
  have k2 : ∀ x, ¬ InU E s l x → (removeLoop E a s l st).1.cache.get? a x = st.cache.get? a x :=
    fun x hx => g2 x (fun c hc hh => hx ⟨c, hc, hh⟩)
  refine ⟨g1, h1, ⟨by rw [h1.1]; exact h.hw, fun x hx y hy => ?_⟩, k1, k2, h2⟩
  have hiff := InU.congr w ho hx hy
  by_cases hu : InU E s l x
  · rw [k1 x hu, k1 y (hiff.2 hu)]
  · rw [k2 x hu, k2 y (fun h => hu (hiff.1 h))]
    exact h.cache x hx y hy

theorem verifyLoop_view {E : Env} (w : TopoWF E.T) {s : Scope} {a : Nat} {val : Int} (l : List Nat)
    (ho : ∀ c ∈ l, c ∈ E.T.online) {st : St} (h : One E s a st) :
    SameView E s a st (verifyLoop E a val s l st).1 ∧
    ((verifyLoop E a val s l st).2 = .ok () → ∀ c ∈ l, view st a c = val) ∧
    ((∀ c ∈ l, view st a c = val) → (∀ c ∈ l, E.rfail a c = false) → (verifyLoop E a val s l st).2 = .ok ()) := by
  induction l generalizing st with
  | nil => exact ⟨SameView.refl h, fun _ c h => by simp at h, fun _ _ => rfl⟩
  | cons c l ih =>
    obtain ⟨h1, h2, h3⟩ := readOne_view w h (ho c (by simp))
    have hol : ∀ x ∈ l, x ∈ E.T.online := fun x hx => ho x (by simp [hx])
    unfold verifyLoop
    cases hr : readOne E st a s c with
    | mk st1 r =>
      rw [hr] at h1 h2 h3
      cases r with
      | error e =>
        refine ⟨h1, (fun h => by cases h), fun _ hf => ?_⟩
        have := h3 (hf c (by simp)); cases this
      | ok v =>
        obtain rfl := h2 v rfl
        obtain ⟨g1, g2, g3⟩ := ih hol h1.one
        simp only
        by_cases hne : view st a c ≠ val
        · rw [if_pos hne]
          exact ⟨h1, (fun h => by cases h), fun hv' _ => absurd (hv' c (by simp)) hne⟩
        · rw [if_neg hne]
          refine ⟨h1.trans g1, fun hok x hx => ?_, fun hv' hf => g3 (fun x hx => ?_)
            (fun x hx => hf x (by simp [hx]))⟩
          · rcases List.mem_cons.1 hx with rfl | hx
            · simpa using hne
            · rw [← h1.view x (hol x hx)]; exact g2 hok x hx
          · rw [h1.view x (hol x hx)]; exact hv' x (by simp [hx])

/-- `_verify()` makes the object show what the hardware holds. -/
theorem verify_view {E : Env} (w : TopoWF E.T) {s : Scope} (hs : s ≠ .global) {a : Nat} {val : Int} (l : List Nat)
    (ho : ∀ c ∈ l, c ∈ E.T.online) {st : St} (h : One E s a st) :
    SameButCache st (verify E a val l s st).1 ∧ One E s a (verify E a val l s st).1 ∧
    (∀ x ∈ E.T.online, InU E s l x → view (verify E a val l s st).1 a x = st.hw a x) ∧
    (∀ x ∈ E.T.online, ¬ InU E s l x → view (verify E a val l s st).1 a x = view st a x) ∧
    (∀ n x, n ≠ a → (verify E a val l s st).1.cache.get? n x = st.cache.get? n x) ∧
    ((verify E a val l s st).2 = .ok () → ∀ c ∈ l, st.hw a c = val) ∧
    ((∀ c ∈ l, st.hw a c = val) → (∀ c ∈ l, E.rfail a c = false) → (verify E a val l s st).2 = .ok ()) := by
  obtain ⟨r1, r2, r3, r4, r5, r6⟩ := removeLoop_view w hs l ho h
  unfold verify
  cases hr : removeLoop E a s l st with
  | mk st1 r =>
    rw [hr] at r1 r2 r3 r4 r5 r6
    simp only at r1
    subst r1
    obtain ⟨g1, g2, g3⟩ := verifyLoop_view w (val := val) l ho r3
    have hv : ∀ x, InU E s l x → view st1 a x = st.hw a x := fun x hx => by
      rw [view_none (r4 x hx), r2.1]
    have hself : ∀ c ∈ l, view st1 a c = st.hw a c := fun c hc => hv c ⟨c, hc, w.refl _ _ (ho c hc)⟩
    refine ⟨r2.trans g1.same, g1.one, fun x hx hu => (g1.view x hx).trans (hv x hu), fun x hx hu => ?_,
      fun n x hn => (g1.other n x hn).trans (r6 n x hn), fun hok c hc => ?_, fun hh hf => g3 (fun c hc => ?_) hf⟩
    · rw [g1.view x hx]
      unfold view
      rw [r5 x hu, r2.1]
    · rw [← hself c hc]; exact g2 hok c hc
    · rw [hself c hc]; exact hh c hc

/-! ### Writing -/

/-- Every bit of `r` is the bit of `o` or of `v`. -/
def Mix (o v r : Int) : Prop := ∀ i : Nat, r.testBit i = o.testBit i ∨ r.testBit i = v.testBit i

theorem Mix.refl (o v : Int) : Mix o v o := fun _ => .inl rfl

theorem Mix.trans {o v r r' : Int} (h1 : Mix o v r) (h2 : Mix r v r') : Mix o v r' := by
  intro i
  rcases h2 i with h | h
  · rw [h]; exact h1 i
  · exact .inr h

/-- The value fits a register. -/
def Fits (v : Int) : Prop := 0 ≤ v ∧ v < 2 ^ 64

theorem Mix.fits {o v r : Int} (h : Mix o v r) (ho : Fits o) (hv : Fits v) : Fits r := by
  refine range_of_testBit (n := 64) fun k hk => ?_
  rcases h k with e | e
  · rw [e]; exact testBit_of_range ho.1 ho.2 hk
  · rw [e]; exact testBit_of_range hv.1 hv.2 hk

/-- What is assumed about the hardware of register `a`: it is shared by the CPUs of a unit, a write changes no bits but to
those written, and writes are not refused. -/
structure Honest (E : Env) (s : Scope) (a : Nat) : Prop where
  topo : TopoWF E.T
  nonglobal : s ≠ .global
  share : ∀ c ∈ E.T.online, ∀ d ∈ E.T.online, E.share a c d = true ↔ d ∈ E.T.sib s c
  mix : ∀ o v, Mix o v (E.store a o v)
  writes : ∀ c ∈ E.T.online, E.wfail a c = false

theorem uni_write {E : Env} (w : TopoWF E.T) {s : Scope} {c : Nat} (hc : c ∈ E.T.online) {α : Type} {f g : Nat → α} {v : α}
    (hf : Uni E s f) (hg : ∀ x ∈ E.T.online, g x = if x ∈ E.T.sib s c then v else f x) : Uni E s g := by
  intro x hx y hy
  have hyo := w.sub _ _ _ hx hy
  rw [hg x hx, hg y hyo]
  have hiff : y ∈ E.T.sib s c ↔ x ∈ E.T.sib s c := by
    constructor
    · intro hh
      rw [w.common hc hx hh hy]; exact w.refl _ _ hx
    · intro hh
      rw [w.common hc hx hh (w.refl _ _ hx)]; exact hy
  by_cases hh : x ∈ E.T.sib s c
  · rw [if_pos hh, if_pos (hiff.2 hh)]
  · rw [if_neg hh, if_neg (fun h => hh (hiff.1 h))]
    exact hf x hx y hy

theorem hwWrite_honest {E : Env} {s : Scope} {a : Nat} (H : Honest E s a) {st : St} (h : One E s a st) {val : Int}
    (hv : Fits val) {c : Nat} (hc : c ∈ E.T.online) :
    ∃ st', hwWrite E st a val c = (st', .ok ()) ∧ st'.cache = st.cache ∧ st'.buf = st.buf ∧
      st'.inTransaction = st.inTransaction ∧ Uni E s (st'.hw a) ∧ (∀ n x, n ≠ a → st'.hw n x = st.hw n x) ∧
      ∀ x ∈ E.T.online, (x ∉ E.T.sib s c → st'.hw a x = st.hw a x) ∧
        (x ∈ E.T.sib s c → st'.hw a x = E.store a (st.hw a x) val) := by
  obtain ⟨st', hw⟩ := hwWrite_fits (E := E) st hv (H.writes c hc)
  obtain ⟨-, -, f3, f4, f5, -, f7⟩ := hwWrite_ok hw
  have hx : ∀ x ∈ E.T.online, st'.hw a x = if x ∈ E.T.sib s c then E.store a (st.hw a c) val else st.hw a x := by
    intro x hx
    rw [f7]
    have := H.share c hc x hx
    by_cases hh : x ∈ E.T.sib s c
    · rw [if_pos ⟨rfl, this.2 hh⟩, if_pos hh]
    · rw [if_neg (fun h => hh (this.1 h.2)), if_neg hh]
  refine ⟨st', hw, f3, f4, f5, uni_write H.topo hc h.hw hx, fun n x hn => by rw [f7, if_neg (fun h => hn h.1)],
    fun x hxo => ⟨fun hh => by rw [hx x hxo, if_neg hh], fun hh => by rw [hx x hxo, if_pos hh, h.hw c hc x hh]⟩⟩

/-- The write loop outside of transactions. -/
theorem writeLoop_now {E : Env} {s : Scope} {a : Nat} (H : Honest E s a) {val : Int} {vfy : Bool}
    (l : List Nat) (hv : ∀ c ∈ l, Fits val) (ho : ∀ c ∈ l, c ∈ E.T.online) {st : St} (h : One E s a st) (hi : st.inTransaction = false)
    (hpre : ∀ x, InU E s l x → st.cache.get? a x = none ∨ st.cache.get? a x = some val) :
    ∃ st', writeLoop E a val vfy s l st = (st', .ok ()) ∧ st'.buf = st.buf ∧ st'.inTransaction = false ∧
      st'.cache.enabled = st.cache.enabled ∧ One E s a st' ∧
      (∀ n x, n ≠ a → st'.hw n x = st.hw n x ∧ st'.cache.get? n x = st.cache.get? n x) ∧
      (∀ x ∈ E.T.online, ¬ InU E s l x → st'.hw a x = st.hw a x ∧ st'.cache.get? a x = st.cache.get? a x) ∧
      (∀ x ∈ E.T.online, InU E s l x → Mix (st.hw a x) val (st'.hw a x) ∧
        st'.cache.get? a x = if st.cache.enabled then some val else none) ∧
      ((∀ o v, E.store a o v = v) → ∀ x ∈ E.T.online, InU E s l x → st.cache.get? a x = none → st'.hw a x = val) := by
  have w := H.topo
  induction l generalizing st with
  | nil =>
    exact ⟨st, rfl, rfl, hi, rfl, h, fun _ _ _ => ⟨rfl, rfl⟩, fun _ _ _ => ⟨rfl, rfl⟩,
      (fun x _ ⟨c, hc, _⟩ => by simp at hc), (fun _ x _ ⟨c, hc, _⟩ => by simp at hc)⟩
  | cons c l ih =>
    have hco : c ∈ E.T.online := ho c (by simp)
    have hol : ∀ x ∈ l, x ∈ E.T.online := fun x hx => ho x (by simp [hx])
    have hmono : ∀ x, InU E s l x → InU E s (c :: l) x := fun x ⟨d, hd, hx⟩ => ⟨d, by simp [hd], hx⟩
    have hsplit : ∀ x, InU E s (c :: l) x → x ∈ E.T.sib s c ∨ InU E s l x := by
      rintro x ⟨d, hd, hx⟩
      rcases List.mem_cons.1 hd with rfl | hd
      · exact .inl hx
      · exact .inr ⟨d, hd, hx⟩
    have hcu : InU E s (c :: l) c := ⟨c, by simp, w.refl _ _ hco⟩
    unfold writeLoop
    by_cases hcc : st.cache.isCached a c = true
    · rw [if_pos hcc]
      obtain ⟨st', k1, k2, k3, k4, k5, k6, k7, k8, k9⟩ := ih (fun x hx => hv x (by simp [hx])) hol h hi (fun x hx => hpre x (hmono x hx))
      have hcv : st.cache.get? a c = some val := by
        rcases hpre c hcu with h | h
        · simp [Cache.isCached, h] at hcc
        · exact h
      have hen : st.cache.enabled = true := by
        by_cases he : st.cache.enabled = true
        · exact he
        · rw [Cache.get?_disabled (by simpa using he)] at hcv; cases hcv
      refine ⟨st', k1, k2, k3, k4, k5, k6, fun x hx hn => k7 x hx (fun h => hn (hmono x h)), fun x hx hu => ?_,
        fun hst x hx hu hnone => ?_⟩
      · by_cases hul : InU E s l x
        · exact k8 x hx hul
        · rcases hsplit x hu with hxc | hul'
          · rw [(k7 x hx hul).1, (k7 x hx hul).2, h.cache c hco x hxc, hcv, hen]
            exact ⟨Mix.refl _ _, rfl⟩
          · exact absurd hul' hul
      · rcases hsplit x hu with hxc | hul'
        · rw [h.cache c hco x hxc, hcv] at hnone; cases hnone
        · exact k9 hst x hx hul' hnone
    · rw [if_neg hcc]
      simp only [hi, Bool.not_false, if_true]
      obtain ⟨st1, e1, e2, e3, e4, e5, e6, e7⟩ := hwWrite_honest H h (hv c (by simp)) hco
      rw [e1]
      simp only
      have hcache : ∀ n x, (st1.cache.add E.T a c val s).get? n x =
          if st.cache.enabled = true ∧ n = a ∧ x ∈ E.T.sib s c then some val else st.cache.get? n x := by
        intro n x; rw [Cache.get?_add, e2]
      have hone : One E s a { st1 with cache := st1.cache.add E.T a c val s } := by
        refine ⟨e5, ?_⟩
        by_cases hen : st.cache.enabled = true
        · exact uni_write w hco h.cache (v := some val) (fun x _ => by
            show (st1.cache.add E.T a c val s).get? a x = _
            rw [hcache]; simp [hen])
        · intro x hx y hy
          show (st1.cache.add E.T a c val s).get? a y = (st1.cache.add E.T a c val s).get? a x
          rw [hcache, hcache, if_neg (fun h => hen h.1), if_neg (fun h => hen h.1)]
          exact h.cache x hx y hy
      obtain ⟨st', k1, k2, k3, k4, k5, k6, k7, k8, k9⟩ := ih (st := { st1 with cache := st1.cache.add E.T a c val s })
        (fun x hx => hv x (by simp [hx])) hol
        hone (e4.trans hi) (by
        intro x hx
        show (st1.cache.add E.T a c val s).get? a x = none ∨ (st1.cache.add E.T a c val s).get? a x = some val
        rw [hcache]
        split
        · exact .inr rfl
        · exact hpre x (hmono x hx))
      simp only at k2 k4 k6 k7 k8 k9
      have hence : (st1.cache.add E.T a c val s).enabled = st.cache.enabled := by rw [Cache.enabled_add, e2]
      rw [hence] at k8
      refine ⟨st', k1, k2.trans e3, k3, k4.trans hence, k5, ?_, ?_, ?_, ?_⟩
      · intro n x hn
        obtain ⟨q1, q2⟩ := k6 n x hn
        refine ⟨q1.trans (e6 n x hn), q2.trans ?_⟩
        rw [hcache, if_neg (fun h => hn h.2.1)]
      · intro x hx hn
        obtain ⟨q1, q2⟩ := k7 x hx (fun h => hn (hmono x h))
        have hxc : x ∉ E.T.sib s c := fun h => hn ⟨c, by simp, h⟩
        refine ⟨q1.trans ((e7 x hx).1 hxc), q2.trans ?_⟩
        rw [hcache, if_neg (fun h => hxc h.2.2)]
      · intro x hx hu
        have hmix : Mix (st.hw a x) val (st1.hw a x) := by
          by_cases hxc : x ∈ E.T.sib s c
          · rw [(e7 x hx).2 hxc]; exact H.mix _ _
          · rw [(e7 x hx).1 hxc]; exact Mix.refl _ _
        by_cases hul : InU E s l x
        · exact ⟨hmix.trans (k8 x hx hul).1, (k8 x hx hul).2⟩
        · obtain ⟨q1, q2⟩ := k7 x hx hul
          rcases hsplit x hu with hxc | h
          · rw [q1, q2, hcache]
            refine ⟨hmix, ?_⟩
            by_cases hen : st.cache.enabled = true
            · rw [if_pos ⟨hen, rfl, hxc⟩, if_pos hen]
            · rw [if_neg (fun h => hen h.1), if_neg hen, Cache.get?_disabled (by simpa using hen)]
          · exact absurd h hul
      · intro hst x hx hu hnone
        by_cases hxc : x ∈ E.T.sib s c
        · have h1 : st1.hw a x = val := by rw [(e7 x hx).2 hxc, hst]
          by_cases hul : InU E s l x
          · have := (k8 x hx hul).1
            rw [h1] at this
            exact int_ext_testBit fun i => (this i).elim id id
          · rw [(k7 x hx hul).1, h1]
        · rcases hsplit x hu with h | hul
          · exact absurd h hxc
          · refine k9 hst x hx hul ?_
            show (st1.cache.add E.T a c val s).get? a x = none
            rw [hcache, if_neg (fun h => hxc h.2.2), hnone]

/-- The write loop in a transaction. -/
theorem writeLoop_later {E : Env} {s : Scope} {a : Nat} (w : TopoWF E.T) {val : Int} {vfy : Bool}
    (l : List Nat) (ho : ∀ c ∈ l, c ∈ E.T.online) {st : St} (h : One E s a st) (hi : st.inTransaction = true)
    (hen : st.cache.enabled = true) (hb : BufOK st.buf)
    (hpre : ∀ x, InU E s l x → st.cache.get? a x = none ∨ st.cache.get? a x = some val) :
    ∃ st', writeLoop E a val vfy s l st = (st', .ok ()) ∧ st'.hw = st.hw ∧ st'.inTransaction = true ∧
      st'.cache.enabled = true ∧ One E s a st' ∧ BufOK st'.buf ∧
      (∀ n x, n ≠ a → st'.cache.get? n x = st.cache.get? n x) ∧
      (∀ x ∈ E.T.online, ¬ InU E s l x → st'.cache.get? a x = st.cache.get? a x) ∧
      (∀ x ∈ E.T.online, InU E s l x → st'.cache.get? a x = some val) ∧
      (∀ c n, n ≠ a ∨ c ∉ l → look st'.buf c n = look st.buf c n) ∧
      (∀ c, look st'.buf c a = look st.buf c a ∨ look st'.buf c a = some ⟨val, vfy, s⟩) ∧
      (∀ x, InU E s l x → st.cache.get? a x = none → ∃ d ∈ l, x ∈ E.T.sib s d ∧ look st'.buf d a = some ⟨val, vfy, s⟩) := by
  induction l generalizing st with
  | nil =>
    exact ⟨st, rfl, rfl, hi, hen, h, hb, fun _ _ _ => rfl, fun _ _ _ => rfl,
      (fun x _ ⟨c, hc, _⟩ => by simp at hc), fun _ _ _ => rfl, fun _ => .inl rfl, (fun x ⟨c, hc, _⟩ => by simp at hc)⟩
  | cons c l ih =>
    have hco : c ∈ E.T.online := ho c (by simp)
    have hol : ∀ x ∈ l, x ∈ E.T.online := fun x hx => ho x (by simp [hx])
    have hmono : ∀ x, InU E s l x → InU E s (c :: l) x := fun x ⟨d, hd, hx⟩ => ⟨d, by simp [hd], hx⟩
    have hsplit : ∀ x, InU E s (c :: l) x → x ∈ E.T.sib s c ∨ InU E s l x := by
      rintro x ⟨d, hd, hx⟩
      rcases List.mem_cons.1 hd with rfl | hd
      · exact .inl hx
      · exact .inr ⟨d, hd, hx⟩
    have hcu : InU E s (c :: l) c := ⟨c, by simp, w.refl _ _ hco⟩
    unfold writeLoop
    by_cases hcc : st.cache.isCached a c = true
    · rw [if_pos hcc]
      obtain ⟨st', k1, k2, k3, k4, k5, k6, k7, k8, k9, k10, k11, k12⟩ :=
        ih hol h hi hen hb (fun x hx => hpre x (hmono x hx))
      have hcv : st.cache.get? a c = some val := by
        rcases hpre c hcu with h | h
        · simp [Cache.isCached, h] at hcc
        · exact h
      refine ⟨st', k1, k2, k3, k4, k5, k6, k7, fun x hx hn => k8 x hx (fun h => hn (hmono x h)), fun x hx hu => ?_,
        fun d n hd => k10 d n (hd.imp id (fun h h' => h (by simp [h']))), k11, fun x hu hnone => ?_⟩
      · by_cases hul : InU E s l x
        · exact k9 x hx hul
        · rcases hsplit x hu with hxc | hul'
          · rw [k8 x hx hul, h.cache c hco x hxc, hcv]
          · exact absurd hul' hul
      · rcases hsplit x hu with hxc | hul'
        · rw [h.cache c hco x hxc, hcv] at hnone; cases hnone
        · obtain ⟨d, hd, q⟩ := k12 x hul' hnone
          exact ⟨d, by simp [hd], q⟩
    · rw [if_neg hcc]
      simp only [hi, Bool.not_true, Bool.false_eq_true, if_false, addForTransaction, hen]
      have hcache : ∀ n x, (st.cache.add E.T a c val s).get? n x =
          if n = a ∧ x ∈ E.T.sib s c then some val else st.cache.get? n x := by
        intro n x; rw [Cache.get?_add]; simp [hen]
      have hl0 := look_set st.buf c a ⟨val, vfy, s⟩
      obtain ⟨st', k1, k2, k3, k4, k5, k6, k7, k8, k9, k10, k11, k12⟩ :=
        ih (st := { st with buf := st.buf.set c (((st.buf.get? c).getD []).set a ⟨val, vfy, s⟩),
                            cache := st.cache.add E.T a c val s }) hol
        ⟨h.hw, uni_write w hco h.cache (v := some val) (fun x _ => by
            show (st.cache.add E.T a c val s).get? a x = _
            rw [hcache]; simp)⟩ hi (by show (st.cache.add E.T a c val s).enabled = true; rw [Cache.enabled_add, hen])
          (bufOK_set hb _ _ _) (by
        intro x hx
        show (st.cache.add E.T a c val s).get? a x = none ∨ (st.cache.add E.T a c val s).get? a x = some val
        rw [hcache]
        split
        · exact .inr rfl
        · exact hpre x (hmono x hx))
      simp only at k2 k7 k8 k10 k11 k12
      simp only [hi] at k1
      refine ⟨st', k1, k2, k3, k4, k5, k6, ?_, ?_, ?_, ?_, ?_, ?_⟩
      · intro n x hn
        rw [k7 n x hn, hcache, if_neg (fun h => hn h.1)]
      · intro x hx hn
        rw [k8 x hx (fun h => hn (hmono x h)), hcache, if_neg (fun h => hn ⟨c, by simp, h.2⟩)]
      · intro x hx hu
        by_cases hul : InU E s l x
        · exact k9 x hx hul
        · rcases hsplit x hu with hxc | h
          · rw [k8 x hx hul, hcache, if_pos ⟨rfl, hxc⟩]
          · exact absurd h hul
      · intro d n hd
        rw [k10 d n (hd.imp id (fun h h' => h (by simp [h']))), hl0, if_neg]
        rintro ⟨rfl, rfl⟩
        rcases hd with h | h
        · exact h rfl
        · exact h (by simp)
      · intro d
        rcases k11 d with h | h
        · rw [h, hl0]
          split
          · exact .inr rfl
          · exact .inl rfl
        · exact .inr h
      · intro x hu hnone
        by_cases hxc : x ∈ E.T.sib s c
        · refine ⟨c, by simp, hxc, ?_⟩
          rcases k11 c with h | h
          · rw [h, hl0, if_pos ⟨rfl, rfl⟩]
          · exact h
        · rcases hsplit x hu with h | hul
          · exact absurd h hxc
          · obtain ⟨d, hd, q⟩ := k12 x hul (by
              show (st.cache.add E.T a c val s).get? a x = none
              rw [hcache, if_neg (fun h => hxc h.2), hnone])
            exact ⟨d, by simp [hd], q⟩

/-! ### Groups of CPUs -/

/-- What may happen to CPU `x` when groups are written: nothing, or its group is written and the object shows what the
hardware holds, or what was written. -/
def Wrote (E : Env) (s : Scope) (a : Nat) (vfy : Bool) (gs : Dict Int (List Nat)) (st st' : St) (x : Nat) : Prop :=
  (st'.hw a x = st.hw a x ∧ view st' a x = view st a x) ∨
  ∃ p ∈ gs, InU E s p.2 x ∧ Mix (st.hw a x) p.1 (st'.hw a x) ∧
    (view st' a x = st'.hw a x ∨ vfy = false ∧ view st' a x = p.1)

theorem writeNorm_now {E : Env} {s : Scope} {a : Nat} (H : Honest E s a) {val : Int} {vfy : Bool}
    (l : List Nat) (hv : ∀ c ∈ l, Fits val) (ho : ∀ c ∈ l, c ∈ E.T.online) {st st' : St} {r : Except Exn Unit} (h : One E s a st)
    (hi : st.inTransaction = false) (hw : writeNorm E st a val l s vfy = (st', r)) :
    One E s a st' ∧ st'.buf = st.buf ∧ st'.inTransaction = false ∧ st'.cache.enabled = st.cache.enabled ∧
    (∀ n x, n ≠ a → st'.hw n x = st.hw n x ∧ st'.cache.get? n x = st.cache.get? n x) ∧
    (∀ x ∈ E.T.online, ¬ InU E s l x → st'.hw a x = st.hw a x ∧ view st' a x = view st a x) ∧
    (∀ x ∈ E.T.online, InU E s l x → Mix (st.hw a x) val (st'.hw a x) ∧
      (view st' a x = st'.hw a x ∨ vfy = false ∧ view st' a x = val)) ∧
    (vfy = false → r = .ok ()) ∧ (vfy = true → r = .ok () → ∀ c ∈ l, st'.hw a c = val) ∧
    ((∀ o v, E.store a o v = v) → (∀ c ∈ E.T.online, E.rfail a c = false) → r = .ok () ∧ ∀ c ∈ l, st'.hw a c = val) := by
  have w := H.topo
  obtain ⟨r1, r2, r3, r4, r5, r6⟩ := removeLoop_view w H.nonglobal l ho h
  unfold writeNorm at hw
  cases hr : removeLoop E a s l st with
  | mk st1 r0 =>
    rw [hr] at hw r1 r2 r3 r4 r5 r6
    simp only at r1
    subst r1
    simp only at hw
    obtain ⟨st2, k1, k2, k3, k4, k5, k6, k7, k8, k9⟩ := writeLoop_now H (vfy := vfy) l hv ho r3 (r2.2.2.2.1.trans hi)
      (fun x hx => .inl (r4 x hx))
    rw [k1] at hw
    simp only [k3, Bool.not_false, Bool.and_true] at hw
    have hself : ∀ c ∈ l, InU E s l c := fun c hc => ⟨c, hc, w.refl _ _ (ho c hc)⟩
    have e1 : ∀ x ∈ E.T.online, ¬ InU E s l x → st2.hw a x = st.hw a x ∧ view st2 a x = view st a x := by
      intro x hx hn
      obtain ⟨q1, q2⟩ := k7 x hx hn
      refine ⟨by rw [q1, r2.1], ?_⟩
      unfold view
      rw [q2, q1, r5 x hn, r2.1]
    have e2 : ∀ x ∈ E.T.online, InU E s l x → Mix (st.hw a x) val (st2.hw a x) := by
      intro x hx hn
      rw [← r2.1]; exact (k8 x hx hn).1
    have e3 : ∀ n x, n ≠ a → st2.hw n x = st.hw n x ∧ st2.cache.get? n x = st.cache.get? n x := by
      intro n x hn
      obtain ⟨q1, q2⟩ := k6 n x hn
      exact ⟨by rw [q1, r2.1], by rw [q2, r6 n x hn]⟩
    have e4 : (∀ o v, E.store a o v = v) → ∀ c ∈ l, st2.hw a c = val := fun hst c hc =>
      k9 hst c (ho c hc) (hself c hc) (r4 c (hself c hc))
    cases vfy with
    | false =>
      simp only [Bool.false_eq_true, if_false] at hw
      cases hw
      refine ⟨k5, k2.trans r2.2.2.1, k3, k4.trans r2.2.2.2.2, e3, e1, fun x hx hu => ⟨e2 x hx hu, ?_⟩, fun _ => rfl,
        (fun h => by cases h), fun hst _ => ⟨rfl, e4 hst⟩⟩
      have := (k8 x hx hu).2
      split at this
      · exact .inr ⟨rfl, view_some this⟩
      · exact .inl (view_none this)
    | true =>
      simp only [if_true] at hw
      obtain ⟨v1, v2, v3, v4, v5, v6, v7⟩ := verify_view w H.nonglobal (val := val) l ho k5
      rw [hw] at v1 v2 v3 v4 v5 v6 v7
      simp only at v1 v2 v3 v4 v5 v6 v7
      refine ⟨v2, v1.2.2.1.trans (k2.trans r2.2.2.1), v1.2.2.2.1.trans k3, v1.2.2.2.2.trans (k4.trans r2.2.2.2.2), ?_, ?_, ?_,
        (fun h => by cases h), fun _ hok c hc => by rw [v1.1]; exact v6 hok c hc,
        fun hst hf => ⟨v7 (e4 hst) fun c hc => hf c (ho c hc), fun c hc => by rw [v1.1]; exact e4 hst c hc⟩⟩
      · intro n x hn
        rw [v1.1, v5 n x hn]
        exact e3 n x hn
      · intro x hx hn
        rw [v1.1, v4 x hx hn]
        exact e1 x hx hn
      · intro x hx hu
        rw [v1.1]
        exact ⟨e2 x hx hu, .inl (v3 x hx hu)⟩

theorem writeGroups_now {E : Env} {s : Scope} {a : Nat} (H : Honest E s a) {vfy : Bool} (gs : Dict Int (List Nat))
    (hgs : GroupsOK E s gs) (hfit : ∀ p ∈ gs, ∀ c ∈ p.2, Fits p.1) {st st' : St} {r : Except Exn Unit} (h : One E s a st)
    (hi : st.inTransaction = false) (hw : writeGroups E a s vfy gs st = (st', r)) :
    One E s a st' ∧ st'.buf = st.buf ∧ st'.inTransaction = false ∧ st'.cache.enabled = st.cache.enabled ∧
    (∀ n x, n ≠ a → st'.hw n x = st.hw n x ∧ st'.cache.get? n x = st.cache.get? n x) ∧
    (∀ x ∈ E.T.online, Wrote E s a vfy gs st st' x) ∧
    (vfy = false → r = .ok ()) ∧ (vfy = true → r = .ok () → ∀ p ∈ gs, ∀ c ∈ p.2, st'.hw a c = p.1) ∧
    ((∀ o v, E.store a o v = v) → (∀ c ∈ E.T.online, E.rfail a c = false) → r = .ok () ∧
      ∀ p ∈ gs, ∀ c ∈ p.2, st'.hw a c = p.1) := by
  have w := H.topo
  induction gs generalizing st with
  | nil =>
    unfold writeGroups at hw
    cases hw
    exact ⟨h, rfl, hi, rfl, fun _ _ _ => ⟨rfl, rfl⟩, fun _ _ => .inl ⟨rfl, rfl⟩, fun _ => rfl, (fun _ _ p hp => by simp at hp),
      fun _ _ => ⟨rfl, fun p hp => by simp at hp⟩⟩
  | cons p gs ih =>
    obtain ⟨val, l⟩ := p
    have hn := hgs.nodup (val, l) (by simp)
    have ho := hgs.online (val, l) (by simp)
    have hgs' : GroupsOK E s gs :=
      ⟨fun p hp => hgs.nodup p (by simp [hp]), fun p hp => hgs.online p (by simp [hp]), (List.pairwise_cons.1 hgs.disj).2⟩
    have hdis := (List.pairwise_cons.1 hgs.disj).1
    unfold writeGroups write at hw
    rw [normCpus_nums_self hn ho] at hw
    simp only at hw
    cases h1 : writeNorm E st a val l s vfy with
    | mk st1 r1 =>
      rw [h1] at hw
      obtain ⟨k1, k2, k3, k4, k5, k6, k7, k8, k9, k10⟩ :=
        writeNorm_now H l (hfit (val, l) (by simp)) ho h hi h1
      have hx1 : ∀ x ∈ E.T.online, Wrote E s a vfy ((val, l) :: gs) st st1 x := by
        intro x hx
        by_cases hu : InU E s l x
        · exact .inr ⟨(val, l), by simp, hu, k7 x hx hu⟩
        · exact .inl (k6 x hx hu)
      cases r1 with
      | error e =>
        simp only at hw
        cases hw
        refine ⟨k1, k2, k3, k4, k5, hx1, (fun h => by have := k8 h; cases this), (fun _ h => by cases h), fun hst hf => ?_⟩
        have := (k10 hst hf).1; cases this
      | ok u =>
        simp only at hw
        obtain ⟨q1, q2, q3, q4, q5, q6, q7, q8, q9⟩ := ih hgs' (fun p hp => hfit p (by simp [hp])) k1 k3 hw
        -- The units of the first group are not in the other groups.
        have hnot : ∀ x, x ∈ E.T.online → InU E s l x → ∀ p ∈ gs, ¬ InU E s p.2 x := by
          rintro x hx ⟨c, hc, hxc⟩ p hp ⟨d, hd, hxd⟩
          have := hdis p hp c hc d hd
          rw [w.common (ho c hc) (hgs'.online p hp d hd) hxc hxd] at this
          exact this (w.refl _ _ (hgs'.online p hp d hd))
        have hkeep : ∀ x ∈ E.T.online, InU E s l x → st'.hw a x = st1.hw a x ∧ view st' a x = view st1 a x := by
          intro x hx hu
          rcases q6 x hx with h | ⟨p, hp, hup, -⟩
          · exact h
          · exact absurd hup (hnot x hx hu p hp)
        have hself : ∀ c ∈ l, InU E s l c := fun c hc => ⟨c, hc, w.refl _ _ (ho c hc)⟩
        refine ⟨q1, q2.trans k2, q3, q4.trans k4, ?_, ?_, q7, ?_, ?_⟩
        · intro n x hn
          obtain ⟨a1, a2⟩ := q5 n x hn
          obtain ⟨b1, b2⟩ := k5 n x hn
          exact ⟨a1.trans b1, a2.trans b2⟩
        · intro x hx
          by_cases hu : InU E s l x
          · obtain ⟨a1, a2⟩ := hkeep x hx hu
            have := k7 x hx hu
            rw [← a1, ← a2] at this
            exact .inr ⟨(val, l), by simp, hu, this⟩
          · obtain ⟨a1, a2⟩ := k6 x hx hu
            rcases q6 x hx with ⟨b1, b2⟩ | ⟨p, hp, hup, b1, b2⟩
            · exact .inl ⟨b1.trans a1, b2.trans a2⟩
            · rw [a1] at b1
              exact .inr ⟨p, by simp [hp], hup, b1, b2⟩
        · intro hv hok p hp c hc
          rcases List.mem_cons.1 hp with rfl | hp
          · rw [(hkeep c (ho c hc) (hself c hc)).1]
            exact k9 hv rfl c hc
          · exact q8 hv hok p hp c hc
        · intro hst hf
          refine ⟨(q9 hst hf).1, fun p hp c hc => ?_⟩
          rcases List.mem_cons.1 hp with rfl | hp
          · rw [(hkeep c (ho c hc) (hself c hc)).1]
            exact (k10 hst hf).2 c hc
          · exact (q9 hst hf).2 p hp c hc

theorem writeGroups_later {E : Env} {s : Scope} {a : Nat} (w : TopoWF E.T) (hs : s ≠ .global) {vfy : Bool}
    (gs : Dict Int (List Nat)) (hgs : GroupsOK E s gs) {st : St} (h : One E s a st)
    (hi : st.inTransaction = true) (hen : st.cache.enabled = true) (hb : BufOK st.buf) :
    ∃ st', writeGroups E a s vfy gs st = (st', .ok ()) ∧ st'.hw = st.hw ∧ st'.inTransaction = true ∧
      st'.cache.enabled = true ∧ One E s a st' ∧ BufOK st'.buf ∧
      (∀ n x, n ≠ a → st'.cache.get? n x = st.cache.get? n x) ∧
      (∀ x ∈ E.T.online, (∀ p ∈ gs, ¬ InU E s p.2 x) → st'.cache.get? a x = st.cache.get? a x) ∧
      (∀ x ∈ E.T.online, ∀ p ∈ gs, InU E s p.2 x → st'.cache.get? a x = some p.1) ∧
      (∀ c n, (n ≠ a ∨ ∀ p ∈ gs, c ∉ p.2) → look st'.buf c n = look st.buf c n) ∧
      (∀ c, look st'.buf c a = look st.buf c a ∨ ∃ p ∈ gs, c ∈ p.2 ∧ look st'.buf c a = some ⟨p.1, vfy, s⟩) ∧
      (∀ p ∈ gs, ∀ x ∈ E.T.online, InU E s p.2 x → ∃ d ∈ p.2, x ∈ E.T.sib s d ∧ look st'.buf d a = some ⟨p.1, vfy, s⟩) := by
  induction gs generalizing st with
  | nil =>
    exact ⟨st, rfl, rfl, hi, hen, h, hb, fun _ _ _ => rfl, fun _ _ _ => rfl, (fun _ _ p hp => by simp at hp), fun _ _ _ => rfl,
      fun _ => .inl rfl, fun p hp => by simp at hp⟩
  | cons p gs ih =>
    obtain ⟨val, l⟩ := p
    have hn := hgs.nodup (val, l) (by simp)
    have ho := hgs.online (val, l) (by simp)
    have hgs' : GroupsOK E s gs :=
      ⟨fun p hp => hgs.nodup p (by simp [hp]), fun p hp => hgs.online p (by simp [hp]), (List.pairwise_cons.1 hgs.disj).2⟩
    have hdis := (List.pairwise_cons.1 hgs.disj).1
    have hnot : ∀ x, x ∈ E.T.online → InU E s l x → ∀ p ∈ gs, ¬ InU E s p.2 x := by
      rintro x hx ⟨c, hc, hxc⟩ p hp ⟨d, hd, hxd⟩
      have := hdis p hp c hc d hd
      rw [w.common (ho c hc) (hgs'.online p hp d hd) hxc hxd] at this
      exact this (w.refl _ _ (hgs'.online p hp d hd))
    obtain ⟨r1, r2, r3, r4, r5, r6⟩ := removeLoop_view w hs l ho h
    unfold writeGroups write
    rw [normCpus_nums_self hn ho]
    simp only [writeNorm]
    cases hr : removeLoop E a s l st with
    | mk st1 r0 =>
      rw [hr] at r1 r2 r3 r4 r5 r6
      simp only at r1
      subst r1
      simp only
      obtain ⟨st2, k1, k2, k3, k4, k5, k6, k7, k8, k9, k10, k11, k12⟩ := writeLoop_later w (val := val) (vfy := vfy) l ho r3
        (r2.2.2.2.1.trans hi) (r2.2.2.2.2.trans hen) (by rw [r2.2.2.1]; exact hb) (fun x hx => .inl (r4 x hx))
      rw [k1]
      simp only [k3, Bool.not_true, Bool.and_false, Bool.false_eq_true, if_false]
      obtain ⟨st', q1, q2, q3, q4, q5, q6, q7, q8, q9, q10, q11, q12⟩ := ih hgs' k5 k3 k4 k6
      rw [r2.2.2.1] at k10 k11
      have hlu : ∀ c ∈ l, InU E s l c := fun c hc => ⟨c, hc, w.refl _ _ (ho c hc)⟩
      have hcg : ∀ c ∈ l, ∀ p ∈ gs, c ∉ p.2 := fun c hc p hp hcp =>
        hnot c (ho c hc) (hlu c hc) p hp ⟨c, hcp, w.refl _ _ (ho c hc)⟩
      refine ⟨st', q1, by rw [q2, k2, r2.1], q3, q4, q5, q6, ?_, ?_, ?_, ?_, ?_, ?_⟩
      · intro n x hn
        rw [q7 n x hn, k7 n x hn, r6 n x hn]
      · intro x hx hnp
        have h1 := hnp (val, l) (by simp)
        rw [q8 x hx (fun p hp => hnp p (by simp [hp])), k8 x hx h1, r5 x h1]
      · intro x hx p hp hu
        rcases List.mem_cons.1 hp with rfl | hp
        · rw [q8 x hx (hnot x hx hu), k9 x hx hu]
        · exact q9 x hx p hp hu
      · intro c n hc
        rw [q10 c n (hc.imp id (fun h p hp => h p (by simp [hp]))), k10 c n (hc.imp id (fun h => h (val, l) (by simp)))]
      · intro c
        rcases q11 c with h | ⟨p, hp, h1, h2⟩
        · rcases k11 c with h' | h'
          · exact .inl (h.trans h')
          · by_cases hcl : c ∈ l
            · exact .inr ⟨(val, l), by simp, hcl, h.trans h'⟩
            · exact .inl (h.trans (k10 c a (.inr hcl)))
        · exact .inr ⟨p, by simp [hp], h1, h2⟩
      · intro p hp x hx hu
        rcases List.mem_cons.1 hp with rfl | hp
        · obtain ⟨d, hd, h1, h2⟩ := k12 x hu (r4 x hu)
          exact ⟨d, hd, h1, by rw [q10 d a (.inr (hcg d hd)), h2]⟩
        · exact q12 p hp x hx hu

/-! ### Flushing -/

theorem hwWrites_honest {E : Env} {s : Scope} {a : Nat} (H : Honest E s a) (l : List (Nat × Nat × TInfo))
    (hl : ∀ e ∈ l, e.2.1 = a ∧ e.1 ∈ E.T.online ∧ Fits e.2.2.regval) {st : St} (h : One E s a st) :
    ∃ st', hwWrites E l st = (st', .ok ()) ∧ st'.cache = st.cache ∧ st'.buf = st.buf ∧
      st'.inTransaction = st.inTransaction ∧ One E s a st' ∧ (∀ n x, n ≠ a → st'.hw n x = st.hw n x) ∧
      (∀ x ∈ E.T.online, ∀ Q : Int → Prop, (∀ e ∈ l, x ∈ E.T.sib s e.1 → ∀ o, Q o → Q (E.store a o e.2.2.regval)) →
        Q (st.hw a x) → Q (st'.hw a x)) ∧
      ((∀ o v, E.store a o v = v) → ∀ x ∈ E.T.online, ∀ v, (∀ e ∈ l, x ∈ E.T.sib s e.1 → e.2.2.regval = v) →
        (∃ e ∈ l, x ∈ E.T.sib s e.1) → st'.hw a x = v) := by
  induction l generalizing st with
  | nil => exact ⟨st, rfl, rfl, rfl, rfl, h, fun _ _ _ => rfl, fun _ _ _ _ h => h, (fun _ _ _ _ _ ⟨e, he, _⟩ => by simp at he)⟩
  | cons e l ih =>
    obtain ⟨c, n, ti⟩ := e
    obtain ⟨h1, h2, h3⟩ := hl (c, n, ti) (by simp)
    simp only at h1 h2 h3
    subst h1
    obtain ⟨st1, e1, e2, e3, e4, e5, e6, e7⟩ := hwWrite_honest H h h3 h2
    unfold hwWrites
    rw [e1]
    simp only
    obtain ⟨st', k1, k2, k3, k4, k5, k6, k7, k8⟩ := ih (fun e he => hl e (by simp [he])) (st := st1)
      ⟨e5, by rw [e2]; exact h.cache⟩
    refine ⟨st', k1, k2.trans e2, k3.trans e3, k4.trans e4, k5, fun m x hm => (k6 m x hm).trans (e6 m x hm), ?_, ?_⟩
    · intro x hx Q hQ h0
      refine k7 x hx Q (fun e he => hQ e (by simp [he])) ?_
      by_cases hxc : x ∈ E.T.sib s c
      · rw [(e7 x hx).2 hxc]; exact hQ (c, n, ti) (by simp) hxc _ h0
      · rw [(e7 x hx).1 hxc]; exact h0
    · intro hst x hx v hv hex
      by_cases hxl : ∃ e ∈ l, x ∈ E.T.sib s e.1
      · exact k8 hst x hx v (fun e he => hv e (by simp [he])) hxl
      · obtain ⟨e, he, hxe⟩ := hex
        rcases List.mem_cons.1 he with rfl | he
        · refine k7 x hx (· = v) (fun e he hxe => absurd ⟨e, he, hxe⟩ hxl) ?_
          rw [(e7 x hx).2 hxe, hst]
          exact hv (c, n, ti) (by simp) hxe
        · exact absurd ⟨e, he, hxe⟩ hxl

theorem verifyRegs_view {E : Env} (w : TopoWF E.T) {s : Scope} (hs : s ≠ .global) {a : Nat} {val : Int}
    (regs : Dict Nat (Scope × List Nat)) (hreg : ∀ q ∈ regs, q.1 = a ∧ q.2.1 = s ∧ ∀ c ∈ q.2.2, c ∈ E.T.online) {st : St}
    (h : One E s a st) :
    SameButCache st (verifyRegs E val regs st).1 ∧ One E s a (verifyRegs E val regs st).1 ∧
    (∀ n x, n ≠ a → (verifyRegs E val regs st).1.cache.get? n x = st.cache.get? n x) ∧
    (∀ x ∈ E.T.online, view (verifyRegs E val regs st).1 a x = view st a x ∨
      view (verifyRegs E val regs st).1 a x = st.hw a x) ∧
    ((verifyRegs E val regs st).2 = .ok () → ∀ q ∈ regs, ∀ c ∈ q.2.2, st.hw a c = val ∧
      ∀ x ∈ E.T.sib s c, view (verifyRegs E val regs st).1 a x = st.hw a x) ∧
    ((∀ q ∈ regs, ∀ c ∈ q.2.2, st.hw a c = val) → (∀ c ∈ E.T.online, E.rfail a c = false) →
      (verifyRegs E val regs st).2 = .ok ()) := by
  induction regs generalizing st with
  | nil =>
    exact ⟨SameButCache.refl _, h, fun _ _ _ => rfl, fun _ _ => .inl rfl, (fun _ q hq => by simp at hq), fun _ _ => rfl⟩
  | cons q regs ih =>
    obtain ⟨n, s', cpus⟩ := q
    obtain ⟨h1, h2, h3⟩ := hreg (n, s', cpus) (by simp)
    simp only at h1 h2 h3
    subst h1 h2
    obtain ⟨v1, v2, v3, v4, v5, v6, v7⟩ := verify_view w hs (val := val) cpus h3 h
    unfold verifyRegs
    cases hv : verify E n val cpus s' st with
    | mk st1 r =>
      rw [hv] at v1 v2 v3 v4 v5 v6 v7
      simp only at v1 v2 v3 v4 v5 v6 v7
      have hview : ∀ x ∈ E.T.online, view st1 n x = view st n x ∨ view st1 n x = st.hw n x := by
        intro x hx
        by_cases hu : InU E s' cpus x
        · exact .inr (v3 x hx hu)
        · exact .inl (v4 x hx hu)
      cases r with
      | error e =>
        exact ⟨v1, v2, v5, hview, (fun h => by cases h), fun hh hf =>
          by have := v7 (hh (n, s', cpus) (by simp)) (fun c hc => hf c (h3 c hc)); cases this⟩
      | ok u =>
        obtain ⟨k1, k2, k3, k4, k5, k6⟩ := ih (fun q hq => hreg q (by simp [hq])) v2
        rw [v1.1] at k4 k5 k6
        simp only
        refine ⟨v1.trans k1, k2, fun m x hm => (k3 m x hm).trans (v5 m x hm), ?_, ?_, ?_⟩
        · intro x hx
          rcases k4 x hx with h | h
          · rw [h]; exact hview x hx
          · exact .inr h
        · intro hok q hq c hc
          rcases List.mem_cons.1 hq with rfl | hq
          · refine ⟨v6 rfl c hc, fun x hx => ?_⟩
            have hxo := w.sub _ _ _ (h3 c hc) hx
            rcases k4 x hxo with h | h
            · rw [h]; exact v3 x hxo ⟨c, hc, hx⟩
            · exact h
          · exact k5 hok q hq c hc
        · exact fun hh hf => k6 (fun q hq => hh q (by simp [hq])) hf

theorem verifyAll_view {E : Env} (w : TopoWF E.T) {s : Scope} (hs : s ≠ .global) {a : Nat}
    (info : Dict Int (Dict Nat (Scope × List Nat)))
    (hinfo : ∀ p ∈ info, ∀ q ∈ p.2, q.1 = a ∧ q.2.1 = s ∧ ∀ c ∈ q.2.2, c ∈ E.T.online) {st : St} (h : One E s a st) :
    SameButCache st (verifyAll E info st).1 ∧ One E s a (verifyAll E info st).1 ∧
    (∀ n x, n ≠ a → (verifyAll E info st).1.cache.get? n x = st.cache.get? n x) ∧
    (∀ x ∈ E.T.online, view (verifyAll E info st).1 a x = view st a x ∨ view (verifyAll E info st).1 a x = st.hw a x) ∧
    ((verifyAll E info st).2 = .ok () → ∀ p ∈ info, ∀ q ∈ p.2, ∀ c ∈ q.2.2, st.hw a c = p.1 ∧
      ∀ x ∈ E.T.sib s c, view (verifyAll E info st).1 a x = st.hw a x) ∧
    ((∀ p ∈ info, ∀ q ∈ p.2, ∀ c ∈ q.2.2, st.hw a c = p.1) → (∀ c ∈ E.T.online, E.rfail a c = false) →
      (verifyAll E info st).2 = .ok ()) := by
  induction info generalizing st with
  | nil =>
    exact ⟨SameButCache.refl _, h, fun _ _ _ => rfl, fun _ _ => .inl rfl, (fun _ q hq => by simp at hq), fun _ _ => rfl⟩
  | cons p info ih =>
    obtain ⟨val, regs⟩ := p
    have hr := hinfo (val, regs) (by simp)
    obtain ⟨v1, v2, v3, v4, v5, v6⟩ := verifyRegs_view w hs (val := val) regs hr h
    unfold verifyAll
    cases hv : verifyRegs E val regs st with
    | mk st1 r =>
      rw [hv] at v1 v2 v3 v4 v5 v6
      simp only at v1 v2 v3 v4 v5 v6
      cases r with
      | error e =>
        exact ⟨v1, v2, v3, v4, (fun h => by cases h), fun hh hf => by have := v6 (hh (val, regs) (by simp)) hf; cases this⟩
      | ok u =>
        obtain ⟨k1, k2, k3, k4, k5, k6⟩ := ih (fun q hq => hinfo q (by simp [hq])) v2
        rw [v1.1] at k4 k5 k6
        simp only
        refine ⟨v1.trans k1, k2, fun m x hm => (k3 m x hm).trans (v3 m x hm), ?_, ?_, ?_⟩
        · intro x hx
          rcases k4 x hx with h | h
          · rw [h]; exact v4 x hx
          · exact .inr h
        · intro hok p hp q hq c hc
          rcases List.mem_cons.1 hp with rfl | hp
          · obtain ⟨g1, g2⟩ := v5 rfl q hq c hc
            refine ⟨g1, fun x hx => ?_⟩
            have hxo := w.sub _ _ _ ((hr q hq).2.2 c hc) hx
            rcases k4 x hxo with h | h
            · rw [h]; exact g2 x hx
            · exact h
          · exact k5 hok p hp q hq c hc
        · exact fun hh hf => k6 (fun q hq => hh q (by simp [hq])) hf

/-- CPU `c` and register `a` are in the verification data for value `v`. -/
def InInfo (info : Dict Int (Dict Nat (Scope × List Nat))) (v : Int) (a c : Nat) : Prop :=
  ∃ regs, info.get? v = some regs ∧ ∃ q, regs.get? a = some q ∧ c ∈ q.2

theorem InInfo.add {info : Dict Int (Dict Nat (Scope × List Nat))} {v : Int} {a c : Nat} (h : InInfo info v a c)
    (c' a' : Nat) (ti : TInfo) : InInfo (addVerifyInfo info c' a' ti) v a c := by
  obtain ⟨regs, h1, q, h2, h3⟩ := h
  unfold addVerifyInfo
  split
  · exact ⟨regs, h1, q, h2, h3⟩
  · unfold InInfo
    rw [Dict.get?_set]
    by_cases hv : ti.regval = v
    · refine ⟨_, if_pos hv, ?_⟩
      rw [hv, h1]
      simp only [Option.getD_some]
      rw [Dict.get?_set]
      by_cases ha : a' = a
      · refine ⟨_, if_pos ha, ?_⟩
        rw [ha, h2]
        simp [h3]
      · exact ⟨q, by rw [if_neg ha, h2], h3⟩
    · exact ⟨regs, by rw [if_neg hv, h1], q, h2, h3⟩

/-- Everything buffered for verification is verified. -/
theorem verifyInfo_complete (buf : Dict Nat (Dict Nat TInfo)) :
    ∀ e ∈ flat buf, e.2.2.verify = true → InInfo (verifyInfo buf) e.2.2.regval e.2.1 e.1 := by
  rw [verifyInfo_eq]
  have key : ∀ (l : List (Nat × Nat × TInfo)) (acc : Dict Int (Dict Nat (Scope × List Nat))),
      (∀ v a c, InInfo acc v a c → InInfo (l.foldl (fun d e => addVerifyInfo d e.1 e.2.1 e.2.2) acc) v a c) ∧
      ∀ e ∈ l, e.2.2.verify = true →
        InInfo (l.foldl (fun d e => addVerifyInfo d e.1 e.2.1 e.2.2) acc) e.2.2.regval e.2.1 e.1 := by
    intro l
    induction l with
    | nil => exact fun acc => ⟨fun _ _ _ h => h, fun e he => by simp at he⟩
    | cons e l ih =>
      intro acc
      simp only [List.foldl_cons]
      obtain ⟨k1, k2⟩ := ih (addVerifyInfo acc e.1 e.2.1 e.2.2)
      refine ⟨fun v a c h => k1 v a c (h.add _ _ _), fun e' he' hv => ?_⟩
      rcases List.mem_cons.1 he' with rfl | he'
      · refine k1 _ _ _ ?_
        unfold addVerifyInfo InInfo
        rw [if_neg (by simp [hv])]
        refine ⟨_, Dict.get?_set_self _ _ _, _, Dict.get?_set_self _ _ _, by simp⟩
      · exact k2 e' he' hv
  exact (key (flat buf) []).2

/-- Flushing a transaction of register `a`. -/
theorem flush_view {E : Env} {s : Scope} {a : Nat} (H : Honest E s a) {st st' : St} {r : Except Exn Bool} (h : One E s a st)
    (hb : BufOK st.buf) (hbuf : ∀ c n ti, look st.buf c n = some ti → n = a ∧ c ∈ E.T.online ∧ Fits ti.regval ∧ ti.iosname = s)
    (hno : st.inTransaction = false → st.buf = []) (hen : st.inTransaction = true → st.cache.enabled = true)
    (hf : flushTransaction E st = (st', r)) :
    One E s a st' ∧ st'.buf = [] ∧ st'.inTransaction = st.inTransaction ∧ st'.cache.enabled = st.cache.enabled ∧
    (∀ n x, n ≠ a → st'.hw n x = st.hw n x ∧ st'.cache.get? n x = st.cache.get? n x) ∧
    (∀ x ∈ E.T.online, ∀ Q : Int → Prop, (∀ c ti, look st.buf c a = some ti → x ∈ E.T.sib s c → ∀ o, Q o →
      Q (E.store a o ti.regval)) → Q (st.hw a x) → Q (st'.hw a x)) ∧
    (∀ x ∈ E.T.online, view st' a x = st'.hw a x ∨ st.cache.get? a x = some (view st' a x)) ∧
    (∀ b, r = .ok b → ∀ c ti, look st.buf c a = some ti → ti.verify = true → st'.hw a c = ti.regval ∧
      ∀ x ∈ E.T.sib s c, view st' a x = st'.hw a x) ∧
    ((∀ c ti, look st.buf c a = some ti → ti.verify = false) → ∃ b, r = .ok b) ∧
    ((∀ o v, E.store a o v = v) → (∀ c ∈ E.T.online, E.rfail a c = false) →
      (∀ c ti c' ti', look st.buf c a = some ti → look st.buf c' a = some ti' → c' ∈ E.T.sib s c → ti'.regval = ti.regval) →
      ∃ b, r = .ok b) := by
  have w := H.topo
  -- When there is nothing to do.
  have hnop : st.buf = [] → flushTransaction E st = (st, .ok false) := by
    intro he
    unfold flushTransaction
    split
    · rfl
    · split
      · rfl
      · rw [if_pos (by rw [he]; rfl)]
  by_cases he : st.buf = []
  · rw [hnop he] at hf
    cases hf
    have hl : ∀ c ti, look st.buf c a = some ti → False := by rw [he]; intro c ti h; cases h
    refine ⟨h, he, rfl, rfl, fun _ _ _ => ⟨rfl, rfl⟩, fun _ _ _ _ h => h, fun x hx => ?_,
      fun _ _ c ti h => (hl c ti h).elim, fun _ => ⟨_, rfl⟩, fun _ _ _ => ⟨_, rfl⟩⟩
    cases hg : st.cache.get? a x with
    | none => exact .inl (view_none hg)
    | some v => exact .inr (by rw [view_some hg])
  · have hi : st.inTransaction = true := by
      cases hh : st.inTransaction with
      | true => rfl
      | false => exact absurd (hno hh) he
    have hmem : ∀ e ∈ flat st.buf, look st.buf e.1 e.2.1 = some e.2.2 := fun e h => (mem_flat hb _ _ _).1 h
    have hfl : ∀ e ∈ flat st.buf, e.2.1 = a ∧ e.1 ∈ E.T.online ∧ Fits e.2.2.regval := by
      intro e h
      obtain ⟨h1, h2, h3, -⟩ := hbuf _ _ _ (hmem e h)
      exact ⟨h1, h2, h3⟩
    obtain ⟨st1, k1, k2, k3, k4, k5, k6, k7, k8⟩ := hwWrites_honest H (flat st.buf) hfl h
    have hinfo : ∀ p ∈ verifyInfo st.buf, ∀ q ∈ p.2, q.1 = a ∧ q.2.1 = s ∧ ∀ c ∈ q.2.2, c ∈ E.T.online := by
      intro p hp q hq
      obtain ⟨g1, c, ti, g2, g3⟩ := verifyInfo_ok st.buf p hp q hq
      obtain ⟨m1, -, -, m4⟩ := hbuf _ _ _ (hmem _ g2)
      refine ⟨m1, by rw [g3]; exact m4, fun c hc => ?_⟩
      obtain ⟨ti', g4, -⟩ := g1 c hc
      exact (hbuf _ _ _ (hmem _ g4)).2.1
    obtain ⟨v1, v2, v3, v4, v5, v6⟩ := verifyAll_view w H.nonglobal (verifyInfo st.buf) hinfo (st := { st1 with buf := [] })
      ⟨k5.hw, k5.cache⟩
    simp only at v1 v3 v4 v5 v6
    -- The result.
    have hres : st' = (verifyAll E (verifyInfo st.buf) { st1 with buf := [] }).1 ∧
        ((verifyAll E (verifyInfo st.buf) { st1 with buf := [] }).2 = .ok () ↔ ∃ b, r = .ok b) := by
      unfold flushTransaction at hf
      rw [if_neg (by simp [hen hi]), if_neg (by simp [hi]), if_neg (by simpa using he), flushAll_eq, k1] at hf
      simp only [k3] at hf
      cases hv : verifyAll E (verifyInfo st.buf) { st1 with buf := [] } with
      | mk st2 r2 =>
        rw [hv] at hf
        cases r2 with
        | error e => simp only at hf; cases hf; exact ⟨rfl, by simp⟩
        | ok u => simp only at hf; cases hf; exact ⟨rfl, by simp⟩
    obtain ⟨rfl, hr⟩ := hres
    generalize hst' : (verifyAll E (verifyInfo st.buf) { st1 with buf := [] }).1 = st' at *
    have hhw : st'.hw = st1.hw := v1.1
    have hbm : ∀ c ti, look st.buf c a = some ti → (c, a, ti) ∈ flat st.buf := fun c ti h => (mem_flat hb _ _ _).2 h
    refine ⟨v2, v1.2.2.1, v1.2.2.2.1.trans k4, v1.2.2.2.2.trans (by simp [k2]), ?_, ?_, ?_, ?_, ?_, ?_⟩
    · intro n x hn
      rw [hhw, v3 n x hn, k2]
      exact ⟨k6 n x hn, rfl⟩
    · intro x hx Q hQ h0
      rw [hhw]
      refine k7 x hx Q (fun e he hxe => ?_) h0
      have := hmem e he
      rw [(hfl e he).1] at this
      exact hQ _ _ this hxe
    · intro x hx
      rw [hhw]
      rcases v4 x hx with h | h
      · rw [h]
        unfold view
        simp only [k2]
        cases st.cache.get? a x with
        | none => exact .inl rfl
        | some v => exact .inr rfl
      · exact .inl h
    · intro b hb' c ti hc hv
      obtain ⟨regs, g1, q, g2, g3⟩ := verifyInfo_complete st.buf _ (hbm c ti hc) hv
      rw [hhw]
      exact v5 (hr.2 ⟨b, hb'⟩) _ (Dict.mem_of_get? g1) _ (Dict.mem_of_get? g2) c g3
    · intro hnv
      refine hr.1 ?_
      have : verifyInfo st.buf = [] := by
        rw [verifyInfo_eq]
        have key : ∀ l : List (Nat × Nat × TInfo), (∀ e ∈ l, e ∈ flat st.buf) →
            l.foldl (fun d e => addVerifyInfo d e.1 e.2.1 e.2.2) [] = [] := by
          intro l
          induction l with
          | nil => exact fun _ => rfl
          | cons e l ih =>
            intro hl
            rw [List.foldl_cons]
            have he := hl e (by simp)
            have := hmem e he
            rw [(hfl e he).1] at this
            rw [show addVerifyInfo [] e.1 e.2.1 e.2.2 = [] by unfold addVerifyInfo; rw [if_pos (by simp [hnv _ _ this])]]
            exact ih (fun e he => hl e (by simp [he]))
        exact key _ (fun _ h => h)
      rw [this]; rfl
    · intro hst hrf hcons
      refine hr.1 (v6 (fun p hp q hq c hc => ?_) hrf)
      obtain ⟨g1, -⟩ := verifyInfo_ok st.buf p hp q hq
      obtain ⟨ti, g4, g5, -⟩ := g1 c hc
      have hl := hmem _ g4
      simp only at hl
      rw [(hinfo p hp q hq).1] at hl g4
      have hco := (hbuf _ _ _ hl).2.1
      refine k8 hst c hco p.1 (fun e he hce => ?_) ⟨_, g4, w.refl _ _ hco⟩
      have hle := hmem e he
      rw [(hfl e he).1] at hle
      rw [← g5]
      exact hcons c ti e.1 e.2.2 hl hle (w.symm (hfl e he).2.1 hce)

end Verif.MSR
