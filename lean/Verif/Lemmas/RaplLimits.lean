import Verif.Lemmas.MSRView
import Verif.Lemmas.CStates
import Verif.Lemmas.FeaturedMSR
import Verif.Lemmas.FreqInfo
import Verif.Props.RaplLimitsSpec

/-!
Helper lemmas about the RAPL limits.
-/

namespace Verif.RaplLimits

open Verif.Bits (BitRange FieldVal setBits getBits)
open Verif.MSR
open CPUInfo (Scope Nums)

/-! ### The invariant -/

/-- The invariant of an `MSR` object used for register `a`: in bits `K`, what the object shows and what is going to be
written is what the hardware holds. -/
structure Inv (E : Env) (s : Scope) (a : Nat) (K : Nat → Prop) (st : St) : Prop where
  one : One E s a st
  hwFits : ∀ x ∈ E.T.online, Fits (st.hw a x)
  viewFits : ∀ x ∈ E.T.online, Fits (view st a x)
  agree : ∀ x ∈ E.T.online, ∀ i, K i → (view st a x).testBit i = (st.hw a x).testBit i
  bufOK : BufOK st.buf
  buf : ∀ c n ti, look st.buf c n = some ti → n = a ∧ c ∈ E.T.online ∧ Fits ti.regval ∧ ti.iosname = s ∧
    ti.verify = false ∧ ∀ i, K i → ti.regval.testBit i = (st.hw a c).testBit i
  noTrans : st.inTransaction = false → st.buf = []
  trans : st.inTransaction = true → st.cache.enabled = true

theorem Inv.sameView {E : Env} {s : Scope} {a : Nat} {K : Nat → Prop} {st st' : St} (h : Inv E s a K st)
    (hs : SameView E s a st st') : Inv E s a K st' := by
  obtain ⟨h1, h2, h3, h4, h5⟩ := hs.same
  refine ⟨hs.one, by rw [h1]; exact h.hwFits, fun x hx => by rw [hs.view x hx]; exact h.viewFits x hx,
    fun x hx i hi => by rw [hs.view x hx, h1]; exact h.agree x hx i hi, by rw [h3]; exact h.bufOK, ?_, ?_, ?_⟩
  · rw [h1, h3]; exact h.buf
  · rw [h4, h3]; exact h.noTrans
  · rw [h4, h5]; exact h.trans

theorem Inv.other {E : Env} {s : Scope} {a : Nat} {K : Nat → Prop} {st : St} (h : Inv E s a K st) {n : Nat} (hn : n ≠ a)
    (s' : Scope) (c : Nat) : Inv E s a K (readOne E st n s' c).1 := by
  obtain ⟨⟨h1, h2, h3, h4, h5⟩, k2, k3⟩ := readOne_other hn (s' := s') h.one c
  have hv : ∀ x, view (readOne E st n s' c).1 a x = view st a x := fun x => by unfold view; rw [k3, h1]
  refine ⟨k2, by rw [h1]; exact h.hwFits, fun x hx => by rw [hv]; exact h.viewFits x hx,
    fun x hx i hi => by rw [hv, h1]; exact h.agree x hx i hi, by rw [h3]; exact h.bufOK, ?_, ?_, ?_⟩
  · rw [h1, h3]; exact h.buf
  · rw [h4, h3]; exact h.noTrans
  · rw [h4, h5]; exact h.trans

/-- The hardware keeps bits `K`. -/
def Keeps (E : Env) (a : Nat) (K : Nat → Prop) (st st' : St) : Prop :=
  ∀ x ∈ E.T.online, ∀ i, K i → (st'.hw a x).testBit i = (st.hw a x).testBit i

theorem Keeps.refl {E : Env} {a : Nat} {K : Nat → Prop} (st : St) : Keeps E a K st st := fun _ _ _ _ => rfl

theorem Keeps.trans {E : Env} {a : Nat} {K : Nat → Prop} {st st1 st2 : St} (h1 : Keeps E a K st st1)
    (h2 : Keeps E a K st1 st2) : Keeps E a K st st2 := fun x hx i hi => (h2 x hx i hi).trans (h1 x hx i hi)

theorem Keeps.of_eq {E : Env} {a : Nat} {K : Nat → Prop} {st st' : St} (h : st'.hw = st.hw) : Keeps E a K st st' :=
  fun _ _ _ _ => by rw [h]

/-- Flushing limits which are not verified. -/
theorem flush_inv {E : Env} {s : Scope} {a : Nat} (H : Honest E s a) {K : Nat → Prop} {st : St} (h : Inv E s a K st) :
    ∃ st' b, flushTransaction E st = (st', .ok b) ∧ Inv E s a K st' ∧ Keeps E a K st st' ∧ st'.buf = [] ∧
      st'.inTransaction = st.inTransaction := by
  cases hf : flushTransaction E st with
  | mk st' r =>
    obtain ⟨k1, k2, k3, k4, k5, k6, k7, k8, k9, -⟩ := flush_view H h.one h.bufOK
      (fun c n ti hl => by obtain ⟨a1, a2, a3, a4, -⟩ := h.buf c n ti hl; exact ⟨a1, a2, a3, a4⟩) h.noTrans h.trans hf
    obtain ⟨b, rfl⟩ := k9 (fun c ti hl => (h.buf c a ti hl).2.2.2.2.1)
    have hK : Keeps E a K st st' := by
      intro x hx
      refine k6 x hx (fun v => ∀ i, K i → v.testBit i = (st.hw a x).testBit i) ?_ (fun _ _ => rfl)
      intro c ti hl hxc o hQ i hi
      obtain ⟨-, hco, -, -, -, hag⟩ := h.buf c a ti hl
      rcases H.mix o ti.regval i with e | e
      · rw [e]; exact hQ i hi
      · rw [e, hag i hi, h.one.hw c hco x hxc]
    have hfit : ∀ x ∈ E.T.online, Fits (st'.hw a x) := by
      intro x hx
      refine k6 x hx Fits (fun c ti hl _ o ho => (H.mix o ti.regval).fits ho ?_) (h.hwFits x hx)
      exact (h.buf c a ti hl).2.2.1
    refine ⟨st', b, rfl, ⟨k1, hfit, ?_, ?_, by rw [k2]; exact bufOK_nil, (by rw [k2]; intro c n ti hl; cases hl), fun _ => k2, ?_⟩,
      hK, k2, k3⟩
    · intro x hx
      rcases k7 x hx with e | e
      · rw [e]; exact hfit x hx
      · have := h.viewFits x hx
        rw [view_some e] at this; exact this
    · intro x hx i hi
      rcases k7 x hx with e | e
      · rw [e]
      · have := h.agree x hx i hi
        rw [view_some e] at this
        rw [this, hK x hx i hi]
    · rw [k3, k4]; exact h.trans

/-! ### Read-modify-write -/

/-- What is known about the groups of `write_bits()`. -/
structure Groups (E : Env) (s : Scope) (bits : BitRange) (v : Int) (f : Nat → Int) (l : List Nat)
    (g : Dict Int (List Nat)) : Prop where
  ok : GroupsOK E s g
  fits : ∀ p ∈ g, ∀ c ∈ p.2, Fits p.1
  new : ∀ p ∈ g, ∀ x ∈ E.T.online, InU E s p.2 x → InU E s l x ∧
    ∀ i : Nat, p.1.testBit i = if bits.2 ≤ (i : Int) ∧ (i : Int) ≤ bits.1 then v.testBit (i - bits.2.toNat) else (f x).testBit i
  all : ∀ c ∈ l, (∃ p ∈ g, c ∈ p.2) ∨ (∀ p ∈ g, ¬ InU E s p.2 c) ∧
    ∀ i : Nat, (f c).testBit i = if bits.2 ≤ (i : Int) ∧ (i : Int) ≤ bits.1 then v.testBit (i - bits.2.toNat) else (f c).testBit i

theorem groups_of {E : Env} {s : Scope} {a : Nat} {bits : BitRange} (h63 : bits.1 ≤ 63)
    {v : Int} (hv : 0 ≤ v) {f : Nat → Int} (hu : Uni E s f) (hfits : ∀ x ∈ E.T.online, Fits (f x))
    {l : List Nat} (hn : l.Nodup) (ho : ∀ c ∈ l, c ∈ E.T.online) {g : Dict Int (List Nat)} (hk : (Dict.keys g).Nodup)
    (hall : ∀ c ∈ l, ∃ r, setBits (f c) bits (.num v) = .ok r)
    (hg : ∀ r, (g.get? r).getD [] = l.filter (changesTo (fun _ => f) a bits (.num v) r)) :
    Groups E s bits v f l g := by
  obtain ⟨hp, hok⟩ := groupsOK_of_modify (E := E) (sc := fun _ => s) (R := fun _ => f) (fun _ => hu) (a := a) hn ho hk hg
  have hbit : ∀ c r, setBits (f c) bits (.num v) = .ok r → ∀ i : Nat,
      r.testBit i = if bits.2 ≤ (i : Int) ∧ (i : Int) ≤ bits.1 then v.testBit (i - bits.2.toNat) else (f c).testBit i :=
    fun c r h i => Bits.testBit_setBits h rfl hv i
  have hmem : ∀ p ∈ g, ∀ c, c ∈ p.2 ↔ c ∈ l ∧ setBits (f c) bits (.num v) = .ok p.1 ∧ f c ≠ p.1 := by
    intro p hpm c
    rw [hp p hpm, List.mem_filter]
    simp [changesTo]
  have hpne : ∀ p ∈ g, ∀ x ∈ E.T.online, InU E s p.2 x → InU E s l x ∧ setBits (f x) bits (.num v) = .ok p.1 ∧ f x ≠ p.1 := by
    rintro p hpm x hx ⟨c, hc, hxc⟩
    obtain ⟨h1, h2, h3⟩ := (hmem p hpm c).1 hc
    rw [hu c (ho c h1) x hxc]
    exact ⟨⟨c, h1, hxc⟩, h2, h3⟩
  refine ⟨hok, ?_, fun p hpm x hx hux => ⟨(hpne p hpm x hx hux).1, hbit x _ (hpne p hpm x hx hux).2.1⟩, fun c hc => ?_⟩
  · intro p hpm c hc
    obtain ⟨h1, h2, -⟩ := (hmem p hpm c).1 hc
    refine range_of_testBit (n := 64) fun k hk => ?_
    rw [hbit c _ h2 k, if_neg (by omega)]
    exact testBit_of_range (hfits c (ho c h1)).1 (hfits c (ho c h1)).2 hk
  · obtain ⟨r, hr⟩ := hall c hc
    by_cases heq : f c = r
    · subst heq
      refine .inr ⟨fun p hpm hux => ?_, hbit c _ hr⟩
      obtain ⟨-, h2, h3⟩ := hpne p hpm c (ho c hc) hux
      rw [hr] at h2
      injection h2 with h2
      exact h3 h2
    · left
      have := hg r
      have hcm : c ∈ (g.get? r).getD [] := by
        rw [this, List.mem_filter]
        exact ⟨hc, by simp [changesTo, hr, heq]⟩
      cases hgr : g.get? r with
      | none => rw [hgr] at hcm; cases hcm
      | some t => rw [hgr] at hcm; exact ⟨(r, t), Dict.mem_of_get? hgr, hcm⟩

theorem modify_groups {E : Env} (w : TopoWF E.T) {s : Scope} {a : Nat} {K : Nat → Prop} {st st1 : St} (h : Inv E s a K st)
    {bits : BitRange} (h63 : bits.1 ≤ 63) {v : Int} (hv : 0 ≤ v) {l : List Nat} (hn : l.Nodup)
    (ho : ∀ c ∈ l, c ∈ E.T.online) {r : Except Exn (Dict Int (List Nat))}
    (hm : modifyLoop E a bits (.num v) s l st [] = (st1, r)) :
    Inv E s a K st1 ∧ st1.hw = st.hw ∧ st1.inTransaction = st.inTransaction ∧ st1.buf = st.buf ∧
      (∀ g, r = .ok g → Groups E s bits v (view st1 a) l g) ∧
      ((∀ c ∈ l, E.rfail a c = false ∧ ∃ r, setBits (view st a c) bits (.num v) = .ok r) → ∃ g, r = .ok g) := by
  obtain ⟨k1, k2, k3⟩ := modifyLoop_view w (f := view st a) l ho st st1 [] r h.one (fun _ _ => rfl) hm
  have h1 := h.sameView k1
  refine ⟨h1, k1.same.1, k1.same.2.2.2.1, k1.same.2.2.1, fun g hg => ?_, k3⟩
  obtain ⟨g1, g2, g3⟩ := k2 g hg
  have hcon : ∀ c ∈ l, view st1 a c = view st a c := fun c hc => k1.view c (ho c hc)
  refine groups_of (a := a) h63 hv h1.one.view h1.viewFits hn ho (g3 (by simp [Dict.keys])) ?_ ?_
  · intro c hc
    rw [hcon c hc]; exact g1 c hc
  · intro r
    rw [g2 r]
    simp only [Dict.get?, Option.getD_none, List.nil_append]
    refine List.filter_congr fun c hc => ?_
    simp only [changesTo, hcon c hc]

/-- Writing bits which are not in `K`, without verification. -/
theorem writeBits_inv {E : Env} {s : Scope} {a : Nat} (H : Honest E s a) {K : Nat → Prop} {st st' : St}
    (h : Inv E s a K st) {bits : BitRange} (h63 : bits.1 ≤ 63)
    (hdis : ∀ i : Nat, K i → ¬ (bits.2 ≤ (i : Int) ∧ (i : Int) ≤ bits.1)) {v : Int} {cpus : Nums} {l : List Nat}
    (hnorm : E.T.normCpus cpus = .ok l) (hv : l ≠ [] → 0 ≤ v) {r : Except Exn Unit}
    (hw : writeBits E st a bits (.num v) cpus s false = (st', r)) :
    Inv E s a K st' ∧ Keeps E a K st st' ∧ st'.inTransaction = st.inTransaction := by
  have w := H.topo
  obtain ⟨hn, ho⟩ := normCpus_ok hnorm
  unfold writeBits at hw
  rw [hnorm] at hw
  simp only at hw
  by_cases hl : l = []
  · subst hl
    simp only [modifyLoop, writeGroups] at hw
    cases hw
    exact ⟨h, Keeps.refl _, rfl⟩
  · cases hm : modifyLoop E a bits (.num v) s l st [] with
    | mk st1 r1 =>
      rw [hm] at hw
      obtain ⟨h1, e1, e2, e3, hg, -⟩ := modify_groups w h h63 (hv hl) hn ho hm
      cases r1 with
      | error e =>
        simp only at hw
        cases hw
        exact ⟨h1, Keeps.of_eq e1, e2⟩
      | ok g =>
        simp only at hw
        have G := hg g rfl
        -- The new values have the same bits `K`.
        have hnew : ∀ p ∈ g, ∀ x ∈ E.T.online, InU E s p.2 x → ∀ i, K i → p.1.testBit i = (st1.hw a x).testBit i := by
          intro p hp x hx hu i hi
          rw [(G.new p hp x hx hu).2 i, if_neg (hdis i hi)]
          exact h1.agree x hx i hi
        have hfit : ∀ p ∈ g, ∀ x, InU E s p.2 x → Fits p.1 := fun p hp x ⟨c, hc, _⟩ => G.fits p hp c hc
        suffices Inv E s a K st' ∧ Keeps E a K st1 st' ∧ st'.inTransaction = st1.inTransaction by
          exact ⟨this.1, (Keeps.of_eq e1).trans this.2.1, this.2.2.trans e2⟩
        cases hi : st1.inTransaction with
        | false =>
          obtain ⟨k1, k2, k3, k4, k5, k6, -⟩ := writeGroups_now H g G.ok G.fits h1.one hi hw
          have hK : Keeps E a K st1 st' := by
            intro x hx i hi
            rcases k6 x hx with ⟨q1, -⟩ | ⟨p, hp, hu, hmix, -⟩
            · rw [q1]
            · rcases hmix i with e | e
              · exact e
              · rw [e]; exact hnew p hp x hx hu i hi
          have hhf : ∀ x ∈ E.T.online, Fits (st'.hw a x) := by
            intro x hx
            rcases k6 x hx with ⟨q1, -⟩ | ⟨p, hp, hu, hmix, -⟩
            · rw [q1]; exact h1.hwFits x hx
            · exact hmix.fits (h1.hwFits x hx) (hfit p hp x hu)
          refine ⟨⟨k1, hhf, ?_, ?_, by rw [k2]; exact h1.bufOK, ?_, fun _ => by rw [k2]; exact h1.noTrans hi,
            fun h => by rw [k3] at h; cases h⟩, hK, k3⟩
          · intro x hx
            rcases k6 x hx with ⟨-, q2⟩ | ⟨p, hp, hu, -, q | ⟨-, q⟩⟩
            · rw [q2]; exact h1.viewFits x hx
            · rw [q]; exact hhf x hx
            · rw [q]; exact hfit p hp x hu
          · intro x hx i hi
            rcases k6 x hx with ⟨q1, q2⟩ | ⟨p, hp, hu, -, q | ⟨-, q⟩⟩
            · rw [q2, q1]; exact h1.agree x hx i hi
            · rw [q]
            · rw [q, hK x hx i hi]; exact hnew p hp x hx hu i hi
          · rw [k2, h1.noTrans hi]
            intro c n ti hl; cases hl
        | true =>
          obtain ⟨st2, k1, k2, k3, k4, k5, k6, k7, k8, k9, k10, k11, -⟩ :=
            writeGroups_later w H.nonglobal (vfy := false) g G.ok h1.one hi (h1.trans hi) h1.bufOK
          rw [k1] at hw
          cases hw
          have hview : ∀ x ∈ E.T.online, view st' a x = view st1 a x ∨ ∃ p ∈ g, InU E s p.2 x ∧ view st' a x = p.1 := by
            intro x hx
            by_cases hex : ∃ p ∈ g, InU E s p.2 x
            · obtain ⟨p, hp, hu⟩ := hex
              exact .inr ⟨p, hp, hu, view_some (k9 x hx p hp hu)⟩
            · left
              unfold view
              rw [k8 x hx (fun p hp hu => hex ⟨p, hp, hu⟩), k2]
          refine ⟨⟨k5, by rw [k2]; exact h1.hwFits, ?_, ?_, k6, ?_, (fun h => by rw [k3] at h; cases h), fun _ => k4⟩,
            Keeps.of_eq k2, k3⟩
          · intro x hx
            rcases hview x hx with q | ⟨p, hp, hu, q⟩
            · rw [q]; exact h1.viewFits x hx
            · rw [q]; exact hfit p hp x hu
          · intro x hx i hi
            rw [k2]
            rcases hview x hx with q | ⟨p, hp, hu, q⟩
            · rw [q]; exact h1.agree x hx i hi
            · rw [q]; exact hnew p hp x hx hu i hi
          · intro c n ti hl
            rw [k2]
            by_cases hna : n = a
            · subst hna
              rcases k11 c with e | ⟨p, hp, hcp, e⟩
              · rw [e] at hl; exact h1.buf c n ti hl
              · rw [e] at hl
                cases hl
                have hco := G.ok.online p hp c hcp
                have hu : InU E s p.2 c := ⟨c, hcp, w.refl _ _ hco⟩
                exact ⟨rfl, hco, G.fits p hp c hcp, rfl, rfl, fun i hi => hnew p hp c hco hu i hi⟩
            · rw [k10 c n (.inl hna)] at hl
              exact h1.buf c n ti hl

/-! ### Verified writes -/

/-- The outcome of writing bit `b` with verification. -/
structure Verified (E : Env) (s : Scope) (a : Nat) (K : Nat → Prop) (b : Nat) (on : Bool) (l : List Nat) (st st' : St)
    (r : Except Exn Unit) : Prop where
  /-- The invariant holds, unless it failed in a transaction. -/
  inv : r = .ok () ∨ st.inTransaction = false → Inv E s a K st'
  trans : st'.inTransaction = st.inTransaction
  done : r = .ok () → ∀ c ∈ l, (st'.hw a c).testBit b = on
  keeps : Keeps E a (fun i => K i ∧ i ≠ b) st st'
  others : ∀ x ∈ E.T.online, ¬ InU E s l x → ∀ i, K i → (st'.hw a x).testBit i = (st.hw a x).testBit i
  works : (∀ o v, E.store a o v = v) → (∀ c ∈ E.T.online, E.rfail a c = false) → r = .ok ()

theorem writeVerified_bit {P : Plat} (H : Honest P.msr scope regaddr) {K : Nat → Prop} {st st' : St}
    (h : Inv P.msr scope regaddr K st) {b : Nat} (hb : b ≤ 63) (hKb : K b) {on : Bool} {cpus : Nums} {l : List Nat}
    (hnorm : P.msr.T.normCpus cpus = .ok l) {r : Except Exn Unit}
    (hw : writeVerified P ((b : Int), (b : Int)) (.num (if on then 1 else 0)) cpus st = (st', r)) :
    Verified P.msr scope regaddr K b on l st st' r := by
  generalize hE : P.msr = E at *
  have w := H.topo
  obtain ⟨hn, ho⟩ := normCpus_ok hnorm
  obtain ⟨st0, b0, f1, f2, f3, f4, f5⟩ := flush_inv H h
  have hval : (0 : Int) ≤ if on then 1 else 0 := by cases on <;> decide
  have hbit0 : Int.testBit (if on then 1 else 0) 0 = on := by cases on <;> decide
  unfold writeVerified at hw
  rw [hE] at hw
  rw [f1] at hw
  simp only [writeBits, hnorm] at hw
  cases hm : modifyLoop E regaddr ((b : Int), (b : Int)) (.num (if on then 1 else 0)) scope l st0 [] with
  | mk st1 r1 =>
    rw [hm] at hw
    obtain ⟨h1, e1, e2, e3, hg, hlive⟩ := modify_groups w f2 (by dsimp only; omega) hval hn ho hm
    have hK1 : Keeps E regaddr K st st1 := f3.trans (Keeps.of_eq e1)
    have ht1 : st1.inTransaction = st.inTransaction := e2.trans f5
    cases r1 with
    | error e =>
      simp only at hw
      cases hw
      refine ⟨fun _ => h1, ht1, (fun h => by cases h), fun x hx i hi => hK1 x hx i hi.1, fun x hx _ i hi => hK1 x hx i hi,
        fun hst hrf => ?_⟩
      obtain ⟨g, hg⟩ := hlive (fun c hc => ⟨hrf c (ho c hc), Bits.C01_set_bits_accepts _ _ _ (by dsimp only; omega)
        (Int.le_refl _) (by dsimp only; omega) (by
          have : Bits.width ((b : Int), (b : Int)) = 1 := by simp [Bits.width]
          rw [this]; cases on <;> decide)⟩)
      cases hg
    | ok g =>
      simp only at hw
      have G := hg g rfl
      -- The bits of the new values.
      have hnewb : ∀ p ∈ g, ∀ x ∈ E.T.online, InU E scope p.2 x → p.1.testBit b = on := by
        intro p hp x hx hu
        rw [(G.new p hp x hx hu).2 b, if_pos ⟨Int.le_refl _, Int.le_refl _⟩]
        simpa using hbit0
      have hnew : ∀ p ∈ g, ∀ x ∈ E.T.online, InU E scope p.2 x → ∀ i, K i → i ≠ b →
          p.1.testBit i = (st1.hw regaddr x).testBit i := by
        intro p hp x hx hu i hi hib
        rw [(G.new p hp x hx hu).2 i, if_neg (by dsimp only; omega)]
        exact h1.agree x hx i hi
      have hsame : ∀ c ∈ l, (∃ p ∈ g, c ∈ p.2) ∨ (∀ p ∈ g, ¬ InU E scope p.2 c) ∧ (st1.hw regaddr c).testBit b = on := by
        intro c hc
        rcases G.all c hc with h | ⟨h, h'⟩
        · exact .inl h
        · refine .inr ⟨h, ?_⟩
          rw [← h1.agree c (ho c hc) b hKb, h' b, if_pos ⟨Int.le_refl _, Int.le_refl _⟩]
          simpa using hbit0
      have hfit : ∀ p ∈ g, ∀ x, InU E scope p.2 x → Fits p.1 := fun p hp x ⟨c, hc, _⟩ => G.fits p hp c hc
      have hgl : ∀ x ∈ E.T.online, ¬ InU E scope l x → ∀ p ∈ g, ¬ InU E scope p.2 x :=
        fun x hx hn p hp hu => hn (G.new p hp x hx hu).1
      suffices hV : Verified E scope regaddr K b on l st1 st' r by
        refine ⟨fun h => hV.inv (by rwa [ht1]), hV.trans.trans ht1, hV.done, ?_, ?_, hV.works⟩
        · exact fun x hx i hi => (hV.keeps x hx i hi).trans (hK1 x hx i hi.1)
        · exact fun x hx hu i hi => (hV.others x hx hu i hi).trans (hK1 x hx i hi)
      cases hi : st1.inTransaction with
      | false =>
        cases hwg : writeGroups E regaddr scope true g st1 with
        | mk st2 r2 =>
          rw [hwg] at hw
          obtain ⟨k1, k2, k3, k4, k5, k6, -, k8, k9⟩ := writeGroups_now H g G.ok G.fits h1.one hi hwg
          have hbuf2 : st2.buf = [] := by rw [k2]; exact h1.noTrans hi
          have hfl : flushTransaction E st2 = (st2, .ok false) := by
            unfold flushTransaction
            split
            · rfl
            · rw [if_pos (by simp [k3])]
          have hres : st' = st2 ∧ r = r2 := by
            cases r2 with
            | error e => simp only at hw; cases hw; exact ⟨rfl, rfl⟩
            | ok u => simp only [hfl] at hw; cases hw; exact ⟨rfl, rfl⟩
          obtain ⟨rfl, rfl⟩ := hres
          have hhf : ∀ x ∈ E.T.online, Fits (st'.hw regaddr x) := by
            intro x hx
            rcases k6 x hx with ⟨q1, -⟩ | ⟨p, hp, hu, hmix, -⟩
            · rw [q1]; exact h1.hwFits x hx
            · exact hmix.fits (h1.hwFits x hx) (hfit p hp x hu)
          refine ⟨fun _ => ⟨k1, hhf, ?_, ?_, by rw [hbuf2]; exact bufOK_nil, (by rw [hbuf2]; intro c n ti hl; cases hl),
            fun _ => hbuf2, fun h => by rw [k3] at h; cases h⟩, k3.trans hi.symm, ?_, ?_, ?_, fun hst hrf => (k9 hst hrf).1⟩
          · intro x hx
            rcases k6 x hx with ⟨-, q2⟩ | ⟨p, hp, hu, -, q | ⟨h, -⟩⟩
            · rw [q2]; exact h1.viewFits x hx
            · rw [q]; exact hhf x hx
            · cases h
          · intro x hx i hi
            rcases k6 x hx with ⟨q1, q2⟩ | ⟨p, hp, hu, -, q | ⟨h, -⟩⟩
            · rw [q2, q1]; exact h1.agree x hx i hi
            · rw [q]
            · cases h
          · intro hok c hc
            rcases hsame c hc with ⟨p, hp, hcp⟩ | ⟨hnu, hon⟩
            · rw [k8 rfl hok p hp c hcp]
              exact hnewb p hp c (ho c hc) ⟨c, hcp, w.refl _ _ (ho c hc)⟩
            · rcases k6 c (ho c hc) with ⟨q1, -⟩ | ⟨p, hp, hu, -⟩
              · rw [q1]; exact hon
              · exact absurd hu (hnu p hp)
          · intro x hx i hi
            rcases k6 x hx with ⟨q1, -⟩ | ⟨p, hp, hu, hmix, -⟩
            · rw [q1]
            · rcases hmix i with e | e
              · exact e
              · rw [e]; exact hnew p hp x hx hu i hi.1 hi.2
          · intro x hx hnu i _
            rcases k6 x hx with ⟨q1, -⟩ | ⟨p, hp, hu, -⟩
            · rw [q1]
            · exact absurd hu (hgl x hx hnu p hp)
      | true =>
        have hbuf1 : st1.buf = [] := e3.trans f4
        obtain ⟨st2, k1, k2, k3, k4, k5, k6, k7, k8, k9, k10, k11, k12⟩ :=
          writeGroups_later w H.nonglobal (vfy := true) g G.ok h1.one hi (h1.trans hi) h1.bufOK
        rw [k1] at hw
        simp only at hw
        -- What is in the buffer.
        have hlook : ∀ c n ti, look st2.buf c n = some ti → n = regaddr ∧ ∃ p ∈ g, c ∈ p.2 ∧ ti = ⟨p.1, true, scope⟩ := by
          intro c n ti hl
          have hno : ∀ c n ti, look st1.buf c n = some ti → False := by rw [hbuf1]; intro c n ti h; cases h
          by_cases hna : n = regaddr
          · subst hna
            rcases k11 c with e | ⟨p, hp, hcp, e⟩
            · rw [e] at hl; exact (hno _ _ _ hl).elim
            · rw [e] at hl
              cases hl
              exact ⟨rfl, p, hp, hcp, rfl⟩
          · rw [k10 c n (.inl hna)] at hl
            exact (hno _ _ _ hl).elim
        cases hf : flushTransaction E st2 with
        | mk st3 r3 =>
          rw [hf] at hw
          obtain ⟨q1, q2, q3, q4, q5, q6, q7, q8, -, q10⟩ := flush_view H k5 k6 (fun c n ti hl => by
            obtain ⟨g1, p, hp, hcp, rfl⟩ := hlook c n ti hl
            exact ⟨g1, G.ok.online p hp c hcp, G.fits p hp c hcp, rfl⟩) (fun h => by rw [k3] at h; cases h) (fun _ => k4) hf
          have hres : st' = st3 ∧ (r = .ok () ↔ ∃ b, r3 = .ok b) := by
            cases r3 with
            | error e => simp only at hw; cases hw; exact ⟨rfl, by simp⟩
            | ok u => simp only at hw; cases hw; exact ⟨rfl, by simp⟩
          obtain ⟨rfl, hr⟩ := hres
          -- CPUs without a new value.
          have hfree : ∀ x ∈ E.T.online, (∀ p ∈ g, ¬ InU E scope p.2 x) → st'.hw regaddr x = st1.hw regaddr x := by
            intro x hx hnu
            have := q6 x hx (· = st2.hw regaddr x) (fun c ti hl hxc => by
              obtain ⟨-, p, hp, hcp, -⟩ := hlook c _ ti hl
              exact absurd ⟨c, hcp, hxc⟩ (hnu p hp)) rfl
            rw [this, k2]
          have hmixed : ∀ x ∈ E.T.online, (Fits (st'.hw regaddr x)) ∧
              ∀ i, K i → i ≠ b → (st'.hw regaddr x).testBit i = (st1.hw regaddr x).testBit i := by
            intro x hx
            refine q6 x hx (fun v => Fits v ∧ ∀ i, K i → i ≠ b → v.testBit i = (st1.hw regaddr x).testBit i) ?_
              ⟨by rw [k2]; exact h1.hwFits x hx, fun _ _ _ => by rw [k2]⟩
            intro c ti hl hxc o hQ
            obtain ⟨-, p, hp, hcp, rfl⟩ := hlook c _ ti hl
            refine ⟨(H.mix _ _).fits hQ.1 (G.fits p hp c hcp), fun i hi hib => ?_⟩
            rcases H.mix o p.1 i with e | e
            · exact e.trans (hQ.2 i hi hib)
            · exact e.trans (hnew p hp x hx ⟨c, hcp, hxc⟩ i hi hib)
          have hdone : r = .ok () → ∀ p ∈ g, ∀ x ∈ E.T.online, InU E scope p.2 x →
              st'.hw regaddr x = p.1 ∧ view st' regaddr x = st'.hw regaddr x := by
            intro hok p hp x hx hu
            obtain ⟨b', hb'⟩ := hr.1 hok
            obtain ⟨d, hd, hxd, hl⟩ := k12 p hp x hx hu
            obtain ⟨m1, m2⟩ := q8 b' hb' d _ hl rfl
            exact ⟨by rw [q1.hw d (G.ok.online p hp d hd) x hxd]; exact m1, m2 x hxd⟩
          refine ⟨fun hor => ?_, q3.trans (k3.trans hi.symm), ?_, fun x hx i hi => (hmixed x hx).2 i hi.1 hi.2, ?_, ?_⟩
          · have hok : r = .ok () := by
              rcases hor with h | h
              · exact h
              · rw [hi] at h; cases h
            have hcase : ∀ x ∈ E.T.online, view st' regaddr x = st'.hw regaddr x ∨
                (st'.hw regaddr x = st1.hw regaddr x ∧ view st' regaddr x = view st1 regaddr x) := by
              intro x hx
              by_cases hex : ∃ p ∈ g, InU E scope p.2 x
              · obtain ⟨p, hp, hu⟩ := hex
                exact .inl (hdone hok p hp x hx hu).2
              · have hnu : ∀ p ∈ g, ¬ InU E scope p.2 x := fun p hp hu => hex ⟨p, hp, hu⟩
                rcases q7 x hx with e | e
                · exact .inl e
                · rw [k8 x hx hnu] at e
                  exact .inr ⟨hfree x hx hnu, (view_some e).symm⟩
            refine ⟨q1, fun x hx => (hmixed x hx).1, ?_, ?_, by rw [q2]; exact bufOK_nil,
              (by rw [q2]; intro c n ti hl; cases hl), fun _ => q2, fun _ => q4.trans k4⟩
            · intro x hx
              rcases hcase x hx with e | ⟨-, e⟩
              · rw [e]; exact (hmixed x hx).1
              · rw [e]; exact h1.viewFits x hx
            · intro x hx i hi
              rcases hcase x hx with e | ⟨e', e⟩
              · rw [e]
              · rw [e, e']; exact h1.agree x hx i hi
          · intro hok c hc
            rcases hsame c hc with ⟨p, hp, hcp⟩ | ⟨hnu, hon⟩
            · have hu : InU E scope p.2 c := ⟨c, hcp, w.refl _ _ (ho c hc)⟩
              rw [(hdone hok p hp c (ho c hc) hu).1]
              exact hnewb p hp c (ho c hc) hu
            · rw [hfree c (ho c hc) hnu]; exact hon
          · intro x hx hnu i _
            rw [hfree x hx (hgl x hx hnu)]
          · intro hst hrf
            refine hr.2 (q10 hst hrf ?_)
            intro c ti c' ti' hl hl' hcc
            obtain ⟨-, p, hp, hcp, rfl⟩ := hlook c _ ti hl
            obtain ⟨-, p', hp', hcp', rfl⟩ := hlook c' _ ti' hl'
            have hco := G.ok.online p hp c hcp
            have hco' := G.ok.online p' hp' c' hcp'
            refine int_ext_testBit fun i => ?_
            rw [(G.new p hp c' hco' ⟨c, hcp, hcc⟩).2 i, (G.new p' hp' c' hco' ⟨c', hcp', w.refl _ _ hco'⟩).2 i]

/-! ### The operations -/

theorem honest {P : Plat} (H : Hardware P) : Honest P.msr scope regaddr where
  topo := ⟨H.refl, H.sub, H.eqv⟩
  nonglobal := by decide
  share := H.share
  mix := fun o v i => H.keeps o v i
  writes := H.writes

theorem Fresh.inv {P : Plat} {st : St} (h : Fresh P st) (K : Nat → Prop) : Inv P.msr scope regaddr K st where
  one := ⟨h.pkg, fun c _ d _ => by rw [h.cache, h.cache]⟩
  hwFits := h.bits64
  viewFits := fun x hx => by rw [view_none (h.cache _ _)]; exact h.bits64 x hx
  agree := fun x hx i _ => by rw [view_none (h.cache _ _)]
  bufOK := by rw [h.buf]; exact bufOK_nil
  buf := by rw [h.buf]; intro c n ti hl; cases hl
  noTrans := fun _ => h.buf
  trans := fun ht => by rw [h.noTrans] at ht; cases ht

theorem asked_iff {P : Plat} {cpus : Nums} {l : List Nat} (h : P.msr.T.normCpus cpus = .ok l) (c : Nat) :
    c ∈ l ↔ Asked P cpus c := by
  cases cpus with
  | all =>
    simp only [Topo.normCpus, Except.ok.injEq] at h
    subst h
    simp [Asked]
  | nums l' =>
    simp only [Topo.normCpus] at h
    split at h
    · cases h; simp [Asked]
    · cases h

theorem normCpus_asked {P : Plat} {cpus : Nums} (h : ∀ c, Asked P cpus c → c ∈ P.msr.T.online) :
    ∃ l, P.msr.T.normCpus cpus = .ok l := by
  cases cpus with
  | all => exact ⟨_, rfl⟩
  | nums l =>
    refine ⟨pyDedup l, ?_⟩
    simp only [Topo.normCpus]
    rw [if_pos]
    rw [List.all_eq_true]
    intro c hc
    simpa using h c (by simpa [Asked] using hc)

theorem validateSupported_cases {P : Plat} {cpus : Nums} : 
    (∃ e, validateSupported P cpus = .error e) ∨ ∃ l, P.msr.T.normCpus cpus = .ok l ∧ validateSupported P cpus = .ok () ∧
      ∀ c ∈ l, P.supported c = true := by
  unfold validateSupported
  cases P.msr.T.normCpus cpus with
  | error e => exact .inl ⟨e, rfl⟩
  | ok l =>
    simp only
    by_cases h : l.all P.supported
    · rw [if_pos h]
      exact .inr ⟨l, rfl, rfl, List.all_eq_true.1 h⟩
    · rw [if_neg h]
      exact .inl ⟨_, rfl⟩

theorem validateSupported_asked {P : Plat} {cpus : Nums} (h : ∀ c, Asked P cpus c → c ∈ P.msr.T.online ∧ P.supported c = true) :
    ∃ l, P.msr.T.normCpus cpus = .ok l ∧ validateSupported P cpus = .ok () := by
  obtain ⟨l, hl⟩ := normCpus_asked (P := P) fun c hc => (h c hc).1
  refine ⟨l, hl, ?_⟩
  unfold validateSupported
  rw [hl]
  simp only
  rw [if_pos]
  rw [List.all_eq_true]
  exact fun c hc => (h c ((asked_iff hl c).1 hc)).2

/-! Setting limits. -/

theorem validateLoop_inv {P : Plat} (H : Hardware P) {K : Nat → Prop} {first : Bool} {val : Power.Float} (l : List Nat)
    (ho : ∀ c ∈ l, c ∈ P.msr.T.online) {st : St} (h : Inv P.msr scope regaddr K st) :
    Inv P.msr scope regaddr K (validateLoop P first val l st).1 ∧ (validateLoop P first val l st).1.hw = st.hw ∧
      (validateLoop P first val l st).1.inTransaction = st.inTransaction ∧
      ((validateLoop P first val l st).2 = .ok () → l ≠ [] → ∀ n, Power.toUnits P.units val = .ok n → 0 ≤ n) := by
  induction l generalizing st with
  | nil => exact ⟨h, rfl, rfl, fun _ h => absurd rfl h⟩
  | cons c l ih =>
    have w := (honest H).topo
    have hbad : ∀ {st' : St} (h' : Inv P.msr scope regaddr K st') (e1 : st'.hw = st.hw)
        (e2 : st'.inTransaction = st.inTransaction) (e : Exn),
        Inv P.msr scope regaddr K ((st', .error e) : St × Except Exn Unit).1 ∧
        ((st', .error e) : St × Except Exn Unit).1.hw = st.hw ∧
        ((st', .error e) : St × Except Exn Unit).1.inTransaction = st.inTransaction ∧
        (((st', .error e) : St × Except Exn Unit).2 = .ok () → c :: l ≠ [] → ∀ n, Power.toUnits P.units val = .ok n → 0 ≤ n) :=
      fun h' e1 e2 e => ⟨h', e1, e2, fun h => nomatch h⟩
    unfold validateLoop
    -- The TDP.
    have r1 := readOne_other (E := P.msr) (a := regaddr) (n := infoaddr) (by decide) (s' := scope) h.one c
    have i1 := h.other (n := infoaddr) (by decide) scope c
    simp only [readBitsLoop]
    cases hr1 : readOne P.msr st infoaddr scope c with
    | mk st1 r =>
      rw [hr1] at r1 i1
      obtain ⟨q1, -, -, q4, -⟩ := r1.1
      cases r with
      | error e => exact hbad i1 q1 q4 e
      | ok v =>
        simp only
        have htdp : RegFile.Field tdpBits := by unfold RegFile.Field; decide
        rw [HWP.getBits_fieldOf htdp]
        have hrange := RegFile.field_range htdp (HWP.getBits_fieldOf htdp v)
        generalize HWP.fieldOf v tdpBits = tdp at hrange
        simp only
        -- The other limit.
        obtain ⟨s1, -, -⟩ := readOne_view w i1.one (ho c (by simp))
        have i2 := i1.sameView s1
        cases hr2 : readOne P.msr st1 regaddr scope c with
        | mk st2 r =>
          rw [hr2] at s1 i2
          obtain ⟨p1, -, -, p4, -⟩ := s1.same
          cases r with
          | error e => exact hbad i2 (p1.trans q1) (p4.trans q4) e
          | ok v2 =>
            simp only
            have hlim : RegFile.Field (limitBits (!first)) := by unfold RegFile.Field; cases first <;> decide
            rw [HWP.getBits_fieldOf hlim]
            generalize HWP.fieldOf v2 (limitBits (!first)) = other
            simp only
            generalize (if first = true then (2 : Int) else 5) = mul
            split
            · exact hbad i2 (p1.trans q1) (p4.trans q4) _
            · split
              · exact hbad i2 (p1.trans q1) (p4.trans q4) _
              · split
                · exact hbad i2 (p1.trans q1) (p4.trans q4) _
                · rename_i hlt
                  obtain ⟨j1, j2, j3, -⟩ := ih (fun x hx => ho x (by simp [hx])) i2
                  refine ⟨j1, j2.trans (p1.trans q1), j3.trans (p4.trans q4), fun _ _ n hn => ?_⟩
                  simp only [Bool.or_eq_true, not_or, Bool.not_eq_true] at hlt
                  cases val with
                  | inf neg => cases hn
                  | nan => cases hn
                  | num m k =>
                    have h2 := hlt.2
                    simp only [Power.Float.ltFrac, decide_eq_false_iff_not, Int.not_lt] at h2
                    have hp : (0 : Int) < 8 * 2 ^ P.units := by positivity
                    have h3 : 0 ≤ m * (8 * 2 ^ P.units) := le_trans (by have := hrange.1; positivity) h2
                    have hm : 0 ≤ m := nonneg_of_mul_nonneg_left h3 hp
                    simp only [Power.toUnits, Except.ok.injEq] at hn
                    rw [← hn]
                    exact Int.tdiv_nonneg (by positivity) (by positivity)

/-- Bits which are not bits of the limits. -/
theorem limit_dis {K : Nat → Prop} (hK : ∀ i, K i → ¬ LimitBit i) (first : Bool) (i : Nat) (hi : K i) :
    ¬ ((limitBits first).2 ≤ (i : Int) ∧ (i : Int) ≤ (limitBits first).1) := by
  have := hK i hi
  unfold LimitBit at this
  cases first <;> simp only [limitBits] <;> omega

theorem setLimit_inv {P : Plat} (H : Hardware P) {K : Nat → Prop} (hK : ∀ i, K i → ¬ LimitBit i) {st : St}
    (h : Inv P.msr scope regaddr K st) (first : Bool) (val : Power.Float) (cpus : Nums) :
    Inv P.msr scope regaddr K (setLimit P first val cpus st).1 ∧ Keeps P.msr regaddr K st (setLimit P first val cpus st).1 ∧
      (setLimit P first val cpus st).1.inTransaction = st.inTransaction := by
  unfold setLimit
  cases validateSupported P cpus with
  | error e => exact ⟨h, Keeps.refl _, rfl⟩
  | ok u =>
    simp only
    cases hn : P.msr.T.normCpus cpus with
    | error e => exact ⟨h, Keeps.refl _, rfl⟩
    | ok l =>
      simp only
      obtain ⟨j1, j2, j3, j4⟩ := validateLoop_inv H (first := first) (val := val) l (normCpus_ok hn).2 h
      cases hv : validateLoop P first val l st with
      | mk st1 r =>
        rw [hv] at j1 j2 j3 j4
        cases r with
        | error e => exact ⟨j1, Keeps.of_eq j2, j3⟩
        | ok u =>
          simp only
          cases hu : Power.toUnits P.units val with
          | error e => exact ⟨j1, Keeps.of_eq j2, j3⟩
          | ok n =>
            simp only
            obtain ⟨k1, k2, k3⟩ := writeBits_inv (honest H) j1 (bits := limitBits first) (by cases first <;> decide)
              (limit_dis hK first) hn (fun hl => j4 rfl hl n hu) (v := n) rfl
            exact ⟨k1, (Keeps.of_eq j2).trans k2, k3.trans j3⟩

/-! Setting switches. -/

theorem Switch.bits_eq (s : Switch) : s.bits = ((s.bit : Int), (s.bit : Int)) := by
  cases s <;> rename_i b <;> cases b <;> rfl

theorem Switch.bit_le (s : Switch) : s.bit ≤ 63 := by
  cases s <;> rename_i b <;> cases b <;> decide

theorem Switch.bit_not (s : Switch) : ¬ LimitBit s.bit := by
  unfold LimitBit
  cases s <;> rename_i b <;> cases b <;> decide

/-- The names and values of a switch. -/
def names : Dict PyStr Int := [("on".toList, 1), ("off".toList, 0)]

theorem names_get {x : PyStr} {n : Int} (h : names.get? x = some n) :
    (x = "on".toList ∧ n = 1) ∨ (x = "off".toList ∧ n = 0) := by
  unfold names at h
  generalize "on".toList = a at *
  generalize "off".toList = b at *
  simp only [Dict.get?] at h
  split at h
  · cases h; rename_i h; exact .inl ⟨by simpa using h.symm, rfl⟩
  · split at h
    · cases h; rename_i h; exact .inr ⟨by simpa using h.symm, rfl⟩
    · cases h

theorem names_on : names.get? "on".toList = some 1 := by decide +kernel
theorem names_off : names.get? "off".toList = some 0 := by decide +kernel
theorem lower_on : "on".toList.map Char.toLower = "on".toList := by decide +kernel
theorem lower_off : "off".toList.map Char.toLower = "off".toList := by decide +kernel

theorem normalize_str (s : Switch) (sup : Nat → Bool) (x : PyStr) :
    FeaturedMSR.normalizeValue (s.feature sup) (.str x) =
      match names.get? x with
      | some code => .ok (.int code)
      | none =>
        match names.get? (x.map Char.toLower) with
        | some code => .ok (.int code)
        | none => .error .error := by
  have hv : FeaturedMSR.valsNocase (s.feature sup) = names := by
    show FeaturedMSR.rekey FeaturedMSR.lower [("on".toList, 1), ("off".toList, 0)] [] = names
    decide +kernel
  unfold FeaturedMSR.normalizeValue
  rw [hv]
  rfl

theorem normalize_bool (s : Switch) (sup : Nat → Bool) (b : Bool) :
    FeaturedMSR.normalizeValue (s.feature sup) (.bool b) = .ok (.int (if b then 1 else 0)) := by
  cases b with
  | true =>
    have : FeaturedMSR.normalizeValue (s.feature sup) (.bool true) =
        FeaturedMSR.normalizeValue (s.feature sup) (.str "on".toList) := rfl
    rw [this, normalize_str, names_on]; rfl
  | false =>
    have : FeaturedMSR.normalizeValue (s.feature sup) (.bool false) =
        FeaturedMSR.normalizeValue (s.feature sup) (.str "off".toList) := rfl
    rw [this, normalize_str, names_off]; rfl

theorem normalize_means {s : Switch} {sup : Nat → Bool} {val v : FeaturedMSR.Val}
    (h : FeaturedMSR.normalizeValue (s.feature sup) val = .ok v) :
    ∃ on, Means val on ∧ v = .int (if on then 1 else 0) := by
  cases val with
  | int n => cases h
  | bool b =>
    rw [normalize_bool] at h
    cases h
    exact ⟨b, rfl, rfl⟩
  | str x =>
    rw [normalize_str] at h
    cases hx : names.get? x with
    | some n =>
      rw [hx] at h
      cases h
      rcases names_get hx with ⟨rfl, rfl⟩ | ⟨rfl, rfl⟩
      · exact ⟨true, lower_on, rfl⟩
      · exact ⟨false, lower_off, rfl⟩
    | none =>
      rw [hx] at h
      simp only at h
      cases hx' : names.get? (x.map Char.toLower) with
      | none => rw [hx'] at h; cases h
      | some n =>
        rw [hx'] at h
        cases h
        rcases names_get hx' with ⟨h', rfl⟩ | ⟨h', rfl⟩
        · exact ⟨true, h', rfl⟩
        · exact ⟨false, h', rfl⟩

theorem on_ne_off : "on".toList ≠ "off".toList := by decide +kernel

theorem means_normalize {s : Switch} {sup : Nat → Bool} {val : FeaturedMSR.Val} {on : Bool} (h : Means val on) :
    FeaturedMSR.normalizeValue (s.feature sup) val = .ok (.int (if on then 1 else 0)) := by
  cases val with
  | int n => cases on <;> exact h.elim
  | bool b =>
    have h' : b = on := by cases on <;> exact h
    subst h'
    exact normalize_bool _ _ _
  | str x =>
    rw [normalize_str]
    cases hx : names.get? x with
    | some n =>
      rcases names_get hx with ⟨rfl, rfl⟩ | ⟨rfl, rfl⟩
      · cases on with
        | true => rfl
        | false => exact absurd (lower_on.symm.trans h) on_ne_off
      · cases on with
        | true => exact absurd (lower_off.symm.trans h).symm on_ne_off
        | false => rfl
    | none =>
      cases on with
      | true => rw [show x.map Char.toLower = "on".toList from h, names_on]; rfl
      | false => rw [show x.map Char.toLower = "off".toList from h, names_off]; rfl

/-- A value means one thing only. -/
theorem Means.inj {val : FeaturedMSR.Val} {a b : Bool} (ha : Means val a) (hb : Means val b) : a = b := by
  have h1 := means_normalize (s := .enable true) (sup := fun _ => true) ha
  rw [means_normalize hb] at h1
  cases a <;> cases b <;> simp_all

theorem setSwitch_cases {P : Plat} {s : Switch} {val : FeaturedMSR.Val} {cpus : Nums} {st st' : St} {r : Except Exn Unit}
    (h : setSwitch P s val cpus st = (st', r)) :
    (st' = st ∧ ∃ e, r = .error e) ∨ ∃ l on, P.msr.T.normCpus cpus = .ok l ∧ Means val on ∧
      writeVerified P ((s.bit : Int), (s.bit : Int)) (.num (if on then 1 else 0)) cpus st = (st', r) := by
  unfold setSwitch at h
  rcases validateSupported_cases (P := P) (cpus := cpus) with ⟨e, he⟩ | ⟨l, hl, he, -⟩
  · rw [he] at h
    cases h
    exact .inl ⟨rfl, e, rfl⟩
  · rw [he] at h
    simp only at h
    cases hn : FeaturedMSR.normalizeValue (s.feature P.supported) val with
    | error e =>
      rw [hn] at h
      cases h
      exact .inl ⟨rfl, e, rfl⟩
    | ok v =>
      rw [hn] at h
      obtain ⟨on, hm, rfl⟩ := normalize_means hn
      rw [← s.bits_eq]
      exact .inr ⟨l, on, hl, hm, h⟩

/-! Reading. -/

theorem readBits_inv {P : Plat} (H : Hardware P) {K : Nat → Prop} {st : St} (h : Inv P.msr scope regaddr K st)
    (bits : BitRange) (cpus : Nums) :
    Inv P.msr scope regaddr K (readBits P.msr st regaddr bits cpus scope).1 ∧
      (readBits P.msr st regaddr bits cpus scope).1.hw = st.hw ∧
      (readBits P.msr st regaddr bits cpus scope).1.inTransaction = st.inTransaction := by
  unfold readBits
  cases hn : P.msr.T.normCpus cpus with
  | error e => exact ⟨h, rfl, rfl⟩
  | ok l =>
    obtain ⟨h1, -, -⟩ := readBitsLoop_view (honest H).topo (bits := bits) l (normCpus_ok hn).2 h.one
    exact ⟨h.sameView h1, h1.same.1, h1.same.2.2.2.1⟩

/-- All the operations which read. -/
theorem get_inv {P : Plat} (H : Hardware P) {K : Nat → Prop} {st : St} (h : Inv P.msr scope regaddr K st)
    {α : Type} (bits : BitRange) (cpus : Nums) (f : List (Nat × Int) → Except Exn α) {st' : St} {r : Except Exn α}
    (hr : (match validateSupported P cpus with
      | .error e => (st, .error e)
      | .ok () =>
        match readBits P.msr st regaddr bits cpus scope with
        | (st, .error e) => (st, .error e)
        | (st, .ok l) => (st, f l)) = (st', r)) :
    Inv P.msr scope regaddr K st' ∧ st'.hw = st.hw ∧ st'.inTransaction = st.inTransaction := by
  cases hs : validateSupported P cpus with
  | error e => rw [hs] at hr; cases hr; exact ⟨h, rfl, rfl⟩
  | ok u =>
    rw [hs] at hr
    have := readBits_inv H h bits cpus
    cases hb : readBits P.msr st regaddr bits cpus scope with
    | mk st1 r1 =>
      rw [hb] at hr this
      cases r1 <;> (cases hr; exact this)

/-- The bits which are read. -/
theorem readBits_bits {P : Plat} (H : Hardware P) {K : Nat → Prop} {st : St} (h : Inv P.msr scope regaddr K st)
    {bits : BitRange} (hf : RegFile.Field bits) (hK : ∀ i : Nat, bits.2 ≤ (i : Int) ∧ (i : Int) ≤ bits.1 → K i) {cpus : Nums}
    {l : List Nat} (hn : P.msr.T.normCpus cpus = .ok l) :
    (∀ r, (readBits P.msr st regaddr bits cpus scope).2 = .ok r →
      r = l.map fun c => (c, HWP.fieldOf (st.hw regaddr c) bits)) ∧
    ((∀ c ∈ l, P.msr.rfail regaddr c = false) → ∃ r, (readBits P.msr st regaddr bits cpus scope).2 = .ok r) := by
  have ho := (normCpus_ok hn).2
  obtain ⟨-, h2, h3⟩ := readBitsLoop_view (honest H).topo (bits := bits) l ho h.one
  have hv : ∀ c ∈ l, getBits (view st regaddr c) bits = .ok (HWP.fieldOf (st.hw regaddr c) bits) := by
    intro c hc
    rw [← HWP.getBits_fieldOf hf]
    exact RegFile.getBits_congr hf fun k hk => h.agree c (ho c hc) k (hK k hk)
  unfold readBits
  rw [hn]
  refine ⟨fun r hr => ?_, fun hrf => h3 fun c hc => ⟨hrf c hc, _, hv c hc⟩⟩
  obtain ⟨g1, g2⟩ := h2 r hr
  subst g1
  rw [List.map_map]
  conv_lhs => rw [← List.map_id r]
  refine List.map_congr_left fun p hp => ?_
  have := g2 p hp
  rw [hv p.1 (List.mem_map_of_mem hp)] at this
  simp only [Except.ok.injEq] at this
  simp [this]

theorem fieldOf_bit {k : Nat} (hk : k ≤ 63) (r : Int) :
    HWP.fieldOf r ((k : Int), (k : Int)) = if r.testBit k then 1 else 0 := by
  have := CStates.getBits_bit hk r
  rw [HWP.getBits_fieldOf (CStates.bit_field hk)] at this
  simpa using this

theorem rvals_get (s : Switch) (sup : Nat → Bool) (b : Bool) :
    (FeaturedMSR.rvals (s.feature sup)).get? (if b then 1 else 0) = some (if b then "on".toList else "off".toList) := by
  show (FeaturedMSR.reverse [("on".toList, 1), ("off".toList, 0)] []).get? _ = _
  cases b <;> decide +kernel

/-- What a switch shows. -/
theorem decode_switch (s : Switch) (sup : Nat → Bool) (f : Nat → Int) (l : List Nat) :
    FeaturedMSR.decodeAll (s.feature sup) (l.map fun c => (c, HWP.fieldOf (f c) s.bits)) =
      .ok (l.map fun c => (c, shown ((f c).testBit s.bit))) := by
  have := FeaturedMSR.decodeAll_names (s.feature sup) (fun h => nomatch h) (fun c => HWP.fieldOf (f c) s.bits)
    (fun c => if (f c).testBit s.bit then "on".toList else "off".toList) l (fun c _ => by
      rw [s.bits_eq, fieldOf_bit s.bit_le]; exact rvals_get _ _ _)
  rw [this]
  congr 1
  refine List.map_congr_left fun c _ => ?_
  unfold shown
  cases (f c).testBit s.bit <;> rfl

/-- The number in a field of a register. -/
theorem fieldOf_bitsOf {v : Int} (hv : 0 ≤ v) {lo hi : Nat} (h : lo ≤ hi) (h2 : hi ≤ 63) :
    HWP.fieldOf v ((hi : Int), (lo : Int)) = bitsOf v lo (hi - lo + 1) := by
  have hf : RegFile.Field ((hi : Int), (lo : Int)) := by unfold RegFile.Field; dsimp only; omega
  obtain ⟨n, rfl⟩ := Int.eq_ofNat_of_zero_le hv
  have := FreqInfo.getBits_nat n lo hi h (by omega)
  rw [HWP.getBits_fieldOf hf] at this
  simp only [Except.ok.injEq] at this
  rw [this]
  unfold bitsOf FreqInfo.field
  push_cast
  rfl

theorem bitsOf_nonneg (v : Int) (lo n : Nat) : 0 ≤ bitsOf v lo n := by
  unfold bitsOf
  exact Int.emod_nonneg _ (by positivity)

theorem bitsOf_bitsOf {v : Int} (hv : 0 ≤ v) (lo n lo' n' : Nat) (h : lo' + n' ≤ n) :
    bitsOf (bitsOf v lo n) lo' n' = bitsOf v (lo + lo') n' := by
  unfold bitsOf
  obtain ⟨m, rfl⟩ := Int.eq_ofNat_of_zero_le hv
  norm_cast
  refine Nat.eq_of_testBit_eq fun i => ?_
  simp only [Nat.testBit_mod_two_pow, Nat.testBit_div_two_pow]
  by_cases hi : i < n'
  · have h1 : lo' + i < n := by omega
    simp [hi, Nat.add_comm, Nat.add_left_comm]
    omega
  · simp [hi]

theorem window_eq {P : Plat} {v : Int} (hv : 0 ≤ v) (first : Bool) :
    window P (HWP.fieldOf v (windowBits first)) = .ok (windowOf P.time v first) := by
  have key : ∀ lo : Nat, lo + 6 ≤ 63 → window P (HWP.fieldOf v (((lo + 6 : Nat) : Int), (lo : Int))) =
      .ok (.num (2 ^ (bitsOf v lo 5).toNat * (4 + bitsOf v (lo + 5) 2)) (2 + P.time)) := by
    intro lo hlo
    rw [fieldOf_bitsOf hv (by omega) hlo]
    rw [show lo + 6 - lo + 1 = 7 by omega]
    have hn := bitsOf_nonneg v lo 7
    have e1 : getBits (bitsOf v lo 7) (4, 0) = .ok (bitsOf v lo 5) := by
      rw [HWP.getBits_fieldOf (by unfold RegFile.Field; decide)]
      have := fieldOf_bitsOf hn (lo := 0) (hi := 4) (by decide) (by decide)
      rw [bitsOf_bitsOf hv lo 7 0 (4 - 0 + 1) (by decide)] at this
      exact congrArg _ this
    have e2 : getBits (bitsOf v lo 7) (6, 5) = .ok (bitsOf v (lo + 5) 2) := by
      rw [HWP.getBits_fieldOf (by unfold RegFile.Field; decide)]
      have := fieldOf_bitsOf hn (lo := 5) (hi := 6) (by decide) (by decide)
      rw [bitsOf_bitsOf hv lo 7 5 (6 - 5 + 1) (by decide)] at this
      exact congrArg _ this
    unfold window
    rw [e1, e2]
  cases first with
  | true => exact key 17 (by decide)
  | false => exact key 49 (by decide)

theorem mapVals_ok {α β : Type} {f : α → Except Exn β} {g : Nat → β} {a : Nat → α} (l : List Nat)
    (h : ∀ c ∈ l, f (a c) = .ok (g c)) : mapVals f (l.map fun c => (c, a c)) = .ok (l.map fun c => (c, g c)) := by
  induction l with
  | nil => rfl
  | cons c l ih =>
    simp only [List.map_cons, mapVals, h c (by simp), ih fun x hx => h x (by simp [hx])]
    rfl

/-! ### Sequences of operations -/

theorem start_inv {E : Env} {s : Scope} {a : Nat} {K : Nat → Prop} {st : St} (h : Inv E s a K st) :
    Inv E s a K (startTransaction st).1 ∧ (startTransaction st).1.hw = st.hw := by
  unfold startTransaction
  by_cases he : st.cache.enabled
  · rw [if_neg (by simp [he])]
    by_cases ht : st.inTransaction
    · rw [if_pos ht]; exact ⟨h, rfl⟩
    · rw [if_neg ht]
      exact ⟨⟨⟨h.one.hw, h.one.cache⟩, h.hwFits, h.viewFits, h.agree, h.bufOK, h.buf, (fun h => nomatch h), fun _ => he⟩, rfl⟩
  · rw [if_pos (by simp [he])]; exact ⟨h, rfl⟩

theorem commit_inv {E : Env} {s : Scope} {a : Nat} (H : Honest E s a) {K : Nat → Prop} {st : St} (h : Inv E s a K st) :
    Inv E s a K (commitTransaction E st).1 ∧ Keeps E a K st (commitTransaction E st).1 := by
  unfold commitTransaction
  by_cases ht : st.inTransaction
  · rw [if_neg (by simp [ht])]
    obtain ⟨st', b, h1, h2, h3, h4, -⟩ := flush_inv H h
    rw [h1]
    exact ⟨⟨⟨h2.one.hw, h2.one.cache⟩, h2.hwFits, h2.viewFits, h2.agree, h2.bufOK, h2.buf, fun _ => h4, (fun h => nomatch h)⟩, h3⟩
  · rw [if_pos (by simp [ht])]; exact ⟨h, Keeps.refl _⟩

theorem step_inv {P : Plat} (H : Hardware P) {K : Nat → Prop} (hK : ∀ i, K i ↔ ¬ LimitBit i) {st st' : St}
    (h : Inv P.msr scope regaddr K st) {o : Op} {r : Except Exn Unit} (hs : step P st o = (st', r))
    (hr : r = .ok () ∨ st.inTransaction = false ∨ o.isSwitch = false) : Inv P.msr scope regaddr K st' := by
  cases o with
  | getSwitch s cpus =>
    simp only [step, Prod.mk.injEq] at hs
    rw [← hs.1]
    exact (get_inv H h s.bits cpus (FeaturedMSR.decodeAll (s.feature P.supported)) rfl).1
  | getWindow f cpus =>
    simp only [step, Prod.mk.injEq] at hs
    rw [← hs.1]
    exact (get_inv H h (windowBits f) cpus (mapVals (window P)) rfl).1
  | getLimit f cpus =>
    simp only [step, Prod.mk.injEq] at hs
    rw [← hs.1]
    exact (get_inv H h (limitBits f) cpus (fun l => .ok (l.map fun p => (p.1, Power.Float.num p.2 P.units))) rfl).1
  | setSwitch s v cpus =>
    have hr' : r = .ok () ∨ st.inTransaction = false := by
      rcases hr with h | h | h
      · exact .inl h
      · exact .inr h
      · cases h
    rcases setSwitch_cases (show setSwitch P s v cpus st = (st', r) from hs) with ⟨rfl, -⟩ | ⟨l, on, hl, -, hw⟩
    · exact h
    · exact (writeVerified_bit (honest H) h s.bit_le ((hK _).2 s.bit_not) hl hw).inv hr'
  | setLimit f v cpus =>
    have := (setLimit_inv H (fun i => (hK i).1) h f v cpus).1
    rw [show setLimit P f v cpus st = (st', r) from hs] at this
    exact this
  | start =>
    have := (start_inv h).1
    rw [show startTransaction st = (st', r) from hs] at this
    exact this
  | flush =>
    simp only [step, Prod.mk.injEq] at hs
    obtain ⟨st1, b, h1, h2, -⟩ := flush_inv (honest H) h
    rw [h1] at hs
    rw [← hs.1]
    exact h2
  | commit =>
    have := (commit_inv (honest H) h).1
    rw [show commitTransaction P.msr st = (st', r) from hs] at this
    exact this

theorem run_inv {P : Plat} (H : Hardware P) {K : Nat → Prop} (hK : ∀ i, K i ↔ ¬ LimitBit i) (ops : List Op) {st st' : St}
    (h : Inv P.msr scope regaddr K st) (hr : run P ops st = some st') : Inv P.msr scope regaddr K st' := by
  induction ops generalizing st with
  | nil => cases hr; exact h
  | cons o os ih =>
    unfold run at hr
    cases hs : step P st o with
    | mk st1 r =>
      rw [hs] at hr
      cases r with
      | ok u => exact ih (step_inv H hK h hs (.inl rfl)) hr
      | error e =>
        simp only at hr
        by_cases hc : (st.inTransaction && o.isSwitch) = true
        · rw [if_pos hc] at hr; cases hr
        · rw [if_neg hc] at hr
          refine ih (step_inv H hK h hs (.inr ?_)) hr
          cases h1 : st.inTransaction
          · exact .inl rfl
          · right
            rw [h1] at hc
            simpa using hc

theorem reachable_inv {P : Plat} (H : Hardware P) {st : St} (h : Reachable P st) :
    Inv P.msr scope regaddr (fun i => ¬ LimitBit i) st := by
  obtain ⟨st0, ops, h0, hr⟩ := h
  exact run_inv H (fun _ => Iff.rfl) ops (h0.inv _) hr

theorem run_append {P : Plat} (a b : List Op) (st : St) : run P (a ++ b) st = (run P a st).bind (run P b) := by
  induction a generalizing st with
  | nil => rfl
  | cons o os ih =>
    simp only [List.cons_append, run]
    cases step P st o with
    | mk st1 r =>
      cases r with
      | ok u => exact ih st1
      | error e =>
        simp only
        split
        · rfl
        · exact ih st1

end Verif.RaplLimits
