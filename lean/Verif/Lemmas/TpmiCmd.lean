import Verif.Props.TpmiIter
import Verif.Props.TpmiCmdSpec
import Verif.Lemmas.TpmiDiscover

/-! Helper lemmas about the 'pepc tpmi' commands. -/

namespace Verif.Tpmi

/-! ### The loop over what `iter_feature()` yields -/

/-- What the body does: `P` holds after the steps done so far, `Q` when it fails. -/
def BodyOk {A : Type} (M : Machine) (E : Env) (body : Body Mem A) (T : Triple → Prop)
    (P : List Triple → Mem → A → Prop) (Q : List Triple → Triple → Mem → A → Exn → Prop) : Prop :=
  ∀ ts t s acc, Inv M E s → T t → (∀ u ∈ ts, T u) → t ∉ ts → ts.Nodup → P ts s.w acc →
    Inv M E (body t s acc).1 ∧
    (((body t s acc).2.2 = none ∧ P (ts ++ [t]) (body t s acc).1.w (body t s acc).2.1) ∨
      ∃ e, (body t s acc).2.2 = some e ∧ Q ts t (body t s acc).1.w (body t s acc).2.1 e)

/-- The body failed at some point. -/
def Broke {A : Type} (T : Triple → Prop) (Q : List Triple → Triple → Mem → A → Exn → Prop)
    (r : St Mem × A × Option Exn) : Prop :=
  ∃ ts t e, r.2.2 = some e ∧ (∀ u ∈ ts, T u) ∧ T t ∧ t ∉ ts ∧ ts.Nodup ∧ Q ts t r.1.w r.2.1 e

theorem eachInst_rule {A : Type} {M : Machine} {E : Env} {body : Body Mem A} {T : Triple → Prop}
    {P : List Triple → Mem → A → Prop} {Q : List Triple → Triple → Mem → A → Exn → Prop}
    (hb : BodyOk M E body T P Q) (a : PyStr) (p : Nat) (is : List Nat) : ∀ (ts : List Triple) (s : St Mem) (acc : A),
    Inv M E s → (∀ u ∈ ts, T u) → (∀ i ∈ is, T (a, p, i)) → is.Nodup → (∀ i ∈ is, (a, p, i) ∉ ts) → ts.Nodup →
    P ts s.w acc →
    Inv M E (eachInst body a p is s acc).1 ∧
    (((eachInst body a p is s acc).2.2 = none ∧
        P (ts ++ is.map fun i => (a, p, i)) (eachInst body a p is s acc).1.w (eachInst body a p is s acc).2.1) ∨
      Broke T Q (eachInst body a p is s acc)) := by
  induction is with
  | nil =>
    intro ts s acc hi hts _ _ _ hn hP
    rw [eachInst]
    exact ⟨hi, .inl ⟨rfl, by simpa using hP⟩⟩
  | cons i is ih =>
    intro ts s acc hi hts hT hnd hni hn hP
    rw [List.nodup_cons] at hnd
    have hstep := hb ts (a, p, i) s acc hi (hT i List.mem_cons_self) hts (hni i List.mem_cons_self) hn hP
    rw [eachInst]
    generalize body (a, p, i) s acc = r at hstep
    obtain ⟨s', acc', oe⟩ := r
    obtain ⟨h1, ⟨h2, h3⟩ | ⟨e, h2, h3⟩⟩ := hstep
    · dsimp only at h1 h2 h3
      subst h2
      dsimp only
      have hts' : ∀ u ∈ ts ++ [(a, p, i)], T u := by
        intro u hu
        rcases List.mem_append.1 hu with h | h
        · exact hts u h
        · rw [List.mem_singleton.1 h]; exact hT i List.mem_cons_self
      have hn' : (ts ++ [(a, p, i)]).Nodup := by
        rw [List.nodup_append]
        refine ⟨hn, by rw [List.nodup_cons]; exact ⟨by simp, List.nodup_nil⟩, ?_⟩
        intro x hx y hy e
        rw [List.mem_singleton] at hy
        subst hy
        subst e
        exact hni i List.mem_cons_self hx
      have := ih (ts ++ [(a, p, i)]) s' acc' h1 hts' (fun j hj => hT j (List.mem_cons_of_mem _ hj)) hnd.2 (by
        intro j hj hm
        rcases List.mem_append.1 hm with h | h
        · exact hni j (List.mem_cons_of_mem _ hj) h
        · rw [List.mem_singleton] at h
          cases h
          exact hnd.1 hj) hn' h3
      rw [List.append_assoc] at this
      exact this
    · dsimp only at h1 h2 h3
      subst h2
      exact ⟨h1, .inr ⟨ts, (a, p, i), e, rfl, hts, hT i List.mem_cons_self, hni i List.mem_cons_self, hn, h3⟩⟩

/-- The pairs the loop does not skip. -/
def matching (fm : Dict PyStr Nat) (ps : List (PyStr × Nat)) : List (PyStr × Nat) :=
  ps.filter fun x => decide (fm.get? x.1 = some x.2)

/-- The triples of pairs and instances. -/
def product (ps : List (PyStr × Nat)) (is : List Nat) : List Triple := ps.flatMap fun x => is.map fun i => (x.1, x.2, i)

theorem mem_product {ps : List (PyStr × Nat)} {is : List Nat} {t : Triple} :
    t ∈ product ps is ↔ (t.1, t.2.1) ∈ ps ∧ t.2.2 ∈ is := by
  unfold product
  obtain ⟨a, p, i⟩ := t
  simp only [List.mem_flatMap, List.mem_map]
  constructor
  · rintro ⟨x, hx, j, hj, e⟩
    cases e
    exact ⟨hx, hj⟩
  · rintro ⟨h1, h2⟩
    exact ⟨_, h1, i, h2, rfl⟩

theorem nodup_product {ps : List (PyStr × Nat)} {is : List Nat} (hp : ps.Nodup) (hi : is.Nodup) : (product ps is).Nodup := by
  unfold product
  induction ps with
  | nil => exact List.nodup_nil
  | cons x l ih =>
    rw [List.nodup_cons] at hp
    rw [List.flatMap_cons, List.nodup_append]
    refine ⟨?_, ih hp.2, ?_⟩
    · rw [List.nodup_iff_pairwise_ne, List.pairwise_map]
      exact (List.nodup_iff_pairwise_ne.1 hi).imp fun h e => h (by cases e; rfl)
    · intro t ht u hu e
      subst e
      obtain ⟨i, -, rfl⟩ := List.mem_map.1 ht
      have := (mem_product (ps := l) (is := is)).1 hu
      exact hp.1 this.1

theorem eachLoop_cons {A W : Type} (K : Kernel W) (E : Env) (body : Body W A) (f : PyStr) (fm : Dict PyStr Nat) (a : PyStr)
    (p : Nat) (rest : List (PyStr × Nat)) (is : Option (List Nat)) (s : St W) (acc : A) :
    eachLoop K E body f fm ((a, p) :: rest) is s acc =
      if fm.get? a ≠ some p then eachLoop K E body f fm rest is s acc
      else match is with
        | some is =>
          match validateInstances K E f a is s with
          | (s, .error e) => (s, acc, some e)
          | (s, .ok ()) =>
            match eachInst body a p is s acc with
            | (s, acc, some e) => (s, acc, some e)
            | (s, acc, none) => eachLoop K E body f fm rest (some is) s acc
        | none =>
          match getMdmap K E f a s with
          | (s, .error e) => (s, acc, some e)
          | (s, .ok mdmap) =>
            match eachInst body a p mdmap.keys s acc with
            | (s, acc, some e) => (s, acc, some e)
            | (s, acc, none) => eachLoop K E body f fm rest (some mdmap.keys) s acc := by
  cases is with
  | none =>
    simp only [eachLoop]
    congr 1
    generalize getMdmap K E f a s = r
    obtain ⟨s', e | d⟩ := r
    · rfl
    · dsimp only
      generalize eachInst body a p (Dict.keys d) s' acc = q
      obtain ⟨s1, a1, o | o⟩ := q <;> rfl
  | some is =>
    simp only [eachLoop]
    congr 1
    generalize validateInstances K E f a is s = r
    obtain ⟨s', e | d⟩ := r
    · rfl
    · dsimp only
      generalize eachInst body a p is s' acc = q
      obtain ⟨s1, a1, o | o⟩ := q <;> rfl

/-- The instances are known. -/
theorem eachLoop_some {A : Type} {M : Machine} (hM : M.WF) {E : Env} {body : Body Mem A} {T : Triple → Prop}
    {P : List Triple → Mem → A → Prop} {Q : List Triple → Triple → Mem → A → Exn → Prop}
    (hb : BodyOk M E body T P Q) (f : PyStr) (fm : Dict PyStr Nat) (is : List Nat) (his : is.Nodup)
    (ps : List (PyStr × Nat)) : ∀ (ts : List Triple) (s : St Mem) (acc : A),
    Inv M E s → (∀ u ∈ ts, T u) →
    (∀ x ∈ matching fm ps, (∀ i ∈ is, i ∈ nums M E f x.1) → ∀ i ∈ is, T (x.1, x.2, i)) → ps.Nodup →
    (∀ t ∈ ts, (t.1, t.2.1) ∉ ps) → ts.Nodup → P ts s.w acc →
    let r := eachLoop M.kernel E body f fm ps (some is) s acc
    Inv M E r.1 ∧
    ((r.2.2 = none ∧ (∀ x ∈ matching fm ps, ∀ i ∈ is, i ∈ nums M E f x.1) ∧
        P (ts ++ product (matching fm ps) is) r.1.w r.2.1) ∨
      (∃ us e, r.2.2 = some e ∧ (∀ u ∈ us, T u) ∧ us.Nodup ∧ P us r.1.w r.2.1 ∧
        ∃ x ∈ matching fm ps, ∃ i ∈ is, i ∉ nums M E f x.1) ∨
      Broke T Q r) := by
  induction ps with
  | nil =>
    intro ts s acc hi hts _ _ _ hn hP
    rw [eachLoop]
    exact ⟨hi, .inl ⟨rfl, fun x hx => (by cases hx), by simpa [product, matching] using hP⟩⟩
  | cons x ps ih =>
    obtain ⟨a, p⟩ := x
    intro ts s acc hi hts hT hnd hni hn hP
    rw [List.nodup_cons] at hnd
    rw [eachLoop_cons]
    by_cases hm : fm.get? a = some p
    · have hmat : matching fm ((a, p) :: ps) = (a, p) :: matching fm ps := by
        unfold matching
        rw [List.filter_cons_of_pos (by simpa using hm)]
      rw [if_neg (by simpa using hm)]
      rw [hmat] at hT ⊢
      obtain ⟨c, r, g1, g2, g3⟩ := validateInstances_spec hM f a is hi
      dsimp only
      rw [g1]
      cases r with
      | error e =>
        dsimp only
        refine ⟨g2, .inr (.inl ⟨ts, e, rfl, hts, hn, hP, (a, p), List.mem_cons_self, ?_⟩)⟩
        apply Classical.byContradiction
        intro hno
        have : ∀ i ∈ is, i ∈ (M.lay (a, E.fid f)).map Inst.num := by
          intro i hi'
          apply Classical.byContradiction
          intro h
          exact hno ⟨i, hi', h⟩
        exact absurd (g3.2 this) (by simp)
      | ok u =>
        have hin : ∀ i ∈ is, i ∈ nums M E f a := g3.1 rfl
        dsimp only
        have hTa := hT (a, p) List.mem_cons_self hin
        have hstep := eachInst_rule hb a p is ts _ acc g2 hts hTa his (fun i hi' hmem => hni _ hmem List.mem_cons_self) hn hP
        generalize eachInst body a p is ⟨s.w, c⟩ acc = r at hstep
        obtain ⟨s', acc', oe⟩ := r
        obtain ⟨h1, ⟨h2, h3⟩ | hbr⟩ := hstep
        · dsimp only at h1 h2 h3
          subst h2
          dsimp only
          have hts' : ∀ u ∈ ts ++ is.map (fun i => (a, p, i)), T u := by
            intro u hu
            rcases List.mem_append.1 hu with h | h
            · exact hts u h
            · obtain ⟨i, hi', rfl⟩ := List.mem_map.1 h
              exact hTa i hi'
          have hn' : (ts ++ is.map (fun i => ((a, p, i) : Triple))).Nodup := by
            rw [List.nodup_append]
            refine ⟨hn, ?_, ?_⟩
            · rw [List.nodup_iff_pairwise_ne, List.pairwise_map]
              exact (List.nodup_iff_pairwise_ne.1 his).imp fun h e => h (by cases e; rfl)
            · intro x hx y hy e
              subst e
              obtain ⟨i, -, rfl⟩ := List.mem_map.1 hy
              exact hni _ hx List.mem_cons_self
          have := ih (ts ++ is.map fun i => (a, p, i)) s' acc' h1 hts'
            (fun x hx => hT x (List.mem_cons_of_mem _ hx)) hnd.2 (by
              intro t ht
              rcases List.mem_append.1 ht with h | h
              · exact fun h' => hni t h (List.mem_cons_of_mem _ h')
              · obtain ⟨i, -, rfl⟩ := List.mem_map.1 h
                exact hnd.1) hn' h3
          obtain ⟨k1, ⟨k2, k3, k4⟩ | ⟨us, e, k2, k3, k3', k4, y, hy, k5⟩ | k2⟩ := this
          · refine ⟨k1, .inl ⟨k2, ?_, ?_⟩⟩
            · intro x hx
              rcases List.mem_cons.1 hx with rfl | hx
              · exact hin
              · exact k3 x hx
            · rw [List.append_assoc] at k4
              exact k4
          · exact ⟨k1, .inr (.inl ⟨us, e, k2, k3, k3', k4, y, List.mem_cons_of_mem _ hy, k5⟩)⟩
          · exact ⟨k1, .inr (.inr k2)⟩
        · obtain ⟨us, t, e, b1, b2, b3, b4⟩ := hbr
          dsimp only at b1 h1
          subst b1
          exact ⟨h1, .inr (.inr ⟨us, t, e, rfl, b2, b3, b4⟩)⟩
    · have hmat : matching fm ((a, p) :: ps) = matching fm ps := by
        unfold matching
        rw [List.filter_cons_of_neg (by simpa using hm)]
      rw [if_pos (by simpa using hm)]
      rw [hmat] at hT ⊢
      exact ih ts s acc hi hts hT hnd.2 (fun t ht h => hni t ht (List.mem_cons_of_mem _ h)) hn hP

/-- No instances are given: those of the first device are taken for all. -/
theorem eachLoop_none {A : Type} {M : Machine} (hM : M.WF) {E : Env} {body : Body Mem A} {T : Triple → Prop}
    {P : List Triple → Mem → A → Prop} {Q : List Triple → Triple → Mem → A → Exn → Prop}
    (hb : BodyOk M E body T P Q) (f : PyStr) (fm : Dict PyStr Nat)
    (ps : List (PyStr × Nat)) : ∀ (s : St Mem) (acc : A),
    Inv M E s → (∀ x ∈ matching fm ps, ∀ i ∈ nums M E f x.1, T (x.1, x.2, i)) → ps.Nodup → P [] s.w acc →
    let r := eachLoop M.kernel E body f fm ps none s acc
    Inv M E r.1 ∧
    ((r.2.2 = none ∧ ∃ is : List Nat, is.Nodup ∧ (∀ x ∈ matching fm ps, ∀ i ∈ is, i ∈ nums M E f x.1) ∧
        (matching fm ps = [] ∨ ∃ x ∈ matching fm ps, is = nums M E f x.1) ∧
        P (product (matching fm ps) is) r.1.w r.2.1) ∨
      (∃ us e, r.2.2 = some e ∧ (∀ u ∈ us, T u) ∧ us.Nodup ∧ P us r.1.w r.2.1 ∧
        ∃ x ∈ matching fm ps, ∃ y ∈ matching fm ps, ∃ i ∈ nums M E f x.1, i ∉ nums M E f y.1) ∨
      Broke T Q r) := by
  induction ps with
  | nil =>
    intro s acc hi _ _ hP
    rw [eachLoop]
    exact ⟨hi, .inl ⟨rfl, [], List.nodup_nil, fun x hx => (by cases hx), .inl rfl, hP⟩⟩
  | cons x ps ih =>
    obtain ⟨a, p⟩ := x
    intro s acc hi hT hnd hP
    rw [eachLoop_cons]
    by_cases hm : fm.get? a = some p
    · have hmat : matching fm ((a, p) :: ps) = (a, p) :: matching fm ps := by
        unfold matching
        rw [List.filter_cons_of_pos (by simpa using hm)]
      rw [if_neg (by simpa using hm)]
      obtain ⟨d, c, g1, g2, g3⟩ := getMdmap_spec hM f a hi
      have hk : d.keys = nums M E f a := g2.1
      dsimp only
      rw [g1]
      dsimp only
      rw [hk]
      have hnds : (nums M E f a).Nodup := (hM.good (a, E.fid f)).1
      rw [hmat] at hT ⊢
      rw [List.nodup_cons] at hnd
      have hTa := hT (a, p) List.mem_cons_self
      have hstep := eachInst_rule hb a p (nums M E f a) [] ⟨s.w, c⟩ acc g3 (fun u hu => (by cases hu)) hTa hnds
        (fun i _ => (by simp)) List.nodup_nil hP
      generalize eachInst body a p (nums M E f a) ⟨s.w, c⟩ acc = r at hstep
      obtain ⟨s', acc', oe⟩ := r
      obtain ⟨h1, ⟨h2, h3⟩ | hbr⟩ := hstep
      · dsimp only at h1 h2 h3
        subst h2
        dsimp only
        rw [List.nil_append] at h3
        have := eachLoop_some hM hb f fm (nums M E f a) hnds ps (List.map (fun i => (a, p, i)) (nums M E f a)) s' acc' h1
          (by
            intro u hu
            obtain ⟨i, hi', rfl⟩ := List.mem_map.1 hu
            exact hTa i hi')
          (fun x hx hall i hi' => hT x (List.mem_cons_of_mem _ hx) i (hall i hi')) hnd.2 (by
            intro t ht
            obtain ⟨i, -, rfl⟩ := List.mem_map.1 ht
            exact hnd.1) (by
            rw [List.nodup_iff_pairwise_ne, List.pairwise_map]
            exact (List.nodup_iff_pairwise_ne.1 hnds).imp fun h e => h (by cases e; rfl)) h3
        obtain ⟨k1, ⟨k2, k3, k4⟩ | ⟨us, e, k2, k3, k3', k4, y, hy, i, hi', k5⟩ | k2⟩ := this
        · refine ⟨k1, .inl ⟨k2, nums M E f a, hnds, ?_, .inr ⟨_, List.mem_cons_self, rfl⟩, k4⟩⟩
          intro x hx
          rcases List.mem_cons.1 hx with rfl | hx
          · exact fun i h => h
          · exact k3 x hx
        · exact ⟨k1, .inr (.inl ⟨us, e, k2, k3, k3', k4, _, List.mem_cons_self, y, List.mem_cons_of_mem _ hy, i, hi', k5⟩)⟩
        · exact ⟨k1, .inr (.inr k2)⟩
      · obtain ⟨us, t, e, b1, b2, b3, b4⟩ := hbr
        dsimp only at b1 h1
        subst b1
        exact ⟨h1, .inr (.inr ⟨us, t, e, rfl, b2, b3, b4⟩)⟩
    · have hmat : matching fm ((a, p) :: ps) = matching fm ps := by
        unfold matching
        rw [List.filter_cons_of_neg (by simpa using hm)]
      rw [if_pos (by simpa using hm)]
      rw [hmat] at hT ⊢
      exact ih s acc hi hT (List.nodup_cons.1 hnd).2 hP

theorem pairs_nodup {as : List PyStr} {ps : List Nat} (ha : as.Nodup) (hp : ps.Nodup) :
    (as.flatMap fun a => ps.map fun p => (a, p)).Nodup := by
  induction as with
  | nil => exact List.nodup_nil
  | cons a as ih =>
    rw [List.nodup_cons] at ha
    rw [List.flatMap_cons, List.nodup_append]
    refine ⟨?_, ih ha.2, ?_⟩
    · rw [List.nodup_iff_pairwise_ne, List.pairwise_map]
      exact (List.nodup_iff_pairwise_ne.1 hp).imp fun h e => h (by cases e; rfl)
    · intro x hx y hy e
      subst e
      obtain ⟨p, -, rfl⟩ := List.mem_map.1 hx
      obtain ⟨b, hb, hx'⟩ := List.mem_flatMap.1 hy
      obtain ⟨q, -, e⟩ := List.mem_map.1 hx'
      cases e
      exact ha.1 hb

theorem mem_keys_of_get? {κ β : Type} [DecidableEq κ] {d : Dict κ β} {k : κ} {v : β} (h : d.get? k = some v) : k ∈ d.keys :=
  Decidable.byContradiction fun hn => by rw [(Dict.get?_eq_none_iff _ _).2 hn] at h; cases h

theorem mem_matching {E : Env} {f : PyStr} {fm : Dict PyStr Nat} (hf : FmapOk E f fm) {S : Sel} {a : PyStr} {p : Nat} :
    (a, p) ∈ matching fm ((S.addrs.getD fm.keys).flatMap fun a => (S.packages.getD E.packages).map fun p => (a, p)) ↔
      S.Device fm a p := by
  unfold matching Sel.Device
  rw [List.mem_filter]
  simp only [decide_eq_true_eq, List.mem_flatMap, List.mem_map, Prod.mk.injEq]
  constructor
  · rintro ⟨⟨b, hb, q, hq, rfl, rfl⟩, h⟩
    refine ⟨h, fun as has => ?_, fun ps hps => ?_⟩
    · rw [has] at hb; exact hb
    · rw [hps] at hq; exact hq
  · rintro ⟨h, h1, h2⟩
    refine ⟨⟨a, ?_, p, ?_, rfl, rfl⟩, h⟩
    · cases hs : S.addrs with
      | none => exact mem_keys_of_get? h
      | some as => exact h1 as hs
    · cases hs : S.packages with
      | none => exact hf.known a p h
      | some ps => exact h2 ps hs

theorem validateAddrs_ok {E : Env} {f : PyStr} {fm : Dict PyStr Nat} (hf : FmapOk E f fm) {S : Sel}
    (ha : ∀ as, S.addrs = some as → ∀ a ∈ as, a ∈ fm.keys)
    (hp : ∀ ps, S.packages = some ps → ∀ p ∈ ps, p ∈ E.packages)
    (hap : ∀ as ps, S.addrs = some as → S.packages = some ps → ∀ a ∈ as, ∀ p ∈ ps, fm.get? a = some p) :
    validateAddrs E f S.addrs S.packages = .ok () := by
  unfold validateAddrs
  rw [checkAll_ok]
  rintro ⟨a, p⟩ hx
  obtain ⟨a', ha', hx⟩ := List.mem_flatMap.1 hx
  obtain ⟨p', hp', hx⟩ := List.mem_map.1 hx
  cases hx
  unfold validateAddrPkg
  obtain ⟨addrs, packages, instances⟩ := S
  dsimp only at ha hp hap ha' hp' ⊢
  cases addrs with
  | none =>
    have : a = none := List.mem_singleton.1 ha'
    subst this
    cases packages with
    | none =>
      have : p = none := List.mem_singleton.1 hp'
      subst this
      rfl
    | some ps =>
      obtain ⟨q, hq, rfl⟩ := List.mem_map.1 hp'
      exact if_pos (hp ps rfl q hq)
  | some as =>
    obtain ⟨b, hb, rfl⟩ := List.mem_map.1 ha'
    cases hq : fm.get? b with
    | none => exact absurd (ha as rfl b hb) ((Dict.get?_eq_none_iff _ _).1 hq)
    | some q =>
      dsimp only
      rw [hf.get]
      dsimp only
      rw [hq]
      cases packages with
      | none =>
        have : p = none := List.mem_singleton.1 hp'
        subst this
        rfl
      | some ps =>
        obtain ⟨q', hq', rfl⟩ := List.mem_map.1 hp'
        have := hap as ps rfl rfl b hb q' hq'
        rw [hq] at this
        cases this
        exact if_neg (by simp)

/-- The selection passes the checks of `iter_feature()`. -/
def IterOk (S : Sel) (M : Machine) (E : Env) (f : PyStr) (fm : Dict PyStr Nat) : Prop :=
  validateAddrs E f S.addrs S.packages = .ok () ∧
  (∀ is, S.instances = some is → ∀ a p, S.Device fm a p → ∀ i ∈ is, i ∈ nums M E f a) ∧ S.Same M E f fm

theorem Sel.Valid.iterOk {S : Sel} {M : Machine} {E : Env} {f : PyStr} {fm : Dict PyStr Nat} (hf : FmapOk E f fm)
    (h : S.Valid M E f fm) : IterOk S M E f fm :=
  ⟨validateAddrs_ok hf h.addrs h.packages h.both, h.instances, h.same⟩

/-- The whole loop. -/
theorem forFeature_rule {A : Type} {M : Machine} (hM : M.WF) {E : Env} {body : Body Mem A}
    {P : List Triple → Mem → A → Prop} {Q : List Triple → Triple → Mem → A → Exn → Prop} {f : PyStr} {fm : Dict PyStr Nat}
    (hf : FmapOk E f fm) {S : Sel} (hS : S.Nodup) (hb : BodyOk M E body (S.Target M E f fm) P Q) (s : St Mem) (acc : A)
    (hi : Inv M E s) (hP : P [] s.w acc) :
    let r := forFeature M.kernel E body f S s acc
    Inv M E r.1 ∧
    ((r.2.2 = none ∧ ∃ ts, ts.Nodup ∧ (∀ t ∈ ts, S.Target M E f fm t) ∧
        (S.Same M E f fm → (∀ t, S.Target M E f fm t → t ∈ ts) ∧ IterOk S M E f fm) ∧ P ts r.1.w r.2.1) ∨
      (∃ us e, r.2.2 = some e ∧ (∀ u ∈ us, S.Target M E f fm u) ∧ us.Nodup ∧ P us r.1.w r.2.1 ∧ ¬IterOk S M E f fm) ∨
      Broke (S.Target M E f fm) Q r) := by
  unfold forFeature
  cases hv : validateAddrs E f S.addrs S.packages with
  | error e =>
    refine ⟨hi, .inr (.inl ⟨[], e, rfl, fun u hu => (by cases hu), List.nodup_nil, hP, fun hval => ?_⟩)⟩
    rw [hval.1] at hv
    cases hv
  | ok u =>
    dsimp only
    rw [hf.get]
    dsimp only
    have hpn : ((S.addrs.getD fm.keys).flatMap fun a => (S.packages.getD E.packages).map fun p => (a, p)).Nodup := by
      apply pairs_nodup
      · cases h : S.addrs with
        | none => exact hf.nodup
        | some as => exact hS.addrs as h
      · cases h : S.packages with
        | none => exact hf.pkgs
        | some ps => exact hS.packages ps h
    have hmm := fun a p => mem_matching hf (S := S) (a := a) (p := p)
    generalize ((S.addrs.getD fm.keys).flatMap fun a => (S.packages.getD E.packages).map fun p => (a, p)) = ps at hpn hmm ⊢
    have hmn : (matching fm ps).Nodup := hpn.sublist List.filter_sublist
    cases hins : S.instances with
    | some is =>
      have hT : ∀ x ∈ matching fm ps, (∀ i ∈ is, i ∈ nums M E f x.1) → ∀ i ∈ is, S.Target M E f fm (x.1, x.2, i) := by
        intro x hx hall i hi'
        refine ⟨(hmm x.1 x.2).1 hx, hall i hi', fun is' h' => ?_⟩
        rw [hins] at h'
        cases h'
        exact hi'
      obtain ⟨k1, ⟨k2, k3, k4⟩ | ⟨us, e, k2, k3, k3', k4, y, hy, i, hi', k5⟩ | k2⟩ :=
        eachLoop_some hM hb f fm is (hS.instances is hins) ps [] s acc hi (fun u hu => (by cases hu)) hT hpn
          (fun t ht => (by cases ht)) List.nodup_nil hP
      · refine ⟨k1, .inl ⟨k2, _, nodup_product hmn (hS.instances is hins), ?_, ?_, k4⟩⟩
        · intro t ht
          obtain ⟨h1, h2⟩ := mem_product.1 ht
          exact hT _ h1 (k3 _ h1) _ h2
        · intro hsame
          refine ⟨fun t ht => mem_product.2 ⟨(hmm _ _).2 ht.1, ht.2.2 is hins⟩, hv, fun is' h' a p hd i hi' => ?_, hsame⟩
          rw [hins] at h'
          cases h'
          exact k3 _ ((hmm a p).2 hd) i hi'
      · refine ⟨k1, .inr (.inl ⟨us, e, k2, k3, k3', k4, fun hval => ?_⟩)⟩
        exact k5 (hval.2.1 is hins y.1 y.2 ((hmm _ _).1 hy) i hi')
      · exact ⟨k1, .inr (.inr k2)⟩
    | none =>
      have hT : ∀ x ∈ matching fm ps, ∀ i ∈ nums M E f x.1, S.Target M E f fm (x.1, x.2, i) := by
        intro x hx i hi'
        refine ⟨(hmm x.1 x.2).1 hx, hi', fun is' h' => ?_⟩
        rw [hins] at h'
        cases h'
      obtain ⟨k1, ⟨k2, is, his, k3, k3', k4⟩ | ⟨us, e, k2, k3, k3', k4, x, hx, y, hy, i, hi', k5⟩ | k2⟩ :=
        eachLoop_none hM hb f fm ps s acc hi hT hpn hP
      · refine ⟨k1, .inl ⟨k2, _, nodup_product hmn his, ?_, ?_, k4⟩⟩
        · intro t ht
          obtain ⟨h1, h2⟩ := mem_product.1 ht
          exact hT _ h1 _ (k3 _ h1 _ h2)
        · intro hsame
          refine ⟨fun t ht => ?_, hv, (fun is' h' => absurd (hins.symm.trans h') (by simp)), hsame⟩
          have hmt := (hmm _ _).2 ht.1
          refine mem_product.2 ⟨hmt, ?_⟩
          rcases k3' with h | ⟨x, hx, rfl⟩
          · rw [h] at hmt; cases hmt
          · exact (hsame hins _ _ _ _ ht.1 ((hmm x.1 x.2).1 hx) _).1 ht.2.1
      · refine ⟨k1, .inr (.inl ⟨us, e, k2, k3, k3', k4, fun hval => ?_⟩)⟩
        exact k5 ((hval.2.2 hins _ _ _ _ ((hmm x.1 x.2).1 hx) ((hmm y.1 y.2).1 hy) i).1 hi')
      · exact ⟨k1, .inr (.inr k2)⟩

/-! ### Writing -/

/-- Different targets are different instances. -/
theorem Target.ne {S : Sel} {M : Machine} {E : Env} {f : PyStr} {fm : Dict PyStr Nat} {t u : Triple}
    (ht : S.Target M E f fm t) (hu : S.Target M E f fm u) (h : t ≠ u) : ¬(t.1 = u.1 ∧ t.2.2 = u.2.2) := by
  rintro ⟨h1, h2⟩
  apply h
  obtain ⟨a, p, i⟩ := t
  obtain ⟨b, q, j⟩ := u
  dsimp only at h1 h2
  subst h1
  subst h2
  have e1 := ht.1.1
  have e2 := hu.1.1
  dsimp only at e1 e2
  rw [e1] at e2
  cases e2
  rfl

/-- The state of the memory after the registers of `ts` were written. -/
def Done (E : Env) (f : PyStr) (R : Reg) (F : Option Field) (v : Int) (m0 : Mem) (ts : List Triple) (m : Mem) : Prop :=
  (∀ t ∈ ts, 0 ≤ v ∧ v < 2 ^ R.width ∧
    regVal m (t.1, E.fid f) t.2.2 R = newVal F (regVal m0 (t.1, E.fid f) t.2.2 R) v.toNat) ∧
  ∀ k i o, (∀ t ∈ ts, ¬(k = (t.1, E.fid f) ∧ i = t.2.2 ∧ o ∈ R.words)) → m k i o = m0 k i o

theorem regVal_congr {m m' : Mem} {k : Key} {i : Nat} {R : Reg} (h : ∀ o ∈ R.words, m k i o = m' k i o) :
    regVal m k i R = regVal m' k i R := by
  unfold Reg.words at h
  unfold regVal
  by_cases hw : R.width > 32
  · rw [if_pos hw] at h ⊢
    rw [if_pos hw, h _ List.mem_cons_self, h _ (List.mem_cons_of_mem _ List.mem_cons_self)]
  · rw [if_neg hw] at h ⊢
    rw [if_neg hw, h _ List.mem_cons_self]

/-- The field named in the command. -/
def FieldIs (R : Reg) (b : Option PyStr) (F : Option Field) : Prop :=
  match b, F with
  | none, none => True
  | some b, some F => getField R b = .ok F
  | _, _ => False

theorem writeBody_ok {M : Machine} (hM : M.WF) {E : Env} (hE : E.Valid) {f r : PyStr} {b : Option PyStr} {v : Int}
    {R : Reg} (hR : getReg E f r = .ok R) {F : Option Field} (hF : FieldIs R b F)
    (hwid : ∀ G old, F = some G → 0 ≤ v → old < 2 ^ R.width → setBitfield G old v.toNat < 2 ^ R.width)
    {S : Sel} {fm : Dict PyStr Nat} (m0 : Mem) :
    BodyOk M E (writeBody M.kernel E v f r b) (S.Target M E f fm)
      (fun ts m out => out = ts ∧ Done E f R F v m0 ts m)
      (fun ts t m out e => out = ts ∧ ∃ m1, Done E f R F v m0 ts m1 ∧ OnlyReg m1 m (t.1, E.fid f) t.2.2 R ∧
        ∃ s, s.w = m1 ∧ Inv M E s ∧ (writeRegister M.kernel E v f t.1 t.2.2 r b s).2 = .error e) := by
  intro ts t s out hi hT hts hnot hnd ⟨hout, hdone⟩
  subst hout
  have hV := hE _ _ _ hR
  have hframe := writeRegister_frame hM hE (v := v) (f := f) (a := t.1) (i := t.2.2) (r := r) (b := b) hi
  unfold writeBody
  generalize hw : writeRegister M.kernel E v f t.1 t.2.2 r b s = x at hframe
  obtain ⟨s', res⟩ := x
  cases res with
  | error e =>
    refine ⟨hframe.1, .inr ⟨e, rfl, rfl, s.w, hdone, ?_, s, rfl, hi, by rw [hw]⟩⟩
    intro k i o h
    refine hframe.2 k i o fun R' hR' => ?_
    rw [hR] at hR'
    cases hR'
    exact h
  | ok u =>
    dsimp only at hframe ⊢
    have hfr : OnlyReg s.w s'.w (t.1, E.fid f) t.2.2 R := by
      intro k i o h
      refine hframe.2 k i o fun R' hR' => ?_
      rw [hR] at hR'
      cases hR'
      exact h
    obtain ⟨ha, hr, hin, c, hc, hw'⟩ := writeRegister_ok hM hi hw
    obtain ⟨k1, k2, k3, k4⟩ := writeReg_ok hM (F := F) hc hR hV (by unfold FieldIs at hF; exact hF) (by
      intro G hG h0
      exact hwid G _ hG h0 (regVal_lt hc.words _ _ hV)) hw'
    refine ⟨hframe.1, .inl ⟨rfl, rfl, ?_, ?_⟩⟩
    · intro u hu
      rcases List.mem_append.1 hu with hu | hu
      · obtain ⟨j1, j2, j3⟩ := hdone.1 u hu
        refine ⟨j1, j2, ?_⟩
        rw [← j3]
        refine regVal_congr fun o _ => hfr _ _ _ ?_
        rintro ⟨h1, h2, -⟩
        exact Target.ne (hts u hu) hT (fun e => hnot (e ▸ hu)) ⟨(Prod.mk.inj h1).1, h2⟩
      · rw [List.mem_singleton] at hu
        subst hu
        refine ⟨k1, k2, ?_⟩
        rw [k4]
        congr 1
        refine regVal_congr fun o ho => hdone.2 _ _ _ ?_
        rintro w hw ⟨h1, h2, -⟩
        exact Target.ne (hts w hw) hT (fun e => hnot (e ▸ hw)) ⟨(Prod.mk.inj h1).1.symm, h2.symm⟩
    · intro k i o h
      rw [hfr k i o fun h' => h t (List.mem_append_right _ List.mem_cons_self) h']
      exact hdone.2 k i o fun w hw => h w (List.mem_append_left _ hw)

/-! ### Reading -/

theorem reserved_iff {b : PyStr} : reserved b = false ↔ Public b := by
  unfold reserved Public
  generalize "RESERVED".toList = q
  cases h : stripPrefix q b with
  | none =>
    refine ⟨fun _ => ?_, fun _ => rfl⟩
    rintro ⟨t, ht⟩
    rw [(stripPrefix_iff _ _ _).2 ht] at h
    cases h
  | some t =>
    refine ⟨fun h => ?_, fun hn => ?_⟩
    · cases h
    · exact absurd ⟨t, (stripPrefix_iff _ _ _).1 h⟩ hn

/-- What is read for the bit fields `bs` of a register with value `x`. -/
def FieldsOk (R : Reg) (bs : List PyStr) (x : Nat) (d : Dict PyStr Nat) : Prop :=
  d.keys.Nodup ∧ ∀ b v, d.get? b = some v ↔
    b ∈ bs ∧ Public b ∧ ∃ F, R.fields.get? b = some F ∧ v = getBitfield F x

theorem readFields_spec {E : Env} {f r : PyStr} {R : Reg} (hR : getReg E f r = .ok R) {x : Nat} (bs : List PyStr) :
    ∀ (cs : List PyStr) (acc : Dict PyStr Nat), FieldsOk R cs x acc →
    match readFields E f r x bs acc with
    | .ok d => FieldsOk R (cs ++ bs) x d
    | .error _ => E.fmaps.get? f = none ∨ ∃ b ∈ bs, Public b ∧ R.fields.get? b = none := by
  induction bs with
  | nil => intro cs acc h; rw [readFields, List.append_nil]; exact h
  | cons b bs ih =>
    intro cs acc h
    rw [readFields]
    have happ : cs ++ b :: bs = (cs ++ [b]) ++ bs := by rw [List.append_assoc]; rfl
    by_cases hb : reserved b
    · rw [if_pos hb]
      have hnp : ¬Public b := fun hp => by rw [reserved_iff.2 hp] at hb; cases hb
      have h' : FieldsOk R (cs ++ [b]) x acc := by
        refine ⟨h.1, fun c v => ?_⟩
        rw [h.2 c v]
        constructor
        · rintro ⟨h1, h2⟩; exact ⟨List.mem_append_left _ h1, h2⟩
        · rintro ⟨h1, h2, h3⟩
          refine ⟨?_, h2, h3⟩
          rcases List.mem_append.1 h1 with h1 | h1
          · exact h1
          · rw [List.mem_singleton.1 h1] at h2; exact absurd h2 hnp
      have := ih _ acc h'
      rw [happ]
      split
      · next d hd => rw [hd] at this; exact this
      · next e he =>
        rw [he] at this
        rcases this with h1 | ⟨c, h1, h2⟩
        · exact .inl h1
        · exact .inr ⟨c, List.mem_cons_of_mem _ h1, h2⟩
    · rw [if_neg hb]
      have hp : Public b := reserved_iff.1 (by simpa using hb)
      unfold getBitfieldOf
      rw [hR]
      unfold getField
      cases hfm : E.fmaps.get? f with
      | none => exact .inl rfl
      | some fm =>
        dsimp only [Option.isNone_some]
        rw [if_neg (by simp)]
        cases hF : R.fields.get? b with
        | none => exact .inr ⟨b, List.mem_cons_self, hp, hF⟩
        | some F =>
          dsimp only
          have h' : FieldsOk R (cs ++ [b]) x (acc.set b (getBitfield F x)) := by
            refine ⟨Dict.nodup_keys_set h.1 _ _, fun c v => ?_⟩
            rw [Dict.get?_set]
            by_cases hc : b = c
            · subst hc
              rw [if_pos rfl]
              constructor
              · intro e; cases e
                exact ⟨List.mem_append_right _ List.mem_cons_self, hp, F, hF, rfl⟩
              · rintro ⟨-, -, G, hG, rfl⟩
                rw [hF] at hG; cases hG; rfl
            · rw [if_neg hc, h.2 c v]
              constructor
              · rintro ⟨h1, h2⟩; exact ⟨List.mem_append_left _ h1, h2⟩
              · rintro ⟨h1, h2⟩
                rcases List.mem_append.1 h1 with h1 | h1
                · exact ⟨h1, h2⟩
                · exact absurd (List.mem_singleton.1 h1).symm hc
          have := ih _ _ h'
          rw [happ]
          split
          · next d hd => rw [hd] at this; exact this
          · next e he =>
            rw [he] at this
            rcases this with h1 | ⟨c, h1, h2⟩
            · rw [hfm] at h1; cases h1
            · exact .inr ⟨c, List.mem_cons_of_mem _ h1, h2⟩

/-- What is read for one register. -/
def RegRead (E : Env) (m : Mem) (f a : PyStr) (i : Nat) (R : Reg) (bf : Option (List PyStr)) (ri : RegInfo) : Prop :=
  ri.value = regVal m (a, E.fid f) i R ∧ ri.fields ≠ some [] ∧
  FieldsOk R (bf.getD R.fields.keys) (regVal m (a, E.fid f) i R) (ri.fields.getD [])

/-- What is read for the registers `rs` of an instance. -/
def RegsOk (E : Env) (m : Mem) (f a : PyStr) (i : Nat) (fd : Dict PyStr Reg) (bf : Option (List PyStr)) (rs : List PyStr)
    (d : Dict PyStr RegInfo) : Prop :=
  d.keys.Nodup ∧ (∀ r ri, d.get? r = some ri → r ∈ rs ∧ ∃ R, fd.get? r = some R ∧ RegRead E m f a i R bf ri) ∧
  ∀ r ∈ rs, ∃ ri, d.get? r = some ri

/-- The registers `rs` of an instance can be read. -/
def CanRead (M : Machine) (E : Env) (f a : PyStr) (i : Nat) (fd : Dict PyStr Reg) (bf : Option (List PyStr))
    (rs : List PyStr) : Prop :=
  ∀ r ∈ rs, ∃ R, fd.get? r = some R ∧ RegShown (M.lay (a, E.fid f)) i R ∧
    ∀ b ∈ bf.getD R.fields.keys, Public b → R.fields.get? b ≠ none

theorem readRegister_cases {M : Machine} (hM : M.WF) {E : Env} {f a : PyStr} {i : Nat} {r : PyStr} {s : St Mem}
    (hi : Inv M E s) (ha : validateAddr E f a = .ok ()) (hin : i ∈ nums M E f a) {R : Reg} (hR : getReg E f r = .ok R) :
    (RegShown (M.lay (a, E.fid f)) i R ∧ (readRegister M.kernel E f a i r none s).2 = .ok (regVal s.w (a, E.fid f) i R)) ∨
    (¬RegShown (M.lay (a, E.fid f)) i R ∧ ∃ e, (readRegister M.kernel E f a i r none s).2 = .error e) := by
  have hr0 : validateReg E f r none = .ok () := validateReg_ok.2 ⟨R, hR, fun x hx => (by cases hx)⟩
  rw [readRegister_ok hM hi ha hr0 hin]
  by_cases hs : RegShown (M.lay (a, E.fid f)) i R
  · exact .inl ⟨hs, readReg_ok hM hi.words hR hs⟩
  · exact .inr ⟨hs, readReg_err hM hR hi.words hs none⟩

theorem getReg_of_fdict {E : Env} {f r : PyStr} {fd : Dict PyStr Reg} (hfd : E.fdict f = some fd) {R : Reg}
    (h : fd.get? r = some R) : getReg E f r = .ok R := by
  unfold getReg
  rw [hfd]
  dsimp only
  rw [h]

theorem readRegister_unknown {W : Type} {K : Kernel W} {E : Env} {f a : PyStr} {i : Nat} {r : PyStr} {s : St W}
    (ha : validateAddr E f a = .ok ()) {fd : Dict PyStr Reg} (hfd : E.fdict f = some fd)
    (h : fd.get? r = none) : (readRegister K E f a i r none s).2 = .error .error := by
  unfold readRegister
  rw [ha]
  dsimp only
  unfold validateReg getReg
  rw [hfd]
  dsimp only
  rw [h]

theorem readRegs_spec {M : Machine} (hM : M.WF) {E : Env} {f a : PyStr} {i : Nat} {fm : Dict PyStr Nat}
    (hfm : E.fmaps.get? f = some fm) (ha : validateAddr E f a = .ok ()) (hin : i ∈ nums M E f a) {fd : Dict PyStr Reg}
    (hfd : E.fdict f = some fd) (bf : Option (List PyStr)) (rs : List PyStr) :
    ∀ (qs : List PyStr) (acc : Dict PyStr RegInfo) {s : St Mem}, Inv M E s → RegsOk E s.w f a i fd bf qs acc →
    Inv M E (readRegs M.kernel E f a i fd bf rs s acc).1 ∧ (readRegs M.kernel E f a i fd bf rs s acc).1.w = s.w ∧
    match (readRegs M.kernel E f a i fd bf rs s acc).2 with
    | .ok d => RegsOk E s.w f a i fd bf (qs ++ rs) d
    | .error _ => ¬((qs ++ rs).Nodup ∧ CanRead M E f a i fd bf rs) := by
  induction rs with
  | nil => intro qs acc s hi h; rw [readRegs]; exact ⟨hi, rfl, by rw [List.append_nil]; exact h⟩
  | cons r rs ih =>
    intro qs acc s hi h
    have happ : qs ++ r :: rs = (qs ++ [r]) ++ rs := by rw [List.append_assoc]; rfl
    rw [readRegs]
    obtain ⟨i1, i2⟩ := readRegister_inv hM (f := f) (a := a) (i := i) (r := r) (b := none) hi
    cases hg : fd.get? r with
    | none =>
      have hu := readRegister_unknown (K := M.kernel) (i := i) (s := s) ha hfd hg
      generalize readRegister M.kernel E f a i r none s = x at hu i1 i2
      obtain ⟨s', res⟩ := x
      dsimp only at hu i1 i2
      subst hu
      refine ⟨i1, i2, ?_⟩
      rintro ⟨-, hc⟩
      obtain ⟨R, hR, -⟩ := hc r List.mem_cons_self
      rw [hg] at hR
      cases hR
    | some R =>
      have hR := getReg_of_fdict hfd hg
      have hrd := readRegister_cases hM hi ha hin hR
      generalize readRegister M.kernel E f a i r none s = x at hrd i1 i2
      obtain ⟨s', res⟩ := x
      dsimp only at hrd i1 i2
      rcases hrd with ⟨hs, rfl⟩ | ⟨hs, e, rfl⟩
      · dsimp only
        by_cases hdup : (acc.get? r).isSome
        · rw [if_pos hdup]
          refine ⟨i1, i2, ?_⟩
          rintro ⟨hnd, -⟩
          cases hh : acc.get? r with
          | none => rw [hh] at hdup; cases hdup
          | some ri =>
            have := (h.2.1 r ri hh).1
            rw [List.nodup_append] at hnd
            exact hnd.2.2 r this r List.mem_cons_self rfl
        · rw [if_neg hdup]
          have hnone : acc.get? r = none := by
            cases hh : acc.get? r with
            | none => rfl
            | some ri => rw [hh] at hdup; exact absurd rfl hdup
          have hfs := readFields_spec hR (x := regVal s.w (a, E.fid f) i R) (bf.getD R.fields.keys) [] []
            ⟨List.nodup_nil, fun b v => by simp⟩
          cases hrf : readFields E f r (regVal s.w (a, E.fid f) i R) (bf.getD R.fields.keys) [] with
          | error e =>
            rw [hrf] at hfs
            dsimp only
            refine ⟨i1, i2, ?_⟩
            rintro ⟨-, hc⟩
            obtain ⟨R', hR', -, hc⟩ := hc r List.mem_cons_self
            rw [hg] at hR'
            cases hR'
            rcases hfs with hfs | ⟨b, hb, hp, hn⟩
            · rw [hfm] at hfs; cases hfs
            · exact hc b hb hp hn
          | ok bfs =>
            rw [hrf] at hfs
            dsimp only at hfs ⊢
            rw [List.nil_append] at hfs
            have hread : RegRead E s.w f a i R bf ⟨regVal s.w (a, E.fid f) i R, if bfs.isEmpty then none else some bfs⟩ := by
              refine ⟨rfl, ?_, ?_⟩
              · dsimp only
                cases bfs with
                | nil => simp
                | cons x l => simp
              · dsimp only
                cases bfs with
                | nil => exact hfs
                | cons x l => exact hfs
            have h' : RegsOk E s'.w f a i fd bf (qs ++ [r])
                (acc.set r ⟨regVal s.w (a, E.fid f) i R, if bfs.isEmpty then none else some bfs⟩) := by
              rw [i2]
              refine ⟨Dict.nodup_keys_set h.1 _ _, ?_, ?_⟩
              · intro c ri hc
                rw [Dict.get?_set] at hc
                split at hc
                · next e =>
                  subst e
                  cases hc
                  exact ⟨List.mem_append_right _ List.mem_cons_self, R, hg, hread⟩
                · obtain ⟨h1, h2⟩ := h.2.1 c ri hc
                  exact ⟨List.mem_append_left _ h1, h2⟩
              · intro c hc
                rw [Dict.get?_set]
                split
                · exact ⟨_, rfl⟩
                · next hne =>
                  rcases List.mem_append.1 hc with hc | hc
                  · exact h.2.2 c hc
                  · exact absurd (List.mem_singleton.1 hc).symm hne
            obtain ⟨k1, k2, k3⟩ := ih _ _ i1 h'
            refine ⟨k1, k2.trans i2, ?_⟩
            rw [happ]
            split
            · next d hd => rw [hd, i2] at k3; exact k3
            · next e he =>
              rw [he] at k3
              rintro ⟨h1, h2⟩
              exact k3 ⟨h1, fun c hc => h2 c (List.mem_cons_of_mem _ hc)⟩
      · dsimp only
        refine ⟨i1, i2, ?_⟩
        rintro ⟨-, hc⟩
        obtain ⟨R', hR', hs', -⟩ := hc r List.mem_cons_self
        rw [hg] at hR'
        cases hR'
        exact hs hs'

/-- What is read for the instances `ts` of a feature. -/
def InfoOk (E : Env) (m : Mem) (f : PyStr) (fm : Dict PyStr Nat) (fd : Dict PyStr Reg) (bf : Option (List PyStr))
    (rs : List PyStr) (ts : List Triple) (info : FeatInfo) : Prop :=
  info.keys.Nodup ∧
  (∀ a d, info.get? a = some d → fm.get? a = some d.package ∧ d.instances.keys.Nodup ∧
    ∀ i x, d.instances.get? i = some x → (a, d.package, i) ∈ ts ∧ RegsOk E m f a i fd bf rs x) ∧
  ∀ t ∈ ts, ∃ d x, info.get? t.1 = some d ∧ d.package = t.2.1 ∧ d.instances.get? t.2.2 = some x

theorem readBody_ok {M : Machine} (hM : M.WF) {E : Env} {f : PyStr} {fm : Dict PyStr Nat}
    (hfm : E.fmaps.get? f = some fm) {fd : Dict PyStr Reg} (hfd : E.fdict f = some fd) (bf : Option (List PyStr))
    (rs : List PyStr) {S : Sel} (m0 : Mem) :
    BodyOk M E (readBody M.kernel E f fd rs bf) (S.Target M E f fm)
      (fun ts m info => m = m0 ∧ InfoOk E m0 f fm fd bf rs ts info)
      (fun _ t m _ _ => m = m0 ∧ ¬(rs.Nodup ∧ CanRead M E f t.1 t.2.2 fd bf rs)) := by
  rintro ts t s info hi hT hts hnot hnd ⟨rfl, hok⟩
  have ha : validateAddr E f t.1 = .ok () := by
    unfold validateAddr
    rw [hfm]
    dsimp only
    rw [hT.1.1]
    rfl
  unfold readBody
  dsimp only
  have hno : ((((info.get? t.1).getD ⟨t.2.1, []⟩).instances.get? t.2.2).isSome) = false := by
    cases hg : info.get? t.1 with
    | none => rfl
    | some d =>
      dsimp only [Option.getD_some]
      cases hx : d.instances.get? t.2.2 with
      | none => rfl
      | some x =>
        obtain ⟨h1, h2, h3⟩ := hok.2.1 t.1 d hg
        have := (h3 t.2.2 x hx).1
        rw [hT.1.1] at h1
        rw [← Option.some.inj h1] at this
        exact absurd this hnot
  rw [if_neg (by rw [hno]; simp)]
  have hspec := readRegs_spec hM hfm ha hT.2.1 hfd bf rs [] [] hi ⟨List.nodup_nil, fun r ri h => (by cases h), fun r h => (by cases h)⟩
  generalize readRegs M.kernel E f t.1 t.2.2 fd bf rs s [] = x at hspec
  obtain ⟨s', res⟩ := x
  obtain ⟨h1, h2, h3⟩ := hspec
  dsimp only at h1 h2 h3
  rw [List.nil_append] at h3
  cases res with
  | error e => exact ⟨h1, .inr ⟨e, rfl, h2, h3⟩⟩
  | ok regs =>
    dsimp only at h3 ⊢
    refine ⟨h1, .inl ⟨rfl, h2, Dict.nodup_keys_set hok.1 _ _, ?_, ?_⟩⟩
    · intro a d hd
      rw [Dict.get?_set] at hd
      split at hd
      · next e =>
        subst e
        cases hd
        dsimp only
        have hpk : ((info.get? t.1).getD ⟨t.2.1, []⟩).package = t.2.1 := by
          cases hg : info.get? t.1 with
          | none => rfl
          | some d =>
            have := (hok.2.1 t.1 d hg).1
            rw [hT.1.1] at this
            exact (Option.some.inj this).symm
        rw [hpk]
        refine ⟨hT.1.1, Dict.nodup_keys_set ?_ _ _, ?_⟩
        · cases hg : info.get? t.1 with
          | none => exact List.nodup_nil
          | some d => exact (hok.2.1 t.1 d hg).2.1
        · intro i x hx
          rw [Dict.get?_set] at hx
          split at hx
          · next e =>
            subst e
            cases hx
            exact ⟨List.mem_append_right _ List.mem_cons_self, h3⟩
          · cases hg : info.get? t.1 with
            | none => rw [hg] at hx; cases hx
            | some d =>
              rw [hg] at hx
              obtain ⟨j1, j2, j3⟩ := hok.2.1 t.1 d hg
              obtain ⟨j4, j5⟩ := j3 i x hx
              rw [hT.1.1] at j1
              rw [← Option.some.inj j1] at j4
              exact ⟨List.mem_append_left _ j4, j5⟩
      · obtain ⟨j1, j2, j3⟩ := hok.2.1 a d hd
        exact ⟨j1, j2, fun i x hx => ⟨List.mem_append_left _ (j3 i x hx).1, (j3 i x hx).2⟩⟩
    · intro u hu
      rcases List.mem_append.1 hu with hu | hu
      · obtain ⟨d, x, j1, j2, j3⟩ := hok.2.2 u hu
        rw [Dict.get?_set]
        split
        · next e =>
          rw [e, j1]
          dsimp only [Option.getD_some]
          refine ⟨_, if t.2.2 = u.2.2 then regs else x, rfl, j2, ?_⟩
          dsimp only
          rw [Dict.get?_set]
          split
          · rfl
          · exact j3
        · exact ⟨d, x, j1, j2, j3⟩
      · rw [List.mem_singleton] at hu
        subst hu
        refine ⟨_, regs, Dict.get?_set_self _ _ _, ?_, Dict.get?_set_self _ _ _⟩
        dsimp only
        cases hg : info.get? u.1 with
        | none => rfl
        | some d =>
          have := (hok.2.1 u.1 d hg).1
          rw [hT.1.1] at this
          exact (Option.some.inj this).symm

/-- The registers to read by default, or those which were asked for. -/
def regsOf (regnames : Option (List PyStr)) (fd : Dict PyStr Reg) : List PyStr :=
  regnames.getD (fd.keys.filter fun r => !reserved r)

/-- What is read for a feature. -/
def FeatOk (M : Machine) (E : Env) (m : Mem) (f : PyStr) (regnames bf : Option (List PyStr)) (S : Sel) (info : FeatInfo) :
    Prop :=
  ∃ fm fd ts, E.fmaps.get? f = some fm ∧ E.fdict f = some fd ∧ InfoOk E m f fm fd bf (regsOf regnames fd) ts info ∧
    (∀ t ∈ ts, S.Target M E f fm t) ∧ (S.Same M E f fm → ∀ t, S.Target M E f fm t → t ∈ ts)

/-- The feature can be read. -/
def CanReadFeat (M : Machine) (E : Env) (f : PyStr) (regnames bf : Option (List PyStr)) (S : Sel) : Prop :=
  ∃ fm fd, E.fmaps.get? f = some fm ∧ E.fdict f = some fd ∧ IterOk S M E f fm ∧ (regsOf regnames fd).Nodup ∧
    ∀ t, S.Target M E f fm t → CanRead M E f t.1 t.2.2 fd bf (regsOf regnames fd)

theorem forFeature_unknown {A W : Type} (K : Kernel W) {E : Env} (body : Body W A) {f : PyStr} (S : Sel) (s : St W)
    (acc : A) (h : E.fmaps.get? f = none) : ∃ e, forFeature K E body f S s acc = (s, acc, some e) := by
  unfold forFeature
  cases validateAddrs E f S.addrs S.packages with
  | error e => exact ⟨e, rfl⟩
  | ok u =>
    dsimp only
    rw [h]
    exact ⟨_, rfl⟩

theorem readFeature_spec {M : Machine} (hM : M.WF) {E : Env} (hE : EnvOk E) (f : PyStr) (regnames bf : Option (List PyStr))
    {S : Sel} (hS : S.Nodup) {s : St Mem} (hi : Inv M E s) :
    Inv M E (readFeature M.kernel E f regnames bf S s).1 ∧ (readFeature M.kernel E f regnames bf S s).1.w = s.w ∧
    match (readFeature M.kernel E f regnames bf S s).2 with
    | .ok info => FeatOk M E s.w f regnames bf S info
    | .error _ => ¬CanReadFeat M E f regnames bf S := by
  unfold readFeature
  cases hfd : E.fdict f with
  | none =>
    refine ⟨hi, rfl, ?_⟩
    rintro ⟨fm, fd, -, h, -⟩
    rw [hfd] at h
    cases h
  | some fd =>
    dsimp only
    cases hfm : E.fmaps.get? f with
    | none =>
      obtain ⟨e, he⟩ := forFeature_unknown M.kernel (readBody M.kernel E f fd (regnames.getD (fd.keys.filter fun r => !reserved r)) bf) S s [] hfm
      rw [he]
      refine ⟨hi, rfl, ?_⟩
      rintro ⟨fm, fd, h, -⟩
      rw [hfm] at h
      cases h
    | some fm =>
      have hr := forFeature_rule hM (hE f fm hfm) hS
        (readBody_ok hM hfm hfd bf (regsOf regnames fd) (S := S) s.w) s [] hi
        ⟨rfl, List.nodup_nil, fun a d h => (by cases h), fun t h => (by cases h)⟩
      rw [show regnames.getD (fd.keys.filter fun r => !reserved r) = regsOf regnames fd from rfl]
      generalize forFeature M.kernel E (readBody M.kernel E f fd (regsOf regnames fd) bf) f S s [] = x at hr
      obtain ⟨s', info, oe⟩ := x
      obtain ⟨h1, h2⟩ := hr
      dsimp only at h1 h2
      rcases h2 with ⟨rfl, ts, -, h3, h4, h5, h6⟩ | ⟨us, e, rfl, -, -, ⟨h5, -⟩, h6⟩ | ⟨us, t, e, he, -, h4, -, -, h5, h6⟩
      · exact ⟨h1, h5, fm, fd, ts, hfm, hfd, h6, h3, fun h => (h4 h).1⟩
      · refine ⟨h1, h5, ?_⟩
        rintro ⟨fm', fd', k1, k2, k3, -⟩
        rw [hfm] at k1
        cases k1
        exact h6 k3
      · dsimp only at he h5
        subst he
        refine ⟨h1, h5, ?_⟩
        rintro ⟨fm', fd', k1, k2, k3, k4, k5⟩
        rw [hfm] at k1
        rw [hfd] at k2
        cases k1
        cases k2
        exact h6 ⟨k4, k5 t h4⟩

theorem readFeatures_spec {M : Machine} (hM : M.WF) {E : Env} (hE : EnvOk E) (regnames bf : Option (List PyStr))
    {S : Sel} (hS : S.Nodup) (fs : List PyStr) : ∀ (acc : Dict PyStr FeatInfo) {s : St Mem}, Inv M E s →
    Inv M E (readFeatures M.kernel E regnames bf S fs s acc).1 ∧ (readFeatures M.kernel E regnames bf S fs s acc).1.w = s.w ∧
    match (readFeatures M.kernel E regnames bf S fs s acc).2 with
    | .ok info => (acc.keys.Nodup → info.keys.Nodup) ∧ ∀ f, match info.get? f with
      | some fi => (f ∈ fs ∧ FeatOk M E s.w f regnames bf S fi) ∨ (f ∉ fs ∧ acc.get? f = some fi)
      | none => f ∉ fs ∧ acc.get? f = none
    | .error _ => ∃ f ∈ fs, ¬CanReadFeat M E f regnames bf S := by
  induction fs with
  | nil =>
    intro acc s hi
    rw [readFeatures]
    refine ⟨hi, rfl, fun h => h, fun f => ?_⟩
    cases h : acc.get? f with
    | none => exact ⟨by simp, rfl⟩
    | some fi => exact .inr ⟨by simp, rfl⟩
  | cons f fs ih =>
    intro acc s hi
    rw [readFeatures]
    have h := readFeature_spec hM hE f regnames bf hS hi
    generalize readFeature M.kernel E f regnames bf S s = x at h
    obtain ⟨s', res⟩ := x
    obtain ⟨h1, h2, h3⟩ := h
    dsimp only at h1 h2 h3
    cases res with
    | error e => exact ⟨h1, h2, f, List.mem_cons_self, h3⟩
    | ok fi =>
      dsimp only at h3 ⊢
      obtain ⟨k1, k2, k3⟩ := ih (acc.set f fi) h1
      refine ⟨k1, k2.trans h2, ?_⟩
      split
      · next info hinfo =>
        rw [hinfo] at k3
        dsimp only at k3
        refine ⟨fun hn => k3.1 (Dict.nodup_keys_set hn _ _), fun g => ?_⟩
        have := k3.2 g
        cases hg : info.get? g with
        | none =>
          rw [hg] at this
          dsimp only at this ⊢
          rw [Dict.get?_set] at this
          by_cases e : f = g
          · rw [if_pos e] at this; exact absurd this.2 (Option.some_ne_none _)
          · rw [if_neg e] at this
            exact ⟨by
              intro hm
              rcases List.mem_cons.1 hm with rfl | hm
              · exact e rfl
              · exact this.1 hm, this.2⟩
        | some gi =>
          rw [hg] at this
          dsimp only at this ⊢
          rw [Dict.get?_set, h2] at this
          rcases this with ⟨j1, j2⟩ | ⟨j1, j2⟩
          · exact .inl ⟨List.mem_cons_of_mem _ j1, j2⟩
          · by_cases e : f = g
            · subst e
              rw [if_pos rfl] at j2
              cases j2
              exact .inl ⟨List.mem_cons_self, h3⟩
            · rw [if_neg e] at j2
              refine .inr ⟨?_, j2⟩
              intro hm
              rcases List.mem_cons.1 hm with rfl | hm
              · exact e rfl
              · exact j1 hm
      · next e he =>
        rw [he] at k3
        obtain ⟨g, hg, hn⟩ := k3
        exact ⟨g, List.mem_cons_of_mem _ hg, hn⟩

theorem getBitfield_slice {hi lo : Nat} {F : Field} (h : mkField hi lo = .ok F) (x : Nat) : getBitfield F x = slice x hi lo := by
  obtain ⟨-, hle⟩ := mkField_shift h
  apply Nat.eq_of_testBit_eq
  intro k
  rw [testBit_getBitfield h]
  unfold slice
  rw [Nat.testBit_mod_two_pow, Nat.testBit_div_two_pow]
  have : (k + lo ≤ hi) ↔ (k < hi + 1 - lo) := by omega
  simp only [Nat.add_comm lo k, this]

end Verif.Tpmi
