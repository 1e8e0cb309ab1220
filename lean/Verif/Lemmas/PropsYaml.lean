import Verif.Props.PropsYamlSpec
import Verif.Props.Trivial

/-!
Lemmas about saving and restoring properties.
-/

namespace Verif

namespace Dict

variable {κ β : Type} [DecidableEq κ]

theorem set_of_none {d : Dict κ β} {k : κ} (h : d.get? k = none) (v : β) : d.set k v = d ++ [(k, v)] := by
  induction d with
  | nil => rfl
  | cons p d ih =>
    obtain ⟨k', v'⟩ := p
    rw [get?] at h
    split at h
    · cases h
    · rename_i hne
      rw [set, if_neg hne, ih h, List.cons_append]

theorem set_of_some {d : Dict κ β} {k : κ} {u : β} (h : d.get? k = some u) (v : β) :
    ∃ pre post, d = pre ++ (k, u) :: post ∧ d.set k v = pre ++ (k, v) :: post := by
  induction d with
  | nil => cases h
  | cons p d ih =>
    obtain ⟨k', v'⟩ := p
    rw [get?] at h
    split at h
    · rename_i he
      cases h
      subst he
      exact ⟨[], d, rfl, by rw [set, if_pos rfl]; rfl⟩
    · rename_i hne
      obtain ⟨pre, post, h1, h2⟩ := ih h
      refine ⟨(k', v') :: pre, post, by rw [h1]; rfl, ?_⟩
      rw [set, if_neg hne, h2]; rfl

/-- Adding something to what is stored for a key, `f` being what a pair means. -/
theorem flatMap_set_perm {γ : Type} (f : κ × β → List γ) {d : Dict κ β} {k : κ} {v : β} {x : List γ}
    (h : ∀ u, d.get? k = some u → (f (k, v)).Perm (f (k, u) ++ x)) (hn : d.get? k = none → (f (k, v)).Perm x) :
    ((d.set k v).flatMap f).Perm (d.flatMap f ++ x) := by
  cases hg : d.get? k with
  | none =>
    rw [set_of_none hg, List.flatMap_append]
    refine List.Perm.append_left _ ?_
    simpa using hn hg
  | some u =>
    obtain ⟨pre, post, h1, h2⟩ := set_of_some hg v
    rw [h2]
    conv => rhs; rw [h1]
    rw [List.flatMap_append, List.flatMap_append, List.append_assoc]
    refine List.Perm.append_left _ ?_
    rw [List.flatMap_cons, List.flatMap_cons]
    refine ((h u hg).append_right _).trans ?_
    rw [List.append_assoc, List.append_assoc]
    exact List.Perm.append_left _ List.perm_append_comm

end Dict

namespace Trivial

theorem parseElt_ne_nil {p : PyStr} {l : List Int} (h : parseElt p = .ok l) : l ≠ [] := by
  unfold parseElt at h
  split at h
  · split at h
    · cases h
    · cases h; simp
  · split at h
    · split at h
      · cases h
      · split at h
        · cases h
        · split at h
          · cases h
          · rename_i a _ b _ hab
            cases h
            rw [intRange_cons (by omega)]
            simp
    · cases h

theorem parseElts_mem {ps : List PyStr} {r : List Int} (h : parseElts ps = .ok r) {p : PyStr} (hp : p ∈ ps) :
    ∃ l, parseElt p = .ok l ∧ ∀ x ∈ l, x ∈ r := by
  induction ps generalizing r with
  | nil => cases hp
  | cons q ps ih =>
    rw [parseElts] at h
    cases hq : parseElt q with
    | error e => rw [hq] at h; cases h
    | ok l =>
      rw [hq] at h
      cases hr : parseElts ps with
      | error e => rw [hr] at h; cases h
      | ok r' =>
        rw [hr] at h
        cases h
        rcases List.mem_cons.1 hp with rfl | hp
        · exact ⟨l, hq, fun x hx => by simp [hx]⟩
        · obtain ⟨l', h1, h2⟩ := ih hr hp
          exact ⟨l', h1, fun x hx => by simp [h2 x hx]⟩

/-- Elements yielding different numbers are different. -/
theorem nodup_of_parseElts {ps : List PyStr} {r : List Int} (h : parseElts ps = .ok r) (hr : r.Nodup) : ps.Nodup := by
  induction ps generalizing r with
  | nil => simp
  | cons q ps ih =>
    rw [parseElts] at h
    cases hq : parseElt q with
    | error e => rw [hq] at h; cases h
    | ok l =>
      rw [hq] at h
      cases hr' : parseElts ps with
      | error e => rw [hr'] at h; cases h
      | ok r' =>
        rw [hr'] at h
        cases h
        obtain ⟨h1, h2, h3⟩ := List.nodup_append.1 hr
        refine List.nodup_cons.2 ⟨fun hm => ?_, ih hr' h2⟩
        obtain ⟨l', g1, g2⟩ := parseElts_mem hr' hm
        rw [hq] at g1
        cases g1
        obtain ⟨x, hx⟩ := List.exists_mem_of_ne_nil l (parseElt_ne_nil hq)
        exact h3 x hx x (g2 x hx) rfl

/-- De-duplication does nothing to ranges of different numbers. -/
theorem rangify_dedup {l : List Nat} (hl : l.Nodup) :
    ∃ r : List Nat, parseIntList [rangify (l.map Int.ofNat)] ',' true = .ok (r.map Int.ofNat) ∧ r.Perm l := by
  obtain ⟨r, h1, h2, _⟩ := C23_rangify_roundtrip l
  refine ⟨r, ?_, h2⟩
  have hn : (r.map Int.ofNat).Nodup :=
    List.Pairwise.map Int.ofNat (fun a b h e => h (Int.ofNat.inj e)) (h2.nodup_iff.2 hl)
  have hps := nodup_of_parseElts h1 hn
  unfold parseIntList
  have hj : ∀ s : PyStr, PyStr.joinC ',' [s] = s := fun s => rfl
  rw [hj]
  unfold splitCsvLineInt at h1 ⊢
  rw [splitCsvLine_dedup, pyDedup_of_nodup hps]
  exact h1

end Trivial

namespace PropsYaml

def Where.cells (s : SName) : Where → List Cell
  | .nums l => l.map fun n : Nat => (s, 0, (n : Int))
  | .dies d => d.flatMap fun p => p.2.map fun n : Nat => (s, (p.1 : Int), (n : Int))

/-- The kind of the numbers is right for the scope name. -/
def OKW (s : SName) : Where → Prop
  | .nums _ => s ≠ .die
  | .dies _ => s = .die

theorem addNum_spec {o : Option Where} {loc : Loc} (h : ∀ w, o = some w → OKW loc.sname w) :
    ∃ w, addNum o loc = some w ∧ OKW loc.sname w ∧
      (w.cells loc.sname).Perm ((o.elim [] (Where.cells loc.sname)) ++ [loc.cell]) := by
  cases o with
  | none =>
    cases loc with
    | cpu n => exact ⟨_, rfl, by simp [OKW, Loc.sname], by simp [Where.cells, Loc.cell, Loc.sname]⟩
    | package n => exact ⟨_, rfl, by simp [OKW, Loc.sname], by simp [Where.cells, Loc.cell, Loc.sname]⟩
    | die p n => exact ⟨_, rfl, by simp [OKW, Loc.sname], by simp [Where.cells, Loc.cell, Loc.sname]⟩
  | some w =>
    have hw := h w rfl
    cases w with
    | nums l =>
      cases loc with
      | cpu n => exact ⟨_, rfl, by simp [OKW, Loc.sname], by simp [Where.cells, Loc.cell, Loc.sname]⟩
      | package n => exact ⟨_, rfl, by simp [OKW, Loc.sname], by simp [Where.cells, Loc.cell, Loc.sname]⟩
      | die p n => exact absurd rfl hw
    | dies d =>
      cases loc with
      | cpu n => cases hw
      | package n => cases hw
      | die p n =>
        refine ⟨_, rfl, rfl, ?_⟩
        refine Dict.flatMap_set_perm (fun p : Nat × List Nat => p.2.map fun n : Nat => (SName.die, (p.1 : Int), (n : Int))) ?_ ?_
        · intro u hu; simp [hu, Loc.cell]
        · intro hu; simp [hu, Loc.cell]

variable {V : Type} [DecidableEq V]

def PInfo.items (pname : PyStr) (p : PInfo V) : List (Item V) :=
  p.vals.flatMap fun x => (x.2.cells p.sname).map fun c => (pname, c, x.1)

def PInfo.OK (p : PInfo V) : Prop := ∀ x ∈ p.vals, OKW p.sname x.2

def apItems (pname : PyStr) (ap : Dict PyStr (PInfo V)) : List (Item V) := ap.flatMap fun x => x.2.items pname

theorem mem_set {κ β : Type} [DecidableEq κ] {d : Dict κ β} {k : κ} {v : β} {x : κ × β} (h : x ∈ d.set k v) :
    x = (k, v) ∨ x ∈ d := by
  cases hg : d.get? k with
  | none => rw [Dict.set_of_none hg] at h; simpa [or_comm] using h
  | some u =>
    obtain ⟨pre, post, h1, h2⟩ := Dict.set_of_some hg v
    rw [h2] at h
    rw [h1]
    simp only [List.mem_append, List.mem_cons] at h ⊢
    rcases h with h | h | h
    · exact Or.inr (Or.inl h)
    · exact Or.inl h
    · exact Or.inr (Or.inr (Or.inr h))

theorem buildPname_spec (pname : PyStr) (s : SName) (pvs : List (PV V)) (hs : ∀ pv ∈ pvs, pv.loc.sname = s)
    (ap : Dict PyStr (PInfo V)) (ha : ∀ x ∈ ap, x.2.sname = s ∧ x.2.OK) (hk : ap.keys.Nodup) :
    ∃ ap', buildPname true pvs ap = .ok ap' ∧ (∀ x ∈ ap', x.2.sname = s ∧ x.2.OK) ∧ ap'.keys.Nodup ∧
      (apItems pname ap').Perm (apItems pname ap ++ pvs.filterMap (PV.item pname)) := by
  induction pvs generalizing ap with
  | nil => exact ⟨ap, rfl, ha, hk, by simp⟩
  | cons pv pvs ih =>
    rw [buildPname]
    have hs' := fun q hq => hs q (List.mem_cons_of_mem _ hq)
    cases hv : pv.val with
    | none =>
      rw [if_pos (by simp)]
      obtain ⟨ap', h1, h2, h3, h4⟩ := ih hs' ap ha hk
      refine ⟨ap', h1, h2, h3, ?_⟩
      rw [List.filterMap_cons_none (by simp [PV.item, hv])]
      exact h4
    | some v =>
      rw [if_neg (by simp)]
      have hsn := hs pv List.mem_cons_self
      generalize hpi : (ap.get? pv.mname).getD ⟨pv.loc.sname, []⟩ = pinfo
      have hp : pinfo.sname = s ∧ pinfo.OK := by
        cases hg : ap.get? pv.mname with
        | none =>
          rw [hg] at hpi
          subst hpi
          exact ⟨hsn, fun x hx => by cases hx⟩
        | some q =>
          rw [hg] at hpi
          subst hpi
          exact ha _ (Dict.mem_of_get? hg)
      dsimp only
      rw [if_neg (by rw [hsn, hp.1]; simp)]
      obtain ⟨w, w1, w2, w3⟩ := addNum_spec (o := pinfo.vals.get? (some v)) (loc := pv.loc) (by
        intro w hw
        have := hp.2 _ (Dict.mem_of_get? hw)
        rw [hsn, ← hp.1]; exact this)
      rw [w1]
      dsimp only
      have hset : ({ pinfo with vals := pinfo.vals.set (some v) w } : PInfo V).sname = s ∧
          ({ pinfo with vals := pinfo.vals.set (some v) w } : PInfo V).OK := by
        refine ⟨hp.1, fun x hx => ?_⟩
        rcases mem_set hx with rfl | hx
        · show OKW pinfo.sname w
          rw [hp.1, ← hsn]; exact w2
        · exact hp.2 x hx
      obtain ⟨ap', h1, h2, h3, h4⟩ := ih hs' (ap.set pv.mname { pinfo with vals := pinfo.vals.set (some v) w }) (by
        intro x hx
        rcases mem_set hx with rfl | hx
        · exact hset
        · exact ha x hx) (Dict.nodup_keys_set hk _ _)
      refine ⟨ap', h1, h2, h3, h4.trans ?_⟩
      rw [List.filterMap_cons_some (b := (pname, pv.loc.cell, some v)) (by simp [PV.item, hv])]
      have hitems : (PInfo.items pname { pinfo with vals := pinfo.vals.set (some v) w }).Perm
          (pinfo.items pname ++ [(pname, pv.loc.cell, some v)]) := by
        unfold PInfo.items
        refine Dict.flatMap_set_perm (fun x : Option V × Where => (x.2.cells pinfo.sname).map fun c => (pname, c, x.1))
          ?_ ?_
        · intro u hu
          rw [hu] at w3
          rw [hp.1, ← hsn]
          have := w3.map (fun c => (pname, c, some v))
          simpa using this
        · intro hu
          rw [hu] at w3
          rw [hp.1, ← hsn]
          have := w3.map (fun c => (pname, c, some v))
          simpa using this
      have hap : (apItems pname (ap.set pv.mname { pinfo with vals := pinfo.vals.set (some v) w })).Perm
          (apItems pname ap ++ [(pname, pv.loc.cell, some v)]) := by
        unfold apItems
        refine Dict.flatMap_set_perm (fun x : PyStr × PInfo V => x.2.items pname) ?_ ?_
        · intro u hu
          rw [hu] at hpi
          subst hpi
          exact hitems
        · intro hu
          rw [hu] at hpi
          subst hpi
          exact hitems
      refine (hap.append_right _).trans ?_
      rw [List.append_assoc]
      exact List.Perm.refl _

def aggrItems (aggr : Aggr V) : List (Item V) := aggr.flatMap fun x => x.2.flatMap fun y => y.2.items y.1

/-- The property names of a mechanism. -/
def Done (aggr : Aggr V) (done : List PyStr) : Prop := ∀ x ∈ aggr, ∀ y ∈ x.2, y.1 ∈ done ∧ y.2.OK

theorem merge_spec (pname : PyStr) (ap : Dict PyStr (PInfo V)) (hok : ∀ x ∈ ap, x.2.OK) (hk : ap.keys.Nodup)
    (aggr : Aggr V) (done : List PyStr) (hd : Done aggr (pname :: done))
    (hno : ∀ m ∈ ap.keys, ∀ d, aggr.get? m = some d → d.get? pname = none) :
    Done (merge pname ap aggr) (pname :: done) ∧ (aggrItems (merge pname ap aggr)).Perm (aggrItems aggr ++ apItems pname ap) := by
  induction ap generalizing aggr with
  | nil => exact ⟨hd, by simp [merge, apItems]⟩
  | cons x ap ih =>
    obtain ⟨m, info⟩ := x
    rw [merge]
    obtain ⟨k1, k2⟩ := List.nodup_cons.1 hk
    have hempty : ((aggr.get? m).getD []).get? pname = none := by
      cases hg : aggr.get? m with
      | none => rfl
      | some d => exact hno m List.mem_cons_self d hg
    have hd' : Done (aggr.set m (((aggr.get? m).getD []).set pname info)) (pname :: done) := by
      intro x hx y hy
      rcases mem_set hx with rfl | hx
      · rcases mem_set hy with rfl | hy
        · exact ⟨List.mem_cons_self, hok (m, info) List.mem_cons_self⟩
        · cases hg : aggr.get? m with
          | none => rw [hg] at hy; cases hy
          | some d =>
            rw [hg] at hy
            exact hd _ (Dict.mem_of_get? hg) y hy
      · exact hd x hx y hy
    obtain ⟨i1, i2⟩ := ih (fun x hx => hok x (List.mem_cons_of_mem _ hx)) k2 _ hd' (by
      intro m' hm' d hg
      have hne : m ≠ m' := fun e => k1 (e ▸ hm')
      rw [Dict.get?_set_ne _ _ hne] at hg
      exact hno m' (List.mem_cons_of_mem _ hm') d hg)
    refine ⟨i1, i2.trans ?_⟩
    have hp : (aggrItems (aggr.set m (((aggr.get? m).getD []).set pname info))).Perm
        (aggrItems aggr ++ info.items pname) := by
      unfold aggrItems
      refine Dict.flatMap_set_perm (fun x : PyStr × Dict PyStr (PInfo V) => x.2.flatMap fun y => y.2.items y.1) ?_ ?_
      · intro u hu
        rw [hu] at hempty
        simp only [hu, Option.getD_some] at hempty ⊢
        rw [Dict.set_of_none hempty]
        simp
      · intro hu
        simp [hu, Dict.set]
    refine (hp.append_right _).trans ?_
    rw [List.append_assoc]
    exact List.Perm.refl _

theorem buildAggr_spec (read : PyStr → Bool → Except Exn (List (PV V))) (R : PyStr → List (PV V)) (pnames : List PyStr)
    (hR : ∀ p ∈ pnames, finalRead read p = .ok (R p)) (hs : ∀ p ∈ pnames, ∃ s, ∀ pv ∈ R p, pv.loc.sname = s)
    (hn : pnames.Nodup) (aggr : Aggr V) (done : List PyStr) (hd : Done aggr done) (hdis : ∀ p ∈ pnames, p ∉ done) :
    ∃ aggr', buildAggr read true pnames aggr = .ok aggr' ∧ Done aggr' (pnames.reverse ++ done) ∧
      (aggrItems aggr').Perm (aggrItems aggr ++ pnames.flatMap fun p => (R p).filterMap (PV.item p)) := by
  induction pnames generalizing aggr done with
  | nil => exact ⟨aggr, rfl, by simpa using hd, by simp⟩
  | cons p pnames ih =>
    obtain ⟨s, hs0⟩ := hs p List.mem_cons_self
    obtain ⟨ap, a1, a2, a3, a4⟩ := buildPname_spec p s (R p) hs0 [] (fun x hx => by cases hx) (by simp [Dict.keys])
    have hr := hR p List.mem_cons_self
    obtain ⟨n1, n2⟩ := List.nodup_cons.1 hn
    have hbuild : buildAggr read true (p :: pnames) aggr = buildAggr read true pnames (merge p ap aggr) := by
      rw [buildAggr]
      unfold finalRead at hr
      cases hf : read p false with
      | ok pvs =>
        rw [hf] at hr
        cases hr
        simp only [hf]
        rw [a1]
      | error e =>
        rw [hf] at hr
        dsimp only at hr ⊢
        by_cases he : e = .usePerCPU
        · subst he
          dsimp only at hr
          simp only [hf, hr]
          rw [a1]
        · cases e <;> first | exact absurd rfl he | cases hr
    have hd1 : Done aggr (p :: done) := fun x hx y hy => ⟨List.mem_cons_of_mem _ (hd x hx y hy).1, (hd x hx y hy).2⟩
    obtain ⟨m1, m2⟩ := merge_spec p ap (fun x hx => (a2 x hx).2) a3 aggr done hd1 (by
      intro m _ d hg
      rw [Dict.get?_eq_none_iff]
      intro hm
      obtain ⟨y, hy, hye⟩ := List.mem_map.1 hm
      have := (hd _ (Dict.mem_of_get? hg) y hy).1
      rw [hye] at this
      exact hdis p List.mem_cons_self this)
    obtain ⟨aggr', b1, b2, b3⟩ := ih (fun q hq => hR q (List.mem_cons_of_mem _ hq))
      (fun q hq => hs q (List.mem_cons_of_mem _ hq)) n2 (merge p ap aggr) (p :: done) m1 (by
        intro q hq hm
        rcases List.mem_cons.1 hm with rfl | hm
        · exact n1 hq
        · exact hdis q (List.mem_cons_of_mem _ hq) hm)
    refine ⟨aggr', by rw [hbuild, b1], by simpa using b2, b3.trans ?_⟩
    rw [List.flatMap_cons, ← List.append_assoc]
    refine List.Perm.append_right _ (m2.trans (List.Perm.append_left _ ?_))
    simpa [apItems] using a4

/-! ### The file -/

/-- What is restored from an entry. -/
def Entry.items (pname : PyStr) (e : Entry V) : List (Item V) :=
  match entryCall pname e with
  | .ok c => c.items
  | .error _ => []

/-- The entry can be restored. -/
def Entry.Good (pname : PyStr) (e : Entry V) : Prop := ∃ c, entryCall pname e = .ok c

/-- Numbers are not repeated. -/
def NW : Where → Prop
  | .nums l => l.Nodup
  | .dies d => ∀ p ∈ d, p.2.Nodup

theorem parseDies_spec (d : Dict Nat (List Nat)) (h : ∀ p ∈ d, p.2.Nodup) :
    ∃ r, parseDies (d.map fun p => (p.1, rangifyN p.2)) = .ok r ∧
      (Target.cells (.dies r)).Perm (Where.cells .die (.dies d)) := by
  induction d with
  | nil => exact ⟨[], rfl, List.Perm.refl _⟩
  | cons p d ih =>
    obtain ⟨r, h1, h2⟩ := ih (fun q hq => h q (List.mem_cons_of_mem _ hq))
    obtain ⟨l, g1, g2⟩ := Trivial.rangify_dedup (h p List.mem_cons_self)
    rw [List.map_cons, parseDies]
    unfold rangifyN at h1 ⊢
    rw [g1]
    dsimp only
    rw [h1]
    refine ⟨_, rfl, ?_⟩
    unfold Target.cells Where.cells at h2 ⊢
    dsimp only at h2 ⊢
    rw [List.flatMap_cons, List.flatMap_cons]
    refine List.Perm.append ?_ h2
    dsimp only
    rw [List.map_map]
    exact g2.map _

theorem entry_spec (pname : PyStr) (v : Option V) (s : SName) (w : Where) (ho : OKW s w) (hn : NW w) :
    Entry.Good pname (⟨v, s, rangifyWhere w⟩ : Entry V) ∧
      (Entry.items pname (⟨v, s, rangifyWhere w⟩ : Entry V)).Perm ((w.cells s).map fun c => (pname, c, v)) := by
  cases w with
  | nums l =>
    obtain ⟨r, g1, g2⟩ := Trivial.rangify_dedup hn
    have hc : ∃ t : Target, entryCall pname (⟨v, s, rangifyWhere (.nums l)⟩ : Entry V) = .ok ⟨pname, v, t⟩ ∧
        t.cells.Perm (Where.cells s (.nums l)) := by
      unfold entryCall rangifyWhere rangifyN
      dsimp only
      rw [g1]
      dsimp only
      cases s with
      | die => exact absurd rfl ho
      | CPU =>
        refine ⟨_, rfl, ?_⟩
        unfold Target.cells Where.cells
        dsimp only
        rw [List.map_map]
        exact g2.map _
      | package =>
        refine ⟨_, rfl, ?_⟩
        unfold Target.cells Where.cells
        dsimp only
        rw [List.map_map]
        exact g2.map _
    obtain ⟨t, t1, t2⟩ := hc
    refine ⟨⟨_, t1⟩, ?_⟩
    unfold Entry.items
    rw [t1]
    exact t2.map _
  | dies d =>
    obtain ⟨r, g1, g2⟩ := parseDies_spec d hn
    cases ho
    have hc : entryCall pname (⟨v, .die, rangifyWhere (.dies d)⟩ : Entry V) = .ok ⟨pname, v, .dies r⟩ := by
      unfold entryCall rangifyWhere
      dsimp only
      rw [g1]
    refine ⟨⟨_, hc⟩, ?_⟩
    unfold Entry.items
    rw [hc]
    exact g2.map _

def fileItems (f : File V) : List (Item V) := f.flatMap fun x => x.2.flatMap (Entry.items x.1)

/-- The entries can be restored, the names are known. -/
def FileOK (f : File V) (done : List PyStr) : Prop := ∀ x ∈ f, x.1 ∈ done ∧ ∀ e ∈ x.2, Entry.Good x.1 e

theorem addVals_spec (pname : PyStr) (s : SName) (vals : Dict (Option V) Where) (ho : ∀ x ∈ vals, OKW s x.2)
    (hn : ∀ x ∈ vals, NW x.2) (f : File V) (done : List PyStr) (hp : pname ∈ done) (hf : FileOK f done) :
    FileOK (addVals pname s vals f) done ∧ (fileItems (addVals pname s vals f)).Perm
      (fileItems f ++ vals.flatMap fun x => (x.2.cells s).map fun c => (pname, c, x.1)) := by
  induction vals generalizing f with
  | nil => exact ⟨hf, by simp [addVals]⟩
  | cons x vals ih =>
    obtain ⟨v, w⟩ := x
    rw [addVals]
    obtain ⟨e1, e2⟩ := entry_spec (V := V) pname v s w (ho _ List.mem_cons_self) (hn _ List.mem_cons_self)
    obtain ⟨i1, i2⟩ := ih (fun x hx => ho x (List.mem_cons_of_mem _ hx)) (fun x hx => hn x (List.mem_cons_of_mem _ hx))
      (f.set pname ((f.get? pname).getD [] ++ [⟨v, s, rangifyWhere w⟩])) (by
        intro x hx
        rcases mem_set hx with rfl | hx
        · refine ⟨hp, fun e he => ?_⟩
          rcases List.mem_append.1 he with he | he
          · cases hg : f.get? pname with
            | none => rw [hg] at he; cases he
            | some l =>
              rw [hg] at he
              exact (hf _ (Dict.mem_of_get? hg)).2 e he
          · rw [List.mem_singleton.1 he]
            exact e1
        · exact hf x hx)
    refine ⟨i1, i2.trans ?_⟩
    rw [List.flatMap_cons, ← List.append_assoc]
    refine List.Perm.append_right _ ?_
    unfold fileItems
    refine Dict.flatMap_set_perm (fun x : PyStr × List (Entry V) => x.2.flatMap (Entry.items x.1)) ?_ ?_
    · intro u hu
      simp only [hu, Option.getD_some, List.flatMap_append]
      refine List.Perm.append_left _ ?_
      simpa using e2
    · intro hu
      simpa [hu] using e2

theorem toYaml_spec (aggr : Aggr V) (done : List PyStr) (hd : Done aggr done)
    (hn : ∀ x ∈ aggr, ∀ y ∈ x.2, ∀ z ∈ y.2.vals, NW z.2) (f : File V) (hf : FileOK f done) :
    FileOK (toYaml aggr f) done ∧ (fileItems (toYaml aggr f)).Perm (fileItems f ++ aggrItems aggr) := by
  have hpin : ∀ (ps : Dict PyStr (PInfo V)) (f : File V), (∀ y ∈ ps, y.1 ∈ done ∧ y.2.OK) →
      (∀ y ∈ ps, ∀ z ∈ y.2.vals, NW z.2) → FileOK f done →
      FileOK (addPinfos ps f) done ∧
        (fileItems (addPinfos ps f)).Perm (fileItems f ++ ps.flatMap fun y => y.2.items y.1) := by
    intro ps
    induction ps with
    | nil => intro f _ _ hf; exact ⟨hf, by simp [addPinfos]⟩
    | cons y ps ih =>
      intro f h1 h2 hf
      obtain ⟨pname, p⟩ := y
      obtain ⟨a1, a2⟩ := addVals_spec pname p.sname p.vals (h1 _ List.mem_cons_self).2 (h2 _ List.mem_cons_self) f done
        (h1 _ List.mem_cons_self).1 hf
      obtain ⟨b1, b2⟩ := ih (addVals pname p.sname p.vals f) (fun y hy => h1 y (List.mem_cons_of_mem _ hy))
        (fun y hy => h2 y (List.mem_cons_of_mem _ hy)) a1
      refine ⟨b1, b2.trans ?_⟩
      rw [List.flatMap_cons, ← List.append_assoc]
      exact List.Perm.append_right _ a2
  induction aggr generalizing f with
  | nil => exact ⟨hf, by simp [toYaml, aggrItems]⟩
  | cons x aggr ih =>
    obtain ⟨m, ps⟩ := x
    obtain ⟨a1, a2⟩ := hpin ps f (hd _ List.mem_cons_self) (hn _ List.mem_cons_self) hf
    obtain ⟨b1, b2⟩ := ih (fun x hx => hd x (List.mem_cons_of_mem _ hx)) (fun x hx => hn x (List.mem_cons_of_mem _ hx)) _ a1
    refine ⟨b1, b2.trans ?_⟩
    unfold aggrItems
    rw [List.flatMap_cons, ← List.append_assoc]
    exact List.Perm.append_right _ a2

theorem restoreCalls_spec (f : File V) (hf : ∀ x ∈ f, ∀ e ∈ x.2, Entry.Good x.1 e) :
    (restoreCalls f).2 = .ok () ∧ (restoreCalls f).1.flatMap SetCall.items = fileItems f := by
  have hes : ∀ (pname : PyStr) (es : List (Entry V)), (∀ e ∈ es, Entry.Good pname e) →
      (entryCalls pname es).2 = .ok () ∧ (entryCalls pname es).1.flatMap SetCall.items = es.flatMap (Entry.items pname) := by
    intro pname es
    induction es with
    | nil => intro _; exact ⟨rfl, rfl⟩
    | cons e es ih =>
      intro h
      obtain ⟨c, hc⟩ := h e List.mem_cons_self
      obtain ⟨i1, i2⟩ := ih (fun q hq => h q (List.mem_cons_of_mem _ hq))
      rw [entryCalls, hc]
      refine ⟨i1, ?_⟩
      dsimp only
      rw [List.flatMap_cons, List.flatMap_cons, i2]
      congr 1
      unfold Entry.items
      rw [hc]
  induction f with
  | nil => exact ⟨rfl, rfl⟩
  | cons x f ih =>
    obtain ⟨pname, es⟩ := x
    obtain ⟨e1, e2⟩ := hes pname es (hf _ List.mem_cons_self)
    obtain ⟨i1, i2⟩ := ih (fun q hq => hf q (List.mem_cons_of_mem _ hq))
    rw [restoreCalls]
    cases h : entryCalls pname es with
    | mk cs r =>
      rw [h] at e1 e2
      dsimp only at e1 e2
      subst e1
      refine ⟨i1, ?_⟩
      dsimp only
      rw [List.flatMap_append, e2, i2]
      unfold fileItems
      rw [List.flatMap_cons]

theorem nodup_of_map {α β : Type} {f : α → β} {l : List α} (h : (l.map f).Nodup) : l.Nodup :=
  List.Pairwise.imp (fun h e => h (congrArg f e)) (List.pairwise_map.1 h)

theorem nodup_flatMap_mem {α β : Type} {f : α → List β} {l : List α} (h : (l.flatMap f).Nodup) {x : α} (hx : x ∈ l) :
    (f x).Nodup := by
  induction l with
  | nil => cases hx
  | cons a l ih =>
    rw [List.flatMap_cons] at h
    obtain ⟨h1, h2, _⟩ := List.nodup_append.1 h
    rcases List.mem_cons.1 hx with rfl | hx
    · exact h1
    · exact ih h2 hx

/-- Different items have no repeated numbers. -/
theorem nw_of_nodup {aggr : Aggr V} (h : ((aggrItems aggr).map fun i => (i.1, i.2.1)).Nodup) :
    ∀ x ∈ aggr, ∀ y ∈ x.2, ∀ z ∈ y.2.vals, NW z.2 := by
  intro x hx y hy z hz
  have h0 := nodup_of_map h
  unfold aggrItems at h0
  have h1 := nodup_flatMap_mem h0 hx
  have h2 := nodup_flatMap_mem h1 hy
  unfold PInfo.items at h2
  have h3 := nodup_of_map (nodup_flatMap_mem h2 hz)
  obtain ⟨v, w⟩ := z
  cases w with
  | nums l => exact nodup_of_map h3
  | dies d =>
    intro p hp
    exact nodup_of_map (nodup_flatMap_mem h3 hp)

end PropsYaml

end Verif
