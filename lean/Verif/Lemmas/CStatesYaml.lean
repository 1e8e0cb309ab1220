import Verif.Model.CStatesYaml
import Verif.Lemmas.PropsYaml
import Verif.Props.CPUIdle

/-!
Lemmas about saving and restoring the status of C-states.
-/

namespace Verif.CStatesYaml

open CPUIdle
open PropsYaml (rangifyN)

/-! ### Names -/

theorem toUpper_toUpper (c : Char) : c.toUpper.toUpper = c.toUpper := by
  unfold Char.toUpper
  split
  · rename_i h
    rw [dif_neg]
    rintro ⟨h1, h2⟩
    have h3 : c.val.toNat ≤ 122 := h.2
    have h4 : 97 ≤ c.val.toNat := h.1
    have h5 : 97 ≤ (c.val + ('A'.val - 'a'.val)).toNat := h1
    have h6 : ('A'.val - 'a'.val).toNat = 4294967264 := by decide
    rw [UInt32.toNat_add, h6] at h5
    omega
  · rfl

theorem upper_upper (s : PyStr) : upper (upper s) = upper s := by
  unfold upper
  rw [List.map_map]
  exact List.map_congr_left fun c _ => toUpper_toUpper c

theorem upper_ne_all (s : PyStr) : upper s ≠ "all".toList := by
  intro h
  have := upper_upper s
  rw [h] at this
  exact absurd this (by decide +kernel)

/-- A name which a comma-separated list can have. -/
def Clean (n : PyStr) : Prop := n ≠ [] ∧ ∀ c ∈ n, c ≠ ',' ∧ PyStr.isSpace c = false

theorem namesOfStr_clean {n : PyStr} (h : Clean n) (ha : n ≠ "all".toList) : namesOfStr n = .list [n] := by
  unfold namesOfStr
  rw [if_neg ha]
  unfold Trivial.splitCsvLine
  have h1 : PyStr.stripBy (· == ',') n = n :=
    PyStr.stripBy_of_stripped (PyStr.stripped_of_all fun c hc => by simp [(h.2 c hc).1])
  have h2 : PyStr.splitC ',' n = [n] := PyStr.splitC_of_not_mem fun hc => (h.2 _ hc).1 rfl
  have h3 : PyStr.strip n = n := PyStr.stripBy_of_stripped (PyStr.stripped_of_all fun c hc => (h.2 c hc).2)
  simp only [h1, h2, Bool.false_eq_true, if_false]
  rw [List.filter_cons_of_pos (by simp [h.1])]
  simp [h3]

/-! ### Aggregation -/

theorem nodup_pick {csinfo : CsInfo} {ns : List PyStr} {acc r : CsInfo} (h : pick csinfo ns acc = .ok r)
    (ha : acc.keys.Nodup) : r.keys.Nodup := by
  induction ns generalizing acc with
  | nil => cases h; exact ha
  | cons n ns ih =>
    rw [pick] at h
    split at h
    · cases h
    · exact ih h (Dict.nodup_keys_set ha _ _)

theorem nodup_getLoop {E : Env} {s : St} {names : Names} {cpus : List Nat} {l : List (Nat × CsInfo)}
    (h : getLoop E s names cpus = .ok l) : ∀ x ∈ l, x.2.keys.Nodup := by
  induction cpus generalizing names l with
  | nil => cases h; intro x hx; cases hx
  | cons c cpus ih =>
    rw [getLoop] at h
    split at h
    · cases h
    · dsimp only at h
      split at h
      · cases h
      · rename_i r hr
        split at h
        · cases h
        · rename_i l' hl
          cases h
          intro x hx
          rcases List.mem_cons.1 hx with rfl | hx
          · exact nodup_pick hr (by simp [Dict.keys])
          · exact ih hl x hx

theorem nodup_getInfo {E : Env} {s : St} {names : Names} {cpus : List Nat} {l : List (Nat × CsInfo)}
    (h : (getInfo E names cpus s).2 = .ok l) : ∀ x ∈ l, x.2.keys.Nodup := by
  unfold getInfo at h
  split at h
  · cases h
  · split at h
    · cases h
    · exact nodup_getLoop h

/-- The states of one CPU are added to what is there for the CPUs `p`. -/
theorem addStates_spec (stat : PyStr → Value) (cpu : Nat) (p : List Nat) (cs : CsInfo) (hn : cs.keys.Nodup)
    (hv : ∀ x ∈ cs, ∃ v, x.2.attrs.get? "disable".toList = some v ∧ dictKey v = stat x.1) (aggr : Aggr)
    (hk : aggr.keys.Nodup)
    (ha : ∀ n ∈ cs.keys, aggr.get? n = if p = [] then none else some [(stat n, p)]) :
    (addStates cpu cs aggr).keys.Nodup ∧
    ∀ n, (addStates cpu cs aggr).get? n = if n ∈ cs.keys then some [(stat n, p ++ [cpu])] else aggr.get? n := by
  induction cs generalizing aggr with
  | nil => exact ⟨hk, fun n => by simp [addStates, Dict.keys]⟩
  | cons x cs ih =>
    obtain ⟨name, st⟩ := x
    obtain ⟨n1, n2⟩ := List.nodup_cons.1 hn
    obtain ⟨v, v1, v2⟩ := hv _ List.mem_cons_self
    dsimp only at v1 v2
    have hadd : addState cpu name st aggr = aggr.set name [(stat name, p ++ [cpu])] := by
      unfold addState
      simp only [v1, v2, ha name List.mem_cons_self]
      by_cases hp : p = []
      · subst hp; rfl
      · rw [if_neg hp]
        simp [Dict.set, Dict.get?]
    rw [addStates, hadd]
    obtain ⟨i1, i2⟩ := ih n2 (fun x hx => hv x (List.mem_cons_of_mem _ hx))
      (aggr.set name [(stat name, p ++ [cpu])]) (Dict.nodup_keys_set hk _ _) (by
      intro n hn'
      have hne : name ≠ n := fun e => n1 (e ▸ hn')
      rw [Dict.get?_set_ne _ _ hne]
      exact ha n (List.mem_cons_of_mem _ hn'))
    refine ⟨i1, fun n => ?_⟩
    rw [i2 n]
    have hkc : Dict.keys ((name, st) :: cs) = name :: Dict.keys cs := rfl
    rw [hkc]
    by_cases hm : n ∈ Dict.keys cs
    · rw [if_pos hm, if_pos (List.mem_cons_of_mem _ hm)]
    · rw [if_neg hm]
      by_cases he : n = name
      · subst he
        rw [if_pos List.mem_cons_self, Dict.get?_set_self]
      · rw [if_neg (by
          intro h
          rcases List.mem_cons.1 h with h | h
          · exact he h
          · exact hm h), Dict.get?_set_ne _ _ (fun e => he e.symm)]

theorem build_spec (stat : PyStr → Value) (N : PyStr → Prop) (l : List (Nat × CsInfo))
    (hn : ∀ x ∈ l, x.2.keys.Nodup) (hN : ∀ x ∈ l, ∀ n, n ∈ x.2.keys ↔ N n)
    (hv : ∀ x ∈ l, ∀ y ∈ x.2, ∃ v, y.2.attrs.get? "disable".toList = some v ∧ dictKey v = stat y.1)
    (p : List Nat) (aggr : Aggr) (hk : aggr.keys.Nodup)
    (ha : ∀ n, N n → aggr.get? n = if p = [] then none else some [(stat n, p)])
    (ha' : ∀ n, ¬ N n → aggr.get? n = none) :
    (build l aggr).keys.Nodup ∧
    (∀ n, N n → (build l aggr).get? n = if p ++ l.map Prod.fst = [] then none else some [(stat n, p ++ l.map Prod.fst)]) ∧
    (∀ n, ¬ N n → (build l aggr).get? n = none) := by
  induction l generalizing p aggr with
  | nil => exact ⟨hk, fun n h => by simpa [build] using ha n h, ha'⟩
  | cons x l ih =>
    obtain ⟨cpu, cs⟩ := x
    have hNx := hN _ List.mem_cons_self
    dsimp only at hNx
    obtain ⟨a1, a2⟩ := addStates_spec stat cpu p cs (hn _ List.mem_cons_self) (hv _ List.mem_cons_self) aggr hk
      (fun n h => ha n ((hNx n).1 h))
    rw [build]
    obtain ⟨i1, i2, i3⟩ := ih (fun x hx => hn x (List.mem_cons_of_mem _ hx)) (fun x hx => hN x (List.mem_cons_of_mem _ hx))
      (fun x hx => hv x (List.mem_cons_of_mem _ hx)) (p ++ [cpu]) (addStates cpu cs aggr) a1
      (fun n h => by rw [a2 n, if_pos ((hNx n).2 h), if_neg (by simp)])
      (fun n h => by rw [a2 n, if_neg (fun h' => h ((hNx n).1 h'))]; exact ha' n h)
    refine ⟨i1, fun n h => ?_, i3⟩
    rw [i2 n h]
    simp

/-! ### CPU numbers in the file -/

theorem rangify_ne_all {l : List Nat} (hl : l.Nodup) : rangifyN l ≠ "all".toList := by
  intro h
  obtain ⟨r, h1, _⟩ := Trivial.rangify_dedup hl
  unfold rangifyN at h
  rw [h] at h1
  have : Except.isOk' (Trivial.parseIntList ["all".toList] ',' true) = false := by decide +kernel
  rw [h1] at this
  cases this

theorem cpus_spec {online cpus : List Nat} (hn : cpus.Nodup) (hs : ∀ c ∈ cpus, c ∈ online) :
    ∃ (o : Option (List Int)) (r : List Nat), parseCpusStr (rangifyN cpus) = .ok o ∧ normalizeCpus online o = .ok r ∧
      ∀ c, c ∈ r ↔ c ∈ cpus := by
  obtain ⟨l, h1, h2⟩ := Trivial.rangify_dedup hn
  refine ⟨some (l.map Int.ofNat), (pyDedup (l.map Int.ofNat)).map Int.toNat, ?_, ?_, ?_⟩
  · unfold parseCpusStr
    rw [if_neg (rangify_ne_all hn)]
    unfold rangifyN
    rw [h1]
  · unfold normalizeCpus
    dsimp only
    rw [if_pos]
    rw [List.all_eq_true]
    intro c hc
    rw [mem_pyDedup] at hc
    obtain ⟨n, hn', rfl⟩ := List.mem_map.1 hc
    rw [List.any_eq_true]
    exact ⟨n, hs n (h2.mem_iff.1 hn'), by simp⟩
  · intro c
    rw [← h2.mem_iff]
    simp only [List.mem_map, mem_pyDedup]
    constructor
    · rintro ⟨_, ⟨n, hn', rfl⟩, rfl⟩
      exact hn'
    · intro h
      exact ⟨(c : Int), ⟨c, h, rfl⟩, rfl⟩

/-! ### Restoring -/

/-- The contents of a "disable" file. -/
def flag (on : Bool) : PyStr := if on then ['0'] else ['1']

/-- The C-states have the same names. -/
def SameNames (f g : List CPUIdle.File) : Prop := ∀ c i nm, Has f c i "name".toList nm ↔ Has g c i "name".toList nm

theorem SameNames.nameAt {f g : List CPUIdle.File} (h : SameNames f g) (c i : Nat) (n : PyStr) :
    NameAt f c i n ↔ NameAt g c i n := exists_congr fun nm => and_congr (h c i nm) Iff.rfl

theorem SameNames.nameOf {f g : List CPUIdle.File} (h : SameNames f g) (c : Nat) (n : PyStr) :
    NameOf f c n ↔ NameOf g c n := exists_congr fun i => exists_congr fun nm => and_congr (h c i nm) Iff.rfl

theorem disable_mem : "disable".toList ∈ fnames := by decide

theorem exists_name {files : List CPUIdle.File} (W : WF files) {f : CPUIdle.File} (h : f ∈ files) :
    ∃ nm, Has files f.cpu f.idx "name".toList nm := W.complete f h _ name_mem

/-- CPUs having C-states. -/
def HaveStates (files : List CPUIdle.File) (cpus : List Nat) : Prop := ∀ c ∈ cpus, ∃ i nm, Has files c i "name".toList nm

theorem HaveStates.uniform {files : List CPUIdle.File} {cpus : List Nat} (h : HaveStates files cpus) :
    Uniform files cpus := Or.inl fun c hc => by
  obtain ⟨i, nm, h⟩ := h c hc
  exact ⟨_, h, rfl⟩

/-- One entry is restored. -/
theorem restoreEntry_spec {E : Env} (hd : E.driver = true) (hE : E.cacheOn = true)
    (hk : ∀ c i v, E.kern c i v = .stored) {online cpus : List Nat} (hn : cpus.Nodup) (hs : ∀ c ∈ cpus, c ∈ online)
    {s : St} (G : Good s) (hst : HaveStates s.files cpus) {n : PyStr} (hc : Clean n) (hu : upper n = n)
    (hname : ∀ c ∈ cpus, NameOf s.files c n) (on : Bool) :
    ∃ s', restoreEntry E online n ⟨.status on, rangifyN cpus⟩ s = (s', .ok ()) ∧ Good s' ∧
      SameNames s'.files s.files ∧
      (∀ c ∈ cpus, ∀ i, NameAt s.files c i n → Has s'.files c i "disable".toList (flag on)) ∧
      (∀ c i k x, ¬ (c ∈ cpus ∧ NameAt s.files c i n ∧ k = "disable".toList) →
        (Has s'.files c i k x ↔ Has s.files c i k x)) := by
  obtain ⟨o, r, p1, p2, p3⟩ := cpus_spec hn hs
  have hall : n ≠ "all".toList := hu ▸ upper_ne_all n
  have hstr : HaveStates s.files r := fun c h => hst c ((p3 c).1 h)
  obtain ⟨l, hl⟩ := C44_succeeds hd hE G [n] r on hstr.uniform
    (fun c h m hm => by rw [List.mem_singleton.1 hm, hu]; exact hname c ((p3 c).1 h)) (fun _ _ _ _ _ _ => hk _ _ _)
  cases ht : toggleCStates E (.list [n]) r on s with
  | mk s1 res =>
  rw [ht] at hl
  dsimp only at hl
  subst hl
  have hfr := C44_frame hE G (.list [n]) r on
  rw [ht] at hfr
  dsimp only at hfr
  obtain ⟨f1, f2, _⟩ := hfr
  have hnm := C44_named hE G [n] r on ht
  have hsame : SameNames s1.files s.files := fun c i nm => f2 c i _ nm (fun h => absurd h.2 (by decide))
  have hst1 : HaveStates s1.files r := fun c h => by
    obtain ⟨i, nm, h⟩ := hstr c h
    exact ⟨i, nm, (hsame c i nm).2 h⟩
  have hg := C43_get_names_partial hd hE f1 hst1.uniform [n]
  cases hget : getInfo E (.list [n]) r s1 with
  | mk s2 res2 =>
  rw [hget] at hg
  dsimp only at hg
  obtain ⟨g1, g2, g3, _⟩ := hg
  obtain ⟨l2, hl2⟩ := g3.2 (fun c h m hm => by
    rw [List.mem_singleton.1 hm, hu]
    exact (hsame.nameOf c n).2 (hname c ((p3 c).1 h)))
  subst hl2
  refine ⟨s2, ?_, g2, by rw [g1]; exact hsame, ?_, ?_⟩
  · unfold restoreEntry
    rw [p1]
    dsimp only
    have e1 : toggleStr E online n o on s = (s1, .ok ()) := by
      unfold toggleStr
      rw [if_neg (by simp [hd]), p2]
      dsimp only
      rw [namesOfStr_clean hc hall, ht]
    have e2 : print E online n o s1 = (s2, .ok ()) := by
      unfold print
      rw [if_neg (by simp [hd]), p2]
      dsimp only
      rw [hget]
    rw [e1]
    exact e2
  · intro c h i hi
    rw [g1]
    obtain ⟨j, j1, j2⟩ := hnm c ((p3 c).2 h) n (List.mem_singleton.2 rfl)
    rw [hu] at j1
    have : i = j := by
      obtain ⟨a, a1, a2⟩ := hi
      obtain ⟨b, b1, b2⟩ := j1
      exact G.wf.distinct c i j a b a1 b1 (a2.symm.trans b2)
    subst this
    exact j2
  · intro c i k x h
    rw [g1]
    refine f2 c i k x fun ⟨⟨h1, m, hm, h2⟩, h3⟩ => h ⟨(p3 c).1 h1, ?_, h3⟩
    rw [List.mem_singleton.1 hm, hu] at h2
    exact h2

/-- Restoring the C-states in the file one by one. -/
theorem restoreCStates_spec {E : Env} (hd : E.driver = true) (hE : E.cacheOn = true)
    (hk : ∀ c i v, E.kern c i v = .stored) {online cpus : List Nat} (hn : cpus.Nodup) (hs : ∀ c ∈ cpus, c ∈ online)
    (on : PyStr → Bool) (f : File) (hf : f.keys.Nodup) (hfe : ∀ x ∈ f, x.2 = [⟨.status (on x.1), rangifyN cpus⟩])
    (hc : ∀ n ∈ f.keys, Clean n ∧ upper n = n)
    {s : St} (G : Good s) (hst : HaveStates s.files cpus) (hname : ∀ n ∈ f.keys, ∀ c ∈ cpus, NameOf s.files c n) :
    ∃ s', restoreCStates E online f s = (s', .ok ()) ∧ Good s' ∧ SameNames s'.files s.files ∧
      (∀ n ∈ f.keys, ∀ c ∈ cpus, ∀ i, NameAt s.files c i n → Has s'.files c i "disable".toList (flag (on n))) ∧
      (∀ c i k x, ¬ (c ∈ cpus ∧ (∃ n ∈ f.keys, NameAt s.files c i n) ∧ k = "disable".toList) →
        (Has s'.files c i k x ↔ Has s.files c i k x)) := by
  induction f generalizing s with
  | nil => exact ⟨s, rfl, G, fun _ _ _ => Iff.rfl, fun n h => (by cases h), fun _ _ _ _ _ => Iff.rfl⟩
  | cons x f ih =>
    obtain ⟨n, es⟩ := x
    obtain ⟨k1, k2⟩ := List.nodup_cons.1 hf
    have hes := hfe _ List.mem_cons_self
    dsimp only at hes
    obtain ⟨c1, c2⟩ := hc n List.mem_cons_self
    obtain ⟨s1, e1, e2, e3, e4, e5⟩ := restoreEntry_spec hd hE hk hn hs G hst c1 c2 (hname n List.mem_cons_self) (on n)
    obtain ⟨s2, i1, i2, i3, i4, i5⟩ := ih k2 (fun x hx => hfe x (List.mem_cons_of_mem _ hx))
      (fun m hm => hc m (List.mem_cons_of_mem _ hm)) e2
      (fun c h => by
        obtain ⟨i, nm, h⟩ := hst c h
        exact ⟨i, nm, (e3 c i nm).2 h⟩)
      (fun m hm c h => (e3.nameOf c m).2 (hname m (List.mem_cons_of_mem _ hm) c h))
    refine ⟨s2, ?_, i2, fun c i nm => (i3 c i nm).trans (e3 c i nm), ?_, ?_⟩
    · rw [restoreCStates, hes, restoreEntries, e1]
      dsimp only
      rw [restoreEntries]
      exact i1
    · intro m hm c h i hi
      rcases List.mem_cons.1 hm with rfl | hm
      · refine (i5 c i _ _ ?_).2 (e4 c h i hi)
        rintro ⟨_, ⟨m', hm', h2⟩, _⟩
        obtain ⟨a, a1, a2⟩ := hi
        obtain ⟨b, b1, b2⟩ := (e3.nameAt c i m').1 h2
        have := G.wf.uniq c i _ a b a1 b1
        subst this
        exact k1 (by rw [← a2] at b2; exact b2 ▸ hm')
      · exact i4 m hm c h i ((e3.nameAt c i m).2 hi)
    · intro c i k x h
      refine (i5 c i k x ?_).trans (e5 c i k x ?_)
      · rintro ⟨h1, ⟨m, hm, h2⟩, h3⟩
        exact h ⟨h1, ⟨m, List.mem_cons_of_mem _ hm, (e3.nameAt c i m).1 h2⟩, h3⟩
      · rintro ⟨h1, h2, h3⟩
        exact h ⟨h1, ⟨n, List.mem_cons_self, h2⟩, h3⟩

end Verif.CStatesYaml
