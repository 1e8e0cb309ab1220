import Verif.Lemmas.OpTarget

/-!
Lemmas about `get_dies()`, `get_packages()` and `get_cpus()` of the OpTarget model.
-/

namespace Verif.OpTarget

open Verif.CPUInfo

theorem inDict_groupPairs_aux (l : List (Nat × Nat)) (d : Dict Nat (List Nat)) (hd : d.keys.Nodup) :
    (Dict.keys (l.foldl (fun d p => d.set p.1 ((d.get? p.1).getD [] ++ [p.2])) d)).Nodup ∧
    (∀ p u, InDict (l.foldl (fun d p => d.set p.1 ((d.get? p.1).getD [] ++ [p.2])) d) p u ↔
      InDict d p u ∨ (p, u) ∈ l) := by
  induction l generalizing d with
  | nil => exact ⟨hd, by simp⟩
  | cons a l ih =>
    obtain ⟨k1, k2⟩ := ih (addTo d a.1 [a.2]) (nodup_addTo hd _ _)
    refine ⟨k1, fun p u => ?_⟩
    rw [List.foldl_cons]
    refine (k2 p u).trans ?_
    rw [inDict_addTo, List.mem_singleton, List.mem_cons]
    constructor
    · rintro ((h | ⟨rfl, rfl⟩) | h)
      · exact .inl h
      · exact .inr (.inl rfl)
      · exact .inr (.inr h)
    · rintro (h | rfl | h)
      · exact .inl (.inl h)
      · exact .inl (.inr ⟨rfl, rfl⟩)
      · exact .inr h

theorem keys_groupPairs_aux (l : List (Nat × Nat)) (d : Dict Nat (List Nat)) (p : Nat)
    (h : p ∈ Dict.keys (l.foldl (fun d p => d.set p.1 ((d.get? p.1).getD [] ++ [p.2])) d)) :
    p ∈ d.keys ∨ ∃ u, (p, u) ∈ l := by
  induction l generalizing d with
  | nil => exact .inl h
  | cons a l ih =>
    rw [List.foldl_cons] at h
    rcases ih _ h with h | ⟨u, h⟩
    · rcases (Dict.mem_keys_set _ _ _ _).1 h with h | h
      · exact .inr ⟨a.2, by rw [h]; exact List.mem_cons_self⟩
      · exact .inl h
    · exact .inr ⟨u, List.mem_cons_of_mem _ h⟩

theorem keys_groupPairs (l : List (Nat × Nat)) (p : Nat) (h : p ∈ (groupPairs l).keys) :
    ∃ u, (p, u) ∈ l := by
  rcases keys_groupPairs_aux l [] p h with h | h
  · cases h
  · exact h

theorem keys_addDies (more : List (Nat × List Nat)) (d : Dict Nat (List Nat)) (p : Nat)
    (h : p ∈ (addDies d more).keys) : p ∈ d.keys ∨ p ∈ more.map (·.1) := by
  induction more generalizing d with
  | nil => exact .inl h
  | cons a l ih =>
    rcases ih _ h with h | h
    · rcases (Dict.mem_keys_set _ _ _ _).1 h with h | h
      · exact .inr (by rw [h]; exact List.mem_cons_self)
      · exact .inl h
    · exact .inr (List.mem_cons_of_mem _ h)

theorem groupPairs_spec (l : List (Nat × Nat)) :
    (groupPairs l).keys.Nodup ∧ ∀ p u, InDict (groupPairs l) p u ↔ (p, u) ∈ l := by
  obtain ⟨h1, h2⟩ := inDict_groupPairs_aux l [] (by simp [Dict.keys])
  refine ⟨h1, fun p u => (h2 p u).trans ?_⟩
  simp [inDict_nil]

theorem addDies_spec (more : List (Nat × List Nat)) (d : Dict Nat (List Nat)) (hd : d.keys.Nodup) :
    (addDies d more).keys.Nodup ∧
      (∀ p u, InDict (addDies d more) p u ↔ InDict d p u ∨ ∃ us, (p, us) ∈ more ∧ u ∈ us) := by
  induction more generalizing d with
  | nil => exact ⟨hd, by simp [addDies]⟩
  | cons a l ih =>
    obtain ⟨k1, k2⟩ := ih (addTo d a.1 a.2) (nodup_addTo hd _ _)
    refine ⟨k1, fun p u => ?_⟩
    refine (k2 p u).trans ?_
    rw [inDict_addTo]
    constructor
    · rintro ((h | ⟨rfl, h⟩) | ⟨us, h, h'⟩)
      · exact .inl h
      · exact .inr ⟨a.2, List.mem_cons_self, h⟩
      · exact .inr ⟨us, List.mem_cons_of_mem _ h, h'⟩
    · rintro (h | ⟨us, h, h'⟩)
      · exact .inl (.inl h)
      · rcases List.mem_cons.1 h with h | h
        · subst h
          exact .inl (.inr ⟨rfl, h'⟩)
        · exact .inr ⟨us, h, h'⟩

theorem get?_mapDedup (d : Dict Nat (List Nat)) (p : Nat) :
    Dict.get? (d.map (fun pu => (pu.1, pyDedup pu.2))) p = (d.get? p).map pyDedup := by
  induction d with
  | nil => rfl
  | cons a d ih =>
    obtain ⟨k, v⟩ := a
    rw [List.map_cons]
    unfold Dict.get?
    dsimp only
    split
    · rfl
    · exact ih

theorem mapDedup_spec (d : Dict Nat (List Nat)) (hd : d.keys.Nodup) :
    (Dict.keys (d.map (fun pu => (pu.1, pyDedup pu.2)))).Nodup ∧
    (∀ p u, InDict (d.map (fun pu => (pu.1, pyDedup pu.2))) p u ↔ InDict d p u) ∧
    ∀ p us, Dict.get? (d.map (fun pu => (pu.1, pyDedup pu.2))) p = some us → us.Nodup := by
  refine ⟨?_, fun p u => ?_, fun p us h => ?_⟩
  · have : Dict.keys (d.map (fun pu => (pu.1, pyDedup pu.2))) = d.keys := by
      simp [Dict.keys]
    rw [this]; exact hd
  · unfold InDict
    rw [get?_mapDedup]
    cases d.get? p with
    | none => simp
    | some us => simp [mem_pyDedup]
  · rw [get?_mapDedup] at h
    cases hg : d.get? p with
    | none => rw [hg] at h; cases h
    | some vs =>
      rw [hg] at h
      cases h
      exact nodup_pyDedup _

theorem inDict_iff_mem {d : Dict Nat (List Nat)} (hd : d.keys.Nodup) (p u : Nat) :
    InDict d p u ↔ ∃ us, (p, us) ∈ d ∧ u ∈ us := by
  unfold InDict
  refine exists_congr fun us => ?_
  rw [show (p, us) ∈ d ↔ d.get? p = some us from ⟨Dict.get?_of_mem hd, Dict.mem_of_get?⟩]

/-- The dies that are added to those comprised by the CPUs. -/
def Extra (i : Info) (t : Tgt) (p u : Nat) : Prop :=
  InDict t.dies p u ∨ (t.dies = [] ∧ t.cpus = [] ∧ t.cores = [] ∧ t.modules = [] ∧ p ∈ t.packages ∧
    UnitEx i .die p u)

theorem getDies_fresh (i : Info) (wf : WF i) (a : Args) (t : Tgt) (ht : TgtOk i a t) (R : List Nat)
    (hR : getCpus' i t [] = .ok R) :
    ∃ D, (∀ p u, InDict D p u ↔ ((∃ c, CpuWith i (InUnit .die p u) c) ∧
        ∀ c, CpuWith i (InUnit .die p u) c → c ∈ R) ∨ Extra i t p u) ∧
      (∀ p us, D.get? p = some us → us.Nodup) ∧ D.keys.Nodup ∧ (∀ p ∈ D.keys, PkgEx i p) ∧
      ∃ rem : List Nat, (∀ c, c ∈ rem ↔ c ∈ R ∧ ¬ CpuWith i (fun l =>
          ∀ c', CpuWith i (InUnit .die l.package l.die) c' → c' ∈ R) c) ∧
      ∀ strict ca, ca.dies = none → getDies i t strict ca =
        if strict = true ∧ rem ≠ [] then (.error .noTarget, ca)
        else (.ok D, { ca with dies := some D }) := by
  obtain ⟨R', hR', hnd, hpres, -⟩ := getCpus'_ok i wf a t ht [.die] (.inr (.inl rfl))
  have hRR : R = R' := by
    rw [getCpus'_exclude i t [.die] (.inr (.inl rfl)), hR] at hR'
    cases hR'; rfl
  subst hRR
  obtain ⟨pairs, rem, norm, h1, -, -, -, -, h2, h3⟩ := C17_cpus_div_dies i wf (.nums R)
    (fun c hc => hpres c hc)
  obtain ⟨g1, g2⟩ := groupPairs_spec pairs
  have hD : ∃ d, (if (!t.dies.isEmpty) = true then Except.ok (addDies (groupPairs pairs) t.dies)
                 else if (t.cpus.isEmpty && t.cores.isEmpty && t.modules.isEmpty &&
                     !t.packages.isEmpty) = true then
                   (pkgUnits i .die t.packages).map (addDies (groupPairs pairs))
                 else .ok (groupPairs pairs)) = .ok d ∧ d.keys.Nodup ∧
      (∀ p ∈ d.keys, PkgEx i p) ∧ ∀ p u, InDict d p u ↔ (p, u) ∈ pairs ∨ Extra i t p u := by
    have gk : ∀ p ∈ (groupPairs pairs).keys, PkgEx i p := by
      intro p hp
      obtain ⟨u, hu⟩ := keys_groupPairs pairs p hp
      obtain ⟨⟨c, h0, l, hl, hlc, h5, -⟩, -⟩ := (h2 p u).1 hu
      refine ⟨?_, l, hl, h5⟩
      rw [← show l.package = p from h5]
      exact (wf.cpuLine l hl (by rw [hlc]; exact h0)).2.2.2.2
    by_cases hd : t.dies = []
    · rw [if_neg (by simp [hd])]
      by_cases hp : t.cpus = [] ∧ t.cores = [] ∧ t.modules = [] ∧ t.packages ≠ []
      · obtain ⟨p1, p2, p3, p4⟩ := hp
        rw [if_pos (by simp [p1, p2, p3, p4])]
        obtain ⟨l, k1, k2, k3⟩ := (pkgUnits_outcome i .die (.inr rfl) t.packages).1
          (fun p hp => ((ht.packages p).1 hp).2)
        obtain ⟨s1, s2⟩ := addDies_spec l (groupPairs pairs) g1
        rw [k1]
        refine ⟨_, rfl, s1, fun p hp => ?_, fun p u => ?_⟩
        · rcases keys_addDies _ _ _ hp with h | h
          · exact gk p h
          · rw [k2] at h
            exact ((ht.packages p).1 h).2
        rw [s2, g2]
        refine or_congr_right ?_
        unfold Extra
        rw [hd]
        constructor
        · rintro ⟨us, h, h'⟩
          refine .inr ⟨rfl, p1, p2, p3, ?_, (k3 _ h u).1 h'⟩
          rw [← k2]
          exact List.mem_map_of_mem h
        · rintro (h | ⟨-, -, -, -, h, h'⟩)
          · exact absurd h inDict_nil
          · rw [← k2] at h
            obtain ⟨pu, h5, rfl⟩ := List.mem_map.1 h
            exact ⟨pu.2, h5, (k3 _ h5 u).2 h'⟩
      · rw [if_neg]
        · refine ⟨_, rfl, g1, gk, fun p u => ?_⟩
          rw [g2]
          refine ⟨.inl, ?_⟩
          rintro (h | h | ⟨-, h1, h2, h3, h4, -⟩)
          · exact h
          · rw [hd] at h; exact absurd h inDict_nil
          · exact absurd ⟨h1, h2, h3, List.ne_nil_of_mem h4⟩ hp
        · intro h
          simp only [Bool.and_eq_true, List.isEmpty_iff, Bool.not_eq_true', List.isEmpty_eq_false_iff] at h
          exact hp ⟨h.1.1.1, h.1.1.2, h.1.2, h.2⟩
    · rw [if_pos (by simp [hd])]
      obtain ⟨s1, s2⟩ := addDies_spec t.dies (groupPairs pairs) g1
      refine ⟨_, rfl, s1, fun p hp => ?_, fun p u => ?_⟩
      · rcases keys_addDies _ _ _ hp with h | h
        · exact gk p h
        · exact ht.diesOk.pkgs p h
      rw [s2, g2, ← inDict_iff_mem ht.diesOk.nodup]
      refine or_congr_right ⟨.inl, ?_⟩
      rintro (h | h)
      · exact h
      · exact absurd h.1 hd
  obtain ⟨d, k1, k2, k4, k3⟩ := hD
  obtain ⟨m1, m2, m3⟩ := mapDedup_spec d k2
  refine ⟨d.map (fun pu => (pu.1, pyDedup pu.2)), fun p u => ?_, m3, m1,
    fun p hp => k4 p (by simpa [Dict.keys] using hp), rem, fun c => ?_, fun strict ca hca => ?_⟩
  · rw [m2, k3, h2]
    exact Iff.rfl
  · rw [h3]
    show c ∈ R ∧ _ ↔ _
    refine and_congr_right fun hc => ?_
    constructor
    · rintro h ⟨h0, l, hl, hlc, hall⟩
      refine h (l.package, l.die) ((h2 _ _).2 ⟨⟨c, h0, l, hl, hlc, rfl, rfl⟩, hall⟩)
        ⟨h0, l, hl, hlc, rfl, rfl⟩
    · rintro h ⟨p, u⟩ hpu ⟨h0, l, hl, hlc, h5, h6⟩
      refine h ⟨h0, l, hl, hlc, ?_⟩
      have := ((h2 p u).1 hpu).2
      have h5 : l.package = p := h5
      have h6 : l.die = u := h6
      dsimp only
      rw [h5, h6]
      exact this
  · unfold getDies
    rw [hca]
    dsimp only
    rw [getCpus'_exclude i t [.die] (.inr (.inl rfl)), hR]
    dsimp only
    rw [h1]
    dsimp only
    by_cases hs : strict = true ∧ rem ≠ []
    · rw [if_pos hs, if_pos (by simp [hs.1, hs.2])]
    · rw [if_neg hs, if_neg]
      · simp only [k1]
      · intro h
        simp only [Bool.and_eq_true, Bool.not_eq_true', List.isEmpty_eq_false_iff] at h
        exact hs h

theorem getPackages_fresh (i : Info) (wf : WF i) (a : Args) (t : Tgt) (ht : TgtOk i a t) (R : List Nat)
    (hR : getCpus' i t [] = .ok R) :
    ∃ D : List Nat, D.Nodup ∧ (∀ p, p ∈ D ↔ PkgEx i p ∧ ((∀ c, CpuWith i (InPackage p) c → c ∈ R) ∨ PkgIn a p)) ∧
      ∃ rem : List Nat, (∀ c, c ∈ rem ↔ c ∈ R ∧ ¬ CpuWith i (fun l =>
          ∀ c', CpuWith i (InPackage l.package) c' → c' ∈ R) c) ∧
      ∀ strict ca, ca.packages = none → getPackages' i t strict ca =
        if strict = true ∧ rem ≠ [] then (.error .noTarget, ca)
        else (.ok D, { ca with packages := some D }) := by
  obtain ⟨R', hR', hnd, hpres, -⟩ := getCpus'_ok i wf a t ht [.package] (.inr (.inr rfl))
  have hRR : R = R' := by
    rw [getCpus'_exclude i t [.package] (.inr (.inr rfl)), hR] at hR'
    cases hR'; rfl
  subst hRR
  obtain ⟨pkgs, rem, norm, h1, -, -, -, -, h2, h3⟩ := C16_cpus_div_packages i wf (.nums R) .all
    (fun c hc => hpres c hc) (by rintro l ⟨⟩)
  have h2' : ∀ p, p ∈ pkgs ↔ PkgEx i p ∧ ∀ c, CpuWith i (InPackage p) c → c ∈ R := by
    intro p
    rw [h2]
    refine and_congr_left fun _ => ?_
    unfold SelectedPkg PkgEx
    simp [Selects]
  refine ⟨pyDedup (pkgs ++ t.packages), nodup_pyDedup _, fun p => ?_, rem, fun c => ?_, fun strict ca hca => ?_⟩
  · rw [mem_pyDedup, List.mem_append, h2', ht.packages]
    constructor
    · rintro (⟨h, h'⟩ | ⟨h, h'⟩)
      · exact ⟨h, .inl h'⟩
      · exact ⟨h', .inr h⟩
    · rintro ⟨h, h' | h'⟩
      · exact .inl ⟨h, h'⟩
      · exact .inr ⟨h', h⟩
  · rw [h3]
    show c ∈ R ∧ _ ↔ _
    refine and_congr_right fun hc => ?_
    constructor
    · rintro h ⟨h0, l, hl, hlc, hall⟩
      refine h l.package ((h2' _).2 ⟨⟨?_, l, hl, rfl⟩, hall⟩) ⟨h0, l, hl, hlc, rfl⟩
      exact (wf.cpuLine l hl (by rw [hlc]; exact h0)).2.2.2.2
    · rintro h p hp ⟨h0, l, hl, hlc, h5⟩
      refine h ⟨h0, l, hl, hlc, ?_⟩
      have h5 : l.package = p := h5
      dsimp only
      rw [h5]
      exact ((h2' p).1 hp).2
  · unfold getPackages'
    rw [hca]
    dsimp only
    rw [getCpus'_exclude i t [.package] (.inr (.inr rfl)), hR]
    dsimp only
    rw [h1]
    dsimp only
    by_cases hs : strict = true ∧ rem ≠ []
    · rw [if_pos hs, if_pos (by simp [hs.1, hs.2])]
    · rw [if_neg hs, if_neg]
      intro h
      simp only [Bool.and_eq_true, Bool.not_eq_true', List.isEmpty_eq_false_iff] at h
      exact hs h

theorem getIoDies_ok (i : Info) (p : Nat) (hp : PkgEx i p) :
    ∃ r, getIoDies i p = .ok r ∧ ∀ u, u ∈ r ↔ UnitEx i .die p u ∧ u ∈ i.ioDies p := by
  obtain ⟨us, h1, -, h3⟩ := (levelNums_outcome i .die (.inr rfl) p).1 hp
  unfold getIoDies
  rw [h1]
  refine ⟨_, rfl, fun u => ?_⟩
  rw [List.mem_filter, h3, List.contains_iff_mem]

theorem onlyIo_ok (i : Info) (l : List (Nat × List Nat)) (hl : ∀ pu ∈ l, PkgEx i pu.1) :
    ∃ b, onlyIo i l = .ok b ∧
      (b = true ↔ ∀ pu ∈ l, ∀ u ∈ pu.2, UnitEx i .die pu.1 u ∧ u ∈ i.ioDies pu.1) := by
  induction l with
  | nil => exact ⟨true, rfl, by simp⟩
  | cons a l ih =>
    obtain ⟨p, ds⟩ := a
    obtain ⟨b, h1, h2⟩ := ih (fun pu h => hl pu (List.mem_cons_of_mem _ h))
    obtain ⟨io, h3, h4⟩ := getIoDies_ok i p (hl _ List.mem_cons_self)
    unfold onlyIo
    rw [h3]
    dsimp only
    by_cases hall : ds.all (fun d => io.contains d) = true
    · rw [if_neg (by simpa using hall), h1]
      refine ⟨b, rfl, ?_⟩
      rw [h2]
      rw [List.all_eq_true] at hall
      constructor
      · intro h pu hpu u hu
        rcases List.mem_cons.1 hpu with rfl | hpu
        · have := hall u hu
          rw [List.contains_iff_mem, h4] at this
          exact this
        · exact h pu hpu u hu
      · intro h pu hpu
        exact h pu (List.mem_cons_of_mem _ hpu)
    · rw [if_pos (by simpa using hall)]
      refine ⟨false, rfl, ?_⟩
      refine ⟨fun h => (by cases h), fun h => absurd ?_ hall⟩
      rw [List.all_eq_true]
      intro u hu
      rw [List.contains_iff_mem, h4]
      exact h _ List.mem_cons_self u hu

theorem getDies_some (i : Info) (t : Tgt) (strict : Bool) (ca : Cache) (d : Dict Nat (List Nat))
    (h : ca.dies = some d) : getDies i t strict ca = (.ok d, ca) := by
  unfold getDies
  rw [h]

theorem getPackages_some (i : Info) (t : Tgt) (strict : Bool) (ca : Cache) (d : List Nat)
    (h : ca.packages = some d) : getPackages' i t strict ca = (.ok d, ca) := by
  unfold getPackages'
  rw [h]

/-- What `get_cpus()` reports when there are no CPUs. -/
def ioAnswer : Except Exn Bool → Except Exn (List Nat)
  | .error e => .error e
  | .ok false => .error .noTarget
  | .ok true => .error .noCPUTarget

theorem getCpus_eq (i : Info) (t : Tgt) (ca : Cache) (R : List Nat) (hR : getCpus' i t [] = .ok R)
    (hca : ca.cpus = none ∨ ca.cpus = some R) :
    getCpus i t ca =
      if R ≠ [] then (.ok R, { ca with cpus := some R })
      else if t.dies = [] then (.error .noTarget, { ca with cpus := some R })
      else (ioAnswer (onlyIoDies i t { ca with cpus := some R }).1,
        (onlyIoDies i t { ca with cpus := some R }).2) := by
  have e : ∀ x : Except Exn Bool × Cache, (match x with
      | (.error e, ca) => ((.error e, ca) : Except Exn (List Nat) × Cache)
      | (.ok false, ca) => (.error .noTarget, ca)
      | (.ok true, ca) => (.error .noCPUTarget, ca)) = (ioAnswer x.1, x.2) := by
    rintro ⟨x, y⟩
    cases x with
    | error e => rfl
    | ok b => cases b <;> rfl
  rw [← e]
  obtain ⟨cc, cd, cp⟩ := ca
  unfold getCpus
  dsimp only at hca ⊢
  rcases hca with rfl | rfl
  · simp only [hR]
    cases R with
    | nil =>
      by_cases h : t.dies = [] <;> simp [h] <;> rfl
    | cons c R => simp
  · cases R with
    | nil =>
      by_cases h : t.dies = [] <;> simp [h] <;> rfl
    | cons c R => simp

/-! ### The invariant of a history of calls -/

/-- The results of the calls on a new object. -/
structure Fresh (i : Info) (a : Args) (t : Tgt) (R : List Nat) (D : Dict Nat (List Nat)) (remD : List Nat)
    (P remP : List Nat) : Prop where
  hR : getCpus' i t [] = .ok R
  nodup : R.Nodup
  mem : (a.modSib ≠ [] → ModulesUnique i) → ∀ c, c ∈ R ↔ Selected i a c
  dies : ∀ p u, InDict D p u ↔ ((∃ c, CpuWith i (InUnit .die p u) c) ∧
    ∀ c, CpuWith i (InUnit .die p u) c → c ∈ R) ∨ Extra i t p u
  diesNodup : ∀ p us, D.get? p = some us → us.Nodup
  keysNodup : D.keys.Nodup
  keysEx : ∀ p ∈ D.keys, PkgEx i p
  memRemD : ∀ c, c ∈ remD ↔ c ∈ R ∧ ¬ CpuWith i (fun l =>
    ∀ c', CpuWith i (InUnit .die l.package l.die) c' → c' ∈ R) c
  getDies : ∀ strict ca, ca.dies = none → getDies i t strict ca =
    if strict = true ∧ remD ≠ [] then (.error .noTarget, ca) else (.ok D, { ca with dies := some D })
  pkgNodup : P.Nodup
  pkgs : ∀ p, p ∈ P ↔ PkgEx i p ∧ ((∀ c, CpuWith i (InPackage p) c → c ∈ R) ∨ PkgIn a p)
  memRemP : ∀ c, c ∈ remP ↔ c ∈ R ∧ ¬ CpuWith i (fun l =>
    ∀ c', CpuWith i (InPackage l.package) c' → c' ∈ R) c
  getPkgs : ∀ strict ca, ca.packages = none → getPackages' i t strict ca =
    if strict = true ∧ remP ≠ [] then (.error .noTarget, ca) else (.ok P, { ca with packages := some P })

/-- The cached results are those of the calls on a new object. -/
structure Cached (R : List Nat) (D : Dict Nat (List Nat)) (P : List Nat) (ca : Cache) : Prop where
  cpus : ca.cpus = none ∨ ca.cpus = some R
  dies : ca.dies = none ∨ ca.dies = some D
  pkgs : ca.packages = none ∨ ca.packages = some P

theorem keptCore_dedup (i : Info) (l : List Nat) (c : Nat) :
    KeptCore i (pyDedup l) c ↔ KeptCore i l c := by
  unfold KeptCore
  rw [show pyDedup l ≠ [] ↔ l ≠ [] from not_congr (by
    rw [List.eq_nil_iff_forall_not_mem, List.eq_nil_iff_forall_not_mem]; simp only [mem_pyDedup])]
  simp only [mem_pyDedup]

theorem keptMod_dedup (i : Info) (l : List Nat) (c : Nat) :
    KeptMod i (pyDedup l) c ↔ KeptMod i l c := by
  unfold KeptMod
  rw [show pyDedup l ≠ [] ↔ l ≠ [] from not_congr (by
    rw [List.eq_nil_iff_forall_not_mem, List.eq_nil_iff_forall_not_mem]; simp only [mem_pyDedup])]
  simp only [mem_pyDedup]

theorem fresh_of_init {i : Info} (wf : WF i) {a : Args} {t : Tgt} {ca : Cache}
    (h : init i a = .ok (t, ca)) :
    TgtOk i a t ∧ ∃ R D remD P remP, Fresh i a t R D remD P remP ∧ Cached R D P ca ∧ ca.dies = none ∧
      ca.packages = none := by
  have hV : Valid i a := by
    apply Classical.byContradiction
    intro hV
    rw [(init_outcome i wf a).2 hV] at h
    cases h
  obtain ⟨s, h1, hg, hd, hp⟩ := (init_outcome i wf a).1 hV
  rw [h] at h1
  cases h1
  dsimp only at hg hd hp
  obtain ⟨R, hR, hnd, -, hmem⟩ := getCpus'_ok i wf a t hg.ok [] (.inl rfl)
  obtain ⟨D, d1, d2, d3, d6, remD, d4, d5⟩ := getDies_fresh i wf a t hg.ok R hR
  obtain ⟨P, p1, p2, remP, p3, p4⟩ := getPackages_fresh i wf a t hg.ok R hR
  refine ⟨hg.ok, R, D, remD, P, remP, ⟨hR, hnd, fun hm c => ?_, d1, d2, d3, d6, d4, d5, p1, p2, p3, p4⟩,
    ⟨?_, .inl hd, .inl hp⟩, hd, hp⟩
  · rw [hmem]
    · rw [hg.coreSib, hg.modSib, keptCore_dedup, keptMod_dedup]
      exact Iff.rfl
    · intro h
      refine hm fun h' => h ?_
      rw [hg.modSib, h']
      rfl
  · cases hc : ca.cpus with
    | none => exact .inl rfl
    | some r =>
      have := hg.cache r hc
      rw [hR] at this
      cases this
      exact .inr rfl

variable {i : Info} {a : Args} {t : Tgt} {R : List Nat} {D : Dict Nat (List Nat)} {remD P remP : List Nat}

theorem Fresh.dies_cached (f : Fresh i a t R D remD P remP) {ca : Cache} (hc : Cached R D P ca)
    (strict : Bool) : Cached R D P (OpTarget.getDies i t strict ca).2 ∧
      ((OpTarget.getDies i t strict ca).2 = ca ∨
        (strict = true → remD = []) ∧ (OpTarget.getDies i t strict ca).2 = { ca with dies := some D }) := by
  rcases hc.dies with h | h
  · rw [f.getDies strict ca h]
    split
    · exact ⟨hc, .inl rfl⟩
    · refine ⟨⟨hc.cpus, .inr rfl, hc.pkgs⟩, .inr ⟨fun hs => ?_, rfl⟩⟩
      rename_i h'
      exact Classical.byContradiction fun h'' => h' ⟨hs, h''⟩
  · rw [getDies_some i t strict ca D h]
    exact ⟨hc, .inl rfl⟩

theorem Fresh.pkgs_cached (f : Fresh i a t R D remD P remP) {ca : Cache} (hc : Cached R D P ca)
    (strict : Bool) : Cached R D P (getPackages' i t strict ca).2 ∧
      ((getPackages' i t strict ca).2 = ca ∨
        (strict = true → remP = []) ∧ (getPackages' i t strict ca).2 = { ca with packages := some P }) := by
  rcases hc.pkgs with h | h
  · rw [f.getPkgs strict ca h]
    split
    · exact ⟨hc, .inl rfl⟩
    · refine ⟨⟨hc.cpus, hc.dies, .inr rfl⟩, .inr ⟨fun hs => ?_, rfl⟩⟩
      rename_i h'
      exact Classical.byContradiction fun h'' => h' ⟨hs, h''⟩
  · rw [getPackages_some i t strict ca P h]
    exact ⟨hc, .inl rfl⟩

/-- What a call may leave in the cache of dies: only a result of a call on a new object, and the result of
a strict call only if the strict call does not fail. -/
theorem Fresh.call_cached (f : Fresh i a t R D remD P remP) {ca : Cache} (hc : Cached R D P ca) (o : Call) :
    Cached R D P (call i t ca o) ∧
      ((call i t ca o).dies = ca.dies ∨ o = .dies false ∨ remD = []) ∧
      ((call i t ca o).packages = ca.packages ∨ o = .packages false ∨ remP = []) := by
  cases o with
  | cpus =>
    unfold call
    dsimp only
    rw [getCpus_eq i t ca R f.hR hc.cpus]
    have hc1 : Cached R D P { ca with cpus := some R } := ⟨.inr rfl, hc.dies, hc.pkgs⟩
    split
    · exact ⟨hc1, .inl rfl, .inl rfl⟩
    split
    · exact ⟨hc1, .inl rfl, .inl rfl⟩
    have key : Cached R D P (onlyIoDies i t { ca with cpus := some R }).2 ∧
        ((onlyIoDies i t { ca with cpus := some R }).2.dies = ca.dies ∨ remD = []) ∧
        (onlyIoDies i t { ca with cpus := some R }).2.packages = ca.packages := by
      have h := f.dies_cached hc1 true
      have e : (onlyIoDies i t { ca with cpus := some R }).2 =
          (OpTarget.getDies i t true { ca with cpus := some R }).2 := by
        unfold onlyIoDies
        cases hgd : OpTarget.getDies i t true { ca with cpus := some R } with
        | mk x y =>
          cases x with
          | error e => rfl
          | ok d => dsimp only; split <;> rfl
      rw [e]
      refine ⟨h.1, ?_⟩
      rcases h.2 with h | ⟨h, h'⟩
      · rw [h]; exact ⟨.inl rfl, rfl⟩
      · rw [h']; exact ⟨.inr (h rfl), rfl⟩
    obtain ⟨k1, k2, k3⟩ := key
    exact ⟨k1, k2.imp_right .inr, .inl k3⟩
  | dies strict =>
    obtain ⟨h1, h2⟩ := f.dies_cached hc strict
    refine ⟨h1, ?_⟩
    unfold call
    dsimp only
    rcases h2 with h | ⟨h, h'⟩
    · rw [h]; exact ⟨.inl rfl, .inl rfl⟩
    · rw [h']
      refine ⟨.inr ?_, .inl rfl⟩
      cases strict with
      | false => exact .inl rfl
      | true => exact .inr (h rfl)
  | packages strict =>
    obtain ⟨h1, h2⟩ := f.pkgs_cached hc strict
    refine ⟨h1, ?_⟩
    unfold call
    dsimp only
    rcases h2 with h | ⟨h, h'⟩
    · rw [h]; exact ⟨.inl rfl, .inl rfl⟩
    · rw [h']
      refine ⟨.inl rfl, .inr ?_⟩
      cases strict with
      | false => exact .inl rfl
      | true => exact .inr (h rfl)

theorem Fresh.calls_cached (f : Fresh i a t R D remD P remP) {ca : Cache} (hc : Cached R D P ca)
    (h : List Call) : Cached R D P (calls i t ca h) ∧
      ((calls i t ca h).dies = ca.dies ∨ .dies false ∈ h ∨ remD = []) ∧
      ((calls i t ca h).packages = ca.packages ∨ .packages false ∈ h ∨ remP = []) := by
  induction h generalizing ca with
  | nil => exact ⟨hc, .inl rfl, .inl rfl⟩
  | cons o h ih =>
    obtain ⟨k1, k2, k3⟩ := f.call_cached hc o
    obtain ⟨j1, j2, j3⟩ := ih k1
    refine ⟨j1, ?_, ?_⟩
    · show (calls i t (call i t ca o) h).dies = _ ∨ _
      rcases j2 with j2 | j2 | j2
      · rcases k2 with k2 | k2 | k2
        · exact .inl (j2.trans k2)
        · rw [k2]; exact .inr (.inl List.mem_cons_self)
        · exact .inr (.inr k2)
      · exact .inr (.inl (List.mem_cons_of_mem _ j2))
      · exact .inr (.inr j2)
    · show (calls i t (call i t ca o) h).packages = _ ∨ _
      rcases j3 with j2 | j2 | j2
      · rcases k3 with k2 | k2 | k2
        · exact .inl (j2.trans k2)
        · rw [k2]; exact .inr (.inl List.mem_cons_self)
        · exact .inr (.inr k2)
      · exact .inr (.inl (List.mem_cons_of_mem _ j2))
      · exact .inr (.inr j2)

end Verif.OpTarget
