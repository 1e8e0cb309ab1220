import Verif.Props.Tpmi

/-!
C66 Restricting the iteration over a TPMI feature to devices, packages and instances.
-/

namespace Verif.Tpmi

theorem checkAll_ok {α : Type} (check : α → Except Exn Unit) (l : List α) :
    checkAll check l = .ok () ↔ ∀ x ∈ l, check x = .ok () := by
  induction l with
  | nil => simp [checkAll]
  | cons x l ih =>
    rw [checkAll, List.forall_mem_cons]
    cases h : check x with
    | error e => simp
    | ok u => simp [ih]

theorem checkAll_error {α : Type} {check : α → Except Exn Unit} {l : List α} {x : α} (hx : x ∈ l)
    (h : check x = .error .error) (hall : ∀ y ∈ l, check y = .ok () ∨ check y = .error .error) :
    checkAll check l = .error .error := by
  induction l with
  | nil => cases hx
  | cons y l ih =>
    rw [checkAll]
    rcases hall y List.mem_cons_self with h1 | h1
    · rw [h1]
      rcases List.mem_cons.1 hx with rfl | hx
      · rw [h] at h1; cases h1
      · exact ih hx fun z hz => hall z (List.mem_cons_of_mem _ hz)
    · rw [h1]

theorem validateAddrPkg_cases {E : Env} {f : PyStr} {fm : Dict PyStr Nat} (hf : E.fmaps.get? f = some fm)
    (a : Option PyStr) (p : Option Nat) :
    validateAddrPkg E f a p = .ok () ∨ validateAddrPkg E f a p = .error .error := by
  unfold validateAddrPkg
  cases a with
  | none =>
    cases p with
    | none => exact Or.inl rfl
    | some p =>
      dsimp only
      split
      · exact Or.inl rfl
      · exact Or.inr rfl
  | some a =>
    dsimp only
    rw [hf]
    dsimp only
    split
    · exact Or.inr rfl
    · split
      · exact Or.inl rfl
      · split
        · exact Or.inr rfl
        · exact Or.inl rfl

/-- What a request restricted to `as`, `ps` and `is` is about. -/
def Restricted (fm : Dict PyStr Nat) (as : List PyStr) (ps is : List Nat) (t : Triple) : Prop :=
  t.1 ∈ as ∧ t.2.1 ∈ ps ∧ t.2.2 ∈ is ∧ fm.get? t.1 = some t.2.1

/-- **C66 (partial).** In every execution, with explicit instances, the iteration yields exactly the triples of
the given devices which are in the given packages, each once if nothing was given twice. By default these are
all devices and all packages. Missing: when both devices and packages are given, every device has to be in every
package (see `C66_packages_counterexample`). -/
theorem C66_yields_partial (M : Machine) (hM : M.WF) (E : Env) (hE : E.Valid) (m : Mem) (hm : m.Words)
    (ops : List Op) (f : PyStr) (fm : Dict PyStr Nat) (hf : E.fmaps.get? f = some fm)
    (addrs : Option (List PyStr)) (packages : Option (List Nat)) (is : List Nat)
    (ha : ∀ as, addrs = some as → ∀ a ∈ as, ∃ p, fm.get? a = some p)
    (hp : ∀ ps, packages = some ps → ∀ p ∈ ps, p ∈ E.packages)
    (hap : ∀ as ps, addrs = some as → packages = some ps → ∀ a ∈ as, ∀ p ∈ ps, fm.get? a = some p)
    (hi : ∀ a ∈ addrs.getD fm.keys, ∀ p ∈ packages.getD E.packages, fm.get? a = some p →
      ∀ i ∈ is, i ∈ (M.lay (a, E.fid f)).map Inst.num) :
    let r := (iterFeature M.kernel E f addrs packages (some is) (run M.kernel E m ops)).2
    r.2 = none ∧
    (∀ t, t ∈ r.1 ↔ Restricted fm (addrs.getD fm.keys) (packages.getD E.packages) is t) ∧
    ((addrs.getD fm.keys).Nodup → (packages.getD E.packages).Nodup → is.Nodup → r.1.Nodup) := by
  have hinv := run_inv hM hE hm ops
  generalize run M.kernel E m ops = s at hinv ⊢
  have hv : validateAddrs E f addrs packages = .ok () := by
    unfold validateAddrs
    rw [checkAll_ok]
    rintro ⟨a, p⟩ hx
    obtain ⟨a', ha', hx⟩ := List.mem_flatMap.1 hx
    obtain ⟨p', hp', hx⟩ := List.mem_map.1 hx
    cases hx
    unfold validateAddrPkg
    cases addrs with
    | none =>
      have : a = none := List.mem_singleton.1 ha'
      subst this
      cases packages with
      | none =>
        have : p = none := List.mem_singleton.1 hp'
        subst this
        rfl
      | some ps =>
        obtain ⟨q, hq, rfl⟩ := List.mem_map.1 hp'
        exact if_pos (hp ps rfl q hq)
    | some as =>
      obtain ⟨b, hb, rfl⟩ := List.mem_map.1 ha'
      obtain ⟨q, hq⟩ := ha as rfl b hb
      dsimp only
      rw [hf]
      dsimp only
      rw [hq]
      cases packages with
      | none =>
        have : p = none := List.mem_singleton.1 hp'
        subst this
        rfl
      | some ps =>
        obtain ⟨q', hq', rfl⟩ := List.mem_map.1 hp'
        have := hap as ps rfl rfl b hb q' hq'
        rw [hq] at this
        cases this
        exact if_neg (by simp)
  unfold iterFeature
  rw [hv]
  dsimp only
  rw [hf]
  dsimp only
  generalize addrs.getD fm.keys = as at hi ⊢
  generalize packages.getD E.packages = ps at hi ⊢
  rw [iterLoop_filter, iterLoop_same hM f fm is _ _ hinv]
  · refine ⟨rfl, ?_, ?_⟩
    · rintro ⟨a, p, i⟩
      simp only [List.nil_append, List.mem_flatMap, List.mem_filter, List.mem_map, decide_eq_true_eq, Restricted]
      constructor
      · rintro ⟨⟨a', p'⟩, ⟨⟨a1, ha1, p1, hp1, e1⟩, h2⟩, i', hi', e2⟩
        cases e1
        cases e2
        exact ⟨ha1, hp1, hi', h2⟩
      · rintro ⟨h1, h2, h3, h4⟩
        exact ⟨(a, p), ⟨⟨a, h1, p, h2, rfl⟩, h4⟩, i, h3, rfl⟩
    · intro h1 h2 h3
      rw [List.nil_append]
      have hpairs : ((as.flatMap fun a => ps.map fun p => (a, p)).filter
          (fun x => decide (fm.get? x.1 = some x.2))).Nodup := by
        refine List.Nodup.sublist List.filter_sublist ?_
        clear hi hv hf
        induction as with
        | nil => exact List.nodup_nil
        | cons a as ih =>
          rw [List.nodup_cons] at h1
          rw [List.flatMap_cons, List.nodup_append]
          refine ⟨?_, ih h1.2, ?_⟩
          · rw [List.nodup_iff_pairwise_ne, List.pairwise_map]
            exact (List.nodup_iff_pairwise_ne.1 h2).imp fun h e => h (by cases e; rfl)
          · intro x hx y hy e
            subst e
            obtain ⟨p, -, rfl⟩ := List.mem_map.1 hx
            obtain ⟨b, hb, hx'⟩ := List.mem_flatMap.1 hy
            obtain ⟨q, -, e⟩ := List.mem_map.1 hx'
            cases e
            exact h1.1 hb
      generalize (as.flatMap fun a => ps.map fun p => (a, p)).filter _ = l at hpairs
      induction l with
      | nil => exact List.nodup_nil
      | cons x l ih =>
        rw [List.nodup_cons] at hpairs
        rw [List.flatMap_cons, List.nodup_append]
        refine ⟨?_, ih hpairs.2, ?_⟩
        · rw [List.nodup_iff_pairwise_ne, List.pairwise_map]
          exact (List.nodup_iff_pairwise_ne.1 h3).imp fun h e => h (by cases e; rfl)
        · intro t ht u hu e
          subst e
          obtain ⟨i, -, rfl⟩ := List.mem_map.1 ht
          obtain ⟨⟨b, q⟩, hy, hu⟩ := List.mem_flatMap.1 hu
          obtain ⟨j, -, e⟩ := List.mem_map.1 hu
          obtain ⟨a, p⟩ := x
          cases e
          exact hpairs.1 hy
  · intro x hx
    simpa using (List.mem_filter.1 hx).2
  · rintro ⟨a, p⟩ hx i h
    rw [List.mem_filter] at hx
    obtain ⟨a', ha', hx1⟩ := List.mem_flatMap.1 hx.1
    obtain ⟨p', hp', hx1⟩ := List.mem_map.1 hx1
    cases hx1
    exact hi a ha' p hp' (by simpa using hx.2) i h

/-- **C66.** A device the feature does not have is refused before anything is yielded or read. -/
theorem C66_unknown_device (M : Machine) (E : Env) (f : PyStr) (fm : Dict PyStr Nat)
    (hf : E.fmaps.get? f = some fm) (as : List PyStr) (packages : Option (List Nat)) (is : Option (List Nat))
    (s : St Mem) (a : PyStr) (ha : a ∈ as) (hn : a ∉ fm.keys) (hne : packages ≠ some []) :
    iterFeature M.kernel E f (some as) packages is s = (s, [], some .error) := by
  have hv : validateAddrs E f (some as) packages = .error .error := by
    have hpk : ∃ p, p ∈ orNone packages := by
      cases packages with
      | none => exact ⟨none, List.mem_singleton.2 rfl⟩
      | some ps =>
        obtain ⟨p, hp⟩ := List.exists_mem_of_ne_nil ps (fun h => hne (by rw [h]))
        exact ⟨some p, List.mem_map_of_mem hp⟩
    obtain ⟨p, hp⟩ := hpk
    unfold validateAddrs
    refine checkAll_error (x := (some a, p)) ?_ ?_ fun y _ => validateAddrPkg_cases hf y.1 y.2
    · exact List.mem_flatMap.2 ⟨some a, List.mem_map_of_mem ha, List.mem_map_of_mem hp⟩
    · unfold validateAddrPkg
      dsimp only
      rw [hf]
      dsimp only
      rw [(Dict.get?_eq_none_iff _ _).2 hn]
  unfold iterFeature
  rw [hv]

/-- **C66.** A package which is not the package of a given device is refused. -/
theorem C66_wrong_package (M : Machine) (E : Env) (f : PyStr) (fm : Dict PyStr Nat)
    (hf : E.fmaps.get? f = some fm) (as : List PyStr) (ps : List Nat) (is : Option (List Nat))
    (s : St Mem) (a : PyStr) (ha : a ∈ as) (p : Nat) (hp : p ∈ ps) (hn : fm.get? a ≠ some p) :
    iterFeature M.kernel E f (some as) (some ps) is s = (s, [], some .error) := by
  have hv : validateAddrs E f (some as) (some ps) = .error .error := by
    unfold validateAddrs
    refine checkAll_error (x := (some a, some p)) ?_ ?_ fun y _ => validateAddrPkg_cases hf y.1 y.2
    · exact List.mem_flatMap.2 ⟨some a, List.mem_map_of_mem ha, List.mem_map_of_mem (List.mem_map_of_mem hp)⟩
    · unfold validateAddrPkg
      dsimp only
      rw [hf]
      dsimp only
      cases hg : fm.get? a with
      | none => rfl
      | some q =>
        dsimp only
        exact if_pos fun h => hn (by rw [hg, h])
  unfold iterFeature
  rw [hv]

/-- **C66.** A package the system does not have is refused. -/
theorem C66_unknown_package (M : Machine) (E : Env) (f : PyStr) (fm : Dict PyStr Nat)
    (hf : E.fmaps.get? f = some fm) (ps : List Nat) (is : Option (List Nat)) (s : St Mem) (p : Nat) (hp : p ∈ ps)
    (hn : p ∉ E.packages) : iterFeature M.kernel E f none (some ps) is s = (s, [], some .error) := by
  have hv : validateAddrs E f none (some ps) = .error .error := by
    unfold validateAddrs
    refine checkAll_error (x := (none, some p)) ?_ (if_neg hn) fun y _ => validateAddrPkg_cases hf y.1 y.2
    exact List.mem_flatMap.2 ⟨none, List.mem_singleton.2 rfl, List.mem_map_of_mem (List.mem_map_of_mem hp)⟩
  unfold iterFeature
  rw [hv]

/-- **C66.** An instance a selected device does not have is an error. -/
theorem C66_unknown_instance (M : Machine) (hM : M.WF) (E : Env) (hE : E.Valid) (m : Mem) (hm : m.Words)
    (ops : List Op) (f : PyStr) (fm : Dict PyStr Nat) (hf : E.fmaps.get? f = some fm) (hpk : E.packages.Nodup)
    (is : List Nat) (a : PyStr) (p : Nat) (ha : fm.get? a = some p) (hp : p ∈ E.packages) (i : Nat) (hi : i ∈ is)
    (hn : i ∉ (M.lay (a, E.fid f)).map Inst.num) :
    ∃ e, (iterFeature M.kernel E f (some [a]) none (some is) (run M.kernel E m ops)).2 = ([], some e) := by
  have hinv := run_inv hM hE hm ops
  generalize run M.kernel E m ops = s at hinv ⊢
  have hv : validateAddrs E f (some [a]) none = .ok () := by
    unfold validateAddrs orNone
    simp only [List.map_cons, List.map_nil, List.flatMap_cons, List.flatMap_nil, List.append_nil, checkAll]
    unfold validateAddrPkg
    simp only [hf, ha]
  unfold iterFeature
  rw [hv]
  dsimp only
  rw [hf]
  dsimp only [Option.getD_none, Option.getD_some]
  rw [iterLoop_filter, filter_pairs hpk _ (by intro x hx; rw [List.mem_singleton] at hx; subst hx; exact ⟨p, ha, hp⟩)]
  simp only [List.map_cons, List.map_nil]
  rw [iterLoop_cons, ha, if_neg (by simp)]
  dsimp only
  obtain ⟨c, r, g1, g2, g3⟩ := validateInstances_spec hM f a is hinv
  cases r with
  | ok u => exact absurd (g3.1 rfl i hi) hn
  | error e =>
    rw [g1]
    exact ⟨e, rfl⟩

-- Devices in packages 0 and 1: one package, one device, a package without the device.
example : let it := fun as ps is =>
      (iterFeature (exMachine2 [0, 2] [0, 1]).kernel exEnv2 "uncore".toList as ps is ⟨fun _ _ _ => 0, []⟩).2
    it none (some [1]) (some [1]) = ([("b".toList, 1, 1)], none) ∧
    it (some ["b".toList]) (some [1]) (some [1, 0]) = ([("b".toList, 1, 1), ("b".toList, 1, 0)], none) ∧
    it (some ["b".toList]) (some [0]) none = ([], some .error) ∧
    it none (some [2]) none = ([], some .error) ∧
    it (some ["c".toList]) none none = ([], some .error) ∧
    it (some ["a".toList]) none (some [1]) = ([], some .error) :=
  ⟨by decide +kernel, by decide +kernel, by decide +kernel, by decide +kernel, by decide +kernel,
    by decide +kernel⟩

/-- Devices of different packages cannot be requested along with their packages, although each device is in one
of the packages. -/
theorem C66_packages_counterexample : (exMachine2 [0] [0]).WF ∧
    (∀ a ∈ ["a".toList, "b".toList], ∃ p ∈ [0, 1],
      Dict.get? [("a".toList, 0), ("b".toList, 1)] a = some p) ∧
    (iterFeature (exMachine2 [0] [0]).kernel exEnv2 "uncore".toList (some ["a".toList, "b".toList]) (some [0, 1])
      (some [0]) ⟨fun _ _ _ => 0, []⟩).2 = ([], some .error) :=
  ⟨exMachine2_wf _ _ (by decide) (by decide), by decide +kernel, by decide +kernel⟩

end Verif.Tpmi
