import Verif.Lemmas.CPUInfo

/-!
C15 - C22: CPU topology queries.
-/

namespace Verif.CPUInfo

/-! ### Specification -/

/-- What identifies the unit of a scope a CPU belongs to. -/
def ident : Scope → TLine → List Nat
  | .global, _ => []
  | .lvl .CPU, t => [t.cpu]
  | .lvl .core, t => [t.package, t.core]
  | .lvl .module, t => [t.module]
  | .lvl .die, t => [t.package, t.die]
  | .lvl .node, t => [t.node]
  | .lvl .package, t => [t.package]

/-- `c` is a CPU with a topology line satisfying `P`. -/
def CpuWith (i : Info) (P : TLine → Prop) (c : Nat) : Prop :=
  c ≠ NA ∧ ∃ t ∈ i.topology, t.cpu = c ∧ P t

/-- CPUs `c` and `d` are in the same unit of the scope. -/
def SameUnit (i : Info) (s : Scope) (c d : Nat) : Prop :=
  ∃ tc ∈ i.topology, ∃ td ∈ i.topology, tc.cpu = c ∧ td.cpu = d ∧ c ≠ NA ∧ d ≠ NA ∧
    ident s tc = ident s td

/-! ### An example machine -/

/-- A check that implies `WF` for a concrete machine. -/
def check (topology : List TLine) (ioDies : Nat → List Nat) : Bool :=
  topology.all (fun t => if t.cpu = NA then
      decide (t.core = NA ∧ t.module = NA ∧ t.node = NA ∧ t.die ≠ NA ∧ t.package ≠ NA ∧
        t.die ∈ ioDies t.package)
    else decide (t.core ≠ NA ∧ t.module ≠ NA ∧ t.die ≠ NA ∧ t.node ≠ NA ∧ t.package ≠ NA ∧
        t.die ∉ ioDies t.package)) &&
  topology.all (fun t => topology.all (fun t' => decide (t.cpu = t'.cpu → t.cpu ≠ NA → t = t'))) &&
  decide (topology.Nodup)

/-- The CPU numbers of a table. -/
def cpuNums (topology : List TLine) : List Nat :=
  (topology.filter (fun t => !(t.cpu == NA))).map (·.cpu)

theorem wf_of_check {topology : List TLine} {ioDies : Nat → List Nat} {off : List Nat}
    (h : check topology ioDies = true) (hoff : NA ∉ off) :
    WF ⟨topology, cpuNums topology, cpuNums topology ++ off, ioDies⟩ := by
  unfold check at h
  simp only [Bool.and_eq_true, List.all_eq_true, decide_eq_true_eq] at h
  obtain ⟨⟨h1, h2⟩, h3⟩ := h
  have hon : ∀ c, c ∈ cpuNums topology ↔ c ≠ NA ∧ ∃ t ∈ topology, t.cpu = c := by
    intro c
    unfold cpuNums
    simp only [List.mem_map, List.mem_filter, Bool.not_eq_true', beq_eq_false_iff_ne]
    constructor
    · rintro ⟨t, ⟨ht, hn⟩, rfl⟩; exact ⟨hn, t, ht, rfl⟩
    · rintro ⟨hn, t, ht, rfl⟩; exact ⟨t, ⟨ht, hn⟩, rfl⟩
  constructor
  · intro t ht hn
    have := h1 t ht
    rw [if_neg hn, decide_eq_true_eq] at this
    exact ⟨this.1, this.2.1, this.2.2.1, this.2.2.2.1, this.2.2.2.2.1⟩
  · intro t ht hn
    have := h1 t ht
    rw [if_pos hn, decide_eq_true_eq] at this
    exact this
  · intro t ht t' ht'; exact h2 t ht t' ht'
  · exact h3
  · exact hon
  · intro c hc; exact List.mem_append_left _ hc
  · intro hc
    rcases List.mem_append.1 hc with hc | hc
    · exact ((hon NA).1 hc).1 rfl
    · exact hoff hc
  · intro t ht hn
    have := h1 t ht
    rw [if_neg hn, decide_eq_true_eq] at this
    exact this.2.2.2.2.2

/-- Two packages, two cores per package with package-relative numbers 0 and 5, two CPUs per core,
one I/O die (number 3) in package 0, CPU 9 offline. -/
def exInfo : Info :=
  let topology : List TLine := [
    ⟨0, 0, 0, 0, 0, 0⟩, ⟨1, 5, 1, 1, 0, 0⟩, ⟨2, 0, 2, 0, 1, 1⟩, ⟨3, 5, 3, 1, 1, 1⟩,
    ⟨4, 0, 0, 0, 0, 0⟩, ⟨5, 5, 1, 1, 0, 0⟩, ⟨6, 0, 2, 0, 1, 1⟩, ⟨7, 5, 3, 1, 1, 1⟩,
    ⟨NA, NA, NA, 3, NA, 0⟩]
  ⟨topology, cpuNums topology, cpuNums topology ++ [9], fun p => if p = 0 then [3] else []⟩

theorem exInfo_wf : WF exInfo := wf_of_check (by decide +kernel) (by decide +kernel)

/-! ### C15 -/

theorem getCpuLevels_ok {i : Info} (wf : WF i) {t : TLine} (ht : t ∈ i.topology) (hna : t.cpu ≠ NA) :
    getCpuLevels i t.cpu = .ok t := by
  unfold getCpuLevels
  cases h : (getTopology i .CPU).find? (fun a => a.cpu == t.cpu) with
  | none =>
    rw [List.find?_eq_none] at h
    have := h t (mem_getTopology.2 ht)
    simp at this
  | some a =>
    have h1 := List.find?_some h
    have h2 := List.mem_of_find?_eq_some h
    have : t = a := wf.unique t ht a (mem_getTopology.1 h2) (by simpa using h1 : a.cpu = t.cpu).symm hna
    rw [this]

/-- **C15.** For an online CPU and any scope, `get_cpu_siblings()` succeeds and returns, in
ascending order and without repetitions, exactly the CPUs having the same scope identity. -/
theorem C15_siblings_exact (i : Info) (wf : WF i) (c : Nat) (hc : c ∈ i.online) (s : Scope) :
    ∃ l, getCpuSiblings i c s = .ok l ∧ l.Pairwise (· < ·) ∧ ∀ d, d ∈ l ↔ SameUnit i s c d := by
  obtain ⟨hna, t, ht, rfl⟩ := (wf.online c).1 hc
  have hlev := getCpuLevels_ok wf ht hna
  have hl := wf.cpuLine t ht hna
  -- A level with globally unique numbers.
  have uniq : ∀ l : Level, t.get l ≠ NA → ∃ r, getLevelNums i .CPU l (.nums [t.get l]) .CPU = .ok r ∧
      r.Pairwise (· < ·) ∧ ∀ d, d ∈ r ↔ d ≠ NA ∧ ∃ td ∈ i.topology, td.cpu = d ∧ t.get l = td.get l := by
    intro l hn
    have hok : ∃ r, getLevelNums i .CPU l (.nums [t.get l]) .CPU = .ok r := by
      rw [getLevelNums_isOk]
      refine ⟨by simp [Level.idx], ?_⟩
      rintro l' hl' n hn'
      cases hl'
      rw [List.mem_singleton] at hn'
      subst hn'
      exact ⟨hn, t, ht, rfl⟩
    obtain ⟨r, hr⟩ := hok
    refine ⟨r, hr, sorted_cpus hr, fun d => ?_⟩
    rw [mem_getLevelNums hr]
    constructor
    · rintro ⟨hd, td, htd, a1, a2, a3⟩
      exact ⟨hd, td, htd, a3, (List.mem_singleton.1 a2).symm⟩
    · rintro ⟨hd, td, htd, a1, a2⟩
      exact ⟨hd, td, htd, by rw [← a2]; exact hn, by simp [Selects, a2], a1⟩
  -- A level with package-relative numbers.
  have rel : ∀ l : Level, t.get l ≠ NA →
      ∃ r, inPackageToCpus i l (.nums [t.get l]) (.nums [t.package]) = .ok r ∧
      r.Pairwise (· < ·) ∧ ∀ d, d ∈ r ↔ d ≠ NA ∧ ∃ td ∈ i.topology, td.cpu = d ∧
        t.package = td.package ∧ t.get l = td.get l := by
    intro l hn
    obtain ⟨r, hr⟩ := inPackageToCpus_isOk (lvl := l) t ht rfl rfl hn hl.2.2.2.2
    refine ⟨r, hr, sorted_inPackageToCpus hr, fun d => ?_⟩
    rw [mem_inPackageToCpus wf hr]
    constructor
    · rintro ⟨hd, td, htd, a1, a2, a3, a4⟩
      exact ⟨hd, td, htd, a1, (List.mem_singleton.1 a4).symm, (List.mem_singleton.1 a3).symm⟩
    · rintro ⟨hd, td, htd, a1, a2, a3⟩
      exact ⟨hd, td, htd, a1, by rw [← a3]; exact hn, by simp [Selects, a3], by simp [Selects, a2]⟩
  have pack : ∀ (f : TLine → List Nat) (d : Nat) (P : TLine → Prop),
      (∀ td, P td ↔ f t = f td) →
      ((d ≠ NA ∧ ∃ td ∈ i.topology, td.cpu = d ∧ P td) ↔
        ∃ tc ∈ i.topology, ∃ td ∈ i.topology, tc.cpu = t.cpu ∧ td.cpu = d ∧ t.cpu ≠ NA ∧ d ≠ NA ∧
          f tc = f td) := by
    intro f d P hP
    constructor
    · rintro ⟨hd, td, htd, a1, a2⟩
      exact ⟨t, ht, td, htd, rfl, a1, hna, hd, (hP td).1 a2⟩
    · rintro ⟨tc, htc, td, htd, e, a1, -, hd, hf⟩
      have : t = tc := wf.unique t ht tc htc e.symm hna
      subst this
      exact ⟨hd, td, htd, a1, (hP td).2 hf⟩
  cases s with
  | global =>
    refine ⟨_, rfl, ?_, ?_⟩
    · exact pairwise_le_nodup_lt (sortNat_sorted _) (sortNat_nodup (nodup_pyDedup _))
    · intro d
      rw [mem_sortNat, mem_pyDedup, wf.online, SameUnit, ← pack (ident .global) d (fun _ => True)
        (fun _ => by simp [ident])]
      simp
  | lvl l =>
    cases l with
    | CPU =>
      refine ⟨[t.cpu], ?_, by simp, ?_⟩
      · unfold getCpuSiblings normalizeCpus
        have : pyDedup [t.cpu] = [t.cpu] := rfl
        simp [this, hc]
      · intro d
        rw [SameUnit, ← pack (ident (.lvl .CPU)) d (fun td => t.cpu = td.cpu)
          (fun _ => by simp [ident]), List.mem_singleton]
        constructor
        · rintro rfl; exact ⟨hna, t, ht, rfl, rfl⟩
        · rintro ⟨-, td, -, a1, a2⟩; exact a1.symm.trans a2.symm
    | core =>
      obtain ⟨r, h1, h2, h3⟩ := rel .core hl.1
      refine ⟨r, ?_, h2, fun d => ?_⟩
      · unfold getCpuSiblings; rw [hlev]; exact h1
      · rw [h3, SameUnit]
        exact pack _ d _ (fun _ => by simp [ident, TLine.get])
    | module =>
      obtain ⟨r, h1, h2, h3⟩ := uniq .module hl.2.1
      refine ⟨r, ?_, h2, fun d => ?_⟩
      · unfold getCpuSiblings; rw [hlev]; exact h1
      · rw [h3, SameUnit]
        exact pack _ d _ (fun _ => by simp [ident, TLine.get])
    | die =>
      obtain ⟨r, h1, h2, h3⟩ := rel .die hl.2.2.1
      refine ⟨r, ?_, h2, fun d => ?_⟩
      · unfold getCpuSiblings; rw [hlev]; exact h1
      · rw [h3, SameUnit]
        exact pack _ d _ (fun _ => by simp [ident, TLine.get])
    | node =>
      obtain ⟨r, h1, h2, h3⟩ := uniq .node hl.2.2.2.1
      refine ⟨r, ?_, h2, fun d => ?_⟩
      · unfold getCpuSiblings; rw [hlev]; exact h1
      · rw [h3, SameUnit]
        exact pack _ d _ (fun _ => by simp [ident, TLine.get])
    | package =>
      obtain ⟨r, h1, h2, h3⟩ := uniq .package hl.2.2.2.2
      refine ⟨r, ?_, h2, fun d => ?_⟩
      · unfold getCpuSiblings; rw [hlev]; exact h1
      · rw [h3, SameUnit]
        exact pack _ d _ (fun _ => by simp [ident, TLine.get])

/-- **C15** (partition): being siblings is reflexive, symmetric and transitive on the online CPUs,
and all online CPUs are siblings in the global scope. -/
theorem C15_siblings_partition (i : Info) (wf : WF i) (s : Scope) (c d e : Nat) (lc ld : List Nat)
    (hc : c ∈ i.online) (hd : d ∈ i.online)
    (hlc : getCpuSiblings i c s = .ok lc) (hld : getCpuSiblings i d s = .ok ld) :
    c ∈ lc ∧ (d ∈ lc → c ∈ ld) ∧ (d ∈ lc → e ∈ ld → e ∈ lc) ∧ (∀ x ∈ lc, x ∈ i.online) ∧
      (d ∈ lc → lc = ld) ∧ (s = .global → d ∈ lc) := by
  obtain ⟨lc', h1, hs1, m1⟩ := C15_siblings_exact i wf c hc s
  obtain ⟨ld', h2, hs2, m2⟩ := C15_siblings_exact i wf d hd s
  rw [hlc] at h1; rw [hld] at h2
  cases h1; cases h2
  obtain ⟨hcn, tc, htc, hcc⟩ := (wf.online c).1 hc
  obtain ⟨hdn, td, htd, hdd⟩ := (wf.online d).1 hd
  have trans : ∀ x y z, SameUnit i s x y → SameUnit i s y z → SameUnit i s x z := by
    rintro x y z ⟨tx, htx, ty, hty, a1, a2, a3, a4, a5⟩ ⟨ty', hty', tz, htz, b1, b2, b3, b4, b5⟩
    have : ty = ty' := wf.unique ty hty ty' hty' (a2.trans b1.symm) (by rw [a2]; exact a4)
    subst this
    exact ⟨tx, htx, tz, htz, a1, b2, a3, b4, a5.trans b5⟩
  have symm : ∀ x y, SameUnit i s x y → SameUnit i s y x := by
    rintro x y ⟨tx, htx, ty, hty, a1, a2, a3, a4, a5⟩
    exact ⟨ty, hty, tx, htx, a2, a1, a4, a3, a5.symm⟩
  refine ⟨(m1 c).2 ⟨tc, htc, tc, htc, hcc, hcc, hcn, hcn, rfl⟩, ?_, ?_, ?_, ?_, ?_⟩
  · intro h; exact (m2 c).2 (symm _ _ ((m1 d).1 h))
  · intro h h'; exact (m1 e).2 (trans _ _ _ ((m1 d).1 h) ((m2 e).1 h'))
  · intro x hx
    obtain ⟨_, _, tx, htx, _, a2, _, a4, _⟩ := (m1 x).1 hx
    exact (wf.online x).2 ⟨a4, tx, htx, a2⟩
  · intro h
    have hcd := (m1 d).1 h
    have hset : ∀ x, x ∈ lc ↔ x ∈ ld := by
      intro x
      rw [m1, m2]
      exact ⟨fun hx => trans _ _ _ (symm _ _ hcd) hx, fun hx => trans _ _ _ hcd hx⟩
    have n1 : lc.Nodup := hs1.imp (fun h => Nat.ne_of_lt h)
    have n2 : ld.Nodup := hs2.imp (fun h => Nat.ne_of_lt h)
    have hp : lc.Perm ld := (List.perm_ext_iff_of_nodup n1 n2).2 hset
    refine hp.eq_of_pairwise (le := (· < ·)) (fun a b _ _ h1 h2 => by omega) hs1 hs2
  · rintro rfl
    exact (m1 d).2 ⟨tc, htc, td, htd, hcc, hdd, hcn, hdn, rfl⟩

/-- **C15** (refusal): an offline or unknown CPU has no siblings in any scope but "global". -/
theorem C15_siblings_offline (i : Info) (wf : WF i) (c : Nat) (hna : c ≠ NA) (hc : c ∉ i.online)
    (s : Scope) (hs : s ≠ .global) : getCpuSiblings i c s = .error .error := by
  have hlev : getCpuLevels i c = .error .error := by
    unfold getCpuLevels
    cases h : (getTopology i .CPU).find? (fun a => a.cpu == c) with
    | none => rfl
    | some a =>
      have h1 := List.find?_some h
      have h2 := List.mem_of_find?_eq_some h
      exact absurd ((wf.online c).2 ⟨hna, a, mem_getTopology.1 h2, by simpa using h1⟩) hc
  have hd : pyDedup [c] = [c] := rfl
  cases s with
  | global => exact absurd rfl hs
  | lvl l => cases l <;> simp [getCpuSiblings, hlev, normalizeCpus, hd, hc]

example : WF exInfo ∧ 5 ∈ exInfo.online ∧ getCpuSiblings exInfo 5 (.lvl .core) = .ok [1, 5] ∧
    getCpuSiblings exInfo 5 (.lvl .die) = .ok [1, 5] ∧
    getCpuSiblings exInfo 5 (.lvl .package) = .ok [0, 1, 4, 5] ∧
    9 ∉ exInfo.online ∧ 9 ≠ NA :=
  ⟨exInfo_wf, by decide +kernel, by decide +kernel, by decide +kernel, by decide +kernel,
    by decide +kernel, by decide +kernel⟩

/-! ### C16 - C18: dividing CPUs -/

/-- The CPUs of package `p`. -/
def InPackage (p : Nat) (t : TLine) : Prop := t.package = p

theorem packageToCpus_isOk {i : Info} {p : Nat} (hp : p ≠ NA) (h : ∃ t ∈ i.topology, t.package = p) :
    ∃ r, packageToCpus i p = .ok r := by
  unfold packageToCpus
  rw [getLevelNums_isOk]
  refine ⟨by simp [Level.idx], ?_⟩
  rintro l hl n hn
  cases hl
  rw [List.mem_singleton] at hn
  subst hn
  exact ⟨hp, h⟩

theorem mem_packageToCpus {i : Info} {p : Nat} (hp : p ≠ NA) {r : List Nat}
    (h : packageToCpus i p = .ok r) (c : Nat) : c ∈ r ↔ CpuWith i (InPackage p) c := by
  unfold packageToCpus at h
  rw [mem_getLevelNums h]
  constructor
  · rintro ⟨hc, t, ht, a1, a2, a3⟩
    exact ⟨hc, t, ht, a3, List.mem_singleton.1 a2⟩
  · rintro ⟨hc, t, ht, a1, a2⟩
    have : t.package = p := a2
    exact ⟨hc, t, ht, by simp only [TLine.get, this]; exact hp, by simp [Selects, TLine.get, this], a1⟩

theorem getPackages_ok (i : Info) : ∃ r, getPackages i = .ok r ∧ r.Nodup ∧
    ∀ p, p ∈ r ↔ p ≠ NA ∧ ∃ t ∈ i.topology, t.package = p := by
  have : ∃ r, getPackages i = .ok r := by
    unfold getPackages
    rw [getLevelNums_isOk]
    exact ⟨by simp, by rintro l ⟨⟩⟩
  obtain ⟨r, hr⟩ := this
  refine ⟨r, hr, nodup_getLevelNums hr, fun p => ?_⟩
  rw [mem_getLevelNums hr]
  constructor
  · rintro ⟨hp, t, ht, -, -, h⟩; exact ⟨hp, t, ht, h⟩
  · rintro ⟨hp, t, ht, h⟩
    exact ⟨hp, t, ht, by simp only [TLine.get, h]; exact hp, trivial, h⟩

/-- A package number selected by the `packages` argument. -/
def SelectedPkg (i : Info) (packages : Nums) (p : Nat) : Prop :=
  p ≠ NA ∧ (∃ t ∈ i.topology, t.package = p) ∧ Selects packages p

theorem normalizePackages_ok {i : Info} {packages : Nums} {r : List Nat}
    (h : normalizePackages i packages = .ok r) : r.Nodup ∧ ∀ p, p ∈ r ↔ SelectedPkg i packages p := by
  obtain ⟨a, ha, hn, hm⟩ := getPackages_ok i
  unfold normalizePackages at h
  rw [ha] at h
  dsimp only at h
  cases packages with
  | all =>
    cases h
    refine ⟨hn, fun p => ?_⟩
    rw [hm]; simp [SelectedPkg, Selects]
  | nums l =>
    dsimp only at h
    split at h
    · rename_i hall
      cases h
      refine ⟨nodup_pyDedup _, fun p => ?_⟩
      rw [List.all_eq_true] at hall
      rw [mem_pyDedup]
      constructor
      · intro hp
        have := hall p (mem_pyDedup.2 hp)
        rw [List.contains_iff_mem, hm] at this
        exact ⟨this.1, this.2, hp⟩
      · exact fun h => h.2.2
    · cases h

/-- **C16.** `cpus_div_packages()` succeeds whenever the CPUs are present and the packages exist. It
returns exactly the selected packages all of whose CPUs are requested, each once; the remaining
CPUs are exactly the requested CPUs outside of the returned packages, each once and in the order of
the (normalised) request. -/
theorem C16_cpus_div_packages (i : Info) (wf : WF i) (cpus packages : Nums)
    (hcpus : ∀ c, Requested i true cpus c → c ∈ i.present)
    (hpkgs : ∀ l, packages = .nums l → ∀ p ∈ l, p ≠ NA ∧ ∃ t ∈ i.topology, t.package = p) :
    ∃ pkgs rem norm, cpusDivPackages i cpus packages = .ok (pkgs, rem) ∧
      normalizeCpus i cpus true = .ok norm ∧
      pkgs.Nodup ∧ rem.Nodup ∧ rem.Sublist norm ∧
      (∀ p, p ∈ pkgs ↔ SelectedPkg i packages p ∧
        ∀ c, CpuWith i (InPackage p) c → Requested i true cpus c) ∧
      (∀ c, c ∈ rem ↔ Requested i true cpus c ∧ ∀ p ∈ pkgs, ¬ CpuWith i (InPackage p) c) := by
  have hnorm : ∃ norm, normalizeCpus i cpus true = .ok norm := by
    unfold normalizeCpus
    cases cpus with
    | all => exact ⟨_, rfl⟩
    | nums l =>
      dsimp only
      rw [if_pos]
      · exact ⟨_, rfl⟩
      · rw [List.all_eq_true]
        intro c hc
        rw [List.contains_iff_mem]
        exact hcpus c (mem_pyDedup.1 hc)
  obtain ⟨norm, hnorm⟩ := hnorm
  obtain ⟨hnd, hmem, -⟩ := normalizeCpus_ok hnorm
  have hnp : ∃ ps, normalizePackages i packages = .ok ps := by
    obtain ⟨a, ha, hn, hm⟩ := getPackages_ok i
    unfold normalizePackages
    rw [ha]
    cases packages with
    | all => exact ⟨_, rfl⟩
    | nums l =>
      dsimp only
      rw [if_pos]
      · exact ⟨_, rfl⟩
      · rw [List.all_eq_true]
        intro p hp
        rw [List.contains_iff_mem, hm]
        exact hpkgs l rfl p (mem_pyDedup.1 hp)
  obtain ⟨ps, hps⟩ := hnp
  obtain ⟨hpn, hpm⟩ := normalizePackages_ok hps
  have hf : ∃ f : Nat → List Nat, ∀ p ∈ ps, packageToCpus i p = .ok (f p) := by
    refine ⟨fun p => match packageToCpus i p with | .ok r => r | .error _ => [], ?_⟩
    intro p hp
    obtain ⟨hp1, hp2, -⟩ := (hpm p).1 hp
    obtain ⟨r, hr⟩ := packageToCpus_isOk hp1 hp2
    simp only [hr]
  obtain ⟨f, hf⟩ := hf
  have hfm : ∀ p ∈ ps, ∀ c, c ∈ f p ↔ CpuWith i (InPackage p) c := fun p hp c =>
    mem_packageToCpus ((hpm p).1 hp).1 (hf p hp) c
  have hdis : (ps.map (fun p => (p, f p))).Pairwise (fun a b => ∀ c ∈ a.2, c ∉ b.2) := by
    rw [List.pairwise_map]
    refine List.Pairwise.imp_of_mem ?_ hpn
    intro p q hp hq hne c hc1 hc2
    obtain ⟨hn, t, ht, e, e1⟩ := (hfm p hp c).1 hc1
    obtain ⟨-, t', ht', e', e2⟩ := (hfm q hq c).1 hc2
    have : t = t' := wf.unique t ht t' ht' (e.trans e'.symm) (by rw [e]; exact hn)
    subst this
    exact hne (e1.symm.trans e2)
  have hpk : ∀ p, p ∈ ((ps.map (fun p => (p, f p))).filter (covered norm)).map Prod.fst ↔
      SelectedPkg i packages p ∧ ∀ c, CpuWith i (InPackage p) c → Requested i true cpus c := by
    intro p
    rw [List.mem_map]
    constructor
    · rintro ⟨⟨q, l⟩, hq, rfl⟩
      rw [List.mem_filter, covered_iff, List.mem_map] at hq
      obtain ⟨⟨q', hq', e⟩, hcov⟩ := hq
      cases e
      refine ⟨(hpm _).1 hq', fun c hc => ?_⟩
      exact (hmem c).1 (hcov c ((hfm _ hq' c).2 hc))
    · rintro ⟨h1, h2⟩
      have hp := (hpm p).2 h1
      refine ⟨(p, f p), ?_, rfl⟩
      rw [List.mem_filter, covered_iff, List.mem_map]
      refine ⟨⟨p, hp, rfl⟩, fun c hc => ?_⟩
      exact (hmem c).2 (h2 c ((hfm p hp c).1 hc))
  refine ⟨((ps.map (fun p => (p, f p))).filter (covered norm)).map Prod.fst,
    norm.filter (fun c => (norm.filter (fun c => !((ps.map (fun p => (p, f p))).any
      (fun u => covered norm u && u.2.contains c)))).contains c), norm, ?_, hnorm,
    ?_, ?_, ?_, hpk, ?_⟩
  · unfold cpusDivPackages
    rw [hnorm]
    dsimp only
    rw [hps]
    dsimp only
    rw [divPackagesLoop_eq f ps hf, divAll_spec _ hdis]
    rfl
  · have hsub : (((ps.map (fun p => (p, f p))).filter (covered norm)).map Prod.fst).Sublist
        ((ps.map (fun p => (p, f p))).map Prod.fst) := (List.filter_sublist).map _
    refine List.Nodup.sublist hsub ?_
    rw [List.map_map]
    have : (Prod.fst ∘ fun p => (p, f p)) = (id : Nat → Nat) := rfl
    rw [this, List.map_id]
    exact hpn
  · exact hnd.sublist List.filter_sublist
  · exact List.filter_sublist
  · intro c
    rw [List.mem_filter, List.contains_iff_mem, List.mem_filter, hmem]
    simp only [Bool.not_eq_true', List.any_eq_false, Bool.and_eq_true, covered_iff]
    constructor
    · rintro ⟨hr, -, h⟩
      refine ⟨hr, fun p hp hc => ?_⟩
      obtain ⟨h1, h2⟩ := (hpk p).1 hp
      have hp' := (hpm p).2 h1
      refine h (p, f p) (List.mem_map.2 ⟨p, hp', rfl⟩) ⟨?_, ?_⟩
      · intro c hc; exact (hmem c).2 (h2 c ((hfm p hp' c).1 hc))
      · rw [List.contains_iff_mem]; exact (hfm p hp' c).2 hc
    · rintro ⟨hr, h⟩
      refine ⟨hr, hr, ?_⟩
      rintro ⟨q, l⟩ hq ⟨h1, h2⟩
      obtain ⟨q, hp, e⟩ := List.mem_map.1 hq
      cases e
      rw [List.contains_iff_mem] at h2
      refine h q ?_ ((hfm q hp c).1 h2)
      rw [hpk]
      exact ⟨(hpm q).1 hp, fun c hc => (hmem c).1 (h1 c ((hfm q hp c).2 hc))⟩

/-- **C16** (refusal): a CPU that is not present is refused. -/
theorem C16_cpus_div_packages_refuses (i : Info) (l : List Nat) (packages : Nums) (c : Nat)
    (hc : c ∈ l) (hp : c ∉ i.present) : cpusDivPackages i (.nums l) packages = .error .error := by
  have : normalizeCpus i (.nums l) true = .error .error := by
    unfold normalizeCpus
    dsimp only
    rw [if_neg]
    rw [List.all_eq_true]
    intro h
    have := h c (mem_pyDedup.2 hc)
    rw [List.contains_iff_mem] at this
    exact hp this
  unfold cpusDivPackages
  rw [this]

example : WF exInfo ∧ cpusDivPackages exInfo (.nums [4, 5, 3, 1, 0, 9]) .all = .ok ([0], [3, 9]) :=
  ⟨exInfo_wf, by decide +kernel⟩

/-- Unit `(p, u)` of level `lvl` (package-relative numbering). -/
def InUnit (lvl : Level) (p u : Nat) (t : TLine) : Prop := t.package = p ∧ t.get lvl = u

/-- The common part of C17 and C18. -/
theorem cpusDivUnits_exact (i : Info) (wf : WF i) (lvl : Level) (hlvl : lvl = .core ∨ lvl = .die)
    (cpus : Nums) (hcpus : ∀ c, Requested i true cpus c → c ∈ i.present) :
    ∃ units rem norm, cpusDivUnits i lvl cpus = .ok (units, rem) ∧
      normalizeCpus i cpus true = .ok norm ∧
      units.Nodup ∧ rem.Nodup ∧ rem.Sublist norm ∧
      (∀ p u, (p, u) ∈ units ↔ (∃ c, CpuWith i (InUnit lvl p u) c) ∧
        ∀ c, CpuWith i (InUnit lvl p u) c → Requested i true cpus c) ∧
      (∀ c, c ∈ rem ↔ Requested i true cpus c ∧
        ∀ pu ∈ units, ¬ CpuWith i (InUnit lvl pu.1 pu.2) c) := by
  have hnorm : ∃ norm, normalizeCpus i cpus true = .ok norm := by
    unfold normalizeCpus
    cases cpus with
    | all => exact ⟨_, rfl⟩
    | nums l =>
      dsimp only
      rw [if_pos]
      · exact ⟨_, rfl⟩
      · rw [List.all_eq_true]
        intro c hc
        rw [List.contains_iff_mem]
        exact hcpus c (mem_pyDedup.1 hc)
  obtain ⟨norm, hnorm⟩ := hnorm
  obtain ⟨hnd, hmem, -⟩ := normalizeCpus_ok hnorm
  obtain ⟨ps, hps, hpn, hpm⟩ := getPackages_ok i
  -- The units of each package.
  have hgok : ∀ p ∈ ps, ∃ r, getLevelNums i lvl .package (.nums [p]) lvl = .ok r := by
    intro p hp
    rw [getLevelNums_isOk]
    refine ⟨by rcases hlvl with rfl | rfl <;> simp [Level.idx], ?_⟩
    rintro l hl n hn
    cases hl
    rw [List.mem_singleton] at hn
    subst hn
    exact (hpm n).1 hp
  have hg : ∃ g : Nat → List Nat, ∀ p ∈ ps, getLevelNums i lvl .package (.nums [p]) lvl = .ok (g p) := by
    refine ⟨fun p => match getLevelNums i lvl .package (.nums [p]) lvl with
      | .ok r => r | .error _ => [], ?_⟩
    intro p hp
    obtain ⟨r, hr⟩ := hgok p hp
    simp only [hr]
  obtain ⟨g, hg⟩ := hg
  -- Non-I/O units are exactly those with CPUs.
  have hreal : ∀ p ∈ ps, ∀ u, u ∈ realUnits i lvl p (g p) ↔ ∃ c, CpuWith i (InUnit lvl p u) c := by
    intro p hp u
    have hpna := ((hpm p).1 hp).1
    unfold realUnits
    rw [List.mem_filter, mem_getLevelNums (hg p hp)]
    constructor
    · rintro ⟨⟨hu, t, ht, a1, a2, a3⟩, hio⟩
      have a2 : t.package = p := List.mem_singleton.1 a2
      by_cases hc : t.cpu = NA
      · exfalso
        have hl := wf.ioLine t ht hc
        rcases hlvl with rfl | rfl
        · exact hu (a3 ▸ hl.1)
        · have e : t.die = u := a3
          have := hl.2.2.2.2.2
          rw [a2, e] at this
          simp [this] at hio
      · exact ⟨t.cpu, hc, t, ht, rfl, a2, a3⟩
    · rintro ⟨c, hc, t, ht, rfl, a1, a2⟩
      have hl := wf.cpuLine t ht hc
      have hu : u ≠ NA := by
        rw [← a2]
        rcases hlvl with rfl | rfl
        · exact hl.1
        · exact hl.2.2.1
      refine ⟨⟨hu, t, ht, by simp only [TLine.get, a1]; exact hpna, by simp [Selects, TLine.get, a1], a2⟩, ?_⟩
      rcases hlvl with rfl | rfl
      · rfl
      · have e : t.die = u := a2
        have := wf.notIo t ht hc
        rw [a1, e] at this
        simp [this]
  have hf : ∃ f : Nat → Nat → List Nat, ∀ p ∈ ps, ∀ u ∈ realUnits i lvl p (g p),
      inPackageToCpus i lvl (.nums [u]) (.nums [p]) = .ok (f p u) := by
    refine ⟨fun p u => match inPackageToCpus i lvl (.nums [u]) (.nums [p]) with
      | .ok r => r | .error _ => [], ?_⟩
    intro p hp u hu
    obtain ⟨c, hc, t, ht, hcpu, h1, h2⟩ := (hreal p hp u).1 hu
    have hl := wf.cpuLine t ht (by rw [hcpu]; exact hc)
    have hu : u ≠ NA := by
      rw [← h2]
      rcases hlvl with rfl | rfl
      · exact hl.1
      · exact hl.2.2.1
    obtain ⟨r, hr⟩ := inPackageToCpus_isOk (lvl := lvl) t ht h2 h1 hu ((hpm p).1 hp).1
    simp only [hr]
  obtain ⟨f, hf⟩ := hf
  have hfm : ∀ p ∈ ps, ∀ u ∈ realUnits i lvl p (g p), ∀ c,
      c ∈ f p u ↔ CpuWith i (InUnit lvl p u) c := by
    intro p hp u hu c
    rw [mem_inPackageToCpus wf (hf p hp u hu)]
    constructor
    · rintro ⟨hc, t, ht, a1, a2, a3, a4⟩
      exact ⟨hc, t, ht, a1, List.mem_singleton.1 a4, List.mem_singleton.1 a3⟩
    · rintro ⟨hc, t, ht, a1, a2, a3⟩
      have hl := wf.cpuLine t ht (by rw [a1]; exact hc)
      refine ⟨hc, t, ht, a1, ?_, by simp [Selects, a3], by simp [Selects, a2]⟩
      rcases hlvl with rfl | rfl
      · exact hl.1
      · exact hl.2.2.1
  let us := ps.flatMap (fun p => (realUnits i lvl p (g p)).map (fun u => ((p, u), f p u)))
  have hus : ∀ x, x ∈ us ↔ x.1.1 ∈ ps ∧ x.1.2 ∈ realUnits i lvl x.1.1 (g x.1.1) ∧
      x.2 = f x.1.1 x.1.2 := by
    rintro ⟨⟨p, u⟩, l⟩
    simp only [us, List.mem_flatMap, List.mem_map]
    constructor
    · rintro ⟨q, hq, v, hv, e⟩
      cases e
      exact ⟨hq, hv, rfl⟩
    · rintro ⟨h1, h2, rfl⟩
      exact ⟨p, h1, u, h2, rfl⟩
  have husfst : (us.map Prod.fst).Nodup := by
    have : us.map Prod.fst = ps.flatMap (fun p => (realUnits i lvl p (g p)).map (fun u => (p, u))) := by
      simp only [us, List.map_flatMap, List.map_map]
      rfl
    rw [this]
    unfold List.Nodup
    rw [List.pairwise_flatMap]
    refine ⟨fun p hp => ?_, ?_⟩
    · rw [List.pairwise_map]
      have h1 : (realUnits i lvl p (g p)).Nodup :=
        (nodup_getLevelNums (hg p hp)).sublist List.filter_sublist
      exact h1.imp (fun h e => h (by simpa using e))
    · refine hpn.imp ?_
      intro p q hne x hx y hy e
      obtain ⟨u, -, rfl⟩ := List.mem_map.1 hx
      obtain ⟨v, -, rfl⟩ := List.mem_map.1 hy
      exact hne (by simpa using congrArg Prod.fst e)
  have hdis : us.Pairwise (fun a b => ∀ c ∈ a.2, c ∉ b.2) := by
    have h1 : us.Pairwise (fun a b => a.1 ≠ b.1) := List.pairwise_map.1 husfst
    refine List.Pairwise.imp_of_mem ?_ h1
    rintro ⟨⟨p, u⟩, la⟩ ⟨⟨q, v⟩, lb⟩ ha hb hne c hc1 hc2
    obtain ⟨a1, a2, a3⟩ := (hus _).1 ha
    obtain ⟨b1, b2, b3⟩ := (hus _).1 hb
    dsimp only at a1 a2 a3 b1 b2 b3 hc1 hc2
    subst a3; subst b3
    obtain ⟨hn, t, ht, e, e1, e2⟩ := (hfm p a1 u a2 c).1 hc1
    obtain ⟨-, t', ht', e', e3, e4⟩ := (hfm q b1 v b2 c).1 hc2
    have : t = t' := wf.unique t ht t' ht' (e.trans e'.symm) (by rw [e]; exact hn)
    subst this
    exact hne (by simp [← e1, ← e2, ← e3, ← e4])
  have hpk : ∀ p u, (p, u) ∈ (us.filter (covered norm)).map Prod.fst ↔
      (∃ c, CpuWith i (InUnit lvl p u) c) ∧
        ∀ c, CpuWith i (InUnit lvl p u) c → Requested i true cpus c := by
    intro p u
    rw [List.mem_map]
    constructor
    · rintro ⟨⟨q, l⟩, hq, rfl⟩
      rw [List.mem_filter, covered_iff, hus] at hq
      obtain ⟨⟨h1, h2, h3⟩, hcov⟩ := hq
      dsimp only at h1 h2 h3 hcov
      subst h3
      refine ⟨(hreal _ h1 _).1 h2, fun c hc => ?_⟩
      exact (hmem c).1 (hcov c ((hfm _ h1 _ h2 c).2 hc))
    · rintro ⟨h1, h2⟩
      have hp : p ∈ ps := by
        obtain ⟨c, hc, t, ht, rfl, e1, e2⟩ := h1
        rw [hpm, ← e1]
        exact ⟨(wf.cpuLine t ht hc).2.2.2.2, t, ht, rfl⟩
      have hu := (hreal p hp u).2 h1
      refine ⟨((p, u), f p u), ?_, rfl⟩
      rw [List.mem_filter, covered_iff, hus]
      refine ⟨⟨hp, hu, rfl⟩, fun c hc => ?_⟩
      exact (hmem c).2 (h2 c ((hfm p hp u hu c).1 hc))
  refine ⟨(us.filter (covered norm)).map Prod.fst,
    norm.filter (fun c => (norm.filter (fun c => !(us.any
      (fun u => covered norm u && u.2.contains c)))).contains c), norm, ?_, hnorm, ?_, ?_, ?_,
    hpk, ?_⟩
  · unfold cpusDivUnits
    rw [hnorm]
    dsimp only
    rw [hps]
    dsimp only
    rw [divPkgsLoop_eq g f ps hg hf, divAll_spec _ hdis]
    rfl
  · exact List.Nodup.sublist ((List.filter_sublist).map _) husfst
  · exact hnd.sublist List.filter_sublist
  · exact List.filter_sublist
  · intro c
    rw [List.mem_filter, List.contains_iff_mem, List.mem_filter, hmem]
    simp only [Bool.not_eq_true', List.any_eq_false, Bool.and_eq_true, covered_iff]
    constructor
    · rintro ⟨hr, -, h⟩
      refine ⟨hr, ?_⟩
      rintro ⟨p, u⟩ hp hc
      obtain ⟨x, hx, hxe⟩ := List.mem_map.1 hp
      rw [List.mem_filter, covered_iff] at hx
      refine h x hx.1 ⟨hx.2, ?_⟩
      obtain ⟨h1, h2, h3⟩ := (hus x).1 hx.1
      rw [List.contains_iff_mem, h3]
      rw [hfm _ h1 _ h2, hxe]
      exact hc
    · rintro ⟨hr, h⟩
      refine ⟨hr, hr, ?_⟩
      rintro x hx ⟨h1, h2⟩
      obtain ⟨a1, a2, a3⟩ := (hus x).1 hx
      rw [List.contains_iff_mem, a3, hfm _ a1 _ a2] at h2
      refine h x.1 ?_ h2
      exact List.mem_map.2 ⟨x, List.mem_filter.2 ⟨hx, covered_iff.2 h1⟩, rfl⟩

/-- **C17.** `cpus_div_dies()` returns exactly the `(package, die)` pairs with CPUs, all of whose CPUs
are requested (I/O dies are never returned), and the rest of the requested CPUs. -/
theorem C17_cpus_div_dies (i : Info) (wf : WF i) (cpus : Nums)
    (hcpus : ∀ c, Requested i true cpus c → c ∈ i.present) :
    ∃ dies rem norm, cpusDivDies i cpus = .ok (dies, rem) ∧
      normalizeCpus i cpus true = .ok norm ∧
      dies.Nodup ∧ rem.Nodup ∧ rem.Sublist norm ∧
      (∀ p d, (p, d) ∈ dies ↔ (∃ c, CpuWith i (InUnit .die p d) c) ∧
        ∀ c, CpuWith i (InUnit .die p d) c → Requested i true cpus c) ∧
      (∀ c, c ∈ rem ↔ Requested i true cpus c ∧
        ∀ pd ∈ dies, ¬ CpuWith i (InUnit .die pd.1 pd.2) c) :=
  cpusDivUnits_exact i wf .die (.inr rfl) cpus hcpus

/-- **C18.** `cpus_div_cores()` returns exactly the `(package, core)` pairs all of whose CPUs are
requested, and the rest of the requested CPUs. -/
theorem C18_cpus_div_cores (i : Info) (wf : WF i) (cpus : Nums)
    (hcpus : ∀ c, Requested i true cpus c → c ∈ i.present) :
    ∃ cores rem norm, cpusDivCores i cpus = .ok (cores, rem) ∧
      normalizeCpus i cpus true = .ok norm ∧
      cores.Nodup ∧ rem.Nodup ∧ rem.Sublist norm ∧
      (∀ p u, (p, u) ∈ cores ↔ (∃ c, CpuWith i (InUnit .core p u) c) ∧
        ∀ c, CpuWith i (InUnit .core p u) c → Requested i true cpus c) ∧
      (∀ c, c ∈ rem ↔ Requested i true cpus c ∧
        ∀ pu ∈ cores, ¬ CpuWith i (InUnit .core pu.1 pu.2) c) :=
  cpusDivUnits_exact i wf .core (.inl rfl) cpus hcpus

example : cpusDivDies exInfo (.nums [4, 3, 0, 9]) = .ok ([(0, 0)], [3, 9]) ∧
    cpusDivCores exInfo (.nums [7, 3, 6]) = .ok ([(1, 5)], [6]) ∧
    cpusDivDies exInfo .all = .ok ([(0, 0), (0, 1), (1, 0), (1, 1)], [9]) := by
  refine ⟨by decide +kernel, by decide +kernel, by decide +kernel⟩

/-! ### C19, C20: sibling indexes -/

/-- How many CPUs of the unit of `t` (unit number and package) have a smaller number. -/
def position (i : Info) (unit : TLine → List Nat) (t : TLine) : Nat :=
  (i.topology.filter (fun a => decide (unit a = unit t) && decide (a.cpu < t.cpu))).length

/-- The common part of C19 and C20. -/
theorem selectSiblings_exact (i : Info) (wf : WF i) (lvl : Level) (cpus : Nums) (indexes norm : List Nat)
    (hn : normalizeCpus i cpus true = .ok norm)
    (hlvl : lvl ≠ .CPU)
    (hC : ∀ a ∈ i.topology, ∀ b ∈ i.topology, ∀ c ∈ i.topology, c.get lvl ≠ NA →
      lexLe (sortKey lvl a) (sortKey lvl b) = true → lexLe (sortKey lvl b) (sortKey lvl c) = true →
      unitKey (·.get lvl) a = unitKey (·.get lvl) c → unitKey (·.get lvl) b = unitKey (·.get lvl) c)
    (hO : ∀ a ∈ i.topology, ∀ b ∈ i.topology, lexLe (sortKey lvl a) (sortKey lvl b) = true →
      unitKey (·.get lvl) a = unitKey (·.get lvl) b → a.cpu ≤ b.cpu) :
    ∃ r, selectSiblings i lvl cpus indexes = .ok r ∧ r.Sublist norm ∧ r.Nodup ∧
      ∀ c, c ∈ r ↔ Requested i true cpus c ∧
        CpuWith i (fun t => position i (fun a => [a.get lvl, a.package]) t ∈ indexes) c := by
  obtain ⟨hnd, hmem, hpres⟩ := normalizeCpus_ok hn
  unfold selectSiblings
  rw [hn]
  refine ⟨_, rfl, List.filter_sublist, hnd.sublist List.filter_sublist, fun c => ?_⟩
  rw [List.mem_filter, hmem]
  refine and_congr_right fun hreq => ?_
  have hcna : c ≠ NA := by
    rintro rfl
    have := hpres NA ((hmem NA).2 hreq)
    exact wf.presentNA (by simpa using this)
  by_cases hex : ∃ t ∈ i.topology, t.cpu = c
  · obtain ⟨t, ht, rfl⟩ := hex
    have hg : t.get lvl ≠ NA := by
      have := wf.cpuLine t ht hcna
      cases lvl <;> simp_all [TLine.get]
    rw [indexLoop_topology wf lvl hC hO t ht hcna hg]
    dsimp only
    rw [List.contains_iff_mem]
    have hpos : (i.topology.filter (fun a => decide (unitKey (·.get lvl) a = unitKey (·.get lvl) t) &&
        decide (a.cpu < t.cpu))).length = position i (fun a => [a.get lvl, a.package]) t := by
      unfold position unitKey
      congr 1
      refine List.filter_congr fun a _ => ?_
      simp
    rw [hpos]
    constructor
    · intro h; exact ⟨hcna, t, ht, rfl, h⟩
    · rintro ⟨-, t', ht', e, h⟩
      have : t = t' := wf.unique t ht t' ht' e.symm hcna
      subst this
      exact h
  · have : (indexLoop (·.get lvl) (getTopology i lvl) (none, 0) []).get? c = none := by
      rw [indexLoop_other]
      · rfl
      · intro t ht e
        exact hex ⟨t, mem_getTopology.1 ht, e⟩
    rw [this]
    constructor
    · intro h; simp at h
    · rintro ⟨-, t, ht, e, -⟩; exact absurd ⟨t, ht, e⟩ hex

/-- **C19.** `select_core_siblings()` returns exactly those requested online CPUs whose position among
the CPUs of their core (of their package), in increasing CPU number order, is in `indexes`; the order
of the (normalised) request is kept. -/
theorem C19_select_core_siblings (i : Info) (wf : WF i) (cpus : Nums) (indexes norm : List Nat)
    (hn : normalizeCpus i cpus true = .ok norm) :
    ∃ r, selectCoreSiblings i cpus indexes = .ok r ∧ r.Sublist norm ∧ r.Nodup ∧
      ∀ c, c ∈ r ↔ Requested i true cpus c ∧
        CpuWith i (fun t => position i (fun a => [a.core, a.package]) t ∈ indexes) c := by
  refine selectSiblings_exact i wf .core cpus indexes norm hn (by simp) ?_ ?_
  · intro a _ b _ c _ _ h1 h2 h3
    simp only [unitKey, TLine.get, Prod.mk.injEq, sortKey, lexLe_cons] at *
    omega
  · intro a _ b _ h1 h2
    simp only [unitKey, TLine.get, Prod.mk.injEq, sortKey, lexLe_cons] at *
    omega

example : selectCoreSiblings exInfo (.nums [5, 4, 2, 1, 9]) [1] = .ok [5, 4] ∧
    normalizeCpus exInfo (.nums [5, 4, 2, 1, 9]) true = .ok [5, 4, 2, 1, 9] :=
  ⟨by decide +kernel, by decide +kernel⟩

/-- The topology with package-relative module numbers the code falls back to when there is no cache
information ("module = core"): CPUs 0 and 2 are in module 0 of package 0, CPU 1 is in module 0 of
package 1. -/
def exNoCache : Info :=
  let topology : List TLine := [⟨0, 0, 0, 0, 0, 0⟩, ⟨1, 0, 0, 0, 1, 1⟩, ⟨2, 0, 0, 0, 0, 0⟩]
  ⟨topology, cpuNums topology, cpuNums topology ++ [], fun _ => []⟩

/-- **C20** is false of the code if module numbers are not globally unique: CPU 2 is the second CPU of
its module within its package (and the third one of module number 0), but it is selected with index
0 and not with index 1 or 2. -/
theorem C20_select_module_siblings_counterexample :
    WF exNoCache ∧ selectModuleSiblings exNoCache .all [0] = .ok [0, 1, 2] ∧
      selectModuleSiblings exNoCache .all [1, 2] = .ok [] ∧
      position exNoCache (fun a => [a.module, a.package]) ⟨2, 0, 0, 0, 0, 0⟩ = 1 ∧
      position exNoCache (fun a => [a.module]) ⟨2, 0, 0, 0, 0, 0⟩ = 2 :=
  ⟨wf_of_check (by decide +kernel) (by simp), by decide +kernel, by decide +kernel,
    by decide +kernel, by decide +kernel⟩

/-- **C20** (partial). Full property: the same as C19 for modules, for *all* topologies. Proved here:
for topologies where module numbers are globally unique (all CPUs of a module are in one package).
Missing (false of the code): module numbers shared between packages, see the counterexample. -/
theorem C20_select_module_siblings_partial (i : Info) (wf : WF i)
    (huniq : ∀ a ∈ i.topology, ∀ b ∈ i.topology, a.cpu ≠ NA → b.cpu ≠ NA → a.module = b.module →
      a.package = b.package)
    (cpus : Nums) (indexes norm : List Nat) (hn : normalizeCpus i cpus true = .ok norm) :
    ∃ r, selectModuleSiblings i cpus indexes = .ok r ∧ r.Sublist norm ∧ r.Nodup ∧
      ∀ c, c ∈ r ↔ Requested i true cpus c ∧
        CpuWith i (fun t => position i (fun a => [a.module]) t ∈ indexes) c := by
  have hcpu : ∀ a ∈ i.topology, a.module ≠ NA → a.cpu ≠ NA := by
    intro a ha hm hc
    exact hm (wf.ioLine a ha hc).2.1
  obtain ⟨r, h1, h2, h3, h4⟩ := selectSiblings_exact i wf .module cpus indexes norm hn (by simp)
    (by
      intro a ha b hb c hc hna h1 h2 h3
      simp only [unitKey, TLine.get, Prod.mk.injEq, sortKey, lexLe_cons] at *
      have hbm : b.module = c.module := by omega
      refine ⟨hbm, ?_⟩
      exact huniq b hb c hc (hcpu b hb (by rw [hbm]; exact hna)) (hcpu c hc hna) hbm)
    (by
      intro a _ b _ h1 h2
      simp only [unitKey, TLine.get, Prod.mk.injEq, sortKey, lexLe_cons] at *
      omega)
  refine ⟨r, h1, h2, h3, fun c => ?_⟩
  rw [h4]
  refine and_congr_right fun _ => ?_
  unfold CpuWith
  refine and_congr_right fun hc => ?_
  refine exists_congr fun t => and_congr_right fun ht => and_congr_right fun htc => ?_
  have hm := (wf.cpuLine t ht (by rw [htc]; exact hc)).2.1
  have : position i (fun a => [a.get .module, a.package]) t = position i (fun a => [a.module]) t := by
    unfold position
    congr 1
    refine List.filter_congr fun a ha => ?_
    have hcp := hcpu t ht hm
    rw [Bool.eq_iff_iff]
    simp only [TLine.get, List.cons.injEq, and_true, Bool.and_eq_true, decide_eq_true_eq]
    constructor
    · rintro ⟨⟨e, -⟩, h⟩; exact ⟨e, h⟩
    · rintro ⟨e, h⟩
      exact ⟨⟨e, huniq a ha t ht (hcpu a ha (by rw [e]; exact hm)) hcp e⟩, h⟩
  dsimp only
  rw [this]

example : ∀ a ∈ exInfo.topology, ∀ b ∈ exInfo.topology, a.cpu ≠ NA → b.cpu ≠ NA →
    a.module = b.module → a.package = b.package := by decide +kernel

example : selectModuleSiblings exInfo (.nums [7, 2, 3, 6]) [0] = .ok [2, 3] := by decide +kernel

/-! ### C21, C22 -/

/-- **C21.** `normalize_cpus()` either refuses the request because it has an unknown CPU, or returns
exactly the requested CPUs: each once, in order of first occurrence (ascending for "all"). -/
theorem C21_normalize_cpus (i : Info) (off : Bool) (cpus : Nums) :
    (∀ c, Requested i off cpus c → c ∈ (if off then i.present else i.online)) ∧
      (∃ r, normalizeCpus i cpus off = .ok r ∧ r.Nodup ∧ (∀ c, c ∈ r ↔ Requested i off cpus c) ∧
        (cpus = .all → r.Pairwise (· < ·)) ∧
        ∀ l, cpus = .nums l → r.Sublist l ∧ ∀ a b s, l = a ++ b :: s → b ∉ a →
          ∃ r1 r2, r = r1 ++ b :: r2 ∧ ∀ x, x ∈ r1 ↔ x ∈ a) ∨
    (∃ c, Requested i off cpus c ∧ c ∉ (if off then i.present else i.online)) ∧
      normalizeCpus i cpus off = .error .error := by
  have aux : ∀ (a : List Nat) (b : Nat) (s seen : List Nat), b ∉ a → b ∉ seen →
      ∃ r1 r2, dedupAux seen (a ++ b :: s) = r1 ++ b :: r2 ∧ ∀ x, x ∈ r1 ↔ x ∈ a ∧ x ∉ seen := by
    intro a
    induction a with
    | nil =>
      intro b s seen _ hb
      refine ⟨[], dedupAux (b :: seen) s, ?_, by simp⟩
      simp [dedupAux, hb]
    | cons y ys ih =>
      intro b s seen hba hb
      simp only [List.mem_cons, not_or] at hba
      by_cases hy : y ∈ seen
      · obtain ⟨r1, r2, h1, h2⟩ := ih b s seen hba.2 hb
        refine ⟨r1, r2, by simpa [dedupAux, hy] using h1, fun x => ?_⟩
        rw [h2, List.mem_cons]
        constructor
        · rintro ⟨p, q⟩; exact ⟨.inr p, q⟩
        · rintro ⟨rfl | p, q⟩
          · exact absurd hy q
          · exact ⟨p, q⟩
      · obtain ⟨r1, r2, h1, h2⟩ := ih b s (y :: seen) hba.2 (by simp [hba.1, hb])
        refine ⟨y :: r1, r2, by simpa [dedupAux, hy] using h1, fun x => ?_⟩
        rw [List.mem_cons, h2, List.mem_cons, List.mem_cons]
        constructor
        · rintro (rfl | ⟨p, q⟩)
          · exact ⟨.inl rfl, hy⟩
          · exact ⟨.inr p, fun h => q (.inr h)⟩
        · rintro ⟨p, q⟩
          by_cases e : x = y
          · exact .inl e
          · exact .inr ⟨p.resolve_left e, fun h => h.elim e q⟩
  by_cases hall : ∀ c, Requested i off cpus c → c ∈ (if off then i.present else i.online)
  · refine .inl ⟨hall, ?_⟩
    cases cpus with
    | all =>
      refine ⟨_, rfl, sortNat_nodup (nodup_pyDedup _), by simp [Requested], fun _ => ?_, ?_⟩
      · exact pairwise_le_nodup_lt (sortNat_sorted _) (sortNat_nodup (nodup_pyDedup _))
      · rintro l ⟨⟩
    | nums l =>
      refine ⟨pyDedup l, ?_, nodup_pyDedup _, by simp [Requested], by rintro ⟨⟩, ?_⟩
      · unfold normalizeCpus
        dsimp only
        rw [if_pos]
        rw [List.all_eq_true]
        intro c hc
        rw [List.contains_iff_mem]
        exact hall c (mem_pyDedup.1 hc)
      · rintro l' ⟨⟩
        refine ⟨pyDedup_sublist _, ?_⟩
        rintro a b s rfl hb
        obtain ⟨r1, r2, h1, h2⟩ := aux a b s [] hb (by simp)
        exact ⟨r1, r2, h1, fun x => by simpa using h2 x⟩
  · rw [Classical.not_forall] at hall
    obtain ⟨c, hc⟩ := hall
    rw [Classical.not_imp] at hc
    refine .inr ⟨⟨c, hc⟩, ?_⟩
    cases cpus with
    | all => exact absurd hc.1 hc.2
    | nums l =>
      unfold normalizeCpus
      dsimp only
      rw [if_neg]
      rw [List.all_eq_true]
      intro h
      have := h c (mem_pyDedup.2 hc.1)
      rw [List.contains_iff_mem] at this
      exact hc.2 this

example : normalizeCpus exInfo (.nums [5, 2, 5, 2]) false = .ok [5, 2] ∧
    normalizeCpus exInfo (.nums [5, 9]) false = .error .error ∧
    normalizeCpus exInfo (.nums [5, 9]) true = .ok [5, 9] := by decide +kernel

/-- **C22.** A level number query returns every number of level `sub` present on a line whose `lvl`
number is selected, each exactly once; unknown parent numbers are refused, as are reversed levels. -/
theorem C22_level_nums (i : Info) (sub lvl : Level) (nums : Nums) (order : Level) :
    (sub.idx ≤ lvl.idx ∧ (∀ l, nums = .nums l → ∀ n ∈ l, n ≠ NA ∧ ∃ t ∈ i.topology, t.get lvl = n) ∧
      ∃ r, getLevelNums i sub lvl nums order = .ok r ∧ r.Nodup ∧
        ∀ n, n ∈ r ↔ n ≠ NA ∧ ∃ t ∈ i.topology, t.get lvl ≠ NA ∧ Selects nums (t.get lvl) ∧
          t.get sub = n) ∨
    ((lvl.idx < sub.idx ∨ ∃ l n, nums = .nums l ∧ n ∈ l ∧ ¬ (n ≠ NA ∧ ∃ t ∈ i.topology, t.get lvl = n)) ∧
      getLevelNums i sub lvl nums order = .error .error) := by
  by_cases h : ∃ r, getLevelNums i sub lvl nums order = .ok r
  · refine .inl ?_
    have h' := getLevelNums_isOk.1 h
    obtain ⟨r, hr⟩ := h
    exact ⟨h'.1, h'.2, r, hr, nodup_getLevelNums hr, mem_getLevelNums hr⟩
  · refine .inr ⟨?_, getLevelNums_error h⟩
    rw [getLevelNums_isOk] at h
    by_cases h1 : sub.idx ≤ lvl.idx
    · refine .inr ?_
      apply Classical.byContradiction
      intro hc
      refine h ⟨h1, fun l hl n hn => ?_⟩
      apply Classical.byContradiction
      intro hbad
      exact hc ⟨l, n, hl, hn, hbad⟩
    · exact .inl (by omega)

/-- **C22** (order): in the default order the numbers come in strictly ascending order, for globally
numbered levels and also for package-relative levels of one package. -/
theorem C22_level_nums_ascending (i : Info) (sub lvl : Level) (nums : Nums) (r : List Nat)
    (h : getLevelNums i sub lvl nums sub = .ok r)
    (hs : (sub ≠ .core ∧ sub ≠ .die) ∨ (lvl = .package ∧ ∃ p, nums = .nums [p])) :
    r.Pairwise (· < ·) := by
  refine sorted_getLevelNums h ?_
  intro a _ b _ ha hb hab
  rcases hs with ⟨h1, h2⟩ | ⟨rfl, p, rfl⟩
  · cases sub <;> simp only [TLine.get, sortKey, lexLe_cons] at * <;> first | omega | contradiction
  · have e1 : a.package = p := List.mem_singleton.1 ha
    have e2 : b.package = p := List.mem_singleton.1 hb
    cases sub <;> simp only [TLine.get, sortKey, lexLe_cons] at * <;> omega

/-- **C22** (CPUs): `get_cpus()` returns exactly the online CPUs, each once, in any order. -/
theorem C22_get_cpus (i : Info) (wf : WF i) (order : Level) :
    ∃ r, getCpus i order = .ok r ∧ r.Nodup ∧ ∀ c, c ∈ r ↔ c ∈ i.online := by
  have gen : ∀ o, ∃ r, getLevelNums i .CPU .CPU .all o = .ok r ∧ r.Nodup ∧
      ∀ c, c ∈ r ↔ c ∈ i.online := by
    intro o
    have hok : ∃ r, getLevelNums i .CPU .CPU .all o = .ok r :=
      getLevelNums_isOk.2 ⟨by simp, by rintro l ⟨⟩⟩
    obtain ⟨r, hr⟩ := hok
    refine ⟨r, hr, nodup_getLevelNums hr, fun c => ?_⟩
    rw [mem_getLevelNums hr, wf.online]
    refine and_congr_right fun hc => exists_congr fun t => and_congr_right fun _ => ?_
    constructor
    · rintro ⟨-, -, e⟩; exact e
    · intro e
      have e : t.cpu = c := e
      exact ⟨by simp only [TLine.get, e]; exact hc, trivial, e⟩
  cases order with
  | CPU => exact ⟨_, rfl, sortNat_nodup (nodup_pyDedup _), by simp⟩
  | core => exact gen .core
  | module => exact gen .module
  | die => exact gen .die
  | node => exact gen .node
  | package => exact gen .package

example : getCpus exInfo .core = .ok [0, 4, 1, 5, 2, 6, 3, 7] ∧
    getLevelNums exInfo .core .package (.nums [1]) .core = .ok [0, 5] ∧
    getLevelNums exInfo .die .package (.nums [0]) .die = .ok [0, 1, 3] ∧
    getLevelNums exInfo .core .package (.nums [2]) .core = .error .error := by decide +kernel

end Verif.CPUInfo
