import Verif.Lemmas.PrinterText

/-!
C78: the texts `pepc` prints tell exactly which CPUs, packages or dies a value is for, and which numbers are in a list. The
specification is in `Verif.Props.PrinterTextSpec`.
-/

namespace Verif.PrinterText

open CPUInfo
open PropsYaml (rangifyN SName Where)

/-- C78 (CPUs): reading the text gives exactly the CPUs; the remark about packages names packages which have exactly these
CPUs together, and it is left out only for a single CPU, for all CPUs, and if the CPUs are not those of some packages. -/
theorem C78_cpus (i : Info) (wf : WF i) (cpus : List Nat) (hne : cpus ≠ []) (hon : ∀ c ∈ cpus, c ∈ i.online) :
    ∃ text l, fmtCpus i cpus = .ok text ∧ readCpus i.online text = some l ∧ (∀ c, c ∈ l ↔ c ∈ cpus) ∧
      (∀ ps, readRemark text = some ps → ps ≠ [] ∧ ∀ c, c ∈ cpus ↔ ∃ p ∈ ps, CpuWith i (InPackage p) c) ∧
      (readRemark text = none → cpus.length = 1 ∨ (∀ c, c ∈ cpus ↔ c ∈ i.online) ∨
        ¬ ∃ ps : List Nat, ∀ c, c ∈ cpus ↔ ∃ p ∈ ps, CpuWith i (InPackage p) c) := by
  obtain ⟨r, hr, hrp⟩ := ints_rangify cpus
  have hs := (numText_rangify cpus).no_space
  unfold fmtCpus
  by_cases h1 : cpus.length = 1
  · rw [if_pos h1]
    have hw := split2 (no_space_lits "CPU".toList (by decide +kernel)) hs
    refine ⟨_, r, rfl, ?_, fun c => hrp.mem_iff, ?_, fun _ => Or.inl h1⟩
    · unfold readCpus
      rw [hw]
      dsimp only
      rw [if_neg (fun h => absurd h.1 (by decide +kernel)), if_pos (Or.inl rfl)]
      exact hr
    · unfold readRemark
      rw [hw]
      intro ps h
      cases h
  rw [if_neg h1]
  obtain ⟨all, ha, _, ham⟩ := C22_get_cpus i wf .CPU
  rw [ha]
  dsimp only
  by_cases h2 : ∀ c, c ∈ cpus ↔ c ∈ i.online
  · rw [if_pos (sameSet_iff.2 fun c => (h2 c).trans (ham c).symm)]
    have hw := split2 (no_space_lits "all".toList (by decide +kernel)) (no_space_lits "CPUs".toList (by decide +kernel))
    refine ⟨_, i.online, rfl, ?_, fun c => (h2 c).symm, ?_, fun _ => Or.inr (Or.inl h2)⟩
    · unfold readCpus
      rw [hw]
      exact if_pos ⟨rfl, rfl⟩
    · unfold readRemark
      rw [hw]
      intro ps h
      cases h
  have h2' : sameSet cpus all = false := sameSet_false fun h => h2 fun c => (h c).trans (ham c)
  rw [h2', if_neg (by decide)]
  obtain ⟨pkgs, rem, norm, d1, _, _, _, _, d6, d7⟩ := C16_cpus_div_packages i wf (.nums cpus) .all
    (fun c hc => wf.present c (hon c hc)) (fun l hl => by cases hl)
  rw [d1]
  dsimp only
  by_cases h3 : (!pkgs.isEmpty && rem.isEmpty) = true
  · rw [if_pos h3]
    rw [Bool.and_eq_true, Bool.not_eq_true', List.isEmpty_iff] at h3
    obtain ⟨h3, rfl⟩ := h3
    obtain ⟨q, hq, hqp⟩ := ints_rangify pkgs
    have hqs := no_space_paren (numText_rangify pkgs).no_space
    have hpn : pkgs ≠ [] := by rintro rfl; cases h3
    have hun : ∀ c, c ∈ cpus ↔ ∃ p ∈ q, CpuWith i (InPackage p) c := by
      intro c
      constructor
      · intro hc
        refine Classical.byContradiction fun hcon => ?_
        have := (d7 c).2 ⟨hc, fun p hp hcp => hcon ⟨p, hqp.mem_iff.2 hp, hcp⟩⟩
        cases this
      · rintro ⟨p, hp, hcp⟩
        exact ((d6 p).1 (hqp.mem_iff.1 hp)).2 c hcp
    have key : ∀ w : PyStr, (w = "(package".toList ∨ w = "(packages".toList) → ' ' ∉ w →
        readCpus i.online (words ["CPUs".toList, rangifyN cpus, w, rangifyN pkgs ++ [')']]) = some r ∧
        readRemark (words ["CPUs".toList, rangifyN cpus, w, rangifyN pkgs ++ [')']]) = some q := by
      intro w hw hws
      have hsp := split4 (no_space_lits "CPUs".toList (by decide +kernel)) hs hws hqs
      unfold readCpus readRemark
      rw [hsp]
      dsimp only
      rw [if_pos ⟨rfl, hw⟩, if_pos (by simp), List.dropLast_concat]
      exact ⟨hr, hq⟩
    have fin : ∀ w : PyStr, (w = "(package".toList ∨ w = "(packages".toList) → ' ' ∉ w →
        ∃ text l, (Except.ok (words ["CPUs".toList, rangifyN cpus, w, rangifyN pkgs ++ [')']]) : Except Exn PyStr) = .ok text ∧
        readCpus i.online text = some l ∧ (∀ c, c ∈ l ↔ c ∈ cpus) ∧
        (∀ ps, readRemark text = some ps → ps ≠ [] ∧ ∀ c, c ∈ cpus ↔ ∃ p ∈ ps, CpuWith i (InPackage p) c) ∧
        (readRemark text = none → cpus.length = 1 ∨ (∀ c, c ∈ cpus ↔ c ∈ i.online) ∨
          ¬ ∃ ps : List Nat, ∀ c, c ∈ cpus ↔ ∃ p ∈ ps, CpuWith i (InPackage p) c) := by
      intro w hw hws
      obtain ⟨k1, k2⟩ := key w hw hws
      refine ⟨_, r, rfl, k1, fun c => hrp.mem_iff, ?_, ?_⟩
      · intro ps hps
        rw [k2] at hps
        cases hps
        refine ⟨?_, hun⟩
        rintro rfl
        exact hpn (List.Perm.nil_eq hqp).symm
      · intro h
        rw [k2] at h
        cases h
    split
    · exact fin _ (Or.inl rfl) (no_space_lits _ (by decide +kernel))
    · exact fin _ (Or.inr rfl) (no_space_lits _ (by decide +kernel))
  · rw [if_neg h3]
    have hw := split2 (no_space_lits "CPUs".toList (by decide +kernel)) hs
    refine ⟨_, r, rfl, ?_, fun c => hrp.mem_iff, ?_, fun _ => Or.inr (Or.inr ?_)⟩
    · unfold readCpus
      rw [hw]
      dsimp only
      rw [if_neg (fun h => absurd h.1 (by decide +kernel)), if_pos (Or.inr rfl)]
      exact hr
    · unfold readRemark
      rw [hw]
      intro ps h
      cases h
    · rintro ⟨ps, hps⟩
      have hin : ∀ c ∈ cpus, ∃ p ∈ pkgs, CpuWith i (InPackage p) c := by
        intro c hc
        obtain ⟨p, hp, hcp⟩ := (hps c).1 hc
        refine ⟨p, (d6 p).2 ⟨?_, fun c' hc' => (hps c').2 ⟨p, hp, hc'⟩⟩, hcp⟩
        obtain ⟨hna, t, ht, htc, htp⟩ := hcp
        have := (wf.cpuLine t ht (by rw [htc]; exact hna)).2.2.2.2
        have e : t.package = p := htp
        exact ⟨e ▸ this, ⟨t, ht, e⟩, trivial⟩
      apply h3
      obtain ⟨c, hc⟩ := List.exists_mem_of_ne_nil cpus hne
      obtain ⟨p, hp, _⟩ := hin c hc
      rw [Bool.and_eq_true, Bool.not_eq_true', List.isEmpty_iff]
      constructor
      · cases pkgs with
        | nil => cases hp
        | cons => rfl
      · rw [List.eq_nil_iff_forall_not_mem]
        intro c hc
        obtain ⟨h1, h2⟩ := (d7 c).1 hc
        obtain ⟨p, hp, hcp⟩ := hin c h1
        exact h2 p hp hcp

example : WF exInfo ∧ fmtCpus exInfo [5, 1, 0, 4] = .ok "CPUs 0,1,4,5 (package 0)".toList ∧
    fmtCpus exInfo [1, 2, 3] = .ok "CPUs 1-3".toList ∧ fmtCpus exInfo [6] = .ok "CPU 6".toList ∧
    fmtCpus exInfo [7, 6, 5, 4, 3, 2, 1, 0] = .ok "all CPUs".toList :=
  ⟨exInfo_wf, by decide +kernel, by decide +kernel, by decide +kernel, by decide +kernel⟩

/-- C78 (packages): reading the text gives exactly the packages. -/
theorem C78_packages (i : Info) (packages pkgs : List Nat) (hp : getPackages i = .ok packages) :
    ∃ text l, fmtPackages i pkgs = .ok text ∧ readPackages packages text = some l ∧ ∀ p, p ∈ l ↔ p ∈ pkgs := by
  obtain ⟨r, hr, hrp⟩ := ints_rangify pkgs
  have hs := (numText_rangify pkgs).no_space
  unfold fmtPackages
  rw [hp]
  dsimp only
  by_cases h1 : ∀ p, p ∈ pkgs ↔ p ∈ packages
  · rw [if_pos (sameSet_iff.2 h1)]
    split
    · rename_i hl
      refine ⟨_, packages, rfl, ?_, fun p => (h1 p).symm⟩
      unfold readPackages
      rw [split2 (no_space_lits "all".toList (by decide +kernel)) (no_space_lits "CPUs".toList (by decide +kernel))]
      exact if_pos ⟨rfl, Or.inr ⟨rfl, hl⟩⟩
    · refine ⟨_, packages, rfl, ?_, fun p => (h1 p).symm⟩
      unfold readPackages
      rw [split2 (no_space_lits "all".toList (by decide +kernel)) (no_space_lits "packages".toList (by decide +kernel))]
      exact if_pos ⟨rfl, Or.inl rfl⟩
  · rw [sameSet_false h1, if_neg (by decide)]
    have hnall : ∀ P : Prop, ¬ ("package".toList = "all".toList ∧ P) ∧ ¬ ("packages".toList = "all".toList ∧ P) :=
      fun P => ⟨fun h => absurd h.1 (by decide +kernel), fun h => absurd h.1 (by decide +kernel)⟩
    split
    · refine ⟨_, r, rfl, ?_, fun p => hrp.mem_iff⟩
      unfold readPackages
      rw [split2 (no_space_lits "package".toList (by decide +kernel)) hs]
      dsimp only
      rw [if_neg (hnall _).1, if_pos (Or.inl rfl)]
      exact hr
    · refine ⟨_, r, rfl, ?_, fun p => hrp.mem_iff⟩
      unfold readPackages
      rw [split2 (no_space_lits "packages".toList (by decide +kernel)) hs]
      dsimp only
      rw [if_neg (hnall _).2, if_pos (Or.inr rfl)]
      exact hr

example : getPackages exInfo = .ok [0, 1] ∧ fmtPackages exInfo [1] = .ok "package 1".toList ∧
    fmtPackages exInfo [1, 0] = .ok "all packages".toList :=
  ⟨by decide +kernel, by decide +kernel, by decide +kernel⟩

/-- C78 (dies): reading the text gives exactly the dies and their packages. -/
theorem C78_dies (i : Info) (packages : List Nat) (hp : getPackages i = .ok packages) (dies : Nat → List Nat)
    (hd : ∀ p ∈ packages, packageToDies i p = .ok (dies p)) (d : Dict Nat (List Nat)) (hne : d ≠ []) (hk : d.keys.Nodup)
    (hds : ∀ x ∈ d, x.1 ∈ packages ∧ x.2.Nodup ∧ ∀ n ∈ x.2, n ∈ dies x.1) :
    ∃ text l, fmtDies i d = .ok text ∧ readDies packages dies text = some l ∧
      ∀ p n, (p, n) ∈ l ↔ ∃ ds, d.get? p = some ds ∧ n ∈ ds := by
  have hpk : ∀ p ∈ packages, p ≠ NA ∧ ∃ t ∈ i.topology, t.package = p := by
    obtain ⟨r, h1, _, h2⟩ := getPackages_ok i
    rw [hp] at h1
    cases h1
    exact fun p => (h2 p).1
  have hget : ∀ p ds, (p, ds) ∈ d ↔ d.get? p = some ds := fun p ds =>
    ⟨fun h => Dict.get?_of_mem hk h, fun h => Dict.mem_of_get? h⟩
  obtain ⟨all, ha, hat⟩ := allDies_spec hpk hd d (fun x hx => (hds x hx).1) true
  unfold fmtDies
  rw [ha]
  dsimp only
  rw [hp]
  dsimp only
  by_cases hc : (all && d.length == packages.length) = true
  · rw [if_pos hc]
    rw [Bool.and_eq_true, beq_iff_eq] at hc
    obtain ⟨_, hat⟩ := hat.1 hc.1
    have hsame := same_of_length (a := d.keys) (b := packages) hk
      (fun p hp => by obtain ⟨x, hx, rfl⟩ := List.mem_map.1 hp; exact (hds x hx).1)
      (by rw [← hc.2]; exact List.length_map ..)
    have hmem : ∀ p n, (p, n) ∈ (packages.flatMap fun p => (dies p).map (p, ·)) ↔ ∃ ds, d.get? p = some ds ∧ n ∈ ds := by
      intro p n
      simp only [List.mem_flatMap, List.mem_map, Prod.mk.injEq]
      constructor
      · rintro ⟨p', hp', m, hm, rfl, rfl⟩
        obtain ⟨⟨_, ds⟩, hx, rfl⟩ := List.mem_map.1 ((hsame p').2 hp')
        exact ⟨ds, (hget _ _).1 hx, (same_of_length (hds _ hx).2.1 (hds _ hx).2.2 (hat _ hx) _).2 hm⟩
      · rintro ⟨ds, h, hn⟩
        have hx := (hget _ _).2 h
        exact ⟨p, (hds _ hx).1, n, (hds _ hx).2.2 n hn, rfl, rfl⟩
    split
    · rename_i hl
      refine ⟨_, _, rfl, ?_, hmem⟩
      unfold readDies
      rw [split2 (no_space_lits "all".toList (by decide +kernel)) (no_space_lits "CPUs".toList (by decide +kernel))]
      exact if_pos ⟨rfl, Or.inr ⟨rfl, hl⟩⟩
    · refine ⟨_, _, rfl, ?_, hmem⟩
      unfold readDies
      rw [split_words (by simp) (by
        intro w hw
        refine no_space_lits w ?_
        revert w
        decide +kernel)]
      exact if_pos rfl
  · rw [if_neg hc]
    obtain ⟨items, ws, l, e1, e2, e3, ⟨a, b, c, e4⟩, e5, _, e7, e8⟩ := dieItems_spec hpk hd d hds hne
    rw [e1]
    refine ⟨_, l, rfl, ?_, fun p n => (e8 p n).trans (exists_congr fun ds => and_congr_left fun _ => hget p ds)⟩
    rw [e2]
    unfold readDies
    rw [split_words (by rw [e4]; simp) e3]
    subst e4
    dsimp only
    rw [if_neg]
    · exact e7
    · intro h
      have h4 : "package".toList = "all".toList := by
        injection h with _ h; injection h with _ h; injection h with _ h; injection h
      exact absurd h4 (by decide +kernel)

/-- The dies of the example system: package 0 has dies 0 and 1 and the I/O die 3. -/
def exDies (p : Nat) : List Nat := if p = 0 then [0, 1, 3] else [0, 1]

example : getPackages exInfo = .ok [0, 1] ∧ (∀ p ∈ [0, 1], packageToDies exInfo p = .ok (exDies p)) ∧
    fmtDies exInfo [(0, [3]), (1, [0, 1])] = .ok "die 3 in package 0, all dies in package 1".toList ∧
    fmtDies exInfo [(0, [1, 0])] = .ok "dies 0,1 in package 0".toList ∧
    fmtDies exInfo [(1, [1, 0]), (0, [0, 3, 1])] = .ok "all dies in all packages".toList :=
  ⟨by decide +kernel, by decide +kernel, by decide +kernel, by decide +kernel, by decide +kernel⟩

/-- C78 (die scope): with one die per package the text names only the packages. Missing: systems where package 0 has one die
and other packages have more, see `C78_one_die_counterexample`, and systems without package 0. -/
theorem C78_die_scope_partial (i : Info) (packages : List Nat) (hp : getPackages i = .ok packages) (dies : Nat → List Nat)
    (hd : ∀ p ∈ packages, packageToDies i p = .ok (dies p)) (d : Dict Nat (List Nat)) (hne : d ≠ []) (hk : d.keys.Nodup)
    (hds : ∀ x ∈ d, x.1 ∈ packages ∧ x.2 ≠ [] ∧ x.2.Nodup ∧ ∀ n ∈ x.2, n ∈ dies x.1) (h0 : 0 ∈ packages)
    (hsym : (dies 0).length = 1 → ∀ p ∈ packages, (dies p).length = 1) :
    ∃ text l, fmtNums i .die (.dies d) = .ok text ∧ readDies packages dies text = some l ∧
      ∀ p n, (p, n) ∈ l ↔ ∃ ds, d.get? p = some ds ∧ n ∈ ds := by
  have hpk : ∀ p ∈ packages, p ≠ NA ∧ ∃ t ∈ i.topology, t.package = p := by
    obtain ⟨r, h1, _, h2⟩ := getPackages_ok i
    rw [hp] at h1
    cases h1
    exact fun p => (h2 p).1
  obtain ⟨r, hr, hcnt, _⟩ := diesCount_ok (hpk 0 h0)
  rw [hd 0 h0] at hr
  cases hr
  unfold fmtNums
  dsimp only
  rw [hcnt]
  dsimp only
  by_cases h1 : (dies 0).length = 1
  · rw [if_pos h1]
    have hone : ∀ x ∈ d, ∀ n, n ∈ x.2 ↔ n ∈ dies x.1 := by
      intro x hx
      obtain ⟨a1, a2, a3, a4⟩ := hds x hx
      refine same_of_length a3 a4 ?_
      have h5 := length_le_of_subset a3 a4
      rw [hsym h1 _ a1] at h5 ⊢
      have : 0 < x.2.length := List.length_pos_iff.2 a2
      omega
    obtain ⟨text, l, t1, t2, t3⟩ := C78_packages i packages d.keys hp
    refine ⟨text, l.flatMap fun p => (dies p).map (p, ·), t1, ?_, ?_⟩
    · unfold readPackages at t2
      unfold readDies
      split at t2
      · rename_i a b hab
        dsimp only
        split at t2
        · rename_i hc
          rw [if_pos hc]
          cases t2
          rfl
        · rename_i hc
          rw [if_neg hc]
          split at t2
          · rename_i hc2
            rw [if_pos hc2, t2]
            rfl
          · cases t2
      · cases t2
    · intro p n
      simp only [List.mem_flatMap, List.mem_map, Prod.mk.injEq]
      constructor
      · rintro ⟨p', hp', m, hm, rfl, rfl⟩
        obtain ⟨⟨_, ds⟩, hx, rfl⟩ := List.mem_map.1 ((t3 p').1 hp')
        exact ⟨ds, Dict.get?_of_mem hk hx, (hone _ hx _).2 hm⟩
      · rintro ⟨ds, h, hn⟩
        have hx := Dict.mem_of_get? h
        exact ⟨p, (t3 p).2 (List.mem_map.2 ⟨_, hx, rfl⟩), n, (hone _ hx n).1 hn, rfl, rfl⟩
  · rw [if_neg h1]
    exact C78_dies i packages hp dies hd d hne hk fun x hx => ⟨(hds x hx).1, (hds x hx).2.2⟩

/-- One die in package 0, two dies in package 1. -/
def exAsym : Info :=
  let topology : List TLine := [⟨0, 0, 0, 0, 0, 0⟩, ⟨1, 0, 1, 0, 1, 1⟩, ⟨2, 1, 2, 1, 1, 1⟩]
  ⟨topology, [0, 1, 2], [0, 1, 2], fun _ => []⟩

/-- One die in each package. -/
def exOne : Info :=
  let topology : List TLine := [⟨0, 0, 0, 0, 0, 0⟩, ⟨1, 0, 1, 0, 1, 1⟩, ⟨2, 1, 2, 0, 1, 1⟩]
  ⟨topology, [0, 1, 2], [0, 1, 2], fun _ => []⟩

example : getPackages exOne = .ok [0, 1] ∧ (∀ p ∈ [0, 1], packageToDies exOne p = .ok [0]) ∧
    fmtNums exOne .die (.dies [(1, [0])]) = .ok "package 1".toList ∧
    fmtNums exInfo .die (.dies [(1, [0])]) = .ok "die 0 in package 1".toList :=
  ⟨by decide +kernel, by decide +kernel, by decide +kernel, by decide +kernel⟩

/-- C78 is false if package 0 has one die and package 1 has more: the texts for die 0 of package 1 and for both its dies
are the same. -/
theorem C78_one_die_counterexample :
    WF exAsym ∧ packageToDies exAsym 1 = .ok [0, 1] ∧
    fmtNums exAsym .die (.dies [(1, [0])]) = .ok "package 1".toList ∧
    fmtNums exAsym .die (.dies [(1, [0, 1])]) = .ok "package 1".toList :=
  ⟨wf_of_check (by decide +kernel) (by decide +kernel), by decide +kernel, by decide +kernel, by decide +kernel⟩

/-! ### Lists -/

/-- C78 (lists): reading the text gives exactly the numbers of the list, in their order. `fmt` formats one number and `rd`
reads it back: this is required for the numbers in the list and their differences. The empty list is printed as "()". -/
theorem C78_list (fmt : Int → PyStr) (rd : PyStr → Option Int) (val : List Int) (hne : val ≠ [])
    (hf : ∀ v, (v ∈ val ∨ ∃ a ∈ val, ∃ b ∈ val, v = b - a) → rd (fmt v) = some v ∧ ' ' ∉ fmt v ∧ ',' ∉ fmt v)
    (hd : rd ['-'] = none) : readList rd (fmtList fmt val) = some val := by
  have hin : ∀ v ∈ val, rd (fmt v) = some v ∧ ' ' ∉ fmt v ∧ ',' ∉ fmt v := fun v h => hf v (Or.inl h)
  have hplain := read_plain fmt rd val hne hin hd
  have lw := no_space_lits "with".toList (by decide +kernel)
  have ls := no_space_lits "step".toList (by decide +kernel)
  have ld := no_space_lits "-".toList (by decide +kernel)
  have hdash : ∀ (x : PyStr) (r : List PyStr), (x :: "-".toList :: r)[1]? = some ['-'] := fun _ _ => rfl
  unfold fmtList
  dsimp only
  by_cases h1 : val.length = 1
  · rw [if_pos h1]
    match val, h1 with
    | [a], _ => exact hplain
  rw [if_neg h1]
  by_cases h2 : noStep (detectProgression val 4) = true
  · rw [if_pos h2]
    by_cases h3 : noStep (detectProgression val.dropLast 3) = true
    · rw [if_pos h3]
      exact hplain
    · rw [if_neg h3]
      obtain ⟨step, hs, hs0, e⟩ := detect_spec h3
      obtain ⟨a, m, b, hm⟩ : ∃ a m b, val = (a :: m) ++ [b] := by
        have hl : 3 ≤ val.dropLast.length := detect_length h3
        have hcat := List.dropLast_concat_getLast hne
        cases hv : val.dropLast with
        | nil => rw [hv] at hl; simp at hl
        | cons a m => exact ⟨a, m, val.getLast hne, by rw [← hv]; exact hcat.symm⟩
      subst hm
      rw [List.dropLast_concat] at e hs ⊢
      obtain ⟨hprog, hmem⟩ := e a m rfl
      have e1 : ((a :: m) ++ [b]).headD 0 = a := rfl
      have e2 : ((a :: m) ++ [b]).getLastD 0 = b := by
        rw [List.getLastD_eq_getLast?, List.getLast?_concat]; rfl
      rw [e1, e2, hs]
      obtain ⟨a1, a2, _⟩ := hin a (by simp)
      obtain ⟨b1, b2, _⟩ := hin b (by simp)
      have hlm : (a :: m).getLastD 0 ∈ a :: m := Trivial.getLastD_mem (by simp)
      obtain ⟨c1, c2, _⟩ := hin ((a :: m).getLastD 0) (List.mem_append_left _ hlm)
      obtain ⟨x, hx, y, hy, hxy⟩ := hmem
      obtain ⟨s1, s2, s3⟩ := hf step (Or.inr ⟨x, List.mem_append_left _ hx, y, List.mem_append_left _ hy, hxy⟩)
      have s4 : ' ' ∉ fmt step ++ [','] := by
        intro h
        rcases List.mem_append.1 h with h | h
        · exact s2 h
        · exact absurd h (by decide)
      unfold readList
      rw [split_words (by simp) (by
        intro w hw
        simp only [List.mem_cons, List.not_mem_nil, or_false] at hw
        rcases hw with rfl | rfl | rfl | rfl | rfl | rfl | rfl <;> assumption)]
      dsimp only
      rw [if_pos (hdash _ _), if_pos ⟨rfl, rfl⟩, a1, c1]
      dsimp only [Option.getD_some]
      rw [takeWhile_comma s3, s1, b1]
      dsimp only
      rw [← hprog]
  · rw [if_neg h2]
    obtain ⟨step, hs, hs0, e⟩ := detect_spec h2
    cases val with
    | nil => exact absurd rfl hne
    | cons a m =>
      obtain ⟨hprog, hmem⟩ := e a m rfl
      rw [hs]
      obtain ⟨a1, a2, _⟩ := hin a (by simp)
      have hlm : (a :: m).getLastD 0 ∈ a :: m := Trivial.getLastD_mem (by simp)
      obtain ⟨c1, c2, _⟩ := hin ((a :: m).getLastD 0) hlm
      obtain ⟨x, hx, y, hy, hxy⟩ := hmem
      obtain ⟨s1, s2, s3⟩ := hf step (Or.inr ⟨x, hx, y, hy, hxy⟩)
      unfold readList
      rw [split_words (by simp) (by
        intro w hw
        simp only [List.mem_cons, List.not_mem_nil, or_false] at hw
        rcases hw with rfl | rfl | rfl | rfl | rfl | rfl <;> assumption)]
      dsimp only
      rw [if_pos (hdash _ _), if_pos ⟨rfl, rfl⟩]
      have : (a :: m).headD 0 = a := rfl
      rw [this, a1, c1]
      dsimp only [Option.getD_some]
      rw [s1]
      dsimp only
      rw [← hprog]

/-- C78 (lists of numbers without a unit): there the numbers read back for all lists. -/
theorem C78_list_plain (val : List Int) (hne : val ≠ []) :
    readList (fun s => (Trivial.strToInt s).toOption) (fmtList PyStr.ofInt val) = some val :=
  C78_list _ _ val hne (fun v _ => ⟨by rw [strToInt_ofInt]; rfl, ofInt_no v⟩) (by decide +kernel)

example : fmtList PyStr.ofInt [1, 3, 5, 7] = "1 - 7 with step 2".toList ∧
    fmtList PyStr.ofInt [1, 3, 5, 6] = "1 - 5 with step 2, 6".toList ∧
    fmtList PyStr.ofInt [1, 3, 5] = "1, 3, 5".toList ∧ fmtList PyStr.ofInt [4, 4, 4, 4] = "4, 4, 4, 4".toList ∧
    fmtList PyStr.ofInt [9, 6, 3, 0] = "9 - 0 with step -3".toList :=
  ⟨by decide +kernel, by decide +kernel, by decide +kernel, by decide +kernel, by decide +kernel⟩

end Verif.PrinterText
