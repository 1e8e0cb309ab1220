import Verif.Lemmas.OpTargetDies

/-!
C52, C53, C62: what an operation is applied to. The meaning of the options is in `OpTargetSpec.lean`.
-/

namespace Verif.OpTarget

open Verif.CPUInfo

/-! ### C52 -/

/-- **C52.** The object is created exactly when all the numbers exist, ... -/
theorem C52_accepts (i : Info) (wf : WF i) (a : Args) : (∃ s, init i a = .ok s) ↔ Valid i a := by
  constructor
  · rintro ⟨s, hs⟩
    apply Classical.byContradiction
    intro hV
    rw [(init_outcome i wf a).2 hV] at hs
    cases hs
  · intro hV
    obtain ⟨s, h, -⟩ := (init_outcome i wf a).1 hV
    exact ⟨s, h⟩

/-- ... otherwise there is an error. -/
theorem C52_refuses (i : Info) (wf : WF i) (a : Args) (h : ¬ Valid i a) : init i a = .error .error :=
  (init_outcome i wf a).2 h

/-- **C52.** Whatever was called before, the CPUs are exactly the targeted ones, each of them once. What is
missing: with module sibling indexes module numbers must not repeat in different packages (see
`C52_module_siblings_counterexample`). -/
theorem C52_cpus_partial (i : Info) (wf : WF i) (a : Args) (hm : a.modSib ≠ [] → ModulesUnique i)
    (t : Tgt) (ca : Cache) (h : init i a = .ok (t, ca)) (hist : List Call) (r : List Nat)
    (hr : (getCpus i t (calls i t ca hist)).1 = .ok r) :
    r ≠ [] ∧ r.Nodup ∧ ∀ c, c ∈ r ↔ Selected i a c := by
  obtain ⟨-, R, D, remD, P, remP, f, hc, -⟩ := fresh_of_init wf h
  have hc' := (f.calls_cached hc hist).1
  rw [getCpus_eq i t _ R f.hR hc'.cpus] at hr
  by_cases hne : R = []
  · rw [if_neg (fun h => h hne)] at hr
    split at hr
    · cases hr
    · generalize (onlyIoDies i t { calls i t ca hist with cpus := some R }).1 = x at hr
      cases x with
      | error e => cases hr
      | ok b => cases b <;> cases hr
  · rw [if_pos hne] at hr
    cases hr
    exact ⟨hne, f.nodup, f.mem hm⟩

/-- The CPUs are found whenever there are any. -/
theorem C52_finds (i : Info) (wf : WF i) (a : Args) (hm : a.modSib ≠ [] → ModulesUnique i)
    (t : Tgt) (ca : Cache) (h : init i a = .ok (t, ca)) (hist : List Call)
    (hs : ∃ c, Selected i a c) : ∃ r, (getCpus i t (calls i t ca hist)).1 = .ok r := by
  obtain ⟨-, R, D, remD, P, remP, f, hc, -⟩ := fresh_of_init wf h
  have hc' := (f.calls_cached hc hist).1
  rw [getCpus_eq i t _ R f.hR hc'.cpus]
  obtain ⟨c, hs⟩ := hs
  rw [if_pos (List.ne_nil_of_mem ((f.mem hm c).2 hs))]
  exact ⟨_, rfl⟩

/-- Die `u` of package `p` is asked for. -/
def DieIn (i : Info) (a : Args) (p u : Nat) : Prop :=
  (Nothing a ∨ PicksUnit a a.dies p u) ∧ UnitEx i .die p u

/-- When no CPU is targeted, there is an error: either there is no target at all, or ... -/
theorem C52_none (i : Info) (wf : WF i) (a : Args) (hm : a.modSib ≠ [] → ModulesUnique i)
    (t : Tgt) (ca : Cache) (h : init i a = .ok (t, ca)) (hist : List Call)
    (hs : ¬ ∃ c, Selected i a c) :
    ((getCpus i t (calls i t ca hist)).1 = .error .noTarget ∨
      (getCpus i t (calls i t ca hist)).1 = .error .noCPUTarget) ∧
    -- ... the target consists of I/O dies only: dies without any CPUs.
    ((∃ p u, DieIn i a p u) → ((getCpus i t (calls i t ca hist)).1 = .error .noCPUTarget ↔
      ∀ p u, DieIn i a p u → ∀ c, ¬ CpuWith i (InUnit .die p u) c)) ∧
    (¬ Nothing a → ¬ UnitNumbers a.dies →
      (getCpus i t (calls i t ca hist)).1 = .error .noTarget) := by
  obtain ⟨ht, R, D, remD, P, remP, f, hc, -⟩ := fresh_of_init wf h
  have hc' := (f.calls_cached hc hist).1
  generalize calls i t ca hist = cb at hc' ⊢
  have hR : R = [] := by
    rw [List.eq_nil_iff_forall_not_mem]
    intro c hc
    exact hs ⟨c, (f.mem hm c).1 hc⟩
  subst hR
  rw [getCpus_eq i t _ [] f.hR hc'.cpus, if_neg (fun h => h rfl)]
  by_cases hd : t.dies = []
  · rw [if_pos hd]
    refine ⟨.inl rfl, ?_, fun _ _ => rfl⟩
    rintro ⟨p, u, hpu⟩
    have := (ht.dies p u).2 hpu
    rw [hd] at this
    exact absurd this inDict_nil
  · rw [if_neg hd]
    have hrem : remD = [] := by
      rw [List.eq_nil_iff_forall_not_mem]
      intro c hc
      cases ((f.memRemD c).1 hc).1
    have hg : (getDies i t true { cb with cpus := some [] }).1 = .ok D := by
      rcases hc'.dies with h | h
      · rw [f.getDies true { cb with cpus := some [] } h, if_neg (fun h => h.2 hrem)]
      · rw [getDies_some i t true { cb with cpus := some [] } D h]
    have hdies : ∀ p u, InDict D p u ↔ DieIn i a p u := by
      intro p u
      rw [f.dies]
      constructor
      · rintro (⟨⟨c, h1⟩, h2⟩ | h | h)
        · cases h2 c h1
        · exact (ht.dies p u).1 h
        · exact absurd h.1 hd
      · intro h
        exact .inr (.inl ((ht.dies p u).2 h))
    have hio : ∀ p u, UnitEx i .die p u →
        ((UnitEx i .die p u ∧ u ∈ i.ioDies p) ↔ ∀ c, ¬ CpuWith i (InUnit .die p u) c) := by
      intro p u hu
      constructor
      · rintro ⟨-, h⟩ c ⟨h0, l, hl, hlc, h5, h6⟩
        refine wf.notIo l hl (by rw [hlc]; exact h0) ?_
        rw [show l.die = u from h6, show l.package = p from h5]
        exact h
      · intro h
        refine ⟨hu, ?_⟩
        obtain ⟨-, -, l, hl, h5, h6⟩ := hu
        by_cases hcpu : l.cpu = NA
        · have := (wf.ioLine l hl hcpu).2.2.2.2.2
          rw [h5, show l.die = u from h6] at this
          exact this
        · exact absurd ⟨hcpu, l, hl, rfl, h5, h6⟩ (h l.cpu)
    have hDne : (∃ p u, DieIn i a p u) → D.isEmpty = false := by
      rintro ⟨p, u, h⟩
      rw [← hdies] at h
      cases D with
      | nil => exact absurd h inDict_nil
      | cons x D => rfl
    obtain ⟨b, hb1, hb2⟩ := onlyIo_ok i D (fun pu hpu => f.keysEx pu.1 (List.mem_map_of_mem hpu))
    have hb3 : b = true ↔ ∀ p u, DieIn i a p u → ∀ c, ¬ CpuWith i (InUnit .die p u) c := by
      rw [hb2]
      constructor
      · intro h p u hpu
        obtain ⟨us, h1, h2⟩ := (inDict_iff_mem f.keysNodup p u).1 ((hdies p u).2 hpu)
        exact (hio p u hpu.2).1 (h _ h1 u h2)
      · intro h pu hpu u hu
        have := (hdies pu.1 u).1 ((inDict_iff_mem f.keysNodup pu.1 u).2 ⟨pu.2, hpu, hu⟩)
        exact (hio pu.1 u this.2).2 (h _ _ this)
    have hans : (onlyIoDies i t { cb with cpus := some [] }).1 =
        if D.isEmpty then .ok false else .ok b := by
      unfold onlyIoDies
      cases hgd : OpTarget.getDies i t true { cb with cpus := some [] } with
      | mk x y =>
        rw [hgd] at hg
        dsimp only at hg
        subst hg
        dsimp only
        rw [hb1]
        split <;> rfl
    rw [hans]
    refine ⟨?_, ?_, ?_⟩
    · split
      · exact .inl rfl
      · cases b
        · exact .inl rfl
        · exact .inr rfl
    · intro hex
      rw [hDne hex, ← hb3]
      cases b <;> simp [ioAnswer]
    · intro h1 h2
      exact absurd (ht.diesNo h1 h2) hd

-- The options `--packages 0 --cores 5 --cpus 2`, and the I/O die of package 0.
example : (∃ s, init exInfo ⟨some (.nums [2]), .nums (.nums [5]), none, .none, some (.nums [0]), [], [], false⟩ =
      .ok s ∧ (getCpus exInfo s.1 s.2).1 = .ok [2, 1, 5]) ∧
    (∃ s, init exInfo { packages := some (.nums [0]), dies := .nums (.nums [3]) } = .ok s ∧
      (getCpus exInfo s.1 s.2).1 = .error .noCPUTarget) ∧
    init exInfo { cores := .nums (.nums [5]) } = .error .error :=
  ⟨⟨_, rfl, by decide +kernel⟩, ⟨_, rfl, by decide +kernel⟩, rfl⟩

/-- Why `C52_cpus_partial` is partial: both packages have module 0, and `--module-siblings 0` keeps CPU 2, which
is not the first CPU of its module in either reading of the module number. -/
theorem C52_module_siblings_counterexample : WF exNoCache ∧
    (∃ s, init exNoCache { modSib := [0] } = .ok s ∧ (getCpus exNoCache s.1 s.2).1 = .ok [0, 1, 2]) ∧
    ⟨2, 0, 0, 0, 0, 0⟩ ∈ exNoCache.topology ∧
    position exNoCache (fun a => [a.module, a.package]) ⟨2, 0, 0, 0, 0, 0⟩ = 1 ∧
    position exNoCache (fun a => [a.module]) ⟨2, 0, 0, 0, 0, 0⟩ = 2 :=
  ⟨C20_select_module_siblings_counterexample.1, ⟨_, rfl, by decide +kernel⟩, by decide +kernel,
    by decide +kernel, by decide +kernel⟩

/-! ### C53 -/

/-- The dictionary includes die `u` of package `p`. -/
def Has (d : Dict Nat (List Nat)) (p u : Nat) : Prop := ∃ us, (p, us) ∈ d ∧ u ∈ us

/-- Die `u` of package `p` has CPUs, and all of them are targeted. -/
def FullDie (i : Info) (a : Args) (p u : Nat) : Prop :=
  (∃ c, CpuWith i (InUnit .die p u) c) ∧ ∀ c, CpuWith i (InUnit .die p u) c → Selected i a c

/-- Package `p` exists, and all of its CPUs are targeted. -/
def FullPkg (i : Info) (a : Args) (p : Nat) : Prop :=
  PkgEx i p ∧ ∀ c, CpuWith i (InPackage p) c → Selected i a c

/-- Only packages are given. -/
def OnlyPackages (a : Args) : Prop :=
  Given a.packages ∧ ¬ Given a.cpus ∧ ¬ UnitNumbers a.cores ∧ ¬ Given a.modules ∧ ¬ UnitNumbers a.dies

/-- **C53.** The dies, whatever was called before: the dies with all CPUs targeted, the dies asked for, and, if
only packages are given, all dies of the packages. Each die is there once. -/
theorem C53_dies_exact (i : Info) (wf : WF i) (a : Args) (hm : a.modSib ≠ [] → ModulesUnique i)
    (hon : i.online ≠ []) (t : Tgt) (ca : Cache) (h : init i a = .ok (t, ca)) (hist : List Call)
    (strict : Bool) (d : Dict Nat (List Nat)) (hd : (getDies i t strict (calls i t ca hist)).1 = .ok d) :
    (∀ p u, Has d p u ↔ FullDie i a p u ∨ DieIn i a p u ∨
      (OnlyPackages a ∧ Picks a.packages p ∧ UnitEx i .die p u)) ∧
    d.keys.Nodup ∧ ∀ pu ∈ d, pu.2.Nodup := by
  obtain ⟨ht, R, D, remD, P, remP, f, hc, -⟩ := fresh_of_init wf h
  have hc' := (f.calls_cached hc hist).1
  have hV : Valid i a := (C52_accepts i wf a).1 ⟨_, h⟩
  have hdD : d = D := by
    rcases hc'.dies with h | h
    · rw [f.getDies strict _ h] at hd
      split at hd <;> cases hd
      rfl
    · rw [getDies_some i t strict _ D h] at hd
      cases hd
      rfl
  subst hdD
  have hmem := f.mem hm
  refine ⟨fun p u => ?_, f.keysNodup, fun pu hpu => f.diesNodup pu.1 pu.2 (Dict.get?_of_mem f.keysNodup hpu)⟩
  rw [show Has d p u ↔ InDict d p u from (inDict_iff_mem f.keysNodup p u).symm, f.dies]
  refine or_congr ?_ (or_congr (ht.dies p u) ?_)
  · unfold FullDie
    simp only [hmem]
  · constructor
    · rintro ⟨h1, h2, h3, h4, h5, h6⟩
      have hcores : ¬ UnitNumbers a.cores := fun h => by
        rw [ht.coresNum h h3] at h5; cases h5
      have hdies : ¬ UnitNumbers a.dies := fun h => by
        rw [ht.diesNum h h1] at h5; cases h5
      have hno : ¬ Nothing a := fun h => by
        rw [ht.empty h h1] at h5; cases h5
      have hp : Picks a.packages p := by
        rcases ((ht.packages p).1 h5).1 with h | ⟨h, h' | h' | h' | h'⟩
        · exact h
        · exact absurd h' hno
        · exact absurd h' h
        · rw [h'] at hdies; exact absurd trivial hdies
        · rw [h'] at hcores; exact absurd trivial hcores
      have hcpus : ¬ Given a.cpus := by
        intro hg
        have hno : ∀ c, ¬ c ∈ t.cpus := by rw [h2]; exact fun c => List.not_mem_nil
        cases hcp : a.cpus with
        | none => rw [hcp] at hg; exact hg
        | some n =>
          have : ∃ c, Requested i a.offlineOk n c := by
            rw [hcp] at hg
            cases n with
            | all =>
              obtain ⟨c, hc⟩ := List.exists_mem_of_ne_nil _ hon
              refine ⟨c, ?_⟩
              unfold Requested
              dsimp only
              split
              · exact wf.present c hc
              · exact hc
            | nums l => exact List.exists_mem_of_ne_nil _ hg
          obtain ⟨c, hc⟩ := this
          exact hno c ((ht.cpus c).2 (.inr ⟨n, hcp, hc⟩))
      have hmods : ¬ Given a.modules := by
        intro hg
        have hno : ∀ c, ¬ c ∈ t.modules := by rw [h4]; exact fun c => List.not_mem_nil
        have : ∃ m, Picks a.modules m ∧ ModEx i m := by
          cases hcp : a.modules with
          | none => rw [hcp] at hg; exact hg.elim
          | some n =>
            rw [hcp] at hg
            cases n with
            | all =>
              obtain ⟨c, hc⟩ := List.exists_mem_of_ne_nil _ hon
              obtain ⟨h0, l, hl, hlc⟩ := (wf.online c).1 hc
              exact ⟨l.module, trivial, (wf.cpuLine l hl (by rw [hlc]; exact h0)).2.1, l, hl, rfl⟩
            | nums l =>
              obtain ⟨m, hm⟩ := List.exists_mem_of_ne_nil _ hg
              exact ⟨m, hm, hV.2.1 l hcp m hm⟩
        obtain ⟨m, hm⟩ := this
        exact hno m ((ht.modules m).2 hm)
      exact ⟨⟨picks_given hp, hcpus, hcores, hmods, hdies⟩, hp, h6⟩
    · rintro ⟨⟨h1, h2, h3, h4, h5⟩, h6, h7⟩
      have hno : ¬ Nothing a := fun h => h.2.2.2.2 h1
      refine ⟨ht.diesNo hno h5, ?_, ht.coresNo h3, ?_, ?_, h7⟩
      · rw [List.eq_nil_iff_forall_not_mem]
        intro c hc
        rcases (ht.cpus c).1 hc with h | ⟨n, hn, hr⟩
        · exact hno h.1
        · rw [hn] at h2
          exact h2 (requested_given hr)
      · rw [List.eq_nil_iff_forall_not_mem]
        intro m hm
        exact h4 (picks_given ((ht.modules m).1 hm).1)
      · rw [ht.packages]
        obtain ⟨-, h0, l, hl, h8, -⟩ := h7
        exact ⟨.inl h6, h0, l, hl, h8⟩

/-- **C53.** A strict request for dies succeeds only if every targeted CPU is covered by the returned dies, and
is otherwise refused. What is missing: there must be no earlier non-strict request for dies (see
`C53_dies_counterexample`). -/
theorem C53_dies_partial (i : Info) (wf : WF i) (a : Args) (hm : a.modSib ≠ [] → ModulesUnique i)
    (t : Tgt) (ca : Cache) (h : init i a = .ok (t, ca)) (hist : List Call) (hh : .dies false ∉ hist) :
    (∀ d, (getDies i t true (calls i t ca hist)).1 = .ok d →
      ∀ c, Selected i a c → CpuWith i (fun l => Has d l.package l.die) c) ∧
    ((∃ d, (getDies i t true (calls i t ca hist)).1 = .ok d) ↔
      ∀ c, Selected i a c → CpuWith i (fun l => FullDie i a l.package l.die) c) ∧
    ((∃ c, Selected i a c ∧ ¬ CpuWith i (fun l => FullDie i a l.package l.die) c) →
      (getDies i t true (calls i t ca hist)).1 = .error .noTarget) := by
  obtain ⟨ht, R, D, remD, P, remP, f, hc, hc0, -⟩ := fresh_of_init wf h
  obtain ⟨hc', hcd, -⟩ := f.calls_cached hc hist
  have hmem := f.mem hm
  have e : (getDies i t true (calls i t ca hist)).1 =
      if remD ≠ [] then .error .noTarget else .ok D := by
    rcases hcd with h | h | h
    · rw [f.getDies true _ (h.trans hc0)]
      by_cases hr : remD = [] <;> simp [hr]
    · exact absurd h hh
    · rw [if_neg (fun h' => h' h)]
      rcases hc'.dies with h' | h'
      · rw [f.getDies true _ h', if_neg (fun h' => h'.2 h)]
      · rw [getDies_some i t true _ D h']
  have key : ∀ c, CpuWith i (fun l => FullDie i a l.package l.die) c ↔
      CpuWith i (fun l => ∀ c', CpuWith i (InUnit .die l.package l.die) c' → c' ∈ R) c := by
    intro c
    unfold FullDie
    simp only [hmem]
    constructor
    · rintro ⟨h0, l, hl, hlc, -, h2⟩
      exact ⟨h0, l, hl, hlc, h2⟩
    · rintro ⟨h0, l, hl, hlc, h2⟩
      exact ⟨h0, l, hl, hlc, ⟨c, h0, l, hl, hlc, rfl, rfl⟩, h2⟩
  have hrem : remD = [] ↔ ∀ c, Selected i a c → CpuWith i (fun l => FullDie i a l.package l.die) c := by
    rw [List.eq_nil_iff_forall_not_mem]
    refine forall_congr' fun c => ?_
    rw [f.memRemD, key, hmem]
    exact ⟨fun h h1 => Classical.byContradiction fun h2 => h ⟨h1, h2⟩, fun h h1 => h1.2 (h h1.1)⟩
  rw [e]
  refine ⟨fun d hd => ?_, ?_, ?_⟩
  · split at hd
    · cases hd
    · rename_i hne
      cases hd
      intro c hcs
      have hr : remD = [] := Classical.byContradiction hne
      obtain ⟨h0, l, hl, hlc, hex, h2⟩ := hrem.1 hr c hcs
      refine ⟨h0, l, hl, hlc, ?_⟩
      show Has D l.package l.die
      rw [show Has D l.package l.die ↔ InDict D l.package l.die from (inDict_iff_mem f.keysNodup _ _).symm,
        f.dies]
      exact .inl ⟨hex, fun c' hc' => (hmem c').2 (h2 c' hc')⟩
  · rw [← hrem]
    by_cases hr : remD = [] <;> simp [hr]
  · rintro ⟨c, h1, h2⟩
    rw [if_pos]
    intro hr
    exact h2 (hrem.1 hr c h1)

/-- A non-strict request for dies always succeeds, and its answer does not depend on earlier calls. -/
theorem C53_dies_loose (i : Info) (wf : WF i) (a : Args) (t : Tgt) (ca : Cache)
    (h : init i a = .ok (t, ca)) (hist : List Call) :
    ∃ d, (getDies i t false (calls i t ca hist)).1 = .ok d ∧ (getDies i t false ca).1 = .ok d := by
  obtain ⟨ht, R, D, remD, P, remP, f, hc, hc0, -⟩ := fresh_of_init wf h
  have key : ∀ cb, Cached R D P cb → (getDies i t false cb).1 = .ok D := by
    intro cb hb
    rcases hb.dies with h | h
    · rw [f.getDies false _ h, if_neg (fun h => by cases h.1)]
    · rw [getDies_some i t false _ D h]
  exact ⟨D, key _ (f.calls_cached hc hist).1, key _ hc⟩

/-- The answer to a strict request for dies does not depend on earlier calls, except for non-strict requests
for dies. -/
theorem C53_dies_history_partial (i : Info) (wf : WF i) (a : Args) (t : Tgt) (ca : Cache)
    (h : init i a = .ok (t, ca)) (hist : List Call) (hh : .dies false ∉ hist) :
    (getDies i t true (calls i t ca hist)).1 = (getDies i t true ca).1 := by
  obtain ⟨ht, R, D, remD, P, remP, f, hc, hc0, -⟩ := fresh_of_init wf h
  obtain ⟨hc', hcd, -⟩ := f.calls_cached hc hist
  rw [f.getDies true ca hc0]
  rcases hcd with h | h | h
  · rw [f.getDies true _ (h.trans hc0)]
    split <;> rfl
  · exact absurd h hh
  · rw [if_neg (fun h' => h'.2 h)]
    rcases hc'.dies with h' | h'
    · rw [f.getDies true _ h', if_neg (fun h' => h'.2 h)]
    · rw [getDies_some i t true _ D h']

/-- **C53.** The packages, whatever was called before: the packages with all CPUs targeted, and the packages the
options are about. -/
theorem C53_packages_exact (i : Info) (wf : WF i) (a : Args) (hm : a.modSib ≠ [] → ModulesUnique i)
    (t : Tgt) (ca : Cache) (h : init i a = .ok (t, ca)) (hist : List Call)
    (strict : Bool) (r : List Nat) (hr : (getPackages' i t strict (calls i t ca hist)).1 = .ok r) :
    (∀ p, p ∈ r ↔ FullPkg i a p ∨ (PkgIn a p ∧ PkgEx i p)) ∧ r.Nodup := by
  obtain ⟨ht, R, D, remD, P, remP, f, hc, -⟩ := fresh_of_init wf h
  have hc' := (f.calls_cached hc hist).1
  have hrP : r = P := by
    rcases hc'.pkgs with h | h
    · rw [f.getPkgs strict _ h] at hr
      split at hr <;> cases hr
      rfl
    · rw [getPackages_some i t strict _ P h] at hr
      cases hr
      rfl
  subst hrP
  refine ⟨fun p => ?_, f.pkgNodup⟩
  rw [f.pkgs]
  unfold FullPkg
  simp only [f.mem hm]
  constructor
  · rintro ⟨h1, h2 | h2⟩
    · exact .inl ⟨h1, h2⟩
    · exact .inr ⟨h2, h1⟩
  · rintro (⟨h1, h2⟩ | ⟨h1, h2⟩)
    · exact ⟨h1, .inl h2⟩
    · exact ⟨h2, .inr h1⟩

/-- **C53.** A strict request for packages succeeds only if every targeted CPU is covered by the returned
packages, and is otherwise refused. What is missing: there must be no earlier non-strict request for packages
(see `C53_packages_counterexample`). -/
theorem C53_packages_partial (i : Info) (wf : WF i) (a : Args) (hm : a.modSib ≠ [] → ModulesUnique i)
    (t : Tgt) (ca : Cache) (h : init i a = .ok (t, ca)) (hist : List Call)
    (hh : .packages false ∉ hist) :
    (∀ r, (getPackages' i t true (calls i t ca hist)).1 = .ok r →
      ∀ c, Selected i a c → CpuWith i (fun l => l.package ∈ r) c) ∧
    ((∃ r, (getPackages' i t true (calls i t ca hist)).1 = .ok r) ↔
      ∀ c, Selected i a c → CpuWith i (fun l => FullPkg i a l.package) c) ∧
    ((∃ c, Selected i a c ∧ ¬ CpuWith i (fun l => FullPkg i a l.package) c) →
      (getPackages' i t true (calls i t ca hist)).1 = .error .noTarget) := by
  obtain ⟨ht, R, D, remD, P, remP, f, hc, -, hc0⟩ := fresh_of_init wf h
  obtain ⟨hc', -, hcd⟩ := f.calls_cached hc hist
  have hmem := f.mem hm
  have e : (getPackages' i t true (calls i t ca hist)).1 =
      if remP ≠ [] then .error .noTarget else .ok P := by
    rcases hcd with h | h | h
    · rw [f.getPkgs true _ (h.trans hc0)]
      by_cases hr : remP = [] <;> simp [hr]
    · exact absurd h hh
    · rw [if_neg (fun h' => h' h)]
      rcases hc'.pkgs with h' | h'
      · rw [f.getPkgs true _ h', if_neg (fun h' => h'.2 h)]
      · rw [getPackages_some i t true _ P h']
  have key : ∀ c, CpuWith i (fun l => FullPkg i a l.package) c ↔
      CpuWith i (fun l => ∀ c', CpuWith i (InPackage l.package) c' → c' ∈ R) c := by
    intro c
    unfold FullPkg
    simp only [hmem]
    constructor
    · rintro ⟨h0, l, hl, hlc, -, h2⟩
      exact ⟨h0, l, hl, hlc, h2⟩
    · rintro ⟨h0, l, hl, hlc, h2⟩
      exact ⟨h0, l, hl, hlc, ⟨(wf.cpuLine l hl (by rw [hlc]; exact h0)).2.2.2.2, l, hl, rfl⟩, h2⟩
  have hrem : remP = [] ↔ ∀ c, Selected i a c → CpuWith i (fun l => FullPkg i a l.package) c := by
    rw [List.eq_nil_iff_forall_not_mem]
    refine forall_congr' fun c => ?_
    rw [f.memRemP, key, hmem]
    exact ⟨fun h h1 => Classical.byContradiction fun h2 => h ⟨h1, h2⟩, fun h h1 => h1.2 (h h1.1)⟩
  rw [e]
  refine ⟨fun d hd => ?_, ?_, ?_⟩
  · split at hd
    · cases hd
    · rename_i hne
      cases hd
      intro c hcs
      have hr : remP = [] := Classical.byContradiction hne
      obtain ⟨h0, l, hl, hlc, hex, h2⟩ := hrem.1 hr c hcs
      refine ⟨h0, l, hl, hlc, ?_⟩
      show l.package ∈ P
      rw [f.pkgs]
      exact ⟨hex, .inl fun c' hc' => (hmem c').2 (h2 c' hc')⟩
  · rw [← hrem]
    by_cases hr : remP = [] <;> simp [hr]
  · rintro ⟨c, h1, h2⟩
    rw [if_pos]
    intro hr
    exact h2 (hrem.1 hr c h1)

/-- A non-strict request for packages always succeeds, and its answer does not depend on earlier calls. -/
theorem C53_packages_loose (i : Info) (wf : WF i) (a : Args) (t : Tgt) (ca : Cache)
    (h : init i a = .ok (t, ca)) (hist : List Call) :
    ∃ r, (getPackages' i t false (calls i t ca hist)).1 = .ok r ∧
      (getPackages' i t false ca).1 = .ok r := by
  obtain ⟨ht, R, D, remD, P, remP, f, hc, -⟩ := fresh_of_init wf h
  have key : ∀ cb, Cached R D P cb → (getPackages' i t false cb).1 = .ok P := by
    intro cb hb
    rcases hb.pkgs with h | h
    · rw [f.getPkgs false _ h, if_neg (fun h => by cases h.1)]
    · rw [getPackages_some i t false _ P h]
  exact ⟨P, key _ (f.calls_cached hc hist).1, key _ hc⟩

/-- The answer to a strict request for packages does not depend on earlier calls, except for non-strict
requests for packages. -/
theorem C53_packages_history_partial (i : Info) (wf : WF i) (a : Args) (t : Tgt) (ca : Cache)
    (h : init i a = .ok (t, ca)) (hist : List Call) (hh : .packages false ∉ hist) :
    (getPackages' i t true (calls i t ca hist)).1 = (getPackages' i t true ca).1 := by
  obtain ⟨ht, R, D, remD, P, remP, f, hc, -, hc0⟩ := fresh_of_init wf h
  obtain ⟨hc', -, hcd⟩ := f.calls_cached hc hist
  rw [f.getPkgs true ca hc0]
  rcases hcd with h | h | h
  · rw [f.getPkgs true _ (h.trans hc0)]
    split <;> rfl
  · exact absurd h hh
  · rw [if_neg (fun h' => h'.2 h)]
    rcases hc'.pkgs with h' | h'
    · rw [f.getPkgs true _ h', if_neg (fun h' => h'.2 h)]
    · rw [getPackages_some i t true _ P h']

-- All CPUs of die 0 and CPU 2 as well: the strict requests are refused, the non-strict one succeeds. All CPUs
-- of package 1: both succeed.
example : (∃ s, init exInfo { cpus := some (.nums [0, 4, 2]) } = .ok s ∧
      (getDies exInfo s.1 true s.2).1 = .error .noTarget ∧
      (getPackages' exInfo s.1 true s.2).1 = .error .noTarget ∧
      (getDies exInfo s.1 false s.2).1 = .ok [(0, [0])]) ∧
    (∃ s, init exInfo { cpus := some (.nums [2, 6, 7, 3]) } = .ok s ∧
      (getDies exInfo s.1 true s.2).1 = .ok [(1, [0, 1])] ∧
      (getPackages' exInfo s.1 true s.2).1 = .ok [1]) ∧
    (∃ s, init exInfo { packages := some (.nums [0]) } = .ok s ∧
      (getDies exInfo s.1 true s.2).1 = .ok [(0, [0, 1, 3])]) :=
  ⟨⟨_, rfl, by decide +kernel, by decide +kernel, by decide +kernel⟩,
    ⟨_, rfl, by decide +kernel, by decide +kernel⟩, ⟨_, rfl, by decide +kernel⟩⟩

theorem selected_cpu0 : Selected exInfo { cpus := some (.nums [0]) } 0 :=
  ⟨.inr (.inl ⟨_, rfl, List.mem_singleton.2 rfl⟩), fun h => absurd rfl h, fun h => absurd rfl h⟩

/-- Why `C53_dies_partial` is partial: with `--cpus 0`, a strict request for dies is refused, because CPU 0 is
not a whole die. After a non-strict request it succeeds with no dies at all (`get_dies()` caches the result
of the non-strict request), which hides CPU 0. -/
theorem C53_dies_counterexample : ∃ s, init exInfo { cpus := some (.nums [0]) } = .ok s ∧
    Selected exInfo { cpus := some (.nums [0]) } 0 ∧
    (getDies exInfo s.1 true s.2).1 = .error .noTarget ∧
    (getDies exInfo s.1 true (calls exInfo s.1 s.2 [.dies false])).1 = .ok [] :=
  ⟨_, rfl, selected_cpu0, by decide +kernel, by decide +kernel⟩

/-- Why `C53_packages_partial` is partial, in the same way. -/
theorem C53_packages_counterexample : ∃ s, init exInfo { cpus := some (.nums [0]) } = .ok s ∧
    Selected exInfo { cpus := some (.nums [0]) } 0 ∧
    (getPackages' exInfo s.1 true s.2).1 = .error .noTarget ∧
    (getPackages' exInfo s.1 true (calls exInfo s.1 s.2 [.packages false])).1 = .ok [] :=
  ⟨_, rfl, selected_cpu0, by decide +kernel, by decide +kernel⟩

/-! ### C62 -/

/-- **C62.** The dies include no CPU which is not targeted. What is missing: there must be no sibling indexes
(see `C62_dies_counterexample`). -/
theorem C62_dies_partial (i : Info) (wf : WF i) (a : Args) (hs : a.coreSib = [] ∧ a.modSib = [])
    (hon : i.online ≠ []) (t : Tgt) (ca : Cache) (h : init i a = .ok (t, ca)) (hist : List Call)
    (strict : Bool) (d : Dict Nat (List Nat)) (hd : (getDies i t strict (calls i t ca hist)).1 = .ok d)
    (p u : Nat) (hpu : Has d p u) (c : Nat) (hc : CpuWith i (InUnit .die p u) c) : Selected i a c := by
  have := ((C53_dies_exact i wf a (fun h => absurd hs.2 h) hon t ca h hist strict d hd).1 p u).1 hpu
  have hsel : Union i a c → Selected i a c :=
    fun h => ⟨h, fun h => absurd hs.1 h, fun h => absurd hs.2 h⟩
  obtain ⟨h0, l, hl, hlc, h5, h6⟩ := id hc
  rcases this with h | ⟨h | h, -⟩ | ⟨h, h', -⟩
  · exact h.2 c hc
  · refine hsel (.inl ⟨h, ?_⟩)
    have hon : c ∈ i.online := (wf.online c).2 ⟨h0, l, hl, hlc⟩
    split
    · exact wf.present c hon
    · exact hon
  · refine hsel (.inr (.inr (.inr (.inr (.inl ⟨h0, l, hl, hlc, ?_⟩)))))
    dsimp only
    rw [show l.die = u from h6, show l.package = p from h5]
    exact h
  · refine hsel (.inr (.inr (.inr (.inr (.inr ⟨h.2.2.1, h.2.2.2.2, h0, l, hl, hlc, ?_⟩)))))
    dsimp only
    rw [show l.package = p from h5]
    exact h'

/-- **C62.** The packages include no CPU which is not targeted. What is missing: there must be no sibling
indexes, and no core or die numbers along with packages (see `C62_packages_counterexample`). -/
theorem C62_packages_partial (i : Info) (wf : WF i) (a : Args) (hs : a.coreSib = [] ∧ a.modSib = [])
    (hu : Given a.packages → ¬ UnitNumbers a.cores ∧ ¬ UnitNumbers a.dies)
    (t : Tgt) (ca : Cache) (h : init i a = .ok (t, ca)) (hist : List Call)
    (strict : Bool) (r : List Nat) (hr : (getPackages' i t strict (calls i t ca hist)).1 = .ok r)
    (p : Nat) (hp : p ∈ r) (c : Nat) (hc : CpuWith i (InPackage p) c) : Selected i a c := by
  have := ((C53_packages_exact i wf a (fun h => absurd hs.2 h) t ca h hist strict r hr).1 p).1 hp
  have hsel : Union i a c → Selected i a c :=
    fun h => ⟨h, fun h => absurd hs.1 h, fun h => absurd hs.2 h⟩
  obtain ⟨h0, l, hl, hlc, h5⟩ := id hc
  rcases this with h | ⟨h | ⟨h, h' | h' | h' | h'⟩, -⟩
  · exact h.2 c hc
  · obtain ⟨k1, k2⟩ := hu (picks_given h)
    refine hsel (.inr (.inr (.inr (.inr (.inr ⟨k1, k2, h0, l, hl, hlc, ?_⟩)))))
    dsimp only
    rw [show l.package = p from h5]
    exact h
  · refine hsel (.inl ⟨h', ?_⟩)
    have hon : c ∈ i.online := (wf.online c).2 ⟨h0, l, hl, hlc⟩
    split
    · exact wf.present c hon
    · exact hon
  · exact absurd h' h
  · refine hsel (.inr (.inr (.inr (.inr (.inl ⟨h0, l, hl, hlc, ?_⟩)))))
    dsimp only
    rw [h']
    exact ⟨trivial, fun hg => absurd hg h⟩
  · refine hsel (.inr (.inr (.inl ⟨h0, l, hl, hlc, ?_⟩)))
    dsimp only
    rw [h']
    exact ⟨trivial, fun hg => absurd hg h⟩

theorem not_selected_io : ¬ Selected exInfo { packages := some (.nums [0]), dies := .nums (.nums [3]) } 0 := by
  rintro ⟨h | ⟨n, h, -⟩ | ⟨-, l, -, -, h⟩ | ⟨-, l, -, -, h⟩ | ⟨-, l, hl, hlc, h⟩ | ⟨-, h, -⟩, -⟩
  · exact h.1.2.2.2.1 (by show ([3] : List Nat) ≠ []; decide)
  · cases h
  · exact h
  · exact h
  · have h3 : l.die = 3 := List.mem_singleton.1 h.1
    revert hl
    have : ∀ l ∈ exInfo.topology, l.cpu = 0 → l.die ≠ 3 := by decide +kernel
    exact fun hl => this l hl hlc h3
  · exact h (by show ([3] : List Nat) ≠ []; decide)

/-- Why `C62_packages_partial` is partial: `--packages 0 --dies 3` targets the I/O die 3 of package 0 and no
CPUs, but the strict request for packages succeeds and returns package 0, with all its CPUs. -/
theorem C62_packages_counterexample :
    ∃ s, init exInfo { packages := some (.nums [0]), dies := .nums (.nums [3]) } = .ok s ∧
    (getPackages' exInfo s.1 true s.2).1 = .ok [0] ∧ CpuWith exInfo (InPackage 0) 0 ∧
    ¬ Selected exInfo { packages := some (.nums [0]), dies := .nums (.nums [3]) } 0 :=
  ⟨_, rfl, by decide +kernel, ⟨by decide +kernel, ⟨0, 0, 0, 0, 0, 0⟩, by decide +kernel, rfl, rfl⟩,
    not_selected_io⟩

/-- Why `C62_dies_partial` is partial: `--packages 0 --dies 0 --core-siblings 7` targets no CPUs (there is no
core with 8 siblings), but the strict request for dies returns die 0 of package 0. -/
theorem C62_dies_counterexample :
    ∃ s, init exInfo { packages := some (.nums [0]), dies := .nums (.nums [0]), coreSib := [7] } = .ok s ∧
    (getCpus exInfo s.1 s.2).1 = .error .noTarget ∧
    (getDies exInfo s.1 true s.2).1 = .ok [(0, [0])] ∧ CpuWith exInfo (InUnit .die 0 0) 0 :=
  ⟨_, rfl, by decide +kernel, by decide +kernel,
    ⟨by decide +kernel, ⟨0, 0, 0, 0, 0, 0⟩, by decide +kernel, rfl, rfl, rfl⟩⟩

end Verif.OpTarget
