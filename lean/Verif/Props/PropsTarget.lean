import Verif.Lemmas.PropsTarget

/-!
C86, C87: reading and changing a property of the target given with the command line options.
-/

namespace Verif.PropsTarget

open CPUInfo OpTarget PropsBase

variable {V σ : Type}

/-- Options without sibling indexes, and without core or die numbers along with packages, are `Plain`. -/
theorem plain_simple (i : Info) (wf : WF i) (a : Args) (hs : a.coreSib = [] ∧ a.modSib = [])
    (hu : Given a.packages → ¬ UnitNumbers a.cores ∧ ¬ UnitNumbers a.dies) (sc : Scope) : Plain i a sc := by
  have hsel : ∀ c, Union i a c → Selected i a c :=
    fun c h => ⟨h, fun h => absurd hs.1 h, fun h => absurd hs.2 h⟩
  refine ⟨fun h => absurd hs.2 h, fun _ p u hpu ⟨c, hc⟩ => ⟨c, hc, ?_⟩, fun _ p hp _ ⟨c, hc⟩ => ⟨c, hc, ?_⟩⟩
  · obtain ⟨h0, l, hl, hlc, h5, h6⟩ := id hc
    rcases hpu with ⟨h | h, -⟩ | ⟨h, h', -⟩
    · refine hsel _ (.inl ⟨h, ?_⟩)
      have hon : c ∈ i.online := (wf.online c).2 ⟨h0, l, hl, hlc⟩
      split
      · exact wf.present c hon
      · exact hon
    · refine hsel _ (.inr (.inr (.inr (.inr (.inl ⟨h0, l, hl, hlc, ?_⟩)))))
      dsimp only
      rw [show l.die = u from h6, show l.package = p from h5]
      exact h
    · refine hsel _ (.inr (.inr (.inr (.inr (.inr ⟨h.2.2.1, h.2.2.2.2, h0, l, hl, hlc, ?_⟩)))))
      dsimp only
      rw [show l.package = p from h5]
      exact h'
  · obtain ⟨h0, l, hl, hlc, h5⟩ := id hc
    rcases hp with h | ⟨h, h' | h' | h' | h'⟩
    · obtain ⟨k1, k2⟩ := hu (picks_given h)
      refine hsel _ (.inr (.inr (.inr (.inr (.inr ⟨k1, k2, h0, l, hl, hlc, ?_⟩)))))
      dsimp only
      rw [show l.package = p from h5]
      exact h
    · refine hsel _ (.inl ⟨h', ?_⟩)
      have hon : c ∈ i.online := (wf.online c).2 ⟨h0, l, hl, hlc⟩
      split
      · exact wf.present c hon
      · exact hon
    · exact absurd h' h
    · refine hsel _ (.inr (.inr (.inr (.inr (.inl ⟨h0, l, hl, hlc, ?_⟩)))))
      dsimp only
      rw [h']
      exact ⟨trivial, fun hg => absurd hg h⟩
    · refine hsel _ (.inr (.inr (.inl ⟨h0, l, hl, hlc, ?_⟩)))
      dsimp only
      rw [h']
      exact ⟨trivial, fun hg => absurd hg h⟩

/-! ### C86 -/

/-- How a property of the target is set. -/
theorem setPropSname_runs (i : Info) (wf : WF i) (hon : i.online ≠ []) (a : Args) (t : Tgt) (ca : Cache)
    (h : init i a = .ok (t, ca)) (hist : List Call) (hh : Strict hist) (P : PropDesc)
    (hp : Plain i a (scopeOf P.sname none)) (norm : V → Except Exn V)
    (set : Mech → V → List Nat → σ → σ × Except Exn Unit)
    (hio : ∀ sn, P.sname = some sn → Within i P.iosname sn) (v0 : Option V) (mnames : Option (List Mech)) (s : σ) :
    Runs i P.iosname (Selected i a) norm set v0 s (setPropSname i P norm set t v0 mnames (calls i t ca hist) s).1 := by
  have hw := fun w => right (w := w) wf hon hp h hist hh
  unfold setPropSname
  cases hg : snameAndNums i t P.sname none (calls i t ca hist) with
  | mk x ca' =>
    cases x with
    | error e => exact runs_error ..
    | ok w =>
      have hw := hw w (by rw [hg])
      cases w with
      | cpus l =>
        have := runs_cpus (set := set) wf hio norm v0 l mnames s
        rwa [show (· ∈ l) = Selected i a from funext fun c => propext (hw.2.2 c)] at this
      | packages l =>
        obtain ⟨h1, -, h3, h4⟩ := hw
        have hsn : P.sname = some (.lvl .package) := by
          cases hs : P.sname with
          | none => rw [hs] at h1; cases h1
          | some sn => rw [hs] at h1; exact congrArg some h1
        have := runs_packages (set := set) wf (hio _ hsn) hsn norm v0 l h3 mnames s
        rwa [show (fun c => ∃ p ∈ l, CpuWith i (InPackage p) c) = Selected i a from
          funext fun c => propext (h4 c).symm] at this
      | dies d =>
        obtain ⟨h1, h2, -, h3, h4⟩ := hw
        have hsn : P.sname = some (.lvl .die) := by
          cases hs : P.sname with
          | none => rw [hs] at h1; cases h1
          | some sn => rw [hs] at h1; exact congrArg some h1
        have := runs_dies (set := set) wf (hio _ hsn) hsn norm v0 d h2 h3 mnames s
        rwa [show (fun c => ∃ pd ∈ d, ∃ u ∈ pd.2, CpuWith i (InUnit .die pd.1 u) c) = Selected i a from
          funext fun c => propext (h4 c).symm] at this

/-- **C86.** Setting a property changes it for no CPU which is not targeted, even when it fails. If it succeeds, every
targeted CPU has what is right for the new value (`R`). What is missing: the options must be `Plain`, and there must be no earlier calls with
`strict=False` (see the counterexamples). -/
theorem C86_set_partial (i : Info) (wf : WF i) (hon : i.online ≠ []) (a : Args) (t : Tgt) (ca : Cache)
    (h : init i a = .ok (t, ca)) (hist : List Call) (hh : Strict hist) (P : PropDesc)
    (hp : Plain i a (scopeOf P.sname none)) (norm : V → Except Exn V)
    (set : Mech → V → List Nat → σ → σ × Except Exn Unit) {H : Type} (R : Nat → V → H → Prop)
    (val : σ → Nat → H) (hl : Local i P.iosname R val set)
    (hio : ∀ sn, P.sname = some sn → Within i P.iosname sn) (v0 : Option V) (mnames : Option (List Mech)) (s s' : σ)
    (r : Except Exn Mech)
    (hr : (setPropSname i P norm set t v0 mnames (calls i t ca hist) s).1 = (s', r)) :
    (∀ c, ¬ Selected i a c → val s' c = val s c) ∧
    ∀ m, r = .ok m → ∃ x v, v0 = some x ∧ norm x = .ok v ∧ ∀ c, Selected i a c → R c v (val s' c) := by
  have main := (setPropSname_runs i wf hon a t ca h hist hh P hp norm set hio v0 mnames s).done hl
  rw [hr] at main
  exact main

/-- The numbers are CPUs when the target has a part of a package or a die. -/
theorem splits_cpus {i : Info} (wf : WF i) (hon : i.online ≠ []) {a : Args} {t : Tgt} {ca : Cache}
    (h : init i a = .ok (t, ca)) {hist : List Call} (hh : Strict hist) {sn : Scope} (hp : Plain i a sn)
    (hs : Splits i a sn) {w : Where} (hw : (snameAndNums i t (some sn) none (calls i t ca hist)).1 = .ok w) :
    ∃ l, w = .cpus l ∧ l ≠ [] ∧ ∀ c, c ∈ l ↔ Selected i a c := by
  have hr := right (sname := some sn) (ov := none) wf hon hp h hist hh hw
  obtain ⟨c, d, hc, hcd, hd⟩ := hs
  cases w with
  | cpus l => exact ⟨l, rfl, hr.1, hr.2.2⟩
  | packages l =>
    exfalso
    obtain ⟨h1, -, -, h4⟩ := hr
    have h1 : sn = .lvl .package := h1
    subst h1
    obtain ⟨p, hpl, h0, tl, htl, e, hin⟩ := (h4 c).1 hc
    obtain ⟨tc, htc, td, htd, h1, h2, h3, h5, h6⟩ := hcd
    have : tl = tc := wf.unique tl htl tc htc (by rw [e, h1]) (by rw [e]; exact h3)
    subst this
    simp only [ident, List.cons.injEq, and_true] at h6
    exact hd ((h4 d).2 ⟨p, hpl, h5, td, htd, h2, by rw [InPackage, ← h6]; exact hin⟩)
  | dies l =>
    exfalso
    obtain ⟨h1, -, -, -, h4⟩ := hr
    have h1 : sn = .lvl .die := h1
    subst h1
    obtain ⟨p, hpl, u, hu, h0, tl, htl, e, hin⟩ := (h4 c).1 hc
    obtain ⟨tc, htc, td, htd, h1, h2, h3, h5, h6⟩ := hcd
    have : tl = tc := wf.unique tl htl tc htc (by rw [e, h1]) (by rw [e]; exact h3)
    subst this
    simp only [ident, List.cons.injEq, and_true] at h6
    exact hd ((h4 d).2 ⟨p, hpl, u, hu, h5, td, htd, h2, h6.1.symm.trans hin.1, h6.2.symm.trans hin.2⟩)

/-- **C86** (refusal). If the target has a part of a unit of the scope of the property, nothing is written. -/
theorem C86_refused_partial (i : Info) (wf : WF i) (hon : i.online ≠ []) (a : Args) (t : Tgt) (ca : Cache)
    (h : init i a = .ok (t, ca)) (hist : List Call) (hh : Strict hist) (P : PropDesc) (sn : Scope)
    (hsn : P.sname = some sn) (hp : Plain i a sn) (hs : Splits i a sn) (norm : V → Except Exn V)
    (set : Mech → V → List Nat → σ → σ × Except Exn Unit) (v0 : Option V) (mnames : Option (List Mech)) (s : σ) :
    ∃ e, (setPropSname i P norm set t v0 mnames (calls i t ca hist) s).1 = (s, .error e) := by
  have hw := fun w => splits_cpus (w := w) wf hon h hh hp hs
  unfold setPropSname
  rw [hsn]
  cases hg : snameAndNums i t (some sn) none (calls i t ca hist) with
  | mk x ca' =>
    cases x with
    | error e => exact ⟨e, rfl⟩
    | ok w =>
      obtain ⟨l, rfl, hne, hmem⟩ := hw w (by rw [hg])
      dsimp only
      by_cases hun : sn = .lvl .module ∨ sn = .lvl .node
      · exact C29_scope_unsupported i P norm set v0 (.nums l) mnames s
          (by rcases hun with h | h <;> rw [hsn, h] <;> simp)
      · cases hn : normalizeCpus i (.nums l) false with
        | error e =>
          rcases setPropCpus_cases i P norm set v0 (.nums l) mnames s with ⟨v, l', ha, -⟩ | ⟨-, e, he⟩
          · obtain ⟨-, -, -, h1, -⟩ := ha
            rw [hn] at h1; cases h1
          · exact ⟨e, he⟩
        | ok l' =>
          obtain ⟨-, hm', -⟩ := normalizeCpus_ok hn
          have hm' : ∀ c, c ∈ l' ↔ c ∈ l := hm'
          obtain ⟨c, d, hc, hcd, hd⟩ := hs
          have hcl : c ∈ l' := (hm' c).2 ((hmem c).2 hc)
          refine (C29_scope i wf P norm set v0 (.nums l) mnames s sn l' hsn
            ⟨fun h => hun (.inl h), fun h => hun (.inr h)⟩ hn (List.ne_nil_of_mem hcl)).1 (fun hwh => ?_)
          exact hd ((hmem d).1 ((hm' d).1 (hwh c hcl d hcd)))

theorem setLoop_accepts (f : Mech → σ → σ × Except Exn Unit) (m : Mech) (ms : List Mech) (s : σ)
    (h : (f m s).2 = .ok ()) : setLoop f (m :: ms) false s = ((f m s).1, .ok m) := by
  rw [setLoop]
  cases hf : f m s with
  | mk s1 r => rw [hf] at h; cases h; rfl

/-- There are numbers if any CPU is targeted. -/
theorem nums_found {i : Info} (wf : WF i) {a : Args} (hm : a.modSib ≠ [] → ModulesUnique i) {t : Tgt} {ca : Cache}
    (h : init i a = .ok (t, ca)) {hist : List Call} (hh : Strict hist) {sname ov : Option Scope}
    (hsel : ∃ c, Selected i a c) : ∃ w, (snameAndNums i t sname ov (calls i t ca hist)).1 = .ok w := by
  have hfind : ∀ hist', ∃ l, (getCpus i t (calls i t ca hist')).1 = .ok l :=
    fun hist' => C52_finds i wf a hm t ca h hist' hsel
  have hc : ∀ hist', ∃ w, (cpuNums i t (calls i t ca hist')).1 = .ok w := by
    intro hist'
    obtain ⟨l, hl⟩ := hfind hist'
    unfold cpuNums
    cases hg : getCpus i t (calls i t ca hist') with
    | mk r ca' => rw [hg] at hl; cases hl; exact ⟨_, rfl⟩
  unfold snameAndNums
  split
  · cases hg : getPackages' i t true (calls i t ca hist) with
    | mk r ca' =>
      cases r with
      | ok l => exact ⟨_, rfl⟩
      | error e =>
        have hca : ca' = calls i t ca (hist ++ [.packages true]) := by
          rw [calls_snoc]; simp only [call]; rw [hg]
        by_cases hall : ∀ c, Selected i a c → CpuWith i (fun l => FullPkg i a l.package) c
        · obtain ⟨r, hr⟩ := (C53_packages_partial i wf a hm t ca h hist hh.2).2.1.2 hall
          rw [hg] at hr; cases hr
        · have : ∃ c, Selected i a c ∧ ¬ CpuWith i (fun l => FullPkg i a l.package) c :=
            Classical.byContradiction fun hn => hall fun c hc =>
              Classical.byContradiction fun hc' => hn ⟨c, hc, hc'⟩
          have he := (C53_packages_partial i wf a hm t ca h hist hh.2).2.2 this
          rw [hg] at he; cases he
          rw [hca]
          exact hc _
  · split
    · cases hg : getDies i t true (calls i t ca hist) with
      | mk r ca' =>
        cases r with
        | ok l => exact ⟨_, rfl⟩
        | error e =>
          have hca : ca' = calls i t ca (hist ++ [.dies true]) := by
            rw [calls_snoc]; simp only [call]; rw [hg]
          by_cases hall : ∀ c, Selected i a c → CpuWith i (fun l => FullDie i a l.package l.die) c
          · obtain ⟨r, hr⟩ := (C53_dies_partial i wf a hm t ca h hist hh.1).2.1.2 hall
            rw [hg] at hr; cases hr
          · have : ∃ c, Selected i a c ∧ ¬ CpuWith i (fun l => FullDie i a l.package l.die) c :=
              Classical.byContradiction fun hn => hall fun c hc =>
                Classical.byContradiction fun hc' => hn ⟨c, hc, hc'⟩
            have he := (C53_dies_partial i wf a hm t ca h hist hh.1).2.2 this
            rw [hg] at he; cases he
            rw [hca]
            exact hc _
    · exact hc _

/-- **C86** (success). A target which consists of entire units of the scope, a good value and mechanisms which do not fail
for targeted CPUs are enough. What holds initially and is kept by the mechanisms (`Good`) holds afterwards. -/
theorem C86_works_partial (i : Info) (wf : WF i) (hon : i.online ≠ []) (a : Args) (t : Tgt) (ca : Cache)
    (h : init i a = .ok (t, ca)) (hist : List Call) (hh : Strict hist) (P : PropDesc) (sn : Scope)
    (hsn : P.sname = some sn) (hsc : sn ≠ .lvl .module ∧ sn ≠ .lvl .node) (hp : Plain i a sn)
    (hs : ¬ Splits i a sn) (hio : Within i P.iosname sn) (hsel : ∃ c, Selected i a c)
    (hoff : ∀ c, Selected i a c → c ∈ i.online) (norm : V → Except Exn V)
    (set : Mech → V → List Nat → σ → σ × Except Exn Unit) (Good : σ → Prop) (x v : V)
    (hset : ∀ m l s, (∀ d ∈ l, Selected i a d) → Good s → (set m v l s).2 = .ok () ∧ Good (set m v l s).1)
    (hn : norm x = .ok v) (hw : P.writable = true) (mnames : Option (List Mech))
    (hm : ∀ ml, mnames = some ml → ∀ m ∈ ml, m ∈ P.mnames ∧ m.writable = true) (hne : P.mnames ≠ [])
    (hd : sn = .lvl .die → ∀ d, (getDies i t true (calls i t ca hist)).1 = .ok d → ∀ pu ∈ d, pu.2 ≠ []) (s : σ)
    (hs0 : Good s) :
    ∃ m, (setPropSname i P norm set t (some x) mnames (calls i t ca hist) s).1.2 = .ok m ∧
      Good (setPropSname i P norm set t (some x) mnames (calls i t ca hist) s).1.1 := by
  obtain ⟨m0, ms0, hms⟩ : ∃ m0 ms0, toTry P mnames = m0 :: ms0 := by
    cases ht : toTry P mnames with
    | nil => exact absurd ht (toTry_ne hne mnames)
    | cons m0 ms0 => exact ⟨m0, ms0, rfl⟩
  have hone : ∀ m r s, (∀ d ∈ r, Selected i a d) → Good s →
      (oneMech (set m v) r s).2 = .ok () ∧ Good (oneMech (set m v) r s).1 := by
    intro m r s h1 h2
    obtain ⟨k1, k2⟩ := hset m r s h1 h2
    unfold oneMech
    cases hx : set m v r s with
    | mk s1 y => rw [hx] at k1 k2; cases k1; exact ⟨rfl, k2⟩
  have hr := fun w => right (w := w) (sname := some sn) (ov := none) wf hon hp h hist hh
  have hcpu : ∀ l, (∀ c, c ∈ l ↔ Selected i a c) →
      ∃ m, (setPropCpus i P norm set (some x) (.nums l) mnames s).2 = .ok m ∧
        Good (setPropCpus i P norm set (some x) (.nums l) mnames s).1 := by
    intro l hmem
    obtain ⟨c, hc⟩ := hsel
    have hn' : ∃ l', normalizeCpus i (.nums l) false = .ok l' := by
      unfold normalizeCpus
      refine ⟨_, if_pos ?_⟩
      rw [List.all_eq_true]
      intro c hc
      simpa using hoff c ((hmem c).1 (by simpa [mem_pyDedup] using hc))
    obtain ⟨l', hl'⟩ := hn'
    obtain ⟨-, hm', -⟩ := normalizeCpus_ok hl'
    have hm' : ∀ c, c ∈ l' ↔ c ∈ l := hm'
    refine ⟨m0, ?_⟩
    rw [((C29_scope i wf P norm set (some x) (.nums l) mnames s sn l' hsn hsc hl'
      (List.ne_nil_of_mem ((hm' c).2 ((hmem c).2 hc)))).2 x v rfl hn hw hm).1 (fun c hc d hcd =>
        (hm' d).2 ((hmem d).2 (Classical.byContradiction fun hd =>
          hs ⟨c, d, (hmem c).1 ((hm' c).1 hc), hcd, hd⟩))), hms]
    have hk := hset m0 l' s (fun d hd => (hmem d).1 ((hm' d).1 hd)) hs0
    rw [setLoop_accepts _ _ _ _ hk.1]
    exact ⟨rfl, hk.2⟩
  have hnums := nums_found (sname := some sn) (ov := none) wf hp.modules h hh hsel
  obtain ⟨w, hw'⟩ := hnums
  have hR := hr w hw'
  unfold setPropSname
  rw [hsn]
  cases hg : snameAndNums i t (some sn) none (calls i t ca hist) with
  | mk y ca' =>
    rw [hg] at hw'
    cases hw'
    cases w with
    | cpus l => exact hcpu l hR.2.2
    | packages l =>
      obtain ⟨h1, -, h3, h4⟩ := hR
      have h1 : sn = .lvl .package := h1
      subst h1
      obtain ⟨c, hc⟩ := hsel
      obtain ⟨p, hpl, -⟩ := (h4 c).1 hc
      obtain ⟨r, hr', he⟩ := C28_set_prop_packages_partial i wf P norm set x v l mnames s hm hw hn h3
        (List.ne_nil_of_mem hpl) (.inl hsn) hio
      refine ⟨m0, ?_⟩
      dsimp only
      rw [he, hms]
      have hk := hone m0 r s (fun d hd => (h4 d).2 (hr'.2.1 d hd)) hs0
      rw [setLoop_accepts _ _ _ _ hk.1]
      exact ⟨rfl, hk.2⟩
    | dies d =>
      obtain ⟨h1, h2, -, h3, h4⟩ := hR
      have h1 : sn = .lvl .die := h1
      subst h1
      obtain ⟨c, hc⟩ := hsel
      obtain ⟨pd, hpd, -⟩ := (h4 c).1 hc
      have hgd : (getDies i t true (calls i t ca hist)).1 = .ok d := by
        unfold snameAndNums at hg
        have hu : useScope (some (Scope.lvl .die)) none = .lvl .die := rfl
        rw [hu, if_neg (by simp), if_pos rfl] at hg
        cases hgg : getDies i t true (calls i t ca hist) with
        | mk r ca'' =>
          rw [hgg] at hg
          cases r with
          | ok d' => cases hg; rfl
          | error e =>
            exfalso
            dsimp only at hg
            split at hg
            · unfold cpuNums at hg
              cases hc2 : getCpus i t ca'' with
              | mk z ca3 => rw [hc2] at hg; cases z <;> cases hg
            · cases hg
      obtain ⟨r, hr', he⟩ := C28_set_prop_dies_partial i wf P norm set x v d mnames s hm hw hn h2
        (fun pd hpd => ⟨hd rfl d hgd pd hpd, fun u hu => by
          obtain ⟨a1, a2, a3⟩ := h3 pd hpd u hu; exact ⟨a1, a2, a3⟩⟩)
        (List.ne_nil_of_mem hpd) (.inl hsn) hio
      refine ⟨m0, ?_⟩
      dsimp only
      rw [he, hms]
      have hk := hone m0 r s (fun d hd => (h4 d).2 (hr'.2.1 d hd)) hs0
      rw [setLoop_accepts _ _ _ _ hk.1]
      exact ⟨rfl, hk.2⟩

/-- A method with the contract exists for every I/O scope. -/
example (i : Info) (ios : Scope) :
    ∃ set : Mech → Nat → List Nat → (Nat → Nat) → (Nat → Nat) × Except Exn Unit,
    Local i ios (fun _ v x => x = v) (fun s c => s c) set := by
  classical
  refine ⟨fun _ v l s => (fun c => if ∃ d ∈ l, SameUnit i ios d c then v else s c, .ok ()), ?_, ?_⟩
  · intro m v l s _ c h
    show (if ∃ d ∈ l, SameUnit i ios d c then v else s c) = s c
    rw [if_neg (fun ⟨d, hd, hs⟩ => h d hd hs)]
  · intro m v l s _ _ d hd c hs
    show (if ∃ d ∈ l, SameUnit i ios d c then v else s c) = v
    rw [if_pos ⟨d, hd, hs⟩]

/-- For the examples: per-CPU values, `msr` does not work. -/
def exWrite (m : Mech) (v : Nat) (l : List Nat) (s : Nat → Nat) : (Nat → Nat) × Except Exn Unit :=
  if m = .msr then (s, .error .notSupported)
  else (fun c => if l.contains c && exInfo.online.contains c then v else s c, .ok ())

theorem exWrite_local : Local exInfo (.lvl .CPU) (fun _ v x => x = v) (fun s c => s c) exWrite := by
  have key : ∀ c d, SameUnit exInfo (.lvl .CPU) c d → c = d := by
    rintro c d ⟨tc, htc, td, htd, h1, h2, h3, h4, h5⟩
    simp only [ident, List.cons.injEq, and_true] at h5
    rw [← h1, ← h2]; exact h5
  refine ⟨?_, ?_⟩
  · intro m v l s _ c h
    unfold exWrite
    split
    · rfl
    · show (if l.contains c && exInfo.online.contains c then v else s c) = s c
      rw [if_neg]
      intro hc
      rw [Bool.and_eq_true] at hc
      exact h c (by simpa using hc.1) (sameUnit_refl exInfo_wf (by simpa using hc.2) _)
  · intro m v l s _ h d hd c hs
    unfold exWrite at h ⊢
    split
    · rename_i hm; rw [if_pos hm] at h; cases h
    · show (if l.contains c && exInfo.online.contains c then v else s c) = v
      rw [if_pos]
      rw [Bool.and_eq_true]
      refine ⟨?_, by simpa using sameUnit_online exInfo_wf hs⟩
      rw [← key d c hs]
      simpa using hd

/-- For the examples: a package scope property with CPU I/O scope. -/
def exPkg : PropDesc := ⟨[.msr, .sysfs], some (.lvl .package), .lvl .CPU, true⟩

theorem exPkg_within : ∀ sn, exPkg.sname = some sn → Within exInfo exPkg.iosname sn := by
  intro sn h
  cases h
  exact within_package exInfo_wf (by decide)

-- All CPUs of package 1 given as CPUs: the package is found, `sysfs` is used after `msr` refuses, and every CPU of the
-- package has the new value. A part of the package is refused.
example : (∃ s, init exInfo { cpus := some (.nums [2, 6, 7, 3]) } = .ok s ∧
      Plain exInfo { cpus := some (.nums [2, 6, 7, 3]) } (scopeOf exPkg.sname none) ∧ Strict [.cpus, .dies true] ∧
      (snameAndNums exInfo s.1 exPkg.sname none (calls exInfo s.1 s.2 [.cpus, .dies true])).1 = .ok (.packages [1]) ∧
      (setPropSname exInfo exPkg .ok exWrite s.1 (some 7) none (calls exInfo s.1 s.2 [.cpus, .dies true])
        (fun _ => 0)).1.2 = .ok .sysfs ∧
      (List.range 9).map (setPropSname exInfo exPkg .ok exWrite s.1 (some 7) none s.2 (fun _ => 0)).1.1 =
        [0, 0, 7, 7, 0, 0, 7, 7, 0]) ∧
    (∃ s, init exInfo { cpus := some (.nums [2, 6]) } = .ok s ∧
      (setPropSname exInfo exPkg .ok exWrite s.1 (some 7) none s.2 (fun _ => 0)).1.2 = .error .error) :=
  ⟨⟨_, rfl, plain_simple _ exInfo_wf _ ⟨rfl, rfl⟩ (fun h => absurd h (by simp [Given])) _, by simp [Strict], by decide +kernel,
    by decide +kernel, by decide +kernel⟩, ⟨_, rfl, by decide +kernel⟩⟩

/-- Why C86 is partial: `--packages 0 --core-siblings 7` targets no CPUs, because no core has 8 CPUs. Setting a property
with package scope is not refused, and changes CPU 0. -/
theorem C86_siblings_counterexample :
    ∃ s, init exInfo { packages := some (.nums [0]), coreSib := [7] } = .ok s ∧
    (getCpus exInfo s.1 s.2).1 = .error .noTarget ∧
    ¬ Selected exInfo { packages := some (.nums [0]), coreSib := [7] } 0 ∧
    (setPropSname exInfo exPkg .ok exWrite s.1 (some 7) none s.2 (fun _ => 0)).1.2 = .ok .sysfs ∧
    (setPropSname exInfo exPkg .ok exWrite s.1 (some 7) none s.2 (fun _ => 0)).1.1 0 = 7 := by
  refine ⟨_, rfl, by decide +kernel, fun hsel => ?_, by decide +kernel, by decide +kernel⟩
  obtain ⟨r, hr⟩ := C52_finds exInfo exInfo_wf { packages := some (.nums [0]), coreSib := [7] } (fun h => absurd rfl h) _ _
    rfl [] ⟨0, hsel⟩
  revert hr
  have : ∀ x : Except Exn (List Nat), x = .error .noTarget → x = .ok r → False := fun x h1 h2 => by
    rw [h1] at h2; cases h2
  exact this _ (by decide +kernel)

/-- Why C86 is partial: `--packages 0 --dies 3` targets an I/O die and no CPUs, but a property with package scope is set
for the CPUs of package 0. -/
theorem C86_io_die_counterexample :
    ∃ s, init exInfo { packages := some (.nums [0]), dies := .nums (.nums [3]) } = .ok s ∧
    ¬ Selected exInfo { packages := some (.nums [0]), dies := .nums (.nums [3]) } 0 ∧
    (setPropSname exInfo exPkg .ok exWrite s.1 (some 7) none s.2 (fun _ => 0)).1.2 = .ok .sysfs ∧
    (setPropSname exInfo exPkg .ok exWrite s.1 (some 7) none s.2 (fun _ => 0)).1.1 0 = 7 :=
  ⟨_, rfl, not_selected_io, by decide +kernel, by decide +kernel⟩

/-- Why C86 is partial: CPU 0 and all CPUs of package 1 are targeted. This is refused, but not after a non-strict request
for packages: the property is set for package 1, this is reported as success, and CPU 0 keeps the old value. -/
theorem C86_loose_counterexample :
    ∃ s, init exInfo { cpus := some (.nums [0, 2, 3, 6, 7]) } = .ok s ∧
    Selected exInfo { cpus := some (.nums [0, 2, 3, 6, 7]) } 0 ∧
    (setPropSname exInfo exPkg .ok exWrite s.1 (some 7) none s.2 (fun _ => 0)).1.2 = .error .error ∧
    (setPropSname exInfo exPkg .ok exWrite s.1 (some 7) none (calls exInfo s.1 s.2 [.packages false])
      (fun _ => 0)).1.2 = .ok .sysfs ∧
    (setPropSname exInfo exPkg .ok exWrite s.1 (some 7) none (calls exInfo s.1 s.2 [.packages false])
      (fun _ => 0)).1.1 0 = 0 :=
  ⟨_, rfl, ⟨.inr (.inl ⟨_, rfl, by show 0 ∈ [0, 2, 3, 6, 7]; decide⟩), fun h => absurd rfl h, fun h => absurd rfl h⟩, by decide +kernel,
    by decide +kernel, by decide +kernel⟩

/-! ### C87 -/

/-- **C87.** Every value shown for a property, per CPU, die or package, is for targeted CPUs only, and is right for every
CPU it is for, even if reading fails later. Nothing is shown twice. If reading does not fail, there is a value for every
targeted CPU. What is missing: the options must be `Plain`, there must be no earlier calls with `strict=False`, and a
mechanism must be supported by all the targeted CPUs or none of them (see the counterexamples). -/
theorem C87_get_partial [DecidableEq V] (i : Info) (wf : WF i) (hon : i.online ≠ []) (a : Args) (t : Tgt) (ca : Cache)
    (h : init i a = .ok (t, ca)) (hist : List Call) (hh : Strict hist) (P : PropDesc) (ov : Option Scope)
    (hov : ov = none ∨ ov = some (.lvl .CPU)) (hp : Plain i a (scopeOf P.sname ov))
    (get : Mech → List Nat → Gen (Nat × Option V)) (read : Mech → Nat → Except Exn (Option V))
    (hget : ∀ m l, get m l = readCpus (read m) l) (hio : ∀ c d m, SameUnit i P.iosname c d → read m c = read m d)
    (mnames : Option (List Mech)) (ha : Agree (Selected i a) read (toTry P mnames)) (g : Gen (Item V))
    (hg : (getPropSname i P get t mnames ov (calls i t ca hist)).1 = g) :
    (∀ it ∈ g.yields, ∀ c, Covers i c it → Selected i a c ∧ (P.sname = none → it.val = none) ∧
      (P.sname ≠ none → Shows read (toTry P mnames) c it.val it.mname)) ∧
    (g.yields.Pairwise fun x y => ∀ c, Covers i c x → ¬ Covers i c y) ∧
    (g.err = none → ∀ c, Selected i a c → ∃ it ∈ g.yields, Covers i c it) := by
  subst hg
  have hR := fun w => right (w := w) wf hon hp h hist hh
  unfold getPropSname
  cases hg : snameAndNums i t P.sname ov (calls i t ca hist) with
  | mk x ca' =>
    cases x with
    | error e => exact ⟨by simp, List.Pairwise.nil, nofun⟩
    | ok w =>
      have hw := hR w (by rw [hg])
      -- A prefix of a list without repetitions has no repetitions.
      have hnd : ∀ {κ : Type} {l l' : List κ}, l <+: l' → l'.Nodup → l.Nodup := fun h1 h2 => h1.sublist.nodup h2
      cases w with
      | cpus l =>
        obtain ⟨-, hln, hmem⟩ := hw
        dsimp only [Gen.map]
        unfold getPropCpus
        cases hm : normalizeMnames P mnames true with
        | error e => exact ⟨by simp, List.Pairwise.nil, nofun⟩
        | ok ms =>
          dsimp only
          cases hn : normalizeCpus i (.nums l) false with
          | error e => exact ⟨by simp, List.Pairwise.nil, nofun⟩
          | ok l' =>
            obtain ⟨hnd', hm', -⟩ := normalizeCpus_ok hn
            have hm' : ∀ c, c ∈ l' ↔ c ∈ l := hm'
            dsimp only
            split
            · rename_i he
              refine ⟨by simp, List.Pairwise.nil, fun _ c hc => ?_⟩
              have := (hm' c).2 ((hmem c).2 hc)
              rw [List.isEmpty_iff.1 he] at this
              cases this
            · cases hs : P.sname with
              | none =>
                dsimp only
                cases ms.getLast? with
                | none => exact ⟨by simp, List.Pairwise.nil, nofun⟩
                | some last =>
                  dsimp only
                  refine ⟨?_, ?_, fun _ c hc => ?_⟩
                  · intro it hit c hc
                    simp only [List.mem_map] at hit
                    obtain ⟨_, ⟨c', hc', rfl⟩, rfl⟩ := hit
                    have : c' = c := hc
                    subst this
                    exact ⟨(hmem c').1 ((hm' c').1 hc'), fun _ => rfl, fun h => absurd rfl h⟩
                  · rw [List.map_map, List.pairwise_map]
                    exact hnd'.imp (fun hab c (h1 : _ = c) (h2 : _ = c) => hab (h1.trans h2.symm))
                  · exact ⟨.cpu ⟨c, none, last⟩, by simpa using (hm' c).2 ((hmem c).2 hc), rfl⟩
              | some sn =>
                dsimp only
                have hto := normalizeMnames_toTry hm
                obtain ⟨s1, s2, s3⟩ := getPvinfo_units (P := P) (ms := ms) (cpusOf := fun c => .ok [c]) (units := l')
                  (T := Selected i a) (fun u hu => ⟨[u], rfl, by simpa using (hmem u).1 ((hm' u).1 hu)⟩)
                  (by rw [hto]; exact ha) (fun m => get m l') (fun m => by rw [hget, readCpus_eq])
                rw [hto] at s3
                refine ⟨?_, ?_, fun he c hc => ?_⟩
                · intro it hit c hc
                  obtain ⟨pv, hpv, rfl⟩ := List.mem_map.1 hit
                  have : pv.num = c := hc
                  subst this
                  have hsel : Selected i a pv.num :=
                    (hmem _).1 ((hm' _).1 (s1.subset (List.mem_map_of_mem hpv)))
                  refine ⟨hsel, nofun, fun _ => ?_⟩
                  rcases s3 pv hpv [pv.num] rfl pv.num [] rfl with ⟨h1, h2⟩ | ⟨h1, h2, h3⟩
                  · exact pick_shows h1 h2
                  · show Shows read _ _ pv.val pv.mname
                    rw [h2]; exact pick_none h1 h3
                · rw [List.pairwise_map]
                  have := hnd s1 hnd'
                  rw [List.Nodup, List.pairwise_map] at this
                  exact this.imp (fun hab c (h1 : _ = c) (h2 : _ = c) => hab (h1.trans h2.symm))
                · have hcl := (hm' c).2 ((hmem c).2 hc)
                  rw [← s2 he] at hcl
                  obtain ⟨pv, hpv, e⟩ := List.mem_map.1 hcl
                  exact ⟨.cpu pv, List.mem_map_of_mem hpv, e⟩
      | packages l =>
        obtain ⟨h1, hln, h3, h4⟩ := hw
        have hsn : P.sname = some (.lvl .package) := by
          rcases hov with rfl | rfl
          · cases hs : P.sname with
            | none => rw [hs] at h1; cases h1
            | some sn => rw [hs] at h1; exact congrArg some h1
          · cases h1
        dsimp only [Gen.map]
        unfold getPropPackages
        cases hm : normalizeMnames P mnames true with
        | error e => exact ⟨by simp, List.Pairwise.nil, nofun⟩
        | ok ms =>
          rw [normalizePackages_isOk h3]
          dsimp only
          have hto := normalizeMnames_toTry hm
          split
          · rename_i he
            refine ⟨by simp, List.Pairwise.nil, fun _ c hc => ?_⟩
            obtain ⟨p, hpl, -⟩ := (h4 c).1 hc
            have := mem_pyDedup.2 hpl
            rw [List.isEmpty_iff.1 he] at this
            cases this
          · obtain ⟨s1, s2, s3⟩ := getUnits_spec (op := .package) hsn hget
              (cpusOf := fun p => packagesToCpus i (.nums [p])) (units := pyDedup l) (T := Selected i a)
              (cover := fun p c => CpuWith i (InPackage p) c) (ms := ms)
              (fun u hu => by
                obtain ⟨q1, q2⟩ := h3 u (mem_pyDedup.1 hu)
                obtain ⟨r, hr⟩ := packageToCpus_isOk q1 q2
                exact ⟨r, hr, mem_packageToCpus q1 hr⟩)
              (fun u hu c hc => (h4 c).2 ⟨u, mem_pyDedup.1 hu, hc⟩) (by rw [hto]; exact ha)
              (fun he u hu c d hc hd m => hio c d m (by
                obtain ⟨c0, tc, htc, ec, ic⟩ := hc
                obtain ⟨d0, td, htd, ed, id⟩ := hd
                rw [← he]
                refine ⟨tc, htc, td, htd, ec, ed, c0, d0, ?_⟩
                simp only [ident, show tc.package = u from ic, show td.package = u from id]))
            rw [hto] at s3
            refine ⟨?_, ?_, fun he c hc => ?_⟩
            · intro it hit c hc
              obtain ⟨pv, hpv, rfl⟩ := List.mem_map.1 hit
              have hu := s1.subset (List.mem_map_of_mem (f := (·.num)) hpv)
              refine ⟨(h4 c).2 ⟨pv.num, mem_pyDedup.1 hu, hc⟩, fun h => (by rw [hsn] at h; cases h), fun _ => ?_⟩
              exact s3 pv hpv c hc
            · rw [List.pairwise_map]
              have := hnd s1 (nodup_pyDedup l)
              rw [List.Nodup, List.pairwise_map] at this
              refine this.imp (fun hab c h1 h2 => hab ?_)
              obtain ⟨c0, tc, htc, ec, ic⟩ := h1
              obtain ⟨-, td, htd, ed, id⟩ := h2
              have : tc = td := wf.unique tc htc td htd (by rw [ec, ed]) (by rw [ec]; exact c0)
              subst this
              exact ic.symm.trans id
            · obtain ⟨p, hpl, hc⟩ := (h4 c).1 hc
              have hpl := mem_pyDedup.2 hpl
              rw [← s2 he] at hpl
              obtain ⟨pv, hpv, rfl⟩ := List.mem_map.1 hpl
              exact ⟨.package pv, List.mem_map_of_mem hpv, hc⟩
      | dies d =>
        obtain ⟨h1, hk, hln, h3, h4⟩ := hw
        have hsn : P.sname = some (.lvl .die) := by
          rcases hov with rfl | rfl
          · cases hs : P.sname with
            | none => rw [hs] at h1; cases h1
            | some sn => rw [hs] at h1; exact congrArg some h1
          · cases h1
        dsimp only [Gen.map]
        unfold getPropDies
        cases hm : normalizeMnames P mnames true with
        | error e => exact ⟨by simp, List.Pairwise.nil, nofun⟩
        | ok ms =>
          dsimp only
          cases hnp : normalizePackages i (.nums (d.map Prod.fst)) with
          | error e => exact ⟨by simp, List.Pairwise.nil, nofun⟩
          | ok pk =>
          dsimp only
          cases hnd' : normalizeDiesDict i d with
          | error e => exact ⟨by simp, List.Pairwise.nil, nofun⟩
          | ok ds =>
          obtain ⟨hds, hmem⟩ := normalizeDiesDict_ok hnd' hk
          have hto := normalizeMnames_toTry hm
          dsimp only
          split
          · rename_i he
            refine ⟨by simp, List.Pairwise.nil, fun _ c hc => ?_⟩
            obtain ⟨pd, hpd, u, hu, -⟩ := (h4 c).1 hc
            have := List.isEmpty_iff.1 (List.all_eq_true.1 he pd hpd)
            rw [this] at hu
            cases hu
          · obtain ⟨s1, s2, s3⟩ := getUnits_spec (op := .die) hsn hget
              (cpusOf := fun b : Nat × Nat => diesToCpus i (.nums [b.2]) (.nums [b.1])) (units := ds)
              (T := Selected i a) (cover := fun b c => CpuWith i (InUnit .die b.1 b.2) c) (ms := ms)
              (fun b hb => by
                obtain ⟨pd, hpd, e1, hu⟩ := (hmem b.1 b.2).1 hb
                obtain ⟨q1, q2, tl, htl, q3, q4⟩ := h3 pd hpd b.2 hu
                obtain ⟨r, hr⟩ := inPackageToCpus_isOk (lvl := .die) tl htl q4 (q3.trans e1.symm) q1 (e1 ▸ q2)
                refine ⟨r, hr, fun c => ?_⟩
                rw [mem_inPackageToCpus wf hr]
                simp only [Selects, List.mem_singleton, CpuWith, InUnit]
                constructor
                · rintro ⟨hcn, t, ht, e, -, e1, e2⟩; exact ⟨hcn, t, ht, e, e2, e1⟩
                · rintro ⟨hcn, t, ht, e, e2, e1⟩; exact ⟨hcn, t, ht, e, by rw [e1]; exact q1, e1, e2⟩)
              (fun b hb c hc => by
                obtain ⟨pd, hpd, e1, hu⟩ := (hmem b.1 b.2).1 hb
                exact (h4 c).2 ⟨pd, hpd, b.2, hu, e1 ▸ hc⟩) (by rw [hto]; exact ha)
              (fun he b hb c d hc hd m => hio c d m (by
                obtain ⟨c0, tc, htc, ec, ic1, ic2⟩ := hc
                obtain ⟨d0, td, htd, ed, id1, id2⟩ := hd
                rw [← he]
                refine ⟨tc, htc, td, htd, ec, ed, c0, d0, ?_⟩
                simp only [TLine.get] at ic2 id2
                simp only [ident, ic1, ic2, id1, id2]))
            rw [hto] at s3
            refine ⟨?_, ?_, fun he c hc => ?_⟩
            · intro it hit c hc
              obtain ⟨pv, hpv, rfl⟩ := List.mem_map.1 hit
              have hu := s1.subset (List.mem_map_of_mem (f := (·.num)) hpv)
              obtain ⟨pd, hpd, e1, hu⟩ := (hmem pv.num.1 pv.num.2).1 hu
              refine ⟨(h4 c).2 ⟨pd, hpd, _, hu, e1 ▸ hc⟩, fun h => (by rw [hsn] at h; cases h), fun _ => ?_⟩
              exact s3 pv hpv c hc
            · rw [List.pairwise_map]
              have := hnd s1 hds
              rw [List.Nodup, List.pairwise_map] at this
              refine this.imp (fun hab c h1 h2 => hab ?_)
              obtain ⟨c0, tc, htc, ec, ic⟩ := h1
              obtain ⟨-, td, htd, ed, id⟩ := h2
              have : tc = td := wf.unique tc htc td htd (by rw [ec, ed]) (by rw [ec]; exact c0)
              subst this
              exact Prod.ext (ic.1.symm.trans id.1) (ic.2.symm.trans id.2)
            · obtain ⟨pd, hpd, u, hu, hc⟩ := (h4 c).1 hc
              have hpl := (hmem pd.1 u).2 ⟨pd, hpd, rfl, hu⟩
              rw [← s2 he] at hpl
              obtain ⟨pv, hpv, e⟩ := List.mem_map.1 hpl
              refine ⟨.die pv, List.mem_map_of_mem hpv, ?_⟩
              show CpuWith i (InUnit .die pv.num.1 pv.num.2) c
              rw [show pv.num = (pd.1, u) from e]
              exact hc

/-- Mechanisms of the property are accepted for reading. -/
theorem normalizeMnames_read {P : PropDesc} {mnames : Option (List Mech)}
    (hm : ∀ ml, mnames = some ml → ∀ m ∈ ml, m ∈ P.mnames) : ∃ ms, normalizeMnames P mnames true = .ok ms := by
  cases mnames with
  | none => exact ⟨_, rfl⟩
  | some ml =>
    have : validateMnames P true ml = .ok () :=
      validateMnames_ok.2 (fun m hml => ⟨hm ml rfl m hml, .inl rfl⟩)
    simp [normalizeMnames, this]

theorem normalizeDies_isOk {i : Info} {l0 : List Nat} {p : Nat} (hne : l0 ≠ [])
    (hd : ∀ u ∈ l0, UnitEx i .die p u) : normalizeDies i l0 p = .ok (pyDedup l0) := by
  have hpk : p ≠ NA ∧ ∃ t ∈ i.topology, t.package = p := by
    obtain ⟨u, hu⟩ := List.exists_mem_of_ne_nil _ hne
    obtain ⟨-, h1, t, ht, h2, -⟩ := hd u hu
    exact ⟨h1, t, ht, h2⟩
  unfold normalizeDies
  have hok : ∃ r, packageToDies i p = .ok r := by
    unfold packageToDies
    rw [getLevelNums_isOk]
    refine ⟨by simp [Level.idx], ?_⟩
    rintro l hl n hn
    cases hl
    rw [List.mem_singleton] at hn
    subst hn
    exact hpk
  obtain ⟨r, hr⟩ := hok
  simp only [hr]
  rw [if_pos]
  rw [List.all_eq_true]
  intro d hdm
  rw [List.contains_iff_mem]
  obtain ⟨h4, h5, t, ht, h6, h7⟩ := hd d (mem_pyDedup.1 hdm)
  unfold packageToDies at hr
  rw [mem_getLevelNums hr]
  exact ⟨h4, t, ht, by simp only [TLine.get, h6]; exact h5, by simp [Selects, TLine.get, h6], h7⟩

theorem normalizeDiesDict_isOk {i : Info} : ∀ {ds : List (Nat × List Nat)},
    (∀ pd ∈ ds, pd.2 ≠ [] ∧ ∀ u ∈ pd.2, UnitEx i .die pd.1 u) → ∃ l, normalizeDiesDict i ds = .ok l
  | [], _ => ⟨[], rfl⟩
  | (p, l0) :: ds, h => by
    obtain ⟨l, hl⟩ := normalizeDiesDict_isOk (ds := ds) (fun pd hpd => h pd (by simp [hpd]))
    obtain ⟨h1, h2⟩ := h (p, l0) (by simp)
    exact ⟨_, by rw [normalizeDiesDict, normalizeDies_isOk h1 h2, hl]⟩

/-- **C87** (success). If reading from the hardware does not fail, then reading the property does not fail, except that it
asks to be repeated per CPU (`ErrorUsePerCPU`) when the CPUs of a targeted die or package do not agree. This does not
happen when the values are requested per CPU. -/
theorem C87_works_partial [DecidableEq V] (i : Info) (wf : WF i) (hon : i.online ≠ []) (a : Args) (t : Tgt) (ca : Cache)
    (h : init i a = .ok (t, ca)) (hist : List Call) (hh : Strict hist) (P : PropDesc) (sn : Scope)
    (hsn : P.sname = some sn) (ov : Option Scope)
    (hov : ov = none ∨ ov = some (.lvl .CPU)) (hp : Plain i a (scopeOf (some sn) ov))
    (get : Mech → List Nat → Gen (Nat × Option V)) (read : Mech → Nat → Except Exn (Option V))
    (hget : ∀ m l, get m l = readCpus (read m) l) (mnames : Option (List Mech))
    (hm : ∀ ml, mnames = some ml → ∀ m ∈ ml, m ∈ P.mnames) (hne : P.mnames ≠ [])
    (ha : Agree (Selected i a) read (toTry P mnames)) (hrd : Reads (Selected i a) read (toTry P mnames))
    (hsel : ∃ c, Selected i a c) (hoff : ∀ c, Selected i a c → c ∈ i.online)
    (hcpus : ∀ p, PkgEx i p → ∃ c, CpuWith i (InPackage p) c)
    (hdie : scopeOf (some sn) ov = .lvl .die → (∀ p u, UnitEx i .die p u → ∃ c, CpuWith i (InUnit .die p u) c) ∧
      ∀ d, (getDies i t true (calls i t ca hist)).1 = .ok d → ∀ pu ∈ d, pu.2 ≠ [])
    (g : Gen (Item V)) (hg : (getPropSname i P get t mnames ov (calls i t ca hist)).1 = g) :
    g.err = none ∨ (ov = none ∧ g = ⟨[], some .usePerCPU⟩ ∧ ∃ c d, Selected i a c ∧ Selected i a d ∧
      SameUnit i sn c d ∧ ∃ m ∈ toTry P mnames, read m c ≠ read m d) := by
  subst hg
  obtain ⟨ms, hms⟩ := normalizeMnames_read (P := P) hm
  have hto := normalizeMnames_toTry hms
  have hton : orDefault P ms ≠ [] := by rw [hto]; exact toTry_ne hne mnames
  obtain ⟨w, hw⟩ := nums_found (sname := some sn) (ov := ov) wf hp.modules h hh hsel
  have hR := right (sname := some sn) (ov := ov) wf hon hp h hist hh hw
  unfold getPropSname
  rw [hsn]
  cases hg : snameAndNums i t (some sn) ov (calls i t ca hist) with
  | mk y ca' =>
    rw [hg] at hw
    cases hw
    cases w with
    | cpus l =>
      obtain ⟨-, -, hmem⟩ := hR
      left
      dsimp only [Gen.map]
      unfold getPropCpus
      have hn' : ∃ l', normalizeCpus i (.nums l) false = .ok l' := by
        unfold normalizeCpus
        refine ⟨_, if_pos ?_⟩
        rw [List.all_eq_true]
        intro c hc
        simpa using hoff c ((hmem c).1 (by simpa [mem_pyDedup] using hc))
      obtain ⟨l', hl'⟩ := hn'
      obtain ⟨-, hm', -⟩ := normalizeCpus_ok hl'
      have hm' : ∀ c, c ∈ l' ↔ c ∈ l := hm'
      rw [hms, hl', hsn]
      dsimp only
      split
      · rfl
      · exact getPvinfo_works (P := P) (ms := ms) (cpusOf := fun c => .ok [c]) (units := l') (T := Selected i a)
          (fun u hu => ⟨u, [], rfl, (hmem u).1 ((hm' u).1 hu)⟩) (by rw [hto]; exact ha) (by rw [hto]; exact hrd) hton
          (fun m => get m l') (fun m => by rw [hget, readCpus_eq])
    | packages l =>
      obtain ⟨h1, hln, h3, h4⟩ := hR
      have ⟨hov', hsn'⟩ : ov = none ∧ sn = .lvl .package := by
        rcases hov with rfl | rfl
        · exact ⟨rfl, h1⟩
        · cases h1
      subst hsn'
      dsimp only [Gen.map]
      unfold getPropPackages
      rw [hms, normalizePackages_isOk h3]
      dsimp only
      split
      · exact .inl rfl
      · rcases getUnits_works (op := .package) hsn rfl hget
          (cpusOf := fun p => packagesToCpus i (.nums [p])) (units := pyDedup l) (T := Selected i a)
          (cover := fun p c => CpuWith i (InPackage p) c) (ms := ms)
          (fun u hu => by
            obtain ⟨q1, q2⟩ := h3 u (mem_pyDedup.1 hu)
            obtain ⟨r, hr⟩ := packageToCpus_isOk q1 q2
            exact ⟨r, hr, mem_packageToCpus q1 hr⟩)
          (fun u hu c hc => (h4 c).2 ⟨u, mem_pyDedup.1 hu, hc⟩) (by rw [hto]; exact ha) (by rw [hto]; exact hrd) hton
          (fun u hu => hcpus u (h3 u (mem_pyDedup.1 hu))) with he | ⟨he, u, hu, c, d, hc, hd, m, hmm, hn⟩
        · exact .inl he
        · rw [he]
          refine .inr ⟨hov', rfl, c, d, (h4 c).2 ⟨u, mem_pyDedup.1 hu, hc⟩, (h4 d).2 ⟨u, mem_pyDedup.1 hu, hd⟩, ?_, m,
            by rw [← hto]; exact hmm, hn⟩
          obtain ⟨c0, tc, htc, ec, ic⟩ := hc
          obtain ⟨d0, td, htd, ed, id⟩ := hd
          refine ⟨tc, htc, td, htd, ec, ed, c0, d0, ?_⟩
          simp only [ident, show tc.package = u from ic, show td.package = u from id]
    | dies d =>
      obtain ⟨h1, hk, hln, h3, h4⟩ := hR
      obtain ⟨hio, hemp⟩ := hdie h1
      have ⟨hov', hsn'⟩ : ov = none ∧ sn = .lvl .die := by
        rcases hov with rfl | rfl
        · exact ⟨rfl, h1⟩
        · cases h1
      subst hsn'
      subst hov'
      have hgd : (getDies i t true (calls i t ca hist)).1 = .ok d := by
        unfold snameAndNums at hg
        have hu : useScope (some (Scope.lvl .die)) none = .lvl .die := rfl
        rw [hu, if_neg (by simp), if_pos rfl] at hg
        cases hgg : getDies i t true (calls i t ca hist) with
        | mk r ca'' =>
          rw [hgg] at hg
          cases r with
          | ok d' => cases hg; rfl
          | error e =>
            exfalso
            dsimp only at hg
            split at hg
            · unfold cpuNums at hg
              cases hc2 : getCpus i t ca'' with
              | mk z ca3 => rw [hc2] at hg; cases z <;> cases hg
            · cases hg
      have hemp := hemp d hgd
      obtain ⟨ds, hds'⟩ := normalizeDiesDict_isOk (fun pd hpd => ⟨hemp pd hpd, h3 pd hpd⟩)
      obtain ⟨-, hmem⟩ := normalizeDiesDict_ok hds' hk
      have hnp := normalizePackages_isOk (i := i) (l := d.map Prod.fst) (by
        intro p hp
        obtain ⟨pd, hpd, rfl⟩ := List.mem_map.1 hp
        obtain ⟨u, hu⟩ := List.exists_mem_of_ne_nil _ (hemp pd hpd)
        obtain ⟨-, q1, t, ht, q2, -⟩ := h3 pd hpd u hu
        exact ⟨q1, t, ht, q2⟩)
      dsimp only [Gen.map]
      unfold getPropDies
      rw [hms, hnp, hds']
      dsimp only
      have hex : ∀ b ∈ ds, UnitEx i .die b.1 b.2 := fun b hb => by
        obtain ⟨pd, hpd, e1, hu⟩ := (hmem b.1 b.2).1 hb
        rw [e1]; exact h3 pd hpd b.2 hu
      have hT : ∀ b ∈ ds, ∀ c, CpuWith i (InUnit .die b.1 b.2) c → Selected i a c := fun b hb c hc => by
        obtain ⟨pd, hpd, e1, hu⟩ := (hmem b.1 b.2).1 hb
        exact (h4 c).2 ⟨pd, hpd, b.2, hu, e1 ▸ hc⟩
      split
      · exact .inl rfl
      · rcases getUnits_works (op := .die) hsn rfl hget
          (cpusOf := fun b : Nat × Nat => diesToCpus i (.nums [b.2]) (.nums [b.1])) (units := ds)
          (T := Selected i a) (cover := fun b c => CpuWith i (InUnit .die b.1 b.2) c) (ms := ms)
          (fun b hb => by
            obtain ⟨q1, q2, tl, htl, q3, q4⟩ := hex b hb
            obtain ⟨r, hr⟩ := inPackageToCpus_isOk (lvl := .die) tl htl q4 q3 q1 q2
            refine ⟨r, hr, fun c => ?_⟩
            rw [mem_inPackageToCpus wf hr]
            simp only [Selects, List.mem_singleton, CpuWith, InUnit]
            constructor
            · rintro ⟨hcn, t, ht, e, -, e1, e2⟩; exact ⟨hcn, t, ht, e, e2, e1⟩
            · rintro ⟨hcn, t, ht, e, e2, e1⟩; exact ⟨hcn, t, ht, e, by rw [e1]; exact q1, e1, e2⟩)
          hT (by rw [hto]; exact ha) (by rw [hto]; exact hrd) hton
          (fun b hb => hio _ _ (hex b hb)) with he | ⟨he, u, hu, c, d, hc, hd, m, hmm, hn⟩
        · exact .inl he
        · rw [he]
          refine .inr ⟨rfl, rfl, c, d, hT u hu c hc, hT u hu d hd, ?_, m, by rw [← hto]; exact hmm, hn⟩
          obtain ⟨c0, tc, htc, ec, ic1, ic2⟩ := hc
          obtain ⟨d0, td, htd, ed, id1, id2⟩ := hd
          refine ⟨tc, htc, td, htd, ec, ed, c0, d0, ?_⟩
          simp only [TLine.get] at ic2 id2
          simp only [ident, ic1, ic2, id1, id2]

/-- For the examples: `msr` is not supported, `sysfs` shows the values. -/
def exRead (vals : List Nat) (m : Mech) (c : Nat) : Except Exn (Option Nat) :=
  if m = .msr then .error .notSupported else .ok vals[c]?

-- Package 1 given as CPUs: one value for the package, with the mechanism used. When its CPUs do not agree, the request is
-- refused, and works per CPU.
example : (∃ s, init exInfo { cpus := some (.nums [2, 6, 7, 3]) } = .ok s ∧
      Agree (Selected exInfo { cpus := some (.nums [2, 6, 7, 3]) }) (exRead [1, 1, 5, 5, 1, 1, 5, 5]) (toTry exPkg none) ∧
      (getPropSname exInfo exPkg (fun m => readCpus (exRead [1, 1, 5, 5, 1, 1, 5, 5] m)) s.1 none none s.2).1 =
        ⟨[.package ⟨1, some 5, .sysfs⟩], none⟩ ∧
      (getPropSname exInfo exPkg (fun m => readCpus (exRead [1, 1, 5, 5, 1, 1, 5, 6] m)) s.1 none none s.2).1 =
        ⟨[], some .usePerCPU⟩ ∧
      (getPropSname exInfo exPkg (fun m => readCpus (exRead [1, 1, 5, 5, 1, 1, 5, 6] m)) s.1 none
        (some (.lvl .CPU)) s.2).1 =
        ⟨[.cpu ⟨2, some 5, .sysfs⟩, .cpu ⟨6, some 5, .sysfs⟩, .cpu ⟨7, some 6, .sysfs⟩, .cpu ⟨3, some 5, .sysfs⟩], none⟩) := by
  refine ⟨_, rfl, ?_, by decide +kernel, by decide +kernel, by decide +kernel⟩
  intro m _ c d _ _ h
  unfold exRead at h ⊢
  split at h
  · rename_i h'; rw [if_pos h']
  · cases h

/-- **C87.** A property which the platform does not support (it has no scope) is shown without a value for every
package and die asked for, with no access to the hardware. -/
theorem C87_no_scope [DecidableEq V] (i : Info) (P : PropDesc) (hs : P.sname = none) (hm : P.mnames ≠ [])
    (get : Mech → List Nat → Gen (Nat × Option V)) :
    (∀ l : List Nat, l.Nodup → (∀ p ∈ l, PkgEx i p) → ∃ m, m ∈ P.mnames ∧
      getPropPackages i P get l none = ⟨l.map (fun p => ⟨p, none, m⟩), none⟩) ∧
    (∀ d : List (Nat × List Nat), (d.map Prod.fst).Nodup → (∀ pd ∈ d, pd.2 ≠ [] ∧ ∀ u ∈ pd.2, UnitEx i .die pd.1 u) →
      ∃ m, m ∈ P.mnames ∧ ∃ ds : List (Nat × Nat), getPropDies i P get d none = ⟨ds.map (fun b => ⟨b, none, m⟩), none⟩ ∧
        ∀ p u, (p, u) ∈ ds ↔ ∃ pd ∈ d, p = pd.1 ∧ u ∈ pd.2) := by
  have hlast : P.mnames.getLast? = some (P.mnames.getLast hm) := List.getLast?_eq_some_getLast hm
  refine ⟨fun l hn hl => ⟨P.mnames.getLast hm, List.getLast_mem hm, ?_⟩, fun d hk hd =>
    ⟨P.mnames.getLast hm, List.getLast_mem hm, ?_⟩⟩
  · have hnp := normalizePackages_isOk (i := i) hl
    unfold getPropPackages
    rw [show normalizeMnames P none true = .ok P.mnames from rfl, hnp, pyDedup_of_nodup hn]
    dsimp only
    split
    · rename_i h; rw [List.isEmpty_iff.1 h]; rfl
    · unfold getUnits; rw [hs, hlast]
  · obtain ⟨ds, hds⟩ := normalizeDiesDict_isOk (i := i) (ds := d) hd
    obtain ⟨-, hmem⟩ := normalizeDiesDict_ok hds hk
    refine ⟨ds, ?_, hmem⟩
    have hnp := normalizePackages_isOk (i := i) (l := d.map Prod.fst) (by
      intro p hp
      obtain ⟨pd, hpd, rfl⟩ := List.mem_map.1 hp
      obtain ⟨u, hu⟩ := List.exists_mem_of_ne_nil _ (hd pd hpd).1
      obtain ⟨-, q1, t, ht, q2, -⟩ := (hd pd hpd).2 u hu
      exact ⟨q1, t, ht, q2⟩)
    unfold getPropDies
    rw [show normalizeMnames P none true = .ok P.mnames from rfl, hnp, hds]
    dsimp only
    split
    · rename_i h
      cases d with
      | nil =>
        cases ds with
        | nil => rfl
        | cons b ds =>
          obtain ⟨pd, hpd, -⟩ := (hmem b.1 b.2).1 (by simp)
          cases hpd
      | cons pd d =>
        simp only [List.all_cons, Bool.and_eq_true, List.isEmpty_iff] at h
        exact absurd h.1 (hd pd (by simp)).1
    · unfold getUnits; rw [hs, hlast]

-- Two packages, no value for both.
example : getPropPackages exInfo ⟨[.msr, .sysfs], none, .lvl .package, true⟩ (fun m => readCpus (exRead [1, 2] m)) [1, 0] none =
    ⟨[⟨1, none, .sysfs⟩, ⟨0, none, .sysfs⟩], none⟩ := by decide +kernel

/-- Why C87 is partial: CPU 0 does not support the property, CPU 1 does. Nothing is shown for both. -/
theorem C87_mixed_counterexample :
    ∃ s, init exInfo { cpus := some (.nums [0, 1]) } = .ok s ∧ Selected exInfo { cpus := some (.nums [0, 1]) } 1 ∧
    (getPropSname exInfo ⟨[.sysfs], some (.lvl .CPU), .lvl .CPU, true⟩
      (fun _ => readCpus (fun c => if c = 0 then .error .notSupported else .ok (some c))) s.1 none none s.2).1 =
      ⟨[.cpu ⟨0, none, .sysfs⟩, .cpu ⟨1, none, .sysfs⟩], none⟩ ∧
    ¬ Shows (fun _ c => if c = 0 then .error .notSupported else .ok (some c)) [.sysfs] 1 none .sysfs := by
  refine ⟨_, rfl, ⟨.inr (.inl ⟨_, rfl, by show 1 ∈ [0, 1]; decide⟩), fun h => absurd rfl h, fun h => absurd rfl h⟩,
    by decide +kernel, ?_⟩
  rintro (⟨pre, post, -, -, h⟩ | ⟨h, -⟩)
  · cases h
  · cases h .sysfs (by simp)

/-- Why C87 has the hypothesis about dies without CPUs: `--packages 0 --dies 0,3`, where die 3 is an I/O die, fails with an
`IndexError` for a property with die scope. -/
theorem C87_io_die_counterexample :
    ∃ s, init exInfo { packages := some (.nums [0]), dies := .nums (.nums [0, 3]) } = .ok s ∧
    (getPropSname exInfo ⟨[.sysfs], some (.lvl .die), .lvl .die, true⟩
      (fun _ => readCpus (fun c => .ok (some c))) s.1 none none s.2).1.err = some .pyIndexError :=
  ⟨_, rfl, by decide +kernel⟩

end Verif.PropsTarget
