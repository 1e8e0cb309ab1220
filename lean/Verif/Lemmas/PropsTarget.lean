import Verif.Props.PropsTargetSpec
import Verif.Props.OpTarget

/-!
Lemmas for C86 and C87.
-/

namespace Verif.PropsTarget

open CPUInfo OpTarget PropsBase

variable {V σ κ : Type}

/-! ### The numbers a property is accessed for -/

/-- The numbers are the ones of the target. -/
def Right (i : Info) (a : Args) (sc : Scope) : Where → Prop
  | .cpus l => l ≠ [] ∧ l.Nodup ∧ ∀ c, c ∈ l ↔ Selected i a c
  | .packages l => sc = .lvl .package ∧ l.Nodup ∧ (∀ p ∈ l, PkgEx i p) ∧
      ∀ c, Selected i a c ↔ ∃ p ∈ l, CpuWith i (InPackage p) c
  | .dies d => sc = .lvl .die ∧ d.keys.Nodup ∧ (∀ pu ∈ d, pu.2.Nodup) ∧
      (∀ pu ∈ d, ∀ u ∈ pu.2, UnitEx i .die pu.1 u) ∧
      ∀ c, Selected i a c ↔ ∃ pd ∈ d, ∃ u ∈ pd.2, CpuWith i (InUnit .die pd.1 u) c

theorem calls_snoc (i : Info) (t : Tgt) (ca : Cache) (h : List Call) (x : Call) :
    calls i t ca (h ++ [x]) = call i t (calls i t ca h) x := by
  simp [calls, List.foldl_append]

theorem unitEx_of_cpu {i : Info} (wf : WF i) {p u c : Nat} (h : CpuWith i (InUnit .die p u) c) :
    UnitEx i .die p u := by
  obtain ⟨h0, l, hl, e, h1, h2⟩ := h
  obtain ⟨-, -, h3, -, h4⟩ := wf.cpuLine l hl (by rw [e]; exact h0)
  have h2' : l.die = u := h2
  have h1' : l.package = p := h1
  exact ⟨by rw [← h2']; exact h3, by rw [← h1']; exact h4, l, hl, h1, h2⟩

theorem cpuNums_right {i : Info} (wf : WF i) {a : Args} {sc : Scope} (hp : Plain i a sc) {t : Tgt} {ca : Cache}
    (h : init i a = .ok (t, ca)) (hist : List Call) {w : Where}
    (hw : (cpuNums i t (calls i t ca hist)).1 = .ok w) : Right i a sc w := by
  unfold cpuNums at hw
  cases hg : getCpus i t (calls i t ca hist) with
  | mk r ca' =>
    rw [hg] at hw
    cases r with
    | error e => cases hw
    | ok l =>
      cases hw
      exact C52_cpus_partial i wf a hp.modules t ca h hist l (by rw [hg])

theorem right {i : Info} (wf : WF i) (hon : i.online ≠ []) {a : Args} {sname ov : Option Scope}
    (hp : Plain i a (scopeOf sname ov)) {t : Tgt} {ca : Cache} (h : init i a = .ok (t, ca)) (hist : List Call)
    (hh : Strict hist) {w : Where} (hw : (snameAndNums i t sname ov (calls i t ca hist)).1 = .ok w) :
    Right i a (scopeOf sname ov) w := by
  have hsc : useScope sname ov = scopeOf sname ov := by
    cases ov <;> cases sname <;> rfl
  unfold snameAndNums at hw
  rw [hsc] at hw
  by_cases h1 : scopeOf sname ov = .lvl .package
  · rw [if_pos h1] at hw
    cases hg : getPackages' i t true (calls i t ca hist) with
    | mk r ca' =>
      rw [hg] at hw
      have hca : ca' = calls i t ca (hist ++ [.packages true]) := by
        rw [calls_snoc]; simp only [call]; rw [hg]
      cases r with
      | error e =>
        dsimp only at hw
        split at hw
        · rw [hca] at hw
          exact cpuNums_right wf hp h _ hw
        · cases hw
      | ok l =>
        cases hw
        obtain ⟨e1, e2⟩ := C53_packages_exact i wf a hp.modules t ca h hist true l (by rw [hg])
        refine ⟨h1, e2, fun p hpl => ?_, fun c => ⟨fun hc => ?_, ?_⟩⟩
        · rcases (e1 p).1 hpl with h | h
          · exact h.1
          · exact h.2
        · obtain ⟨h0, tl, htl, e, hm⟩ := (C53_packages_partial i wf a hp.modules t ca h hist hh.2).1 l
            (by rw [hg]) c hc
          exact ⟨tl.package, hm, h0, tl, htl, e, rfl⟩
        · rintro ⟨p, hpl, hc⟩
          rcases (e1 p).1 hpl with hf | hin
          · exact hf.2 c hc
          · obtain ⟨d, hd, hsel⟩ := hp.packages h1 p hin.1 hin.2 ⟨c, hc⟩
            have hfull := (C53_packages_partial i wf a hp.modules t ca h hist hh.2).2.1.1 ⟨l, by rw [hg]⟩ d hsel
            obtain ⟨d0, td, htd, ed, hf⟩ := hfull
            obtain ⟨-, td', htd', ed', hin'⟩ := hd
            have : td = td' := wf.unique td htd td' htd' (by rw [ed, ed']) (by rw [ed]; exact d0)
            subst this
            rw [show td.package = p from hin'] at hf
            exact hf.2 c hc
  · rw [if_neg h1] at hw
    by_cases h2 : scopeOf sname ov = .lvl .die
    · rw [if_pos h2] at hw
      cases hg : getDies i t true (calls i t ca hist) with
      | mk r ca' =>
        rw [hg] at hw
        have hca : ca' = calls i t ca (hist ++ [.dies true]) := by
          rw [calls_snoc]; simp only [call]; rw [hg]
        cases r with
        | error e =>
          dsimp only at hw
          split at hw
          · rw [hca] at hw
            exact cpuNums_right wf hp h _ hw
          · cases hw
        | ok d =>
          cases hw
          obtain ⟨e1, e2, e3⟩ := C53_dies_exact i wf a hp.modules hon t ca h hist true d (by rw [hg])
          refine ⟨h2, e2, e3, fun pu hpu u hu => ?_, fun c => ⟨fun hc => ?_, ?_⟩⟩
          · rcases (e1 pu.1 u).1 ⟨pu.2, hpu, hu⟩ with h | h | h
            · obtain ⟨c, hc⟩ := h.1
              exact unitEx_of_cpu wf hc
            · exact h.2
            · exact h.2.2
          · obtain ⟨h0, tl, htl, e, us, hm, hu⟩ := (C53_dies_partial i wf a hp.modules t ca h hist hh.1).1 d
              (by rw [hg]) c hc
            exact ⟨(tl.package, us), hm, tl.die, hu, h0, tl, htl, e, rfl, rfl⟩
          · rintro ⟨pd, hpd, u, hu, hc⟩
            rcases (e1 pd.1 u).1 ⟨pd.2, hpd, hu⟩ with hf | hin
            · exact hf.2 c hc
            · obtain ⟨d', hd, hsel⟩ := hp.dies h2 pd.1 u hin ⟨c, hc⟩
              have hfull := (C53_dies_partial i wf a hp.modules t ca h hist hh.1).2.1.1 ⟨d, by rw [hg]⟩ d' hsel
              obtain ⟨d0, td, htd, ed, hf⟩ := hfull
              obtain ⟨-, td', htd', ed', hin'⟩ := hd
              have : td = td' := wf.unique td htd td' htd' (by rw [ed, ed']) (by rw [ed]; exact d0)
              subst this
              rw [show td.package = pd.1 from hin'.1, show td.die = u from hin'.2] at hf
              exact hf.2 c hc
    · rw [if_neg h2] at hw
      exact cpuNums_right wf hp h _ hw

/-! ### Setting -/

theorem setLoop_inv (I Q : σ → Prop) (f : Mech → σ → σ × Except Exn Unit)
    (hf : ∀ m s, I s → I (f m s).1 ∧ ((f m s).2 = .ok () → Q (f m s).1)) (ms : List Mech) (b : Bool) (s : σ)
    (hs : I s) : I (setLoop f ms b s).1 ∧ ∀ m, (setLoop f ms b s).2 = .ok m → Q (setLoop f ms b s).1 := by
  induction ms generalizing b s with
  | nil =>
    refine ⟨hs, fun m hm => ?_⟩
    rw [setLoop] at hm
    cases b <;> cases hm
  | cons m ms ih =>
    have h := hf m s hs
    rw [setLoop]
    cases hg : f m s with
    | mk s1 r =>
      rw [hg] at h
      cases r with
      | ok u => exact ⟨h.1, fun _ _ => h.2 rfl⟩
      | error e =>
        dsimp only
        split
        · exact ih true s1 h.1
        · exact ⟨h.1, fun _ h => by cases h⟩

theorem oneMech_fst (set : List Nat → σ → σ × Except Exn Unit) (r : List Nat) (s : σ) :
    (oneMech set r s).1 = (set r s).1 ∧ ((oneMech set r s).2 = .ok () → (set r s).2 = .ok ()) := by
  unfold oneMech
  cases h : set r s with
  | mk s1 x => cases x with
    | ok u => exact ⟨rfl, fun _ => rfl⟩
    | error e => exact ⟨rfl, fun h => by cases h⟩

/-- How a property is set for the CPUs with `T`: `set` is called for CPUs which represent the units of the I/O scope, with one
mechanism after another, or not at all. -/
def Runs (i : Info) (ios : Scope) (T : Nat → Prop) (norm : V → Except Exn V)
    (set : Mech → V → List Nat → σ → σ × Except Exn Unit) (v0 : Option V) (s : σ) (r : σ × Except Exn Mech) : Prop :=
  (∃ e, r = (s, .error e)) ∨
  ∃ x v l f ms, v0 = some x ∧ norm x = .ok v ∧ (∀ d ∈ l, T d ∧ d ∈ i.online) ∧ (∀ d ∈ l, ∀ c, SameUnit i ios d c → T c) ∧
    (∀ c, T c → ∃ d ∈ l, SameUnit i ios d c) ∧
    (∀ m s, (f m s).1 = (set m v l s).1 ∧ ((f m s).2 = .ok () → (set m v l s).2 = .ok ())) ∧ r = setLoop f ms false s

/-- What is wanted: CPUs with `T` have the new value after success, others have the old value anyway. -/
def Done (T : Nat → Prop) {H : Type} (R : Nat → V → H → Prop) (val : σ → Nat → H) (norm : V → Except Exn V) (v0 : Option V) (s : σ)
    (r : σ × Except Exn Mech) : Prop :=
  (∀ c, ¬ T c → val r.1 c = val s c) ∧
  ∀ m, r.2 = .ok m → ∃ x v, v0 = some x ∧ norm x = .ok v ∧ ∀ c, T c → R c v (val r.1 c)

theorem runs_error {i : Info} {ios : Scope} (T : Nat → Prop) (norm : V → Except Exn V)
    (set : Mech → V → List Nat → σ → σ × Except Exn Unit) (v0 : Option V) (s : σ) (e : Exn) :
    Runs i ios T norm set v0 s (s, .error e) := .inl ⟨e, rfl⟩

/-- Writing for CPUs which represent the I/O scope units of the target. -/
theorem Runs.done {i : Info} {ios : Scope} {H : Type} {R : Nat → V → H → Prop} {val : σ → Nat → H}
    {set : Mech → V → List Nat → σ → σ × Except Exn Unit} {T : Nat → Prop} {norm : V → Except Exn V} {v0 : Option V} {s : σ}
    {r : σ × Except Exn Mech} (hr : Runs i ios T norm set v0 s r) (hl : Local i ios R val set) :
    Done T R val norm v0 s r := by
  rcases hr with ⟨e, rfl⟩ | ⟨x, v, l, f, ms, rfl, hn, h0, h1, h2, hf, rfl⟩
  · exact ⟨fun _ _ => rfl, fun _ h => by cases h⟩
  have hon : ∀ d ∈ l, d ∈ i.online := fun d hd => (h0 d hd).2
  have h := setLoop_inv (fun s' => ∀ c, ¬ T c → val s' c = val s c) (fun s' => ∀ c, T c → R c v (val s' c)) f
    (by
      intro m s' hs'
      rw [(hf m s').1]
      refine ⟨fun c hc => ?_, fun h c hc => ?_⟩
      · rw [hl.keeps m v l s' hon c (fun d hd hs => hc (h1 d hd c hs))]
        exact hs' c hc
      · obtain ⟨d, hd, hs⟩ := h2 c hc
        exact hl.sets m v l s' hon ((hf m s').2 h) d hd c hs)
    ms false s (fun _ _ => rfl)
  exact ⟨h.1, fun m hm => ⟨x, v, rfl, hn, h.2 m hm⟩⟩

/-- What every write for CPUs with `T` keeps, setting a property keeps. -/
theorem Runs.keeps {i : Info} {ios : Scope} {set : Mech → V → List Nat → σ → σ × Except Exn Unit} {T : Nat → Prop}
    {norm : V → Except Exn V} {v0 : Option V} {s : σ} {r : σ × Except Exn Mech} (hr : Runs i ios T norm set v0 s r)
    (I : σ → Prop) (h : ∀ x v m l s, v0 = some x → norm x = .ok v → (∀ d ∈ l, T d ∧ d ∈ i.online) → I s → I (set m v l s).1)
    (hs : I s) : I r.1 := by
  rcases hr with ⟨e, rfl⟩ | ⟨x, v, l, f, ms, rfl, hn, h0, h1, h2, hf, rfl⟩
  · exact hs
  · exact (setLoop_inv I (fun _ => True) f (fun m s' hs' => ⟨by rw [(hf m s').1]; exact h x v m l s' rfl hn h0 hs',
      fun _ => trivial⟩) ms false s hs).1

theorem runs_cpus {i : Info} (wf : WF i) {P : PropDesc}
    {set : Mech → V → List Nat → σ → σ × Except Exn Unit} (hio : ∀ sn, P.sname = some sn → Within i P.iosname sn) (norm : V → Except Exn V) (v0 : Option V)
    (l : List Nat) (mnames : Option (List Mech)) (s : σ) :
    Runs i P.iosname (· ∈ l) norm set v0 s (setPropCpus i P norm set v0 (.nums l) mnames s) := by
  rcases setPropCpus_cases i P norm set v0 (.nums l) mnames s with ⟨v, l', ha, he⟩ | ⟨-, e, he⟩
  · rw [he]
    obtain ⟨-, -, ⟨x, rfl, hn⟩, h1, h2, sn, h3, h4⟩ := ha
    obtain ⟨-, hmem, hon⟩ := normalizeCpus_ok h1
    have hmem : ∀ c, c ∈ l' ↔ c ∈ l := hmem
    have hon : ∀ c ∈ l', c ∈ i.online := by simpa using hon
    have hwh : Whole i sn l' := by
      by_cases hsn : sn ≠ .lvl .module ∧ sn ≠ .lvl .node
      · rcases validate_iff i wf sn l' h2 hon hsn with ⟨-, h⟩ | ⟨h, -⟩
        · exact h
        · rw [h] at h4; cases h4
      · exfalso
        have : sn = .lvl .module ∨ sn = .lvl .node := by
          by_cases h : sn = .lvl .module
          · exact .inl h
          · exact .inr (Classical.byContradiction fun h' => hsn ⟨h, h'⟩)
        rcases this with rfl | rfl <;> cases h4
    exact .inr ⟨x, v, l', _, _, rfl, hn, fun d hd => ⟨(hmem d).1 hd, hon d hd⟩,
      fun d hd c hs => (hmem c).1 (hwh d hd c (hio sn h3 d c hs)),
      fun c hc => ⟨c, (hmem c).2 hc, sameUnit_refl wf (hon c ((hmem c).2 hc)) _⟩, fun m s => ⟨rfl, id⟩, rfl⟩
  · rw [he]
    exact runs_error ..

theorem norm_ok_mnames {P : PropDesc} {mnames : Option (List Mech)} {ms : List Mech}
    (h : normalizeMnames P mnames false = .ok ms) :
    ∀ ml, mnames = some ml → ∀ m ∈ ml, m ∈ P.mnames ∧ m.writable = true := by
  rintro ml rfl m hm
  have : validateMnames P false ml = .ok () := by
    cases hv : validateMnames P false ml with
    | ok u => rfl
    | error e => simp [normalizeMnames, hv] at h
  obtain ⟨h1, h2⟩ := validateMnames_ok.1 this m hm
  exact ⟨h1, h2.resolve_left (by simp)⟩

theorem runs_reaches {i : Info} {ios : Scope}
    {set : Mech → V → List Nat → σ → σ × Except Exn Unit} {T : Nat → Prop} (hon : ∀ c, T c → c ∈ i.online)
    (hT : ∀ c d, T c → SameUnit i ios c d → T d) {r : List Nat} (hr : Reaches i ios T r)
    {norm : V → Except Exn V} {x v : V} (hn : norm x = .ok v) (ms : List Mech) (s : σ) :
    Runs i ios T norm set (some x) s (setLoop (fun m => oneMech (set m v) r) ms false s) :=
  .inr ⟨x, v, r, _, ms, rfl, hn, fun d hd => ⟨hr.2.1 d hd, hon d (hr.2.1 d hd)⟩, fun d hd c hs => hT d c (hr.2.1 d hd) hs,
    fun c hc => by obtain ⟨d, hd, hs, -⟩ := hr.2.2 c hc; exact ⟨d, hd, sameUnit_symm hs⟩,
    fun m s => oneMech_fst _ _ _, rfl⟩

theorem runs_packages {i : Info} (wf : WF i) {P : PropDesc}
    {set : Mech → V → List Nat → σ → σ × Except Exn Unit} (hio : Within i P.iosname (.lvl .package)) (hsn : P.sname = some (.lvl .package)) (norm : V → Except Exn V)
    (v0 : Option V) (l : List Nat) (hp : ∀ p ∈ l, PkgEx i p) (mnames : Option (List Mech)) (s : σ) :
    Runs i P.iosname (fun c => ∃ p ∈ l, CpuWith i (InPackage p) c) norm set v0 s (setPropPackages i P norm set v0 l mnames s) := by
  have hon : ∀ c, (∃ p ∈ l, CpuWith i (InPackage p) c) → c ∈ i.online :=
    fun c ⟨p, _, h⟩ => by simpa using cpuWith_avail (off := false) wf h
  have hT : ∀ c d, (∃ p ∈ l, CpuWith i (InPackage p) c) → SameUnit i P.iosname c d →
      ∃ p ∈ l, CpuWith i (InPackage p) d := by
    rintro c d ⟨p, hpl, h0, tl, htl, e, hin⟩ hcd
    obtain ⟨tc, htc, td, htd, h1, h2, h3, h4, h5⟩ := hio c d hcd
    have : tl = tc := wf.unique tl htl tc htc (by rw [e, h1]) (by rw [e]; exact h3)
    subst this
    refine ⟨p, hpl, h4, td, htd, h2, ?_⟩
    simp only [ident, List.cons.injEq, and_true] at h5
    rw [InPackage, ← h5]; exact hin
  cases hm : normalizeMnames P mnames false with
  | error e => simp only [setPropPackages, hm]; exact runs_error ..
  | ok ms =>
    cases v0 with
    | none => simp only [setPropPackages, hm, normalizeInprop]; exact runs_error ..
    | some x =>
      by_cases hw : P.writable = true
      · cases hn : norm x with
        | error e => simp only [setPropPackages, hm, normalizeInprop, hw, hn]; exact runs_error ..
        | ok v =>
          by_cases hne : l = []
          · subst hne
            simp only [setPropPackages, hm, normalizeInprop, hw, hn, normalizePackages_isOk hp]
            exact runs_error ..
          · obtain ⟨r, hr, he⟩ := C28_set_prop_packages_partial i wf P norm set x v l mnames s
              (norm_ok_mnames hm) hw hn hp hne (.inl hsn) hio
            rw [he]
            exact runs_reaches hon hT hr hn _ _
      · simp only [setPropPackages, hm, normalizeInprop, hw]; exact runs_error ..

theorem runs_dies {i : Info} (wf : WF i) {P : PropDesc}
    {set : Mech → V → List Nat → σ → σ × Except Exn Unit} (hio : Within i P.iosname (.lvl .die)) (hsn : P.sname = some (.lvl .die)) (norm : V → Except Exn V)
    (v0 : Option V) (l : Dict Nat (List Nat)) (hk : l.keys.Nodup) (hp : ∀ pu ∈ l, ∀ u ∈ pu.2, UnitEx i .die pu.1 u)
    (mnames : Option (List Mech)) (s : σ) :
    Runs i P.iosname (fun c => ∃ pd ∈ l, ∃ u ∈ pd.2, CpuWith i (InUnit .die pd.1 u) c) norm set v0 s (setPropDies i P norm set v0 l mnames s) := by
  have hon : ∀ c, (∃ pd ∈ l, ∃ u ∈ pd.2, CpuWith i (InUnit .die pd.1 u) c) → c ∈ i.online :=
    fun c ⟨pd, _, u, _, h⟩ => by simpa using cpuWith_avail (off := false) wf h
  have hT : ∀ c d, (∃ pd ∈ l, ∃ u ∈ pd.2, CpuWith i (InUnit .die pd.1 u) c) → SameUnit i P.iosname c d →
      ∃ pd ∈ l, ∃ u ∈ pd.2, CpuWith i (InUnit .die pd.1 u) d := by
    rintro c d ⟨p, hpl, u, hu, h0, tl, htl, e, hin⟩ hcd
    obtain ⟨tc, htc, td, htd, h1, h2, h3, h4, h5⟩ := hio c d hcd
    have : tl = tc := wf.unique tl htl tc htc (by rw [e, h1]) (by rw [e]; exact h3)
    subst this
    refine ⟨p, hpl, u, hu, h4, td, htd, h2, ?_⟩
    simp only [ident, List.cons.injEq, and_true] at h5
    exact ⟨h5.1.symm.trans hin.1, h5.2.symm.trans hin.2⟩
  by_cases hemp : ∃ pd ∈ l, pd.2 = []
  · have : ∃ e, setPropDies i P norm set v0 l mnames s = (s, .error e) := by
      obtain ⟨pd, hpd, he⟩ := hemp
      have hany : l.any (fun p => p.2.isEmpty) = true := List.any_eq_true.2 ⟨pd, hpd, by simp [he]⟩
      unfold setPropDies
      split
      · exact ⟨_, rfl⟩
      · split
        · exact ⟨_, rfl⟩
        · split
          · exact ⟨_, rfl⟩
          · split
            · exact ⟨_, rfl⟩
            · rw [hany]; exact ⟨_, rfl⟩
    obtain ⟨e, he⟩ := this
    rw [he]; exact runs_error ..
  cases hm : normalizeMnames P mnames false with
  | error e => simp only [setPropDies, hm]; exact runs_error ..
  | ok ms =>
    cases v0 with
    | none => simp only [setPropDies, hm, normalizeInprop]; exact runs_error ..
    | some x =>
      by_cases hw : P.writable = true
      · cases hn : norm x with
        | error e => simp only [setPropDies, hm, normalizeInprop, hw, hn]; exact runs_error ..
        | ok v =>
          by_cases hne : l = []
          · subst hne
            simp only [setPropDies, hm, normalizeInprop, hw, hn, List.map_nil,
              normalizePackages_isOk (i := i) (l := []) (by simp)]
            exact runs_error ..
          · obtain ⟨r, hr, he⟩ := C28_set_prop_dies_partial i wf P norm set x v l mnames s
              (norm_ok_mnames hm) hw hn hk
              (fun pd hpd => ⟨fun h => hemp ⟨pd, hpd, h⟩, fun d hd => by
                obtain ⟨a1, a2, a3⟩ := hp pd hpd d hd; exact ⟨a1, a2, a3⟩⟩) hne (.inl hsn) hio
            rw [he]
            exact runs_reaches hon hT hr hn _ _
      · simp only [setPropDies, hm, normalizeInprop, hw]; exact runs_error ..

/-! ### Getting -/

theorem readCpus_eq (rd : Nat → Except Exn (Option V)) (l : List Nat) :
    readCpus rd l = readUnits (fun c => .ok [c]) rd l := by
  induction l with
  | nil => rfl
  | cons c cs ih => rw [readCpus, readUnits, ih]; cases h : rd c <;> simp [h]

theorem readFirst_eq {get : Mech → List Nat → Gen (Nat × Option V)} {read : Mech → Nat → Except Exn (Option V)}
    (hget : ∀ m l, get m l = readCpus (read m) l) (c : Nat) (m : Mech) : readFirst get c m = read m c := by
  unfold readFirst
  rw [hget, readCpus]
  cases h : read m c with
  | ok v => rfl
  | error e => rfl

/-- What is yielded, and when there is no error everything is. -/
theorem readUnits_spec (cpusOf : κ → Except Exn (List Nat)) (rd : Nat → Except Exn (Option V)) (us : List κ) :
    ((readUnits cpusOf rd us).yields.map Prod.fst <+: us) ∧
    ((readUnits cpusOf rd us).err = none → (readUnits cpusOf rd us).yields.map Prod.fst = us) ∧
    ∀ x ∈ (readUnits cpusOf rd us).yields, ∃ c rest, cpusOf x.1 = .ok (c :: rest) ∧ rd c = .ok x.2 := by
  induction us with
  | nil => exact ⟨List.prefix_refl _, fun _ => rfl, by simp [readUnits]⟩
  | cons u us ih =>
    rw [readUnits]
    cases hc : cpusOf u with
    | error e => exact ⟨List.nil_prefix, nofun, by simp⟩
    | ok l =>
      cases l with
      | nil => exact ⟨List.nil_prefix, nofun, by simp⟩
      | cons c rest =>
        dsimp only
        cases hr : rd c with
        | error e => exact ⟨List.nil_prefix, nofun, by simp⟩
        | ok v =>
          dsimp only
          refine ⟨?_, fun h => ?_, ?_⟩
          · rw [List.map_cons]; exact List.prefix_cons_inj _ |>.2 ih.1
          · rw [List.map_cons, ih.2.1 h]
          · intro x hx
            rcases List.mem_cons.1 hx with rfl | hx
            · exact ⟨c, rest, hc, hr⟩
            · exact ih.2.2 x hx

/-- The generator refuses exactly when the first CPU is refused. -/
theorem readUnits_refuses (cpusOf : κ → Except Exn (List Nat)) (rd : Nat → Except Exn (Option V)) (u : κ)
    (us : List κ) (c : Nat) (rest : List Nat) (hc : cpusOf u = .ok (c :: rest)) :
    Refuses (readUnits cpusOf rd (u :: us)) ↔ rd c = .error .notSupported := by
  rw [readUnits, hc]
  dsimp only [Refuses]
  cases hr : rd c with
  | error e => simp
  | ok v => simp

theorem getLoop_cases (get : Mech → Gen (κ × Option V)) (nums : List κ) (last : Mech) (ms : List Mech) (q : Mech → Bool)
    (hq : ∀ m, q m = true ↔ ¬ Refuses (get m)) :
    (ms.find? q = none ∧ getLoop get nums last ms = ⟨nums.map (fun n => ⟨n, none, last⟩), none⟩) ∨
    ∃ m, ms.find? q = some m ∧ (getLoop get nums last ms).yields = (get m).yields.map (fun p => ⟨p.1, p.2, m⟩) ∧
      ((getLoop get nums last ms).err = none ↔ (get m).err = none) := by
  rcases getLoop_spec get nums last ms with ⟨h1, h2⟩ | ⟨pre, m, post, h1, h2, h3, h4, h5⟩
  · refine .inl ⟨List.find?_eq_none.2 (fun m hm h => (hq m).1 h (h1 m hm)), h2⟩
  · refine .inr ⟨m, ?_, h4, ?_⟩
    · rw [List.find?_eq_some_iff_append]
      refine ⟨(hq m).2 h3, pre, post, h1, fun p hp => ?_⟩
      cases h : q p with
      | false => rfl
      | true => exact absurd (h2 p hp) ((hq p).1 h)
    · rw [h5]; simp

/-- The mechanism to be used for CPU `c`. -/
noncomputable def pick (read : Mech → Nat → Except Exn (Option V)) (ms : List Mech) (c : Nat) : Option Mech :=
  open Classical in ms.find? (fun m => decide (read m c ≠ .error .notSupported))

theorem pick_shows {read : Mech → Nat → Except Exn (Option V)} {ms : List Mech} {c : Nat} {m : Mech} {v : Option V}
    (h : pick read ms c = some m) (hv : read m c = .ok v) : Shows read ms c v m := by
  obtain ⟨-, pre, post, h1, h2⟩ := List.find?_eq_some_iff_append.1 h
  exact .inl ⟨pre, post, h1, fun p hp => by simpa using h2 p hp, hv⟩

theorem pick_none {read : Mech → Nat → Except Exn (Option V)} {ms : List Mech} {c : Nat} {m : Mech}
    (h : pick read ms c = none) (hm : m ∈ ms) : Shows read ms c none m :=
  .inr ⟨fun p hp => by simpa using List.find?_eq_none.1 h p hp, rfl, hm⟩

theorem find?_congr {α : Type} {p q : α → Bool} {l : List α} (h : ∀ x ∈ l, p x = q x) : l.find? p = l.find? q := by
  induction l with
  | nil => rfl
  | cons a l ih =>
    rw [List.find?_cons, List.find?_cons, h a (by simp), ih (fun x hx => h x (by simp [hx]))]

theorem pick_agree {T : Nat → Prop} {read : Mech → Nat → Except Exn (Option V)} {ms : List Mech}
    (h : Agree T read ms) {c d : Nat} (hc : T c) (hd : T d) : pick read ms c = pick read ms d := by
  refine find?_congr (fun m hm => ?_)
  have : read m c = .error .notSupported ↔ read m d = .error .notSupported :=
    ⟨h m hm c d hc hd, h m hm d c hd hc⟩
  simpa using this

theorem getLast_some {ms : List Mech} (h : ms ≠ []) : ∃ m, ms.getLast? = some m ∧ m ∈ ms := by
  cases hl : ms.getLast? with
  | none => exact absurd (List.getLast?_eq_none_iff.1 hl) h
  | some m => exact ⟨m, rfl, List.mem_of_getLast? hl⟩

/-- The loop over the mechanisms for units given by their first CPUs. -/
theorem getPvinfo_units {P : PropDesc} {read : Mech → Nat → Except Exn (Option V)} {ms : List Mech}
    {cpusOf : κ → Except Exn (List Nat)} {units : List κ} {T : Nat → Prop}
    (hT : ∀ u ∈ units, ∃ l, cpusOf u = .ok l ∧ ∀ c ∈ l, T c) (ha : Agree T read (orDefault P ms))
    (get : Mech → Gen (κ × Option V)) (hg : ∀ m, get m = readUnits cpusOf (read m) units) :
    ((getPvinfo P get units ms).yields.map (·.num) <+: units) ∧
    ((getPvinfo P get units ms).err = none → (getPvinfo P get units ms).yields.map (·.num) = units) ∧
    ∀ pv ∈ (getPvinfo P get units ms).yields, ∀ l, cpusOf pv.num = .ok l → ∀ c rest, l = c :: rest →
      (pick read (orDefault P ms) c = some pv.mname ∧ read pv.mname c = .ok pv.val) ∨
      (pick read (orDefault P ms) c = none ∧ pv.val = none ∧ pv.mname ∈ orDefault P ms) := by
  unfold getPvinfo
  by_cases hms : orDefault P ms = []
  · rw [hms]; exact ⟨List.nil_prefix, nofun, by simp⟩
  obtain ⟨last, hl, hlm⟩ := getLast_some hms
  rw [hl]
  dsimp only
  cases units with
  | nil =>
    have hre : ∀ m, ¬ Refuses (get m) := by
      intro m h; rw [hg m] at h; cases h.2
    rcases getLoop_cases get ([] : List κ) last (orDefault P ms) (fun _ => true) (fun m => by simp [hre m]) with
      ⟨h1, h2⟩ | ⟨m, h1, h2, h3⟩
    · rw [h2]; exact ⟨List.prefix_refl _, fun _ => rfl, by simp⟩
    · rw [h2, hg m]; exact ⟨List.prefix_refl _, fun _ => rfl, by simp [readUnits]⟩
  | cons u us =>
    obtain ⟨l, hlu, hlT⟩ := hT u (by simp)
    cases l with
    | nil =>
      have hre : ∀ m, ¬ Refuses (get m) := by
        intro m h; rw [hg m, readUnits, hlu] at h; cases h.2
      rcases getLoop_cases get (u :: us) last (orDefault P ms) (fun _ => true) (fun m => by simp [hre m]) with
        ⟨h1, h2⟩ | ⟨m, h1, h2, h3⟩
      · exfalso
        obtain ⟨x, hx⟩ := List.exists_mem_of_ne_nil _ hms
        exact List.find?_eq_none.1 h1 x hx rfl
      · rw [h3, h2, hg m, readUnits, hlu]
        exact ⟨List.nil_prefix, nofun, by simp⟩
    | cons c0 rest0 =>
      have hT0 : T c0 := hlT c0 (by simp)
      have hTc : ∀ u' ∈ u :: us, ∀ c rest, cpusOf u' = .ok (c :: rest) → T c := by
        intro u' hu' c rest h
        obtain ⟨l, h1, h2⟩ := hT u' hu'
        rw [h] at h1; cases h1
        exact h2 c (by simp)
      rcases getLoop_cases get (u :: us) last (orDefault P ms)
          (open Classical in fun m => decide (read m c0 ≠ .error .notSupported))
          (fun m => by rw [hg m, readUnits_refuses cpusOf (read m) u us c0 rest0 hlu]; simp) with
        ⟨h1, h2⟩ | ⟨m, h1, h2, h3⟩
      · rw [h2]
        refine ⟨by simp [Function.comp_def], fun _ => by simp [Function.comp_def], ?_⟩
        intro pv hpv l hl c rest hlc
        obtain ⟨u', hu', rfl⟩ := List.mem_map.1 hpv
        subst hlc
        refine .inr ⟨?_, rfl, hlm⟩
        rw [pick_agree ha (hTc u' hu' c rest hl) hT0]
        exact h1
      · rw [h3, h2, hg m]
        obtain ⟨s1, s2, s3⟩ := readUnits_spec cpusOf (read m) (u :: us)
        refine ⟨by simpa [Function.comp_def] using s1, fun h => by simpa [Function.comp_def] using s2 h, ?_⟩
        intro pv hpv l hl c rest hlc
        obtain ⟨x, hx, rfl⟩ := List.mem_map.1 hpv
        subst hlc
        obtain ⟨c', rest', h5, h6⟩ := s3 x hx
        have hl' : cpusOf x.1 = .ok (c :: rest) := hl
        rw [hl'] at h5; cases h5
        refine .inl ⟨?_, h6⟩
        have hu' : x.1 ∈ u :: us := s1.subset (List.mem_map_of_mem hx)
        rw [pick_agree ha (hTc x.1 hu' c rest hl) hT0]
        exact h1

/-- The I/O scope validation passed: all the CPUs have the same value. -/
theorem validateIoscope_same [DecidableEq V] {P : PropDesc} {read : Mech → Nat → Except Exn (Option V)}
    {ms : List Mech} {get : Mech → List Nat → Gen (Nat × Option V)} (hget : ∀ m l, get m l = readCpus (read m) l)
    {T : Nat → Prop} (ha : Agree T read (orDefault P ms)) {cpus : List Nat} (hT : ∀ c ∈ cpus, T c)
    (h : validateIoscope P get cpus ms = .ok ()) {c d : Nat} (hc : c ∈ cpus) (hd : d ∈ cpus) {m : Mech}
    (hm : pick read (orDefault P ms) c = some m) : ∃ v, read m c = .ok v ∧ read m d = .ok v := by
  obtain ⟨-, s2, s3⟩ := getPvinfo_units (P := P) (ms := ms) (cpusOf := fun c => .ok [c]) (units := cpus) (T := T)
    (fun u hu => ⟨[u], rfl, by simpa using hT u hu⟩) ha (fun m => get m cpus) (fun m => by rw [hget, readCpus_eq])
  unfold validateIoscope at h
  cases he : (getPvinfo P (fun m => get m cpus) cpus ms).err with
  | some e => simp [he] at h
  | none =>
    simp only [he] at h
    have hsame : sameVals (getPvinfo P (fun m => get m cpus) cpus ms).yields = true := by
      cases hs : sameVals (getPvinfo P (fun m => get m cpus) cpus ms).yields with
      | true => rfl
      | false => rw [hs] at h; cases h
    have hall : ∀ x ∈ (getPvinfo P (fun m => get m cpus) cpus ms).yields,
        ∀ y ∈ (getPvinfo P (fun m => get m cpus) cpus ms).yields, x.val = y.val := by
      revert hsame
      generalize (getPvinfo P (fun m => get m cpus) cpus ms).yields = ys
      intro hsame
      cases ys with
      | nil => simp
      | cons z zs =>
        have : ∀ x ∈ z :: zs, x.val = z.val := by
          intro x hx
          rcases List.mem_cons.1 hx with rfl | hx
          · rfl
          · simpa using List.all_eq_true.1 hsame x hx
        intro x hx y hy
        rw [this x hx, this y hy]
    have hget1 : ∀ x ∈ cpus, ∃ pv ∈ (getPvinfo P (fun m => get m cpus) cpus ms).yields, pv.num = x ∧
        read m x = .ok pv.val := by
      intro x hx
      have hx' := hx
      rw [← s2 he] at hx'
      obtain ⟨pv, hpv, rfl⟩ := List.mem_map.1 hx'
      refine ⟨pv, hpv, rfl, ?_⟩
      rcases s3 pv hpv [pv.num] rfl pv.num [] rfl with ⟨h1, h2⟩ | ⟨h1, -⟩
      · rw [pick_agree ha (hT _ hx) (hT _ hc), hm] at h1
        cases h1; exact h2
      · rw [pick_agree ha (hT _ hx) (hT _ hc), hm] at h1
        cases h1
    obtain ⟨x, hx, -, hx2⟩ := hget1 c hc
    obtain ⟨y, hy, -, hy2⟩ := hget1 d hd
    exact ⟨x.val, hx2, by rw [hall x hx y hy]; exact hy2⟩

theorem validateUnits_ok [DecidableEq V] {P : PropDesc} {sname : Scope} {get : Mech → List Nat → Gen (Nat × Option V)}
    {cpusOf : κ → Except Exn (List Nat)} {ms : List Mech} {units : List κ}
    (h : validateUnits P sname get cpusOf ms units = .ok ()) (hs : sname ≠ P.iosname) :
    ∀ u ∈ units, ∃ l, cpusOf u = .ok l ∧ validateIoscope P get l ms = .ok () := by
  induction units with
  | nil => simp
  | cons u us ih =>
    rw [validateUnits, if_neg hs] at h
    cases hc : cpusOf u with
    | error e => rw [hc] at h; cases h
    | ok l =>
      rw [hc] at h
      dsimp only at h
      cases hv : validateIoscope P get l ms with
      | error e => rw [hv] at h; cases h
      | ok x =>
        rw [hv] at h
        intro u' hu'
        rcases List.mem_cons.1 hu' with rfl | hu'
        · exact ⟨l, hc, hv⟩
        · exact ih h u' hu'

theorem normalizeDiesDict_ok {i : Info} : ∀ {ds : List (Nat × List Nat)} {l : List (Nat × Nat)},
    normalizeDiesDict i ds = .ok l → (ds.map Prod.fst).Nodup →
    l.Nodup ∧ ∀ p d, (p, d) ∈ l ↔ ∃ pd ∈ ds, p = pd.1 ∧ d ∈ pd.2
  | [], l, h, _ => by cases h; exact ⟨List.nodup_nil, by simp⟩
  | (p, l0) :: ds, l, h, hnd => by
    rw [normalizeDiesDict] at h
    cases hd : normalizeDies i l0 p with
    | error e => rw [hd] at h; cases h
    | ok x =>
      have hx : x = pyDedup l0 := by
        unfold normalizeDies at hd
        split at hd
        · cases hd
        · split at hd
          · cases hd; rfl
          · cases hd
      subst hx
      rw [hd] at h
      cases hr : normalizeDiesDict i ds with
      | error e => rw [hr] at h; cases h
      | ok r =>
        rw [hr] at h
        cases h
        simp only [List.map_cons] at hnd
        obtain ⟨hn1, hn2⟩ := List.nodup_cons.1 hnd
        obtain ⟨h2, h3⟩ := normalizeDiesDict_ok hr hn2
        refine ⟨List.nodup_append.2 ⟨?_, h2, ?_⟩, ?_⟩
        · exact List.Pairwise.map _ (fun a b hab h => hab (by cases h; rfl)) (nodup_pyDedup l0)
        · rintro ⟨a, b⟩ hab c hc rfl
          obtain ⟨d, -, e⟩ := List.mem_map.1 hab
          cases e
          obtain ⟨pd, hpd, e, -⟩ := (h3 _ _).1 hc
          exact hn1 (e ▸ List.mem_map_of_mem hpd)
        · intro a b
          rw [List.mem_append, h3]
          simp only [List.mem_map, mem_pyDedup, Prod.mk.injEq, List.mem_cons, exists_eq_or_imp]
          constructor
          · rintro (⟨d, hdm, rfl, rfl⟩ | h)
            · exact .inl ⟨rfl, hdm⟩
            · exact .inr h
          · rintro (⟨rfl, hdm⟩ | h)
            · exact .inl ⟨b, hdm, rfl, rfl⟩
            · exact .inr h

/-- Units: every item is right for all the CPUs of the unit. -/
theorem getUnits_spec [DecidableEq V] {P : PropDesc} {op : Level} {sname : Scope} (hsn : P.sname = some sname)
    {read : Mech → Nat → Except Exn (Option V)} {ms : List Mech}
    {get : Mech → List Nat → Gen (Nat × Option V)} (hget : ∀ m l, get m l = readCpus (read m) l)
    {cpusOf : κ → Except Exn (List Nat)} {units : List κ} {T : Nat → Prop} {cover : κ → Nat → Prop}
    (hcov : ∀ u ∈ units, ∃ l, cpusOf u = .ok l ∧ ∀ c, c ∈ l ↔ cover u c)
    (hT : ∀ u ∈ units, ∀ c, cover u c → T c) (ha : Agree T read (orDefault P ms))
    (hun : sname = P.iosname → ∀ u ∈ units, ∀ c d, cover u c → cover u d → ∀ m, read m c = read m d) :
    ((getUnits P op get cpusOf units ms).yields.map (·.num) <+: units) ∧
    ((getUnits P op get cpusOf units ms).err = none → (getUnits P op get cpusOf units ms).yields.map (·.num) = units) ∧
    ∀ pv ∈ (getUnits P op get cpusOf units ms).yields, ∀ c, cover pv.num c →
      Shows read (orDefault P ms) c pv.val pv.mname := by
  unfold getUnits
  simp only [hsn]
  split
  · exact ⟨List.nil_prefix, nofun, by simp⟩
  · cases hv : validateUnits P sname get cpusOf ms units with
    | error e => exact ⟨List.nil_prefix, nofun, by simp⟩
    | ok x =>
      dsimp only
      obtain ⟨s1, s2, s3⟩ := getPvinfo_units (P := P) (ms := ms) (cpusOf := cpusOf) (units := units) (T := T)
        (fun u hu => by
          obtain ⟨l, h1, h2⟩ := hcov u hu
          exact ⟨l, h1, fun c hc => hT u hu c ((h2 c).1 hc)⟩) ha
        (fun m => readUnits cpusOf (fun c => readFirst get c m) units)
        (fun m => by congr 1; funext c; exact readFirst_eq hget c m)
      refine ⟨s1, s2, fun pv hpv c hc => ?_⟩
      have hu : pv.num ∈ units := s1.subset (List.mem_map_of_mem hpv)
      obtain ⟨l, hl, hmem⟩ := hcov _ hu
      cases l with
      | nil => cases (hmem c).2 hc
      | cons c0 rest =>
        have hc0 : cover pv.num c0 := (hmem c0).1 (by simp)
        have hTc := hT _ hu c hc
        have hT0 := hT _ hu c0 hc0
        rcases s3 pv hpv _ hl c0 rest rfl with ⟨h1, h2⟩ | ⟨h1, h2, h3⟩
        · refine pick_shows (by rw [pick_agree ha hTc hT0]; exact h1) ?_
          by_cases hs : sname = P.iosname
          · rw [hun hs _ hu c c0 hc hc0]; exact h2
          · obtain ⟨l', e1, e2⟩ := validateUnits_ok hv hs _ hu
            rw [hl] at e1; cases e1
            obtain ⟨v, e3, e4⟩ := validateIoscope_same hget ha (fun c hc => hT _ hu c ((hmem c).1 hc)) e2
              (by simp) ((hmem c).2 hc) h1
            rw [h2] at e3; cases e3
            exact e4
        · rw [h2]
          exact pick_none (by rw [pick_agree ha hTc hT0]; exact h1) h3

/-! ### Getting does not fail -/

theorem readUnits_works {cpusOf : κ → Except Exn (List Nat)} {rd : Nat → Except Exn (Option V)} {us : List κ}
    (h : ∀ u ∈ us, ∃ c rest, cpusOf u = .ok (c :: rest) ∧ ∃ v, rd c = .ok v) : (readUnits cpusOf rd us).err = none := by
  induction us with
  | nil => rfl
  | cons u us ih =>
    obtain ⟨c, rest, h1, v, h2⟩ := h u (by simp)
    rw [readUnits, h1]
    dsimp only
    rw [h2]
    exact ih (fun u hu => h u (by simp [hu]))

theorem getPvinfo_works {P : PropDesc} {read : Mech → Nat → Except Exn (Option V)} {ms : List Mech}
    {cpusOf : κ → Except Exn (List Nat)} {units : List κ} {T : Nat → Prop}
    (hT : ∀ u ∈ units, ∃ c rest, cpusOf u = .ok (c :: rest) ∧ T c) (ha : Agree T read (orDefault P ms))
    (hr : Reads T read (orDefault P ms)) (hms : orDefault P ms ≠ [])
    (get : Mech → Gen (κ × Option V)) (hg : ∀ m, get m = readUnits cpusOf (read m) units) :
    (getPvinfo P get units ms).err = none := by
  unfold getPvinfo
  obtain ⟨last, hl, hlm⟩ := getLast_some hms
  rw [hl]
  dsimp only
  cases units with
  | nil =>
    have hre : ∀ m, ¬ Refuses (get m) := by
      intro m h; rw [hg m] at h; cases h.2
    rcases getLoop_cases get ([] : List κ) last (orDefault P ms) (fun _ => true) (fun m => by simp [hre m]) with
      ⟨h1, h2⟩ | ⟨m, h1, h2, h3⟩
    · rw [h2]
    · rw [h3, hg m]; rfl
  | cons u us =>
    obtain ⟨c0, rest0, hlu, hT0⟩ := hT u (by simp)
    rcases getLoop_cases get (u :: us) last (orDefault P ms)
        (open Classical in fun m => decide (read m c0 ≠ .error .notSupported))
        (fun m => by rw [hg m, readUnits_refuses cpusOf (read m) u us c0 rest0 hlu]; simp) with
      ⟨h1, h2⟩ | ⟨m, h1, h2, h3⟩
    · rw [h2]
    · rw [h3, hg m]
      have hm : m ∈ orDefault P ms := List.mem_of_find?_eq_some h1
      have hn : read m c0 ≠ .error .notSupported := by simpa using List.find?_some h1
      refine readUnits_works (fun u' hu' => ?_)
      obtain ⟨c, rest, h5, h6⟩ := hT u' hu'
      refine ⟨c, rest, h5, ?_⟩
      rcases hr m hm c h6 with h7 | h7
      · exact absurd (ha m hm c c0 h6 hT0 h7) hn
      · exact h7

theorem validateIoscope_works [DecidableEq V] {P : PropDesc} {read : Mech → Nat → Except Exn (Option V)}
    {ms : List Mech} {get : Mech → List Nat → Gen (Nat × Option V)} (hget : ∀ m l, get m l = readCpus (read m) l)
    {T : Nat → Prop} (ha : Agree T read (orDefault P ms)) (hr : Reads T read (orDefault P ms))
    (hms : orDefault P ms ≠ []) {cpus : List Nat} (hT : ∀ c ∈ cpus, T c) :
    validateIoscope P get cpus ms = .ok () ∨
    (validateIoscope P get cpus ms = .error .usePerCPU ∧
      ∃ c ∈ cpus, ∃ d ∈ cpus, ∃ m ∈ orDefault P ms, read m c ≠ read m d) := by
  obtain ⟨s1, s2, s3⟩ := getPvinfo_units (P := P) (ms := ms) (cpusOf := fun c => .ok [c]) (units := cpus) (T := T)
    (fun u hu => ⟨[u], rfl, by simpa using hT u hu⟩) ha (fun m => get m cpus) (fun m => by rw [hget, readCpus_eq])
  have he := getPvinfo_works (P := P) (ms := ms) (cpusOf := fun c => .ok [c]) (units := cpus) (T := T)
    (fun u hu => ⟨u, [], rfl, hT u hu⟩) ha hr hms (fun m => get m cpus) (fun m => by rw [hget, readCpus_eq])
  unfold validateIoscope
  simp only [he]
  cases hs : sameVals (getPvinfo P (fun m => get m cpus) cpus ms).yields with
  | true => exact .inl rfl
  | false =>
    refine .inr ⟨rfl, ?_⟩
    have : ∃ x ∈ (getPvinfo P (fun m => get m cpus) cpus ms).yields,
        ∃ y ∈ (getPvinfo P (fun m => get m cpus) cpus ms).yields, x.val ≠ y.val := by
      revert hs
      generalize (getPvinfo P (fun m => get m cpus) cpus ms).yields = ys
      intro hs
      cases ys with
      | nil => cases hs
      | cons z zs =>
        obtain ⟨y, hy, hyv⟩ := List.all_eq_false.1 hs
        exact ⟨y, by simp [hy], z, by simp, by simpa using hyv⟩
    obtain ⟨x, hx, y, hy, hxy⟩ := this
    have hxc := s1.subset (List.mem_map_of_mem (f := (·.num)) hx)
    have hyc := s1.subset (List.mem_map_of_mem (f := (·.num)) hy)
    have hpk := pick_agree ha (hT _ hxc) (hT _ hyc)
    rcases s3 x hx [x.num] rfl x.num [] rfl with ⟨h1, h2⟩ | ⟨h1, h2, -⟩ <;>
    rcases s3 y hy [y.num] rfl y.num [] rfl with ⟨h3, h4⟩ | ⟨h3, h4, -⟩
    · rw [hpk, h3] at h1
      have hm : y.mname = x.mname := Option.some.inj h1
      refine ⟨x.num, hxc, y.num, hyc, y.mname, List.mem_of_find?_eq_some h3, ?_⟩
      rw [h4, hm, h2]
      intro h
      exact hxy (Except.ok.inj h)
    · rw [hpk, h3] at h1; cases h1
    · rw [hpk, h3] at h1; cases h1
    · exact absurd (h2.trans h4.symm) hxy

theorem validateUnits_works [DecidableEq V] {P : PropDesc} {read : Mech → Nat → Except Exn (Option V)} {sname : Scope}
    {ms : List Mech} {get : Mech → List Nat → Gen (Nat × Option V)} (hget : ∀ m l, get m l = readCpus (read m) l)
    {T : Nat → Prop} (ha : Agree T read (orDefault P ms)) (hr : Reads T read (orDefault P ms))
    (hms : orDefault P ms ≠ []) {cpusOf : κ → Except Exn (List Nat)} {units : List κ}
    (hT : ∀ u ∈ units, ∃ l, cpusOf u = .ok l ∧ ∀ c ∈ l, T c) :
    validateUnits P sname get cpusOf ms units = .ok () ∨
    (validateUnits P sname get cpusOf ms units = .error .usePerCPU ∧
      ∃ u ∈ units, ∃ l, cpusOf u = .ok l ∧ ∃ c ∈ l, ∃ d ∈ l, ∃ m ∈ orDefault P ms, read m c ≠ read m d) := by
  induction units with
  | nil => exact .inl rfl
  | cons u us ih =>
    have ih := ih (fun u hu => hT u (by simp [hu]))
    have ih' : validateUnits P sname get cpusOf ms us = .ok () ∨
      (validateUnits P sname get cpusOf ms us = .error .usePerCPU ∧
        ∃ u' ∈ u :: us, ∃ l, cpusOf u' = .ok l ∧ ∃ c ∈ l, ∃ d ∈ l, ∃ m ∈ orDefault P ms, read m c ≠ read m d) := by
      rcases ih with h | ⟨h, u', hu', h2⟩
      · exact .inl h
      · exact .inr ⟨h, u', by simp [hu'], h2⟩
    rw [validateUnits]
    split
    · exact ih'
    · obtain ⟨l, h1, h2⟩ := hT u (by simp)
      rw [h1]
      dsimp only
      rcases validateIoscope_works hget ha hr hms h2 with h | ⟨h, c, hc, d, hd, m, hm, hne⟩
      · rw [h]; exact ih'
      · rw [h]; exact .inr ⟨rfl, u, by simp, l, h1, c, hc, d, hd, m, hm, hne⟩

theorem getUnits_works [DecidableEq V] {P : PropDesc} {op : Level} {sname : Scope} (hsn : P.sname = some sname)
    (hop : scopeOkFor op sname = true)
    {read : Mech → Nat → Except Exn (Option V)} {ms : List Mech}
    {get : Mech → List Nat → Gen (Nat × Option V)} (hget : ∀ m l, get m l = readCpus (read m) l)
    {cpusOf : κ → Except Exn (List Nat)} {units : List κ} {T : Nat → Prop} {cover : κ → Nat → Prop}
    (hcov : ∀ u ∈ units, ∃ l, cpusOf u = .ok l ∧ ∀ c, c ∈ l ↔ cover u c)
    (hT : ∀ u ∈ units, ∀ c, cover u c → T c) (ha : Agree T read (orDefault P ms)) (hr : Reads T read (orDefault P ms))
    (hms : orDefault P ms ≠ []) (hne : ∀ u ∈ units, ∃ c, cover u c) :
    (getUnits P op get cpusOf units ms).err = none ∨
    (getUnits P op get cpusOf units ms = ⟨[], some .usePerCPU⟩ ∧
      ∃ u ∈ units, ∃ c d, cover u c ∧ cover u d ∧ ∃ m ∈ orDefault P ms, read m c ≠ read m d) := by
  unfold getUnits
  simp only [hsn, hop]
  rw [if_neg (by simp)]
  rcases validateUnits_works (sname := sname) (units := units) hget ha hr hms (fun u hu => by
      obtain ⟨l, h1, h2⟩ := hcov u hu
      exact ⟨l, h1, fun c hc => hT u hu c ((h2 c).1 hc)⟩) with h | ⟨h, u, hu, l, h1, c, hc, d, hd, m, hm, hn⟩
  · rw [h]
    refine .inl (getPvinfo_works (T := T) (cpusOf := cpusOf) (fun u hu => ?_) ha hr hms _
      (fun m => by congr 1; funext c; exact readFirst_eq hget c m))
    obtain ⟨l, h1, h2⟩ := hcov u hu
    obtain ⟨c, hc⟩ := hne u hu
    cases l with
    | nil => exact absurd ((h2 c).2 hc) (by simp)
    | cons c' rest => exact ⟨c', rest, h1, hT u hu c' ((h2 c').1 (by simp))⟩
  · rw [h]
    obtain ⟨l', h1', h2'⟩ := hcov u hu
    rw [h1] at h1'; cases h1'
    exact .inr ⟨rfl, u, hu, c, d, (h2' c).1 hc, (h2' d).1 hd, m, hm, hn⟩

end Verif.PropsTarget
