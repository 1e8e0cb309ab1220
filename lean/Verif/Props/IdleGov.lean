import Verif.Lemmas.IdleGov

/-!
C81: the idle driver and the idle governor.
-/

namespace Verif.IdleGov

open Verif.FreqInfo (splitWs)

/-! ### Specification -/

/-- The governor of the last successful "set" call of a series of calls with the given results. -/
def lastSet : List (Op × Except Exn Res) → Option PyStr
  | [] => none
  | (.set g, .ok _) :: l => (lastSet l).or (some g)
  | _ :: l => lastSet l

/-! ### Proofs -/

theorem step_spec {E : Env} (hE : CacheOk E) (o : Op) {s : St} (hs : Coh E s) :
    Coh E (step E o s).1 ∧
    (step E o s).1.files = (match o with | .set g => (setPlain E.wfail g s.files).1 | _ => s.files) ∧
    (step E o s).2 = (match o with
      | .driver => (driverPlain s.files).map .text
      | .current => (currentPlain s.files).map .text
      | .avail => (availPlain s.files).map .list
      | .set g => (setPlain E.wfail g s.files).2.map fun _ => .done) := by
  cases o with
  | driver =>
    obtain ⟨h1, h2, _, h4⟩ := driver_spec hE hs
    exact ⟨h1, h2, by show (driver E s).2.map _ = _; rw [h4]⟩
  | current =>
    obtain ⟨h1, h2, h4⟩ := current_spec hE hs
    exact ⟨h1, h2, by show (current E s).2.map _ = _; rw [h4]⟩
  | avail =>
    obtain ⟨h1, h2, _, h4⟩ := avail_spec hE hs
    exact ⟨h1, h2, by show (avail E s).2.map _ = _; rw [h4]⟩
  | set g =>
    obtain ⟨h1, h2, h4⟩ := set_spec hE g hs
    exact ⟨h1, h2, by show (set E g s).2.map _ = _; rw [h4]⟩

theorem run_coh {E : Env} (hE : CacheOk E) (ops : List Op) {s : St} (hs : Coh E s) :
    Coh E (run E ops s).1 := by
  induction ops generalizing s with
  | nil => exact hs
  | cons o os ih => exact ih (step_spec hE o hs).1

theorem run_same {E E' : Env} (hE : CacheOk E) (hE' : CacheOk E') (hw : E.wfail = E'.wfail) (ops : List Op)
    {s s' : St} (hs : Coh E s) (hs' : Coh E' s') (hf : s.files = s'.files) :
    (run E ops s).1.files = (run E' ops s').1.files ∧ (run E ops s).2 = (run E' ops s').2 := by
  induction ops generalizing s s' with
  | nil => exact ⟨hf, rfl⟩
  | cons o os ih =>
    obtain ⟨h1, h2, h3⟩ := step_spec hE o hs
    obtain ⟨h1', h2', h3'⟩ := step_spec hE' o hs'
    rw [← hf, ← hw] at h2' h3'
    obtain ⟨k1, k2⟩ := ih h1 h1' (h2.trans h2'.symm)
    refine ⟨k1, ?_⟩
    show (step E o s).2 :: (run E os (step E o s).1).2 = (step E' o s').2 :: (run E' os (step E' o s').1).2
    rw [h3, h3', k2]

/-- C81: caching is invisible. Whatever methods are called, in whatever order, the results and the
contents of the files are the same as without caching. -/
theorem C81_idle_cache (E : Env) (hE : E.cacheOn = true → E.cpu0 = true) (ops : List Op) (F : Files) :
    (run E ops (init F)).2 = (run { E with cacheOn := false } ops (init F)).2 ∧
    (run E ops (init F)).1.files = (run { E with cacheOn := false } ops (init F)).1.files :=
  (run_same (E' := { E with cacheOn := false }) hE (fun h => nomatch h) rfl ops (coh_init E F)
    (coh_init _ F) rfl).symm

/-- C81: after any series of calls the driver, the governor and the list of the governors reported are
those in the files, without the surrounding white space. "Not supported" is reported exactly if there is no
idle driver or no such file. -/
theorem C81_idle_reads (E : Env) (hE : E.cacheOn = true → E.cpu0 = true) (ops : List Op) (F : Files) :
    let s := (run E ops (init F)).1
    (∀ d, s.files.driver = some d →
      (step E .driver s).2 = .ok (.text (PyStr.strip d)) ∧
      (∀ g, s.files.current = some g → (step E .current s).2 = .ok (.text (PyStr.strip g))) ∧
      (∀ t, s.files.avail = some t → (step E .avail s).2 = .ok (.list (splitWs (PyStr.strip t)))) ∧
      (s.files.current = none → (step E .current s).2 = .error .notSupported) ∧
      (s.files.avail = none → (step E .avail s).2 = .error .notSupported)) ∧
    (s.files.driver = none → ∀ o, (∀ g, o ≠ .set g) → (step E o s).2 = .error .notSupported) := by
  intro s
  have hs : Coh E s := run_coh hE ops (coh_init E F)
  have key := fun o => (step_spec hE o hs).2.2
  refine ⟨?_, ?_⟩
  · intro d hd
    have h : driverPlain s.files = .ok (PyStr.strip d) := by unfold driverPlain; rw [hd]
    refine ⟨by rw [key]; dsimp only; rw [h]; rfl, ?_, ?_, ?_, ?_⟩
    · intro g hg; rw [key]; dsimp only; unfold currentPlain; rw [h, hg]; rfl
    · intro g hg; rw [key]; dsimp only; unfold availPlain; rw [h, hg]; rfl
    · intro hg; rw [key]; dsimp only; unfold currentPlain; rw [h, hg]; rfl
    · intro hg; rw [key]; dsimp only; unfold availPlain; rw [h, hg]; rfl
  · intro hd o ho
    have h : driverPlain s.files = .error .notSupported := by unfold driverPlain; rw [hd]
    rw [key]
    cases o with
    | driver => dsimp only; rw [h]; rfl
    | current => dsimp only; unfold currentPlain; rw [h]; rfl
    | avail => dsimp only; unfold availPlain; rw [h]; rfl
    | set g => exact absurd rfl (ho g)

/-- C81: setting the governor. It succeeds exactly if there is an idle driver, the governor is one of the
available ones, the file exists and the kernel accepts it. Then the file holds it and nothing else changes.
Otherwise no file changes. -/
theorem C81_idle_set (E : Env) (hE : E.cacheOn = true → E.cpu0 = true) (ops : List Op) (F : Files)
    (g : PyStr) :
    let s := (run E ops (init F)).1
    let s' := (step E (.set g) s).1
    ((∃ r, (step E (.set g) s).2 = .ok r) ↔
      s.files.driver ≠ none ∧ (∃ t, s.files.avail = some t ∧ g ∈ splitWs (PyStr.strip t)) ∧
      s.files.current ≠ none ∧ E.wfail g = none) ∧
    ((∃ r, (step E (.set g) s).2 = .ok r) →
      s'.files = { s.files with current := some g } ∧ PyStr.strip g = g) ∧
    ((∃ e, (step E (.set g) s).2 = .error e) → s'.files = s.files) ∧
    (s.files.driver = none → (step E (.set g) s).2 = .error .notSupported) := by
  intro s s'
  have hs : Coh E s := run_coh hE ops (coh_init E F)
  obtain ⟨-, h2, h3⟩ := step_spec hE (.set g) hs
  dsimp only at h2 h3
  rw [h3]
  have h2' : s'.files = (setPlain E.wfail g s.files).1 := h2
  rw [h2']
  unfold setPlain
  cases hd : s.files.driver with
  | none =>
    have : availPlain s.files = .error .notSupported := by unfold availPlain driverPlain; rw [hd]
    rw [this]
    simp [Except.map]
  | some d =>
    cases ht : s.files.avail with
    | none =>
      have : availPlain s.files = .error .notSupported := by
        unfold availPlain driverPlain; rw [hd, ht]
      rw [this]
      simp [Except.map]
    | some t =>
      have ha : availPlain s.files = .ok (splitWs (PyStr.strip t)) := by
        unfold availPlain driverPlain; rw [hd, ht]
      rw [ha]
      dsimp only
      by_cases hg : g ∈ splitWs (PyStr.strip t)
      · have hw := strip_word (splitWs_words _ g hg).2
        rw [if_neg (by intro h; rw [List.isEmpty_iff] at h; rw [h] at hg; cases hg),
          if_neg (by simpa using hg)]
        unfold writeCurrent
        cases hc : s.files.current with
        | none => simp [Except.map]
        | some c =>
          cases he : E.wfail g with
          | some e => simp [Except.map]
          | none => simp [Except.map, hg, hw]
      · have hno : ∀ x : Files × Except Exn Unit, (x = (if (splitWs (PyStr.strip t)).isEmpty then
            (s.files, .error .notSupported) else if !(splitWs (PyStr.strip t)).contains g then
            (s.files, .error .error) else writeCurrent E.wfail g s.files)) →
            x.1 = s.files ∧ ∃ e, x.2 = .error e := by
          intro x hx
          rw [hx]
          by_cases he : (splitWs (PyStr.strip t)).isEmpty = true
          · rw [if_pos he]; exact ⟨rfl, _, rfl⟩
          · rw [if_neg he, if_pos (by simpa using hg)]; exact ⟨rfl, _, rfl⟩
        obtain ⟨k1, e, k2⟩ := hno _ rfl
        rw [k1, k2]
        simp [Except.map, hg]

/-- C81: over any series of calls the governor is the one of the last successful "set" call, or the
initial one if there was none; the other files never change. -/
theorem C81_idle_last (E : Env) (hE : E.cacheOn = true → E.cpu0 = true) (ops : List Op) (F : Files) :
    let s := (run E ops (init F)).1
    s.files = { F with current := (match lastSet (ops.zip (run E ops (init F)).2) with
      | none => F.current
      | some g => some g) } := by
  intro s
  have key : ∀ (ops : List Op) (s : St), Coh E s →
      (run E ops s).1.files = { s.files with current := (match lastSet (ops.zip (run E ops s).2) with
        | none => s.files.current
        | some g => some g) } := by
    intro ops
    induction ops with
    | nil => intro s _; rfl
    | cons o os ih =>
      intro s hs
      obtain ⟨h1, h2, h3⟩ := step_spec hE o hs
      have hi := ih _ h1
      show (run E os (step E o s).1).1.files = _
      rw [hi]
      have hz : (o :: os).zip (run E (o :: os) s).2 =
          (o, (step E o s).2) :: os.zip (run E os (step E o s).1).2 := rfl
      rw [hz]
      generalize os.zip (run E os (step E o s).1).2 = z
      cases o with
      | driver => rw [h2]; rfl
      | current => rw [h2]; rfl
      | avail => rw [h2]; rfl
      | set g =>
        dsimp only at h2 h3
        rw [h2, h3]
        have hw : (setPlain E.wfail g s.files = (s.files, (setPlain E.wfail g s.files).2) ∧
              ∃ e, (setPlain E.wfail g s.files).2 = .error e) ∨
            setPlain E.wfail g s.files = ({ s.files with current := some g }, .ok ()) := by
          unfold setPlain
          split
          · exact .inl ⟨rfl, _, rfl⟩
          · split
            · exact .inl ⟨rfl, _, rfl⟩
            · split
              · exact .inl ⟨rfl, _, rfl⟩
              · unfold writeCurrent
                split
                · exact .inl ⟨rfl, _, rfl⟩
                · split
                  · exact .inl ⟨rfl, _, rfl⟩
                  · exact .inr rfl
        rcases hw with ⟨hw, e, he⟩ | hw
        · rw [he] at hw ⊢
          rw [hw]
          rfl
        · rw [hw]
          show _ = { s.files with current := (match (lastSet z).or (some g) with
            | none => s.files.current
            | some g => some g) }
          cases lastSet z <;> rfl
  exact key ops (init F) (coh_init E F)

/-- C81 is false of the code if CPU 0 is offline: with caching, which is the default, neither the driver
can be read nor the governor be set, although it works without caching. The cached items belong to CPU 0,
and the cache refuses a CPU which is offline. -/
theorem C81_idle_cpu0_counterexample :
    ∃ (E : Env) (F : Files) (g : PyStr), E.cacheOn = true ∧
      (step E .driver (init F)).2 = .error .error ∧
      (step E (.set g) (init F)).2 = .error .error ∧
      (step { E with cacheOn := false } .driver (init F)).2 = .ok (.text "intel_idle".toList) ∧
      (step { E with cacheOn := false } (.set g) (init F)).2 = .ok .done :=
  ⟨⟨true, false, fun _ => none⟩,
    ⟨some "intel_idle\n".toList, some "menu teo\n".toList, some "menu\n".toList⟩, "teo".toList,
    by decide +kernel⟩

/-- Files of a usual system. -/
def exFiles : Files :=
  ⟨some "intel_idle\n".toList, some "ladder menu teo haltpoll \n".toList, some "menu\n".toList⟩

/-- The kernel refuses "ladder". -/
def exEnv : Env := ⟨true, true, fun g => if g = "ladder".toList then some .error else none⟩

/-- A series of calls with failing and successful ones. -/
example : (run exEnv [.current, .set "teo".toList, .current, .set "ladder".toList, .current,
      .set "none".toList, .avail] (init exFiles)).2 =
    [.ok (.text "menu".toList), .ok .done, .ok (.text "teo".toList), .error .error,
      .ok (.text "teo".toList), .error .error,
      .ok (.list ["ladder".toList, "menu".toList, "teo".toList, "haltpoll".toList])] ∧
    (exEnv.cacheOn = true → exEnv.cpu0 = true) := by decide +kernel

example : lastSet [(.set "teo".toList, .ok .done), (.set "ladder".toList, .error .error),
    (.current, .ok (.text "teo".toList))] = some "teo".toList := by decide +kernel

end Verif.IdleGov
