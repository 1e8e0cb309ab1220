import Verif.Model.CPUFreq

/-!
C57, C60: turbo, driver mode and governor.
-/

namespace Verif.CPUFreq

open SysFiles

/-! ### Writing a file -/

theorem write_cases {π : Type} [DecidableEq π] (E : SysFiles.Env π) (F : Files π) (p : π) (v : PyStr) :
    (∃ e, write E F p v = (F, .error e) ∧ (F p = none ∧ e = .notSupported ∨ E.wfail p v = some e)) ∨
    (E.wfail p v = none ∧ F p ≠ none ∧ write E F p v = (fun q => if q = p then some v else F q, .ok ())) := by
  unfold write
  cases hp : F p with
  | none => exact Or.inl ⟨_, rfl, Or.inl ⟨rfl, rfl⟩⟩
  | some x =>
    cases hw : E.wfail p v with
    | some e => exact Or.inl ⟨e, rfl, Or.inr rfl⟩
    | none => exact Or.inr ⟨rfl, by simp, rfl⟩

theorem getDriver_congr (E : Env) {F F' : Files Path} {c : Nat} (h : F' (.driver c) = F (.driver c)) :
    getDriver E F' c = getDriver E F c := by
  unfold getDriver SysFiles.read
  rw [h]

theorem setTurbo_spec (E : Env) (en : Bool) (cpus : List Nat) (F : Files Path) :
    (∀ p, p ≠ .noTurbo → p ≠ .boost → (setTurbo E en cpus F).1 p = F p) ∧
    ((setTurbo E en cpus F).1 .noTurbo = F .noTurbo ∨
      ((∃ c ∈ cpus, getDriver E F c = .ok intelPstate) ∧
        (setTurbo E en cpus F).1 .noTurbo = some (boolStr (!en)))) ∧
    ((setTurbo E en cpus F).1 .boost = F .boost ∨
      ((∃ c ∈ cpus, getDriver E F c = .ok acpiCpufreq) ∧
        (setTurbo E en cpus F).1 .boost = some (boolStr en))) ∧
    ((setTurbo E en cpus F).2 = .ok () → ∀ c ∈ cpus,
      (getDriver E F c = .ok intelPstate ∧ (setTurbo E en cpus F).1 .noTurbo = some (boolStr (!en))) ∨
      (getDriver E F c = .ok acpiCpufreq ∧ (setTurbo E en cpus F).1 .boost = some (boolStr en))) := by
  induction cpus generalizing F with
  | nil =>
    exact ⟨(fun _ _ _ => rfl), Or.inl rfl, Or.inl rfl, by intro _ c hc; cases hc⟩
  | cons c cpus ih =>
    have stay : ∀ e, (∀ p, p ≠ Path.noTurbo → p ≠ Path.boost → (F, (Except.error e : Except Exn Unit)).1 p = F p) ∧
        (F .noTurbo = F .noTurbo ∨ ((∃ d ∈ c :: cpus, getDriver E F d = .ok intelPstate) ∧
          F .noTurbo = some (boolStr (!en)))) ∧
        (F .boost = F .boost ∨ ((∃ d ∈ c :: cpus, getDriver E F d = .ok acpiCpufreq) ∧
          F .boost = some (boolStr en))) ∧
        ((Except.error e : Except Exn Unit) = .ok () → ∀ d ∈ c :: cpus,
          (getDriver E F d = .ok intelPstate ∧ F .noTurbo = some (boolStr (!en))) ∨
          (getDriver E F d = .ok acpiCpufreq ∧ F .boost = some (boolStr en))) :=
      fun e => ⟨(fun _ _ _ => rfl), Or.inl rfl, Or.inl rfl, (fun h => by cases h)⟩
    unfold setTurbo
    cases hd : getDriver E F c with
    | error e => exact stay e
    | ok drv =>
      dsimp only
      by_cases h1 : drv = intelPstate
      · subst h1
        rw [if_pos rfl]
        rcases write_cases E.fs F .noTurbo (boolStr (!en)) with ⟨e, hw, _⟩ | ⟨_, _, hw⟩
        · rw [hw]; exact stay _
        · rw [hw]
          dsimp only
          generalize hF1 : (fun q => if q = Path.noTurbo then some (boolStr (!en)) else F q) = F1
          have hdrv : ∀ d, getDriver E F1 d = getDriver E F d := fun d => getDriver_congr E (by rw [← hF1]; simp)
          have hnt : F1 .noTurbo = some (boolStr (!en)) := by rw [← hF1]; simp
          have hot : ∀ p, p ≠ .noTurbo → F1 p = F p := by intro p hp; rw [← hF1]; simp [hp]
          obtain ⟨i1, i2, i3, i4⟩ := ih F1
          simp only [hdrv, hnt, hot .boost (by simp)] at i2 i3 i4
          have i2' : (setTurbo E en cpus F1).1 .noTurbo = some (boolStr (!en)) := by
            rcases i2 with h | h
            · exact h
            · exact h.2
          refine ⟨fun p hp hp' => (i1 p hp hp').trans (hot p hp), Or.inr ⟨⟨c, by simp, hd⟩, i2'⟩, ?_, ?_⟩
          · rcases i3 with h | ⟨⟨d, hd1, hd2⟩, h⟩
            · exact Or.inl h
            · exact Or.inr ⟨⟨d, by simp [hd1], hd2⟩, h⟩
          · intro hok d hdm
            rcases List.mem_cons.1 hdm with rfl | hdm
            · exact Or.inl ⟨hd, i2'⟩
            · exact i4 hok d hdm
      · rw [if_neg h1]
        by_cases h2 : drv = acpiCpufreq
        · subst h2
          rw [if_pos rfl]
          rcases write_cases E.fs F .boost (boolStr en) with ⟨e, hw, _⟩ | ⟨_, _, hw⟩
          · rw [hw]; exact stay _
          · rw [hw]
            dsimp only
            generalize hF1 : (fun q => if q = Path.boost then some (boolStr en) else F q) = F1
            have hdrv : ∀ d, getDriver E F1 d = getDriver E F d := fun d => getDriver_congr E (by rw [← hF1]; simp)
            have hnt : F1 .boost = some (boolStr en) := by rw [← hF1]; simp
            have hot : ∀ p, p ≠ .boost → F1 p = F p := by intro p hp; rw [← hF1]; simp [hp]
            obtain ⟨i1, i2, i3, i4⟩ := ih F1
            simp only [hdrv, hnt, hot .noTurbo (by simp)] at i2 i3 i4
            have i3' : (setTurbo E en cpus F1).1 .boost = some (boolStr en) := by
              rcases i3 with h | h
              · exact h
              · exact h.2
            refine ⟨fun p hp hp' => (i1 p hp hp').trans (hot p hp'), ?_, Or.inr ⟨⟨c, by simp, hd⟩, i3'⟩, ?_⟩
            · rcases i2 with h | ⟨⟨d, hd1, hd2⟩, h⟩
              · exact Or.inl h
              · exact Or.inr ⟨⟨d, by simp [hd1], hd2⟩, h⟩
            · intro hok d hdm
              rcases List.mem_cons.1 hdm with rfl | hdm
              · exact Or.inr ⟨hd, i3'⟩
              · exact i4 hok d hdm
        · rw [if_neg h2]; exact stay _

/-! ### C57 -/

/-- The user's word for the turbo state. -/
def word (en : Bool) : PyStr := if en then "on".toList else "off".toList

theorem readInt_boolStr {F : Files Path} {p : Path} {b : Bool} (h : F p = some (boolStr b)) :
    readInt F p = .ok (if b then 1 else 0) := by
  unfold readInt SysFiles.read
  rw [h]
  cases b <;> decide +kernel

theorem acpi_ne : acpiCpufreq ≠ intelPstate := by decide +kernel

/-- C57: after `set_turbo()` succeeded, `get_turbo()` returns the written state for all the requested
CPUs, whichever driver each one of them uses. -/
theorem C57_turbo_round_trip (E : Env) (en : Bool) (cpus : List Nat) (F : Files Path)
    (hok : (setTurbo E en cpus F).2 = .ok ()) :
    getTurbo E (setTurbo E en cpus F).1 cpus = .ok (cpus.map fun c => (c, word en)) := by
  obtain ⟨k1, _, _, k4⟩ := setTurbo_spec E en cpus F
  have k4 := k4 hok
  generalize (setTurbo E en cpus F).1 = F' at k1 k4
  clear hok
  have key : ∀ l : List Nat, (∀ c ∈ l, c ∈ cpus) → getTurbo E F' l = .ok (l.map fun c => (c, word en)) := by
    intro l hl
    induction l with
    | nil => rfl
    | cons c l ih =>
      unfold getTurbo
      rw [getDriver_congr E (k1 (.driver c) (by simp) (by simp))]
      rcases k4 c (hl c (by simp)) with ⟨h1, h2⟩ | ⟨h1, h2⟩
      · simp only [h1, if_true, readInt_boolStr h2, ih (fun c hc => hl c (by simp [hc])), List.map_cons]
        cases en <;> rfl
      · simp only [h1, if_neg acpi_ne, if_true, readInt_boolStr h2, ih (fun c hc => hl c (by simp [hc])),
          List.map_cons]
        cases en <;> rfl
  exact key cpus fun _ h => h

/-- C57: turbo is refused without writing anything if none of the requested CPUs has a supported
driver. -/
theorem C57_unsupported_driver (E : Env) (en : Bool) (cpus : List Nat) (hne : cpus ≠ []) (F : Files Path)
    (h : ∀ c ∈ cpus, ∀ d, getDriver E F c = .ok d → d ≠ "intel_pstate".toList ∧ d ≠ "acpi-cpufreq".toList) :
    (setTurbo E en cpus F).1 = F ∧ (∃ e, (setTurbo E en cpus F).2 = .error e) ∧
    ((∀ c ∈ cpus, ∃ d, getDriver E F c = .ok d) → (setTurbo E en cpus F).2 = .error .notSupported ∧
      getTurbo E F cpus = .error .notSupported) := by
  cases cpus with
  | nil => exact absurd rfl hne
  | cons c cpus =>
    unfold setTurbo getTurbo
    have hc := h c (by simp)
    cases hd : getDriver E F c with
    | error e =>
      refine ⟨rfl, ⟨e, rfl⟩, ?_⟩
      intro hall
      obtain ⟨d, hd'⟩ := hall c (by simp)
      rw [hd] at hd'; cases hd'
    | ok d =>
      obtain ⟨h1, h2⟩ := hc d hd
      have h1 : ¬ d = intelPstate := h1
      have h2 : ¬ d = acpiCpufreq := h2
      simp only [if_neg h1, if_neg h2]
      exact ⟨trivial, ⟨_, rfl⟩, fun _ => ⟨trivial, trivial⟩⟩

/-- C57: `set_turbo()` writes to nothing but the turbo file of a driver which one of the requested CPUs
uses, whether it succeeds or not. -/
theorem C57_only_turbo_files (E : Env) (en : Bool) (cpus : List Nat) (F : Files Path) (p : Path)
    (h : (setTurbo E en cpus F).1 p ≠ F p) :
    (p = .noTurbo ∧ (∃ c ∈ cpus, getDriver E F c = .ok "intel_pstate".toList) ∧
      (setTurbo E en cpus F).1 p = some (if en then "0".toList else "1".toList)) ∨
    (p = .boost ∧ (∃ c ∈ cpus, getDriver E F c = .ok "acpi-cpufreq".toList) ∧
      (setTurbo E en cpus F).1 p = some (if en then "1".toList else "0".toList)) := by
  obtain ⟨k1, k2, k3, _⟩ := setTurbo_spec E en cpus F
  by_cases h1 : p = .noTurbo
  · subst h1
    rcases k2 with k | ⟨k, k'⟩
    · exact absurd k h
    · exact Or.inl ⟨rfl, k, by rw [k']; cases en <;> rfl⟩
  · by_cases h2 : p = .boost
    · subst h2
      rcases k3 with k | ⟨k, k'⟩
      · exact absurd k h
      · exact Or.inr ⟨rfl, k, by rw [k']; cases en <;> rfl⟩
    · exact absurd (k1 p h1 h2) h

/-- C57: the driver reported for a CPU: the `intel_pstate` driver also if it is in the passive mode, where the
kernel calls it "intel_cpufreq", and if it is off, when there is no driver file. -/
theorem C57_driver (E : Env) (F : Files Path) (c : Nat) :
    getDriver E F c =
      match F (.driver c) with
      | some name => .ok (if name = "intel_cpufreq".toList then "intel_pstate".toList else name)
      | none => if E.pstateDir then .ok "intel_pstate".toList else .error .notSupported := by
  unfold getDriver SysFiles.read
  cases F (.driver c) with
  | none => cases E.pstateDir <;> rfl
  | some n => rfl

/-- C57: `set_turbo()` succeeds for CPUs managed by the `intel_pstate` driver in any of its modes, and for CPUs
managed by the `acpi-cpufreq` driver, if the kernel accepts the write. -/
theorem C57_supported (E : Env) (en : Bool) (cpus : List Nat) (F : Files Path)
    (h : ∀ c ∈ cpus,
      ((F (.driver c) = some "intel_pstate".toList ∨ F (.driver c) = some "intel_cpufreq".toList ∨
          F (.driver c) = none ∧ E.pstateDir = true) ∧
        F .noTurbo ≠ none ∧ E.fs.wfail .noTurbo (if en then "0".toList else "1".toList) = none) ∨
      (F (.driver c) = some "acpi-cpufreq".toList ∧
        F .boost ≠ none ∧ E.fs.wfail .boost (if en then "1".toList else "0".toList) = none)) :
    (setTurbo E en cpus F).2 = .ok () := by
  induction cpus generalizing F with
  | nil => rfl
  | cons c cpus ih =>
    have hc := h c List.mem_cons_self
    have hrest : ∀ p v, (p = .noTurbo ∨ p = .boost) →
        (setTurbo E en cpus (fun q => if q = p then some v else F q)).2 = .ok () := by
      intro p v hp
      apply ih
      intro d hd
      have hdr : (if Path.driver d = p then some v else F (.driver d)) = F (.driver d) := by
        rcases hp with rfl | rfl <;> rfl
      have hx : ∀ q, F q ≠ none → (if q = p then some v else F q) ≠ none := by
        intro q hq; split
        · simp
        · exact hq
      rw [hdr]
      rcases h d (List.mem_cons_of_mem _ hd) with ⟨h1, h2, h3⟩ | ⟨h1, h2, h3⟩
      · exact .inl ⟨h1, hx _ h2, h3⟩
      · exact .inr ⟨h1, hx _ h2, h3⟩
    have e1 : boolStr (!en) = if en then "0".toList else "1".toList := by cases en <;> rfl
    have e2 : boolStr en = if en then "1".toList else "0".toList := by cases en <;> rfl
    unfold setTurbo
    rcases hc with ⟨hdr, hf, hw⟩ | ⟨hdr, hf, hw⟩
    · have hd : getDriver E F c = .ok intelPstate := by
        rw [C57_driver]
        rcases hdr with h | h | ⟨h, hp⟩
        · rw [h]; rfl
        · rw [h]; rfl
        · rw [h, hp]; rfl
      rw [hd]
      dsimp only
      rw [if_pos rfl, e1]
      rcases write_cases E.fs F .noTurbo (if en then "0".toList else "1".toList) with ⟨e, -, h | h⟩ | ⟨_, _, h⟩
      · exact absurd h.1 hf
      · rw [hw] at h; cases h
      · rw [h]; exact hrest _ _ (.inl rfl)
    · have hd : getDriver E F c = .ok acpiCpufreq := by
        rw [C57_driver, hdr]; rfl
      rw [hd]
      dsimp only
      rw [if_neg acpi_ne, if_pos rfl, e2]
      rcases write_cases E.fs F .boost (if en then "1".toList else "0".toList) with ⟨e, -, h | h⟩ | ⟨_, _, h⟩
      · exact absurd h.1 hf
      · rw [hw] at h; cases h
      · rw [h]; exact hrest _ _ (.inr rfl)

/-- C57: in the "off" mode of the `intel_pstate` driver a failing write is reported as "not supported". -/
theorem C57_off_mode (E : Env) (en : Bool) (c : Nat) (F : Files Path)
    (hd : getDriver E F c = .ok "intel_pstate".toList) (hs : F .status = some "off".toList)
    (hw : ∃ e, (write E.fs F .noTurbo (boolStr (!en))).2 = .error e) :
    setTurbo E en [c] F = (F, .error .notSupported) := by
  have hd : getDriver E F c = .ok intelPstate := hd
  have hm : getMode E F c = .ok off := by
    unfold getMode SysFiles.read
    simp only [hd, hs, ne_eq, not_true_eq_false, if_false]
    rfl
  unfold setTurbo
  simp only [hd, if_true]
  rcases write_cases E.fs F .noTurbo (boolStr (!en)) with ⟨e, h, _⟩ | ⟨_, _, h⟩
  · simp only [h, turboErr, hm, ne_eq, not_true_eq_false, if_false]
  · rw [h] at hw
    obtain ⟨e, he⟩ := hw
    cases he

/-- CPU 0 uses `intel_pstate` in passive mode, CPU 1 uses `acpi-cpufreq`, CPU 2 uses another driver. -/
def exFiles : Files Path
  | .driver 0 => some "intel_cpufreq".toList
  | .driver 1 => some "acpi-cpufreq".toList
  | .driver 2 => some "amd-pstate".toList
  | .noTurbo => some "1".toList
  | .boost => some "0".toList
  | .status => some "passive".toList
  | .governor 0 => some "powersave".toList
  | .governor 1 => some "powersave".toList
  | .governors 0 => some "performance powersave".toList
  | .governors 1 => some "ondemand powersave ".toList
  | _ => none

def exEnv : Env := ⟨⟨fun _ _ => none⟩, true, fun _ => .ok true⟩

example : getTurbo exEnv exFiles [0, 1] = .ok [(0, off), (1, off)] ∧
    (setTurbo exEnv true [0, 1] exFiles).2 = .ok () ∧
    getTurbo exEnv (setTurbo exEnv true [0, 1] exFiles).1 [0, 1] = .ok [(0, on), (1, on)] ∧
    (setTurbo exEnv true [0, 1] exFiles).1 .noTurbo = some "0".toList ∧
    (setTurbo exEnv true [0, 1] exFiles).1 .boost = some "1".toList ∧
    (setTurbo exEnv true [2, 0] exFiles).2 = .error .notSupported := by
  refine ⟨by decide +kernel, by decide +kernel, by decide +kernel, by decide +kernel, by decide +kernel,
    by decide +kernel⟩

/-- The files are global, so on an (artificial) system with different drivers on different CPUs the
first ones are written before the unsupported one is refused. -/
example : (setTurbo exEnv true [0, 2] exFiles).2 = .error .notSupported ∧
    (setTurbo exEnv true [0, 2] exFiles).1 .noTurbo = some "0".toList := by
  refine ⟨by decide +kernel, by decide +kernel⟩

theorem setModeLoop_spec (E : Env) (mode : PyStr) (cpus : List Nat) (F : Files Path) :
    (∀ p, p ≠ .status → (setModeLoop E mode cpus F).1 p = F p) ∧
    ((setModeLoop E mode cpus F).1 .status = F .status ∨ (setModeLoop E mode cpus F).1 .status = some mode) ∧
    ((setModeLoop E mode cpus F).2 = .ok () →
      (∀ c ∈ cpus, getDriver E F c = .ok intelPstate) ∧
      (cpus ≠ [] → (setModeLoop E mode cpus F).1 .status = some mode)) := by
  induction cpus generalizing F with
  | nil => exact ⟨(fun _ _ => rfl), Or.inl rfl, fun _ => ⟨(fun c h => by cases h), fun h => absurd rfl h⟩⟩
  | cons c cpus ih =>
    unfold setModeLoop
    cases hm : getMode E F c with
    | error e => exact ⟨(fun _ _ => rfl), Or.inl rfl, (fun h => by cases h)⟩
    | ok cur =>
      dsimp only
      have hdrv : getDriver E F c = .ok intelPstate ∧ F .status = some cur := by
        unfold getMode at hm
        cases hd : getDriver E F c with
        | error e => rw [hd] at hm; cases hm
        | ok d =>
          rw [hd] at hm
          dsimp only at hm
          split at hm
          · cases hm
          · rename_i hne
            have : d = intelPstate := by simpa using hne
            subst this
            refine ⟨rfl, ?_⟩
            unfold SysFiles.read at hm
            split at hm
            · cases hm
            · rename_i x hx
              injection hm with hm; subst hm; exact hx
      rcases write_cases E.fs F .status mode with ⟨e, hw, _⟩ | ⟨_, _, hw⟩
      · rw [hw]
        dsimp only
        split
        · exact ⟨(fun _ _ => rfl), Or.inl rfl, (fun h => by cases h)⟩
        · rename_i hoff
          have hoff : mode = off := by simpa using hoff
          split
          · rename_i hcur
            obtain ⟨i1, i2, i3⟩ := ih F
            refine ⟨i1, i2, ?_⟩
            intro hok
            obtain ⟨j1, j2⟩ := i3 hok
            refine ⟨?_, ?_⟩
            · intro d hd
              rcases List.mem_cons.1 hd with rfl | hd
              · exact hdrv.1
              · exact j1 d hd
            · intro _
              cases cpus with
              | nil =>
                show F .status = some mode
                rw [hdrv.2, hcur, hoff]
              | cons a as => exact j2 (by simp)
          · split <;> exact ⟨(fun _ _ => rfl), Or.inl rfl, (fun h => by cases h)⟩
      · rw [hw]
        dsimp only
        generalize hF1 : (fun q => if q = Path.status then some mode else F q) = F1
        have hst : F1 .status = some mode := by rw [← hF1]; simp
        have hot : ∀ p, p ≠ .status → F1 p = F p := by intro p hp; rw [← hF1]; simp [hp]
        obtain ⟨i1, i2, i3⟩ := ih F1
        refine ⟨fun p hp => (i1 p hp).trans (hot p hp), ?_, ?_⟩
        · rcases i2 with h | h
          · exact Or.inr (h.trans hst)
          · exact Or.inr h
        · intro hok
          obtain ⟨j1, j2⟩ := i3 hok
          refine ⟨?_, ?_⟩
          · intro d hd
            rcases List.mem_cons.1 hd with rfl | hd
            · exact hdrv.1
            · rw [← j1 d hd]
              exact (getDriver_congr E (hot _ (by simp))).symm
          · intro _
            rcases i2 with h | h
            · rw [h, hst]
            · exact h

/-- C57: after setting the `intel_pstate` mode succeeded, the mode is read back on all the requested
CPUs. -/
theorem C57_mode_round_trip (E : Env) (mode : PyStr) (cpus : List Nat) (F : Files Path)
    (hok : (setMode E mode cpus F).2 = .ok ()) :
    ∀ c ∈ cpus, getMode E (setMode E mode cpus F).1 c = .ok mode := by
  intro c hc
  unfold setMode at hok ⊢
  split at hok
  · cases hok
  · rename_i hm
    rw [if_neg hm]
    obtain ⟨k1, _, k3⟩ := setModeLoop_spec E mode cpus F
    obtain ⟨j1, j2⟩ := k3 hok
    unfold getMode SysFiles.read
    rw [getDriver_congr E (k1 _ (by simp)), j1 c hc]
    simp only [ne_eq, not_true_eq_false, if_false, j2 (by intro h; rw [h] at hc; cases hc)]

/-- C57: an unknown mode is refused and nothing is written; and nothing but the mode file is ever
written. -/
theorem C57_mode_validated (E : Env) (mode : PyStr) (cpus : List Nat) (F : Files Path) :
    (mode ∉ ["active".toList, "passive".toList, "off".toList] →
      setMode E mode cpus F = (F, .error .error)) ∧
    (∀ p, p ≠ .status → (setMode E mode cpus F).1 p = F p) := by
  constructor
  · intro h
    unfold setMode
    rw [if_pos]
    simp only [List.mem_cons, List.not_mem_nil, or_false, not_or] at h
    exact h
  · intro p hp
    unfold setMode
    split
    · rfl
    · exact (setModeLoop_spec E mode cpus F).1 p hp

example : (setMode exEnv "active".toList [0] exFiles).2 = .ok () ∧
    getMode exEnv exFiles 0 = .ok "passive".toList ∧
    getMode exEnv (setMode exEnv "active".toList [0] exFiles).1 0 = .ok "active".toList ∧
    (setMode exEnv "fast".toList [0] exFiles).2 = .error .error := by
  refine ⟨by decide +kernel, by decide +kernel, by decide +kernel, by decide +kernel⟩

/-! ### C60 -/

theorem setGovernor_spec (E : Env) (g : PyStr) (cpus : List Nat) (F : Files Path) :
    (∀ p, (∀ c ∈ cpus, p ≠ .governor c) → (setGovernor E g cpus F).1 p = F p) ∧
    (∀ c, (setGovernor E g cpus F).1 (.governor c) = F (.governor c) ∨
      (c ∈ cpus ∧ (∃ l, getGovernors F c = .ok l ∧ g ∈ l) ∧
        (setGovernor E g cpus F).1 (.governor c) = some g)) ∧
    ((setGovernor E g cpus F).2 = .ok () → ∀ c ∈ cpus, (setGovernor E g cpus F).1 (.governor c) = some g) := by
  induction cpus generalizing F with
  | nil => exact ⟨(fun _ _ => rfl), (fun _ => Or.inl rfl), (fun _ c h => by cases h)⟩
  | cons c cpus ih =>
    unfold setGovernor
    cases hg : getGovernors F c with
    | error e => exact ⟨(fun _ _ => rfl), (fun _ => Or.inl rfl), (fun h => by cases h)⟩
    | ok l =>
      dsimp only
      split
      · exact ⟨(fun _ _ => rfl), (fun _ => Or.inl rfl), (fun h => by cases h)⟩
      · rename_i hmem
        have hmem : g ∈ l := by simpa using hmem
        rcases write_cases E.fs F (.governor c) g with ⟨e, hw, _⟩ | ⟨_, _, hw⟩
        · rw [hw]
          exact ⟨(fun _ _ => rfl), (fun _ => Or.inl rfl), (fun h => by cases h)⟩
        · rw [hw]
          dsimp only
          generalize hF1 : (fun q => if q = Path.governor c then some g else F q) = F1
          have hst : F1 (.governor c) = some g := by rw [← hF1]; simp
          have hot : ∀ p, p ≠ .governor c → F1 p = F p := by intro p hp; rw [← hF1]; simp [hp]
          obtain ⟨i1, i2, i3⟩ := ih F1
          have hgs : ∀ d, getGovernors F1 d = getGovernors F d := by
            intro d; unfold getGovernors SysFiles.read; rw [hot _ (by simp)]
          have hc1 : (setGovernor E g cpus F1).1 (.governor c) = some g := by
            rcases i2 c with h | h
            · rw [h, hst]
            · exact h.2.2
          refine ⟨?_, ?_, ?_⟩
          · intro p hp
            rw [i1 p (fun d hd => hp d (by simp [hd])), hot p (hp c (by simp))]
          · intro d
            by_cases hdc : d = c
            · subst hdc
              exact Or.inr ⟨by simp, ⟨l, hg, hmem⟩, hc1⟩
            · rcases i2 d with h | ⟨h1, h2, h3⟩
              · exact Or.inl (h.trans (hot _ (by simp [hdc])))
              · exact Or.inr ⟨by simp [h1], by rw [hgs] at h2; exact h2, h3⟩
          · intro hok d hd
            rcases List.mem_cons.1 hd with rfl | hd
            · exact hc1
            · exact i3 hok d hd

/-- C60: after `set_governor()` succeeded, the governor is read back on all the requested CPUs; the CPUs
which were not requested keep their governor, and nothing else is written. -/
theorem C60_governor_set (E : Env) (g : PyStr) (cpus : List Nat) (F : Files Path) :
    ((setGovernor E g cpus F).2 = .ok () →
      ∀ c ∈ cpus, getGovernor (setGovernor E g cpus F).1 c = .ok g) ∧
    (∀ p, (∀ c ∈ cpus, p ≠ .governor c) → (setGovernor E g cpus F).1 p = F p) := by
  obtain ⟨k1, _, k3⟩ := setGovernor_spec E g cpus F
  refine ⟨?_, k1⟩
  intro hok c hc
  unfold getGovernor SysFiles.read
  rw [k3 hok c hc]

/-- C60: whether the request succeeds or not, a governor is never written to a CPU which does not list
it as available. -/
theorem C60_only_available (E : Env) (g : PyStr) (cpus : List Nat) (F : Files Path) (c : Nat)
    (h : ∀ l, getGovernors F c = .ok l → g ∉ l) :
    (setGovernor E g cpus F).1 (.governor c) = F (.governor c) ∧
    (c ∈ cpus → ∃ e, (setGovernor E g cpus F).2 = .error e) := by
  obtain ⟨-, k2, -⟩ := setGovernor_spec E g cpus F
  refine ⟨?_, ?_⟩
  · rcases k2 c with h' | ⟨_, ⟨l, hl, hm⟩, _⟩
    · exact h'
    · exact absurd hm (h l hl)
  · intro hc
    clear k2
    induction cpus generalizing F with
    | nil => cases hc
    | cons a cpus ih =>
      unfold setGovernor
      cases hg : getGovernors F a with
      | error e => exact ⟨e, rfl⟩
      | ok l =>
        dsimp only
        split
        · exact ⟨_, rfl⟩
        · rename_i hmem
          rcases write_cases E.fs F (.governor a) g with ⟨e, hw, _⟩ | ⟨_, _, hw⟩
          · rw [hw]; exact ⟨e, rfl⟩
          · rw [hw]
            dsimp only
            rcases List.mem_cons.1 hc with rfl | hc
            · exact absurd (by simpa using hmem) (h l hg)
            · exact ih _ (by intro l hl; exact h l (by unfold getGovernors SysFiles.read at hl ⊢; simpa using hl)) hc

example : getGovernors exFiles 1 = .ok ["ondemand".toList, "powersave".toList] ∧
    (setGovernor exEnv "powersave".toList [0, 1] exFiles).2 = .ok () ∧
    (setGovernor exEnv "performance".toList [0, 1] exFiles).2 = .error .error ∧
    (setGovernor exEnv "performance".toList [0, 1] exFiles).1 (.governor 1) = some "powersave".toList := by
  refine ⟨by decide +kernel, by decide +kernel, by decide +kernel, by decide +kernel⟩

end Verif.CPUFreq
