import Verif.Props.SetErrorsSpec

/-! Lemmas for C106. -/

namespace Verif.SetErrors

theorem wrongFor_zero {reads : Nat → Except Exn PyStr} {val : PyStr} : WrongFor reads val 0 := fun _ h => absurd h (by omega)

theorem wrongFor_succ {reads : Nat → Except Exn PyStr} {val t : PyStr} {i : Nat} (h : WrongFor reads val i) (hr : reads i = .ok t)
    (hn : t ≠ val) : WrongFor reads val (i + 1) := by
  intro j hj
  by_cases hji : j = i
  · subst hji; exact ⟨t, hr, hn⟩
  · exact h j (by omega)

/-- The three possible results of `_verify()`. -/
theorem verify_cases (reads : Nat → Except Exn PyStr) (val : PyStr) : ∀ (r i : Nat), WrongFor reads val i →
    (verify reads val r i = .ok none ∧ ∃ k, k < i + r + 1 ∧ WrongFor reads val k ∧ reads k = .ok val) ∨
    (∃ t, verify reads val r i = .ok (some t) ∧ WrongFor reads val (i + r + 1) ∧ reads (i + r) = .ok t) ∨
    (∃ e, verify reads val r i = .error e ∧ ∃ k, k < i + r + 1 ∧ WrongFor reads val k ∧ reads k = .error e) := by
  intro r
  induction r with
  | zero =>
    intro i hw
    unfold verify
    cases hr : reads i with
    | error e => exact Or.inr (Or.inr ⟨e, rfl, i, by omega, hw, hr⟩)
    | ok t =>
      dsimp only
      by_cases ht : t = val
      · subst ht; rw [if_pos rfl]; exact Or.inl ⟨rfl, i, by omega, hw, hr⟩
      · rw [if_neg ht]; exact Or.inr (Or.inl ⟨t, rfl, wrongFor_succ hw hr ht, rfl⟩)
  | succ r ih =>
    intro i hw
    unfold verify
    cases hr : reads i with
    | error e => exact Or.inr (Or.inr ⟨e, rfl, i, by omega, hw, hr⟩)
    | ok t =>
      dsimp only
      by_cases ht : t = val
      · subst ht; rw [if_pos rfl]; exact Or.inl ⟨rfl, i, by omega, hw, hr⟩
      · rw [if_neg ht]
        have := ih (i + 1) (wrongFor_succ hw hr ht)
        rwa [show i + 1 + r + 1 = i + (r + 1) + 1 by omega, show i + 1 + r = i + (r + 1) by omega] at this

/-- The number of retries of the code. -/
theorem tries_eq (b : Bool) : 0 + (if b then 2 else 0) + 1 = tries b := by cases b <;> rfl

theorem tries_pred (b : Bool) : 0 + (if b then 2 else 0) = tries b - 1 := by cases b <;> rfl

theorem host_cases (H : Host) (freq : Int) (cpu : Nat) (hw : H.write cpu (PyStr.ofInt (freq / 1000)) = .ok ()) :
    (verify (H.reads cpu) (PyStr.ofInt (freq / 1000)) (if H.hwp cpu then 2 else 0) 0 = .ok none ∧ Takes H freq cpu) ∨
    (∃ t, verify (H.reads cpu) (PyStr.ofInt (freq / 1000)) (if H.hwp cpu then 2 else 0) 0 = .ok (some t) ∧
      Refuses H freq cpu t) ∨
    (∃ e, verify (H.reads cpu) (PyStr.ofInt (freq / 1000)) (if H.hwp cpu then 2 else 0) 0 = .error e ∧
      ReadFails H freq cpu e) := by
  have h := verify_cases (H.reads cpu) (PyStr.ofInt (freq / 1000)) (if H.hwp cpu then 2 else 0) 0 wrongFor_zero
  rw [tries_eq, tries_pred] at h
  rcases h with ⟨h1, h2⟩ | ⟨t, h1, h2, h3⟩ | ⟨e, h1, h2⟩
  · exact Or.inl ⟨h1, hw, h2⟩
  · exact Or.inr (Or.inl ⟨t, h1, hw, h2, h3⟩)
  · exact Or.inr (Or.inr ⟨e, h1, hw, h2⟩)

/-- The four possibilities exclude each other. -/
theorem takes_not_refuses {H : Host} {freq : Int} {cpu : Nat} {t : PyStr} (h : Takes H freq cpu) : ¬ Refuses H freq cpu t := by
  rintro ⟨_, hw, _⟩
  obtain ⟨_, i, hi, _, hr⟩ := h
  obtain ⟨s, hs, hn⟩ := hw i hi
  rw [hr] at hs
  exact hn (Except.ok.inj hs).symm

theorem takes_not_readFails {H : Host} {freq : Int} {cpu : Nat} {e : Exn} (h : Takes H freq cpu) : ¬ ReadFails H freq cpu e := by
  rintro ⟨_, i, hi, hw, hr⟩
  obtain ⟨_, k, hk, hv, hs⟩ := h
  rcases Nat.lt_trichotomy i k with hl | hl | hl
  · obtain ⟨s, h, _⟩ := hv i hl
    rw [hr] at h; exact nomatch h
  · subst hl; rw [hr] at hs; exact nomatch hs
  · obtain ⟨s, h, hn⟩ := hw k hl
    rw [hs] at h; exact hn (Except.ok.inj h).symm

theorem takes_not_writeFails {H : Host} {freq : Int} {cpu : Nat} {e : Exn} (h : Takes H freq cpu) : ¬ WriteFails H freq cpu e := by
  intro hw
  unfold WriteFails at hw
  rw [h.1] at hw; exact nomatch hw

theorem suppress_ok {r : Except Exn (List Hint)} {l : List Hint} (h : suppress r = .ok l) : r = .ok l ∨ l = [] := by
  unfold suppress at h
  split at h <;> first | (cases h; done) | (cases h; simp)

theorem suppress_error {r : Except Exn (List Hint)} {e : Exn} (h : suppress r = .error e) : IsPython e ∧ r = .error e := by
  unfold suppress at h
  split at h <;> first | (cases h; done) | (cases h; simp [IsPython])

theorem explain_error {H : Host} {freq : Int} {a : Option Int} {cpu : Nat} {e : Exn} (h : explain H freq a cpu = .error e) :
    IsPython e := by
  unfold explain at h
  split at h
  · next h1 => cases h; exact (suppress_error h1).1
  · split at h
    · next h1 => cases h; exact (suppress_error h1).1
    · exact nomatch h

theorem actualOf_error {t : PyStr} {e : Exn} (h : actualOf t = .error e) : e = .pyValueError := by
  unfold actualOf at h
  split at h
  · split at h
    · exact nomatch h
    · next h1 =>
      cases h
      unfold EP.parse10 at h1
      dsimp only at h1
      split at h1
      · exact nomatch h1
      · cases h1; rfl
  · exact nomatch h

/-- The result for one CPU. -/
theorem writeVerify_cases (H : Host) (freq : Int) (cpu : Nat) :
    (writeVerify H (freq / 1000) cpu = .ok () ∧ Takes H freq cpu) ∨
    (∃ e, writeVerify H (freq / 1000) cpu = .error (.exn e) ∧ (WriteFails H freq cpu e ∨ ReadFails H freq cpu e)) ∨
    (∃ t, Refuses H freq cpu t ∧
      ((writeVerify H (freq / 1000) cpu = .error (.exn .pyValueError) ∧ actualOf t = .error .pyValueError) ∨
       ∃ a, actualOf t = .ok a ∧ writeVerify H (freq / 1000) cpu = .error (.mismatch (freq / 1000) a cpu))) := by
  unfold writeVerify
  cases hw : H.write cpu (PyStr.ofInt (freq / 1000)) with
  | error e => exact Or.inr (Or.inl ⟨e, rfl, Or.inl hw⟩)
  | ok u =>
    cases u
    dsimp only
    rcases host_cases H freq cpu hw with ⟨h1, h2⟩ | ⟨t, h1, h2⟩ | ⟨e, h1, h2⟩
    · rw [h1]; exact Or.inl ⟨rfl, h2⟩
    · rw [h1]
      refine Or.inr (Or.inr ⟨t, h2, ?_⟩)
      dsimp only
      cases ha : actualOf t with
      | error e =>
        have := actualOf_error ha
        subst this
        exact Or.inl ⟨rfl, rfl⟩
      | ok a => exact Or.inr ⟨a, rfl, rfl⟩
    · rw [h1]; exact Or.inr (Or.inl ⟨e, rfl, Or.inr h2⟩)

/-- The CPUs up to the one which fails. -/
theorem setFreq_cases (H : Host) (freq : Int) : ∀ cpus,
    (setFreq H freq cpus = (cpus, .ok ()) ∧ ∀ c ∈ cpus, Takes H freq c) ∨
    (∃ pre cpu post r, cpus = pre ++ cpu :: post ∧ (∀ c ∈ pre, Takes H freq c) ∧
      writeVerify H (freq / 1000) cpu = .error r ∧ setFreq H freq cpus = (pre ++ [cpu], .error r)) := by
  intro cpus
  induction cpus with
  | nil => exact Or.inl ⟨rfl, by simp⟩
  | cons c cpus ih =>
    rcases hv : writeVerify H (freq / 1000) c with r | u
    · refine Or.inr ⟨[], c, cpus, r, rfl, by simp, hv, ?_⟩
      unfold setFreq; rw [hv]; rfl
    · have ht : Takes H freq c := by
        rcases writeVerify_cases H freq c with h | ⟨e, h, _⟩ | ⟨t, _, ⟨h, _⟩ | ⟨a, _, h⟩⟩
        · exact h.2
        all_goals rw [hv] at h; exact nomatch h
      have hs : setFreq H freq (c :: cpus) = (c :: (setFreq H freq cpus).1, (setFreq H freq cpus).2) := by
        conv => lhs; unfold setFreq
        rw [hv]
      rcases ih with ⟨h1, h2⟩ | ⟨pre, cpu, post, r, h1, h2, h3, h4⟩
      · refine Or.inl ⟨by rw [hs, h1], ?_⟩
        intro d hd
        rcases List.mem_cons.1 hd with h | h
        · rw [h]; exact ht
        · exact h2 d h
      · refine Or.inr ⟨c :: pre, cpu, post, r, by rw [h1]; rfl, ?_, h3, by rw [hs, h4]; rfl⟩
        intro d hd
        rcases List.mem_cons.1 hd with h | h
        · rw [h]; exact ht
        · exact h2 d h

/-- The commit of a transaction stops at the same CPU. -/
theorem commit_cases (H : Host) (freq : Int) : ∀ cpus,
    (configFreq H freq cpus = .ok () ∧ ∀ c ∈ cpus, Takes H freq c) ∨
    (∃ pre cpu post e, cpus = pre ++ cpu :: post ∧ (∀ c ∈ pre, Takes H freq c) ∧ configFreq H freq cpus = .error (e, []) ∧
      (WriteFails H freq cpu e ∨ ReadFails H freq cpu e ∨ (e = .verifyFailed ∧ ∃ t, Refuses H freq cpu t))) := by
  intro cpus
  induction cpus with
  | nil => exact Or.inl ⟨rfl, by simp⟩
  | cons c cpus ih =>
    have hc : configFreq H freq (c :: cpus) =
        (match H.write c (PyStr.ofInt (freq / 1000)) with
        | .error e => .error (e, [])
        | .ok () =>
          match verify (H.reads c) (PyStr.ofInt (freq / 1000)) (if H.hwp c then 2 else 0) 0 with
          | .error e => .error (e, [])
          | .ok none => configFreq H freq cpus
          | .ok (some _) => .error (.verifyFailed, [])) := rfl
    cases hw : H.write c (PyStr.ofInt (freq / 1000)) with
    | error e =>
      rw [hw] at hc
      exact Or.inr ⟨[], c, cpus, e, rfl, by simp, hc, Or.inl hw⟩
    | ok u =>
      cases u
      rw [hw] at hc
      dsimp only at hc
      rcases host_cases H freq c hw with ⟨h1, h2⟩ | ⟨t, h1, h2⟩ | ⟨e, h1, h2⟩
      · rw [h1] at hc
        have hmem : ∀ l, (∀ d ∈ l, Takes H freq d) → ∀ d ∈ c :: l, Takes H freq d := by
          intro l hl d hd
          rcases List.mem_cons.1 hd with h | h
          · rw [h]; exact h2
          · exact hl d h
        rcases ih with ⟨k1, k2⟩ | ⟨pre, cpu, post, e, k1, k2, k3, k4⟩
        · exact Or.inl ⟨hc.trans k1, hmem _ k2⟩
        · exact Or.inr ⟨c :: pre, cpu, post, e, by rw [k1]; rfl, hmem _ k2, hc.trans k3, k4⟩
      · rw [h1] at hc
        exact Or.inr ⟨[], c, cpus, _, rfl, by simp, hc, Or.inr (Or.inr ⟨rfl, t, h2⟩)⟩
      · rw [h1] at hc
        exact Or.inr ⟨[], c, cpus, e, rfl, by simp, hc, Or.inr (Or.inl h2)⟩

theorem getMode_ok_overlay {E : CPUFreq.Env} {F : SysFiles.Files CPUFreq.Path} {cpu : Nat} {m mode : PyStr}
    (h : CPUFreq.getMode E F cpu = .ok m) :
    CPUFreq.getMode E (fun q => if q = .status then some mode else F q) cpu = .ok mode := by
  have hd : CPUFreq.getDriver E (fun q => if q = .status then some mode else F q) cpu = CPUFreq.getDriver E F cpu := by
    unfold CPUFreq.getDriver SysFiles.read
    dsimp only
    rw [if_neg (by simp)]
  unfold CPUFreq.getMode at h ⊢
  rw [hd]
  cases hg : CPUFreq.getDriver E F cpu with
  | error e => rw [hg] at h; exact nomatch h
  | ok d =>
    rw [hg] at h
    dsimp only at h ⊢
    by_cases hp : d ≠ CPUFreq.intelPstate
    · rw [if_pos hp] at h; exact nomatch h
    · rw [if_neg hp]; unfold SysFiles.read; dsimp only; rw [if_pos rfl]

theorem overlay_twice {F : SysFiles.Files CPUFreq.Path} {mode : PyStr} :
    (fun q => if q = CPUFreq.Path.status then some mode else (if q = CPUFreq.Path.status then some mode else F q)) =
    (fun q => if q = CPUFreq.Path.status then some mode else F q) := by
  funext q; split <;> rfl

theorem modeLoop_ok (E : CPUFreq.Env) (mode : PyStr) : ∀ (cpus : List Nat) (F : SysFiles.Files CPUFreq.Path),
    (∀ cpu ∈ cpus, ∃ m, CPUFreq.getMode E F cpu = .ok m) → modeLoop E mode cpus F = .ok () := by
  intro cpus
  induction cpus with
  | nil => intro F _; rfl
  | cons c cpus ih =>
    intro F h
    obtain ⟨m, hm⟩ := h c (by simp)
    unfold modeLoop
    rw [hm]
    dsimp only
    refine ih _ fun cpu hc => ?_
    obtain ⟨m', hm'⟩ := h cpu (List.mem_cons_of_mem _ hc)
    exact ⟨mode, getMode_ok_overlay hm'⟩

theorem status_of_getMode {E : CPUFreq.Env} {F : SysFiles.Files CPUFreq.Path} {cpu : Nat} {m : PyStr}
    (h : CPUFreq.getMode E F cpu = .ok m) : F .status = some m := by
  unfold CPUFreq.getMode at h
  split at h
  · exact nomatch h
  · split at h
    · exact nomatch h
    · unfold SysFiles.read at h
      split at h
      · exact nomatch h
      · next hs => cases h; exact hs

theorem setModeLoop_accepted (E : CPUFreq.Env) (mode : PyStr) (hw : E.fs.wfail .status mode = none) :
    ∀ (cpus : List Nat) (F : SysFiles.Files CPUFreq.Path), cpus ≠ [] → (∀ cpu ∈ cpus, ∃ m, CPUFreq.getMode E F cpu = .ok m) →
    CPUFreq.setModeLoop E mode cpus F = ((fun q => if q = .status then some mode else F q), .ok ()) := by
  intro cpus
  induction cpus with
  | nil => intro F h _; exact absurd rfl h
  | cons c cpus ih =>
    intro F _ h
    obtain ⟨m, hm⟩ := h c (by simp)
    have hwr : SysFiles.write E.fs F .status mode = ((fun q => if q = .status then some mode else F q), .ok ()) := by
      unfold SysFiles.write
      rw [status_of_getMode hm]
      dsimp only
      rw [hw]
    unfold CPUFreq.setModeLoop
    rw [hm]
    dsimp only
    rw [hwr]
    dsimp only
    by_cases hn : cpus = []
    · subst hn; rfl
    · rw [ih _ hn fun cpu hc => ?_, overlay_twice]
      obtain ⟨m', hm'⟩ := h cpu (List.mem_cons_of_mem _ hc)
      exact ⟨mode, getMode_ok_overlay hm'⟩

theorem setModeLoop_off (E : CPUFreq.Env) (x : Exn) (hw : E.fs.wfail .status CPUFreq.off = some x) :
    ∀ (cpus : List Nat) (F : SysFiles.Files CPUFreq.Path), (∀ cpu ∈ cpus, CPUFreq.getMode E F cpu = .ok CPUFreq.off) →
    CPUFreq.setModeLoop E CPUFreq.off cpus F = (F, .ok ()) := by
  intro cpus
  induction cpus with
  | nil => intro F _; rfl
  | cons c cpus ih =>
    intro F h
    have hm := h c (by simp)
    have hwr : SysFiles.write E.fs F .status CPUFreq.off = (F, .error x) := by
      unfold SysFiles.write
      rw [status_of_getMode hm]
      dsimp only
      rw [hw]
    unfold CPUFreq.setModeLoop
    rw [hm]
    dsimp only
    rw [hwr]
    dsimp only
    rw [if_neg (fun h => h rfl), if_pos rfl]
    exact ih F fun cpu hc => h cpu (List.mem_cons_of_mem _ hc)

end Verif.SetErrors
