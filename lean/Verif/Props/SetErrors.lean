import Verif.Lemmas.SetErrors
import Verif.Props.CPUFreq

/-!
C106: a failed change of a frequency, of EPP or of the 'intel_pstate' mode is reported, with the right reason.
-/

namespace Verif.SetErrors

/-- Setting a frequency succeeds exactly if every CPU took it, in or outside of a transaction. -/
theorem C106_verified (H : Host) (freq : Int) (cpus : List Nat) :
    ((setFreqProp H freq cpus).2 = .ok () ↔ ∀ cpu ∈ cpus, Takes H freq cpu) ∧
    (configFreq H freq cpus = .ok () ↔ ∀ cpu ∈ cpus, Takes H freq cpu) := by
  refine ⟨?_, ?_⟩
  · unfold setFreqProp
    rcases setFreq_cases H freq cpus with ⟨h1, h2⟩ | ⟨pre, cpu, post, r, h1, h2, h3, h4⟩
    · rw [h1]; exact ⟨fun _ => h2, fun _ => rfl⟩
    · have hnt : ¬ ∀ cpu ∈ cpus, Takes H freq cpu := by
        intro hall
        have ht := hall cpu (by rw [h1]; simp)
        rcases writeVerify_cases H freq cpu with ⟨h, _⟩ | ⟨e, _, h | h⟩ | ⟨t, h, _⟩
        · rw [h3] at h; exact nomatch h
        · exact takes_not_writeFails ht h
        · exact takes_not_readFails ht h
        · exact takes_not_refuses ht h
      refine ⟨fun h => ?_, fun h => absurd h hnt⟩
      rw [h4] at h
      cases r with
      | exn e => exact nomatch h
      | mismatch x a c =>
        dsimp only at h
        cases he : explain H x a c <;> rw [he] at h <;> exact nomatch h
  · rcases commit_cases H freq cpus with ⟨h1, h2⟩ | ⟨pre, cpu, post, e, h1, h2, h3, h4⟩
    · exact ⟨fun _ => h2, fun _ => h1⟩
    · refine ⟨fun h => ?_, fun h => ?_⟩
      · rw [h3] at h; exact nomatch h
      · have ht := h cpu (by rw [h1]; simp)
        rcases h4 with h4 | h4 | ⟨_, t, h4⟩
        · exact absurd h4 (takes_not_writeFails ht)
        · exact absurd h4 (takes_not_readFails ht)
        · exact absurd h4 (takes_not_refuses ht)

/-- If setting a frequency fails, then the CPUs before one of them have the frequency, that one does not, and the ones after it were
not touched. The exception is the one of the write or of the read, or 'ErrorVerifyFailed' if the CPU has another frequency. There are
explanations in the last case only. A failure to find an explanation does not hide the exception, except if it is one of Python
itself. -/
theorem C106_first_failure (H : Host) (freq : Int) (cpus l : List Nat) (e : Exn) (hints : List Hint)
    (h : setFreqProp H freq cpus = (l, .error (e, hints))) :
    ∃ pre cpu post, cpus = pre ++ cpu :: post ∧ l = pre ++ [cpu] ∧ (∀ c ∈ pre, Takes H freq c) ∧ ¬ Takes H freq cpu ∧
      (((WriteFails H freq cpu e ∨ ReadFails H freq cpu e) ∧ hints = []) ∨
       ∃ t, Refuses H freq cpu t ∧ (e = .verifyFailed ∨ (IsPython e ∧ hints = []))) := by
  unfold setFreqProp at h
  rcases setFreq_cases H freq cpus with ⟨h1, h2⟩ | ⟨pre, cpu, post, r, h1, h2, h3, h4⟩
  · rw [h1] at h; exact nomatch h
  · rw [h4] at h
    refine ⟨pre, cpu, post, h1, ?_⟩
    rcases writeVerify_cases H freq cpu with ⟨k, _⟩ | ⟨x, k, hx⟩ | ⟨t, ht, ⟨k, _⟩ | ⟨a, _, k⟩⟩
    · rw [h3] at k; exact nomatch k
    · rw [h3] at k
      cases k
      dsimp only at h
      cases h
      refine ⟨rfl, h2, fun htk => ?_, Or.inl ⟨hx, rfl⟩⟩
      rcases hx with hx | hx
      · exact takes_not_writeFails htk hx
      · exact takes_not_readFails htk hx
    · rw [h3] at k
      cases k
      dsimp only at h
      cases h
      exact ⟨rfl, h2, fun htk => takes_not_refuses htk ht, Or.inr ⟨t, ht, Or.inr ⟨Or.inr (Or.inl rfl), rfl⟩⟩⟩
    · rw [h3] at k
      cases k
      dsimp only at h
      cases he : explain H (freq / 1000) a cpu with
      | error x =>
        rw [he] at h
        cases h
        exact ⟨rfl, h2, fun htk => takes_not_refuses htk ht, Or.inr ⟨t, ht, Or.inr ⟨explain_error he, rfl⟩⟩⟩
      | ok y =>
        rw [he] at h
        cases h
        exact ⟨rfl, h2, fun htk => takes_not_refuses htk ht, Or.inr ⟨t, ht, Or.inl rfl⟩⟩

/-- The explanation about turbo is right whenever it is given: turbo of the CPU which failed is disabled, the frequency in the message is
the base frequency of this CPU, and the requested one is higher. The list in the explanation about unsupported frequencies is the one of
this CPU, and the requested frequency, in the unit of the file, is not in it. The full claim - they are given whenever they apply - is
false, see `C106_hints_counterexample`. -/
theorem C106_hints_partial (H : Host) (freq : Int) (cpus l : List Nat) (e : Exn) (hints : List Hint)
    (h : setFreqProp H freq cpus = (l, .error (e, hints))) :
    ∃ cpu, cpu ∈ cpus ∧ l.getLast? = some cpu ∧
      (∀ b, Hint.turbo b ∈ hints →
        H.turbo cpu = .ok "off".toList ∧ H.base cpu = .ok (some b) ∧ b ≠ 0 ∧ (0 ≤ b → b * 1000 < freq)) ∧
      (∀ f fs, Hint.unsupported f fs ∈ hints → H.freqs cpu = .ok fs ∧ f = freq / 1000 ∧ f ∉ fs ∧
        ∃ t v, Refuses H freq cpu t ∧ EP.parse10 t = .ok v ∧ v ∈ fs) := by
  unfold setFreqProp at h
  rcases setFreq_cases H freq cpus with ⟨h1, h2⟩ | ⟨pre, cpu, post, r, h1, h2, h3, h4⟩
  · rw [h1] at h; exact nomatch h
  · rw [h4] at h
    refine ⟨cpu, by rw [h1]; simp, ?_⟩
    rcases writeVerify_cases H freq cpu with ⟨k, _⟩ | ⟨x, k, hx⟩ | ⟨t, ht, ⟨k, _⟩ | ⟨a, hat, k⟩⟩
    · rw [h3] at k; exact nomatch k
    · rw [h3] at k; cases k; dsimp only at h; cases h; simp
    · rw [h3] at k; cases k; dsimp only at h; cases h; simp
    · rw [h3] at k
      cases k
      dsimp only at h
      cases he : explain H (freq / 1000) a cpu with
      | error x => rw [he] at h; cases h; simp
      | ok y =>
        rw [he] at h
        cases h
        refine ⟨by simp, ?_⟩
        unfold explain at he
        cases hs1 : suppress (freqsHint H (freq / 1000) a cpu) with
        | error x => rw [hs1] at he; exact nomatch he
        | ok y1 =>
          rw [hs1] at he
          dsimp only at he
          cases hs2 : suppress (turboHint H (freq / 1000) cpu) with
          | error x => rw [hs2] at he; exact nomatch he
          | ok y2 =>
            rw [hs2] at he
            dsimp only at he
            cases he
            have hu : ∀ x ∈ y1, ∃ fs, x = .unsupported (freq / 1000) fs ∧ H.freqs cpu = .ok fs ∧ freq / 1000 ∉ fs ∧
                ∃ v, a = some v ∧ v ∈ fs := by
              intro x hx
              rcases suppress_ok hs1 with h | h
              · unfold freqsHint at h
                cases hf : H.freqs cpu with
                | error z => rw [hf] at h; exact nomatch h
                | ok fs =>
                  rw [hf] at h
                  dsimp only at h
                  cases a with
                  | none => cases h; exact nomatch hx
                  | some v =>
                    dsimp only at h
                    cases h
                    split at hx
                    · next hc => simp at hx; exact ⟨fs, hx, rfl, hc.1, v, rfl, hc.2⟩
                    · exact nomatch hx
              · rw [h] at hx; exact nomatch hx
            have htb : ∀ x ∈ y2, ∃ b, x = .turbo b ∧ H.turbo cpu = .ok "off".toList ∧ H.base cpu = .ok (some b) ∧ b ≠ 0 ∧
                freq / 1000 > b := by
              intro x hx
              rcases suppress_ok hs2 with h | h
              · unfold turboHint at h
                cases hf : H.turbo cpu with
                | error z => rw [hf] at h; exact nomatch h
                | ok tv =>
                  rw [hf] at h
                  dsimp only at h
                  by_cases ho : tv = "off".toList
                  · rw [if_pos ho] at h
                    cases hb : H.base cpu with
                    | error z => rw [hb] at h; exact nomatch h
                    | ok ob =>
                      rw [hb] at h
                      cases ob with
                      | none => dsimp only at h; cases h; exact nomatch hx
                      | some b =>
                        dsimp only at h
                        cases h
                        split at hx
                        · next hc => simp at hx; exact ⟨b, hx, by rw [ho], rfl, hc.1, hc.2⟩
                        · exact nomatch hx
                  · rw [if_neg ho] at h; cases h; exact nomatch hx
              · rw [h] at hx; exact nomatch hx
            refine ⟨fun b hb => ?_, fun f fs hf => ?_⟩
            · rcases List.mem_append.1 hb with hb | hb
              · obtain ⟨_, h, _⟩ := hu _ hb; exact nomatch h
              · obtain ⟨b', h, q1, q2, q3, q4⟩ := htb _ hb
                cases h
                exact ⟨q1, q2, q3, fun _ => by omega⟩
            · rcases List.mem_append.1 hf with hb | hb
              · obtain ⟨fs', h, q1, q2, v, q3, q4⟩ := hu _ hb
                cases h
                refine ⟨q1, rfl, q2, t, v, ht, ?_, q4⟩
                unfold actualOf at hat
                split at hat
                · split at hat
                  · next hv => cases hat; cases q3; exact hv
                  · exact nomatch hat
                · subst q3; exact nomatch hat
              · obtain ⟨_, h, _⟩ := htb _ hb; exact nomatch h

/-- The frequencies of real CPUs: at least 100 MHz, and what is read back is below 100 GHz. Then no explanation is ever given: the numbers
of the file, in kHz, are compared with frequencies in Hz. -/
theorem C106_hints_counterexample :
    (∀ (H : Host) (freq : Int) (cpus l : List Nat) (e : Exn) (hints : List Hint), freq < 100000000000 →
      (∀ cpu fs, H.freqs cpu = .ok fs → ∀ f ∈ fs, 100000000 ≤ f) → (∀ cpu b, H.base cpu = .ok (some b) → 100000000 ≤ b) →
      (∀ cpu i t v, H.reads cpu i = .ok t → EP.parse10 t = .ok v → v < 100000000) →
      setFreqProp H freq cpus = (l, .error (e, hints)) → hints = []) ∧
    (∃ (H : Host), H.freqs 0 = .ok [1000000000, 1500000000, 2000000000] ∧ H.reads 0 0 = .ok "1500000".toList ∧
      H.turbo 0 = .ok "off".toList ∧ H.base 0 = .ok (some 1500000000) ∧
      setFreqProp H 1700000000 [0] = ([0], .error (.verifyFailed, []))) := by
  refine ⟨?_, ⟨fun _ _ => .ok (), fun _ _ => .ok "1500000".toList, fun _ => false,
    fun _ => .ok [1000000000, 1500000000, 2000000000], fun _ => .ok "off".toList, fun _ => .ok (some 1500000000)⟩, rfl, rfl, rfl, rfl,
    by decide +kernel⟩
  intro H freq cpus l e hints hf hfs hbs hr h
  obtain ⟨cpu, _, _, hb, hu⟩ := C106_hints_partial H freq cpus l e hints h
  cases hints with
  | nil => rfl
  | cons x xs =>
    exfalso
    cases x with
    | turbo b =>
      obtain ⟨_, h2, _, h4⟩ := hb b (by simp)
      have := hbs cpu b h2
      have := h4 (by omega)
      omega
    | unsupported f fs =>
      obtain ⟨h1, _, _, t, v, ht, h3, h4⟩ := hu f fs (by simp)
      have := hfs cpu fs h1 v h4
      have := hr cpu _ t v ht.2.2 h3
      omega

/-- In a transaction - the 'config' commands - the same CPU is the first to fail, but the failure is never explained. -/
theorem C106_transaction (H : Host) (freq : Int) (cpus : List Nat) (e : Exn) (hints : List Hint)
    (h : configFreq H freq cpus = .error (e, hints)) :
    hints = [] ∧ ∃ pre cpu post, cpus = pre ++ cpu :: post ∧ (∀ c ∈ pre, Takes H freq c) ∧ ¬ Takes H freq cpu ∧
      (WriteFails H freq cpu e ∨ ReadFails H freq cpu e ∨ (e = .verifyFailed ∧ ∃ t, Refuses H freq cpu t)) := by
  rcases commit_cases H freq cpus with ⟨h1, h2⟩ | ⟨pre, cpu, post, x, h1, h2, h3, h4⟩
  · rw [h1] at h; exact nomatch h
  · rw [h3] at h
    cases h
    refine ⟨rfl, pre, cpu, post, h1, h2, fun ht => ?_, h4⟩
    rcases h4 with h4 | h4 | ⟨_, t, h4⟩
    · exact takes_not_writeFails ht h4
    · exact takes_not_readFails ht h4
    · exact takes_not_refuses ht h4

/-- Hardware power management: the third text is the right one. -/
def exHost : Host :=
  ⟨fun _ _ => .ok (), fun c i => .ok (if c = 1 ∨ i < 2 then "800000".toList else "1700000".toList), fun _ => true,
   fun _ => .ok [800000, 900000], fun _ => .ok "off".toList, fun _ => .ok (some 1000000)⟩

example : setFreqProp exHost 1700000000 [0, 2] = ([0, 2], .ok ()) := by decide +kernel

example : setFreqProp exHost 1700000000 [0, 1, 2] =
    ([0, 1], .error (.verifyFailed, [.unsupported 1700000 [800000, 900000], .turbo 1000000])) := by decide +kernel

example : setFreqProp { exHost with hwp := fun _ => false } 1700000000 [0, 2] =
    ([0], .error (.verifyFailed, [.unsupported 1700000 [800000, 900000], .turbo 1000000])) := by decide +kernel

example : configFreq exHost 1700000000 [0, 1, 2] = .error (.verifyFailed, []) := by decide +kernel

example : setFreqProp { exHost with freqs := fun _ => .error .error } 1700000000 [1] =
    ([1], .error (.verifyFailed, [.turbo 1000000])) := by decide +kernel

example : setFreqProp { exHost with reads := fun _ _ => .ok "0x10".toList } 1700000000 [1] = ([1], .error (.pyValueError, [])) := by
  decide +kernel

example : Takes exHost 1700000000 0 := by
  refine ⟨rfl, 2, by decide, ?_, by decide +kernel⟩
  intro j hj
  refine ⟨"800000".toList, ?_, by decide +kernel⟩
  have : j = 0 ∨ j = 1 := by omega
  rcases this with h | h <;> subst h <;> rfl

/-- The failure to set EPP is explained exactly if EPP was set via sysfs to another value than "0" and "performance", and the kernel
forbids it: the CPU which failed uses the 'intel_pstate' driver in active mode with the 'performance' governor. The class of the exception
remains the same if the three properties can be read. -/
theorem C106_epp (H : EppHost) (val : Val) (sysfs : Bool) (err : Exn) (cpu : Option Nat) :
    ((eppRaise H val sysfs err cpu).2 = true ↔
      sysfs = true ∧ val ≠ .str "0".toList ∧ val ≠ .str "performance".toList ∧ ∃ c, cpu = some c ∧ EppForbidden H c) ∧
    ((eppRaise H val sysfs err cpu).2 = true → (eppRaise H val sysfs err cpu).1 = err) ∧
    ((∀ c e, H.driver c ≠ .error e ∧ H.mode c ≠ .error e ∧ H.governor c ≠ .error e) → (eppRaise H val sysfs err cpu).1 = err) := by
  unfold eppRaise eppExplain EppForbidden
  cases sysfs with
  | false => simp
  | true =>
    by_cases hv : val = .str "0".toList ∨ val = .str "performance".toList
    · simp only [Bool.not_true, Bool.false_eq_true, if_false, if_pos hv]
      refine ⟨⟨(nomatch ·), fun ⟨_, h1, h2, _⟩ => ?_⟩, fun _ => trivial, fun _ => trivial⟩
      rcases hv with hv | hv
      · exact absurd hv h1
      · exact absurd hv h2
    · simp only [Bool.not_true, Bool.false_eq_true, if_false, if_neg hv]
      obtain ⟨hv1, hv2⟩ := not_or.1 hv
      cases cpu with
      | none => simp
      | some c =>
        dsimp only
        cases hd : H.driver c with
        | error e => exact ⟨⟨(nomatch ·), fun ⟨_, _, _, c', h1, h2, _⟩ => by cases h1; rw [hd] at h2; exact nomatch h2⟩, (nomatch ·),
            fun h => absurd hd (h c e).1⟩
        | ok driver =>
          dsimp only
          by_cases hdr : driver = "intel_pstate".toList
          · rw [if_neg (fun h => h hdr)]
            cases hm : H.mode c with
            | error e => exact ⟨⟨(nomatch ·), fun ⟨_, _, _, c', h1, _, h2, _⟩ => by cases h1; rw [hm] at h2; exact nomatch h2⟩,
                (nomatch ·), fun h => absurd hm (h c e).2.1⟩
            | ok mode =>
              dsimp only
              by_cases hmo : mode = "active".toList
              · rw [if_neg (fun h => h hmo)]
                cases hg : H.governor c with
                | error e => exact ⟨⟨(nomatch ·), fun ⟨_, _, _, c', h1, _, _, h2⟩ => by cases h1; rw [hg] at h2; exact nomatch h2⟩,
                    (nomatch ·), fun h => absurd hg (h c e).2.2⟩
                | ok g =>
                  dsimp only
                  refine ⟨⟨fun h => ⟨trivial, hv1, hv2, c, rfl, by rw [hd, hdr], by rw [hm, hmo], ?_⟩, fun ⟨_, _, _, c', h1, _, _, h2⟩ => ?_⟩,
                    fun _ => rfl, fun _ => rfl⟩
                  · rw [hg, of_decide_eq_true h]
                  · cases h1
                    rw [hg] at h2
                    exact decide_eq_true (Except.ok.inj h2)
              · rw [if_pos hmo]
                refine ⟨⟨(nomatch ·), fun ⟨_, _, _, c', h1, _, h2, _⟩ => ?_⟩, (nomatch ·), fun _ => rfl⟩
                cases h1; rw [hm] at h2; exact absurd (Except.ok.inj h2) hmo
          · rw [if_pos hdr]
            refine ⟨⟨(nomatch ·), fun ⟨_, _, _, c', h1, h2, _⟩ => ?_⟩, (nomatch ·), fun _ => rfl⟩
            cases h1; rw [hd] at h2; exact absurd (Except.ok.inj h2) hdr

def exEpp : EppHost := ⟨fun _ => .ok "intel_pstate".toList, fun _ => .ok "active".toList, fun _ => .ok "performance".toList⟩

example : eppRaise exEpp (.str "128".toList) true .error (some 3) = (.error, true) ∧
    eppRaise exEpp (.str "0".toList) true .error (some 3) = (.error, false) ∧
    eppRaise exEpp (.str "128".toList) false .permissionDenied (some 3) = (.permissionDenied, false) ∧
    eppRaise { exEpp with governor := fun _ => .ok "powersave".toList } (.str "128".toList) true .error (some 3) = (.error, false) := by
  decide +kernel

/-- The exception is lost if a property which is only needed for the explanation cannot be read: a permission problem is reported as
something which is not supported. -/
theorem C106_epp_lost_counterexample :
    ∃ (H : EppHost) (val : Val), eppRaise H val true .permissionDenied (some 0) = (.notSupported, false) :=
  ⟨{ exEpp with governor := fun _ => .error .notSupported }, .str "128".toList, by decide +kernel⟩

/-- The value 0 which the kernel accepts is explained as forbidden if it is given as an integer. -/
theorem C106_epp_zero_counterexample :
    eppRaise exEpp (.int 0) true .error (some 0) = (.error, true) ∧
    eppRaise exEpp (.str "0".toList) true .error (some 0) = (.error, false) := by
  decide +kernel

/-- If the kernel accepts the mode, then setting it in a transaction and without one is the same. -/
theorem C106_mode (E : CPUFreq.Env) (mode : PyStr) (cpus : List Nat) (F : SysFiles.Files CPUFreq.Path)
    (hmode : mode = "active".toList ∨ mode = "passive".toList ∨ mode = "off".toList) (hne : cpus ≠ [])
    (hcpus : ∀ cpu ∈ cpus, ∃ m, CPUFreq.getMode E F cpu = .ok m) (hw : E.fs.wfail .status mode = none) :
    configMode E mode cpus F = CPUFreq.setMode E mode cpus F ∧ (configMode E mode cpus F).2 = .ok () ∧
    (configMode E mode cpus F).1 .status = some mode := by
  have hbad : ¬ (mode ≠ "active".toList ∧ mode ≠ "passive".toList ∧ mode ≠ CPUFreq.off) := by
    rintro ⟨h1, h2, h3⟩
    rcases hmode with h | h | h
    · exact h1 h
    · exact h2 h
    · exact h3 h
  obtain ⟨c, hc⟩ := List.exists_mem_of_ne_nil cpus hne
  obtain ⟨m, hm⟩ := hcpus c hc
  have hcfg : configMode E mode cpus F = ((fun q => if q = .status then some mode else F q), .ok ()) := by
    unfold configMode
    rw [if_neg hbad, modeLoop_ok E mode cpus F hcpus]
    dsimp only
    rw [if_neg hne]
    unfold SysFiles.write
    rw [status_of_getMode hm]
    dsimp only
    rw [hw]
  refine ⟨?_, by rw [hcfg], by rw [hcfg]; dsimp only; rw [if_pos rfl]⟩
  rw [hcfg]
  unfold CPUFreq.setMode
  rw [if_neg hbad, setModeLoop_accepted E mode hw cpus F hne hcpus]

/-- Switching the driver off when it is off already: the kernel refuses the write, and that is ignored. In a transaction it is not: the
'config' command fails. -/
theorem C106_mode_counterexample (E : CPUFreq.Env) (cpus : List Nat) (F : SysFiles.Files CPUFreq.Path) (x : Exn) (hne : cpus ≠ [])
    (hcpus : ∀ cpu ∈ cpus, CPUFreq.getMode E F cpu = .ok "off".toList) (hw : E.fs.wfail .status "off".toList = some x) :
    CPUFreq.setMode E "off".toList cpus F = (F, .ok ()) ∧ configMode E "off".toList cpus F = (F, .error x) := by
  have hbad : ∀ m : PyStr, m = CPUFreq.off → ¬ (m ≠ "active".toList ∧ m ≠ "passive".toList ∧ m ≠ CPUFreq.off) := fun m hm h => h.2.2 hm
  obtain ⟨c, hc⟩ := List.exists_mem_of_ne_nil cpus hne
  refine ⟨?_, ?_⟩
  · unfold CPUFreq.setMode
    exact (if_neg (hbad _ rfl)).trans (setModeLoop_off E x hw cpus F hcpus)
  · unfold configMode
    refine (if_neg (hbad _ rfl)).trans ?_
    rw [modeLoop_ok E _ cpus F fun cpu h => ⟨_, hcpus cpu h⟩]
    dsimp only
    rw [if_neg hne]
    unfold SysFiles.write
    rw [status_of_getMode (hcpus c hc)]
    dsimp only
    rw [hw]

/-- The driver of the example is off, and the kernel refuses "off". -/
def exOff : SysFiles.Files CPUFreq.Path := fun q => if q = .status then some "off".toList else CPUFreq.exFiles q

def exOffEnv : CPUFreq.Env :=
  { CPUFreq.exEnv with fs := ⟨fun q v => if q = .status ∧ v = "off".toList then some .error else none⟩ }

example : CPUFreq.getMode exOffEnv exOff 0 = .ok "off".toList ∧
    (CPUFreq.setMode exOffEnv "off".toList [0] exOff).2 = .ok () ∧ (configMode exOffEnv "off".toList [0] exOff).2 = .error .error ∧
    (configMode CPUFreq.exEnv "active".toList [0] CPUFreq.exFiles).2 = .ok () ∧
    (configMode CPUFreq.exEnv "active".toList [0] CPUFreq.exFiles).1 .status = some "active".toList := by
  decide +kernel

end Verif.SetErrors
