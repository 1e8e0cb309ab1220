import Verif.Model.PMQoS
import Verif.Lemmas.Trivial

/-!
C54: PM QoS latency limits.
-/

namespace Verif.PMQoS

theorem strToInt_ofInt (n : Int) : Trivial.strToInt (PyStr.ofInt n) = .ok n := by
  cases n with
  | ofNat n => exact Trivial.strToInt_ofNat n
  | negSucc n =>
    unfold Trivial.strToInt PyStr.ofInt
    have : PyStr.strip ('-' :: PyStr.ofNat (n + 1)) = '-' :: PyStr.ofNat (n + 1) := by
      refine PyStr.stripBy_of_stripped (PyStr.stripped_of_all fun c hc => ?_)
      rcases List.mem_cons.1 hc with rfl | hc
      · decide
      · exact Trivial.ofNat_not_space _ c hc
    rw [this]
    show (match (Trivial.parseAuto (PyStr.ofNat (n + 1))).map (fun n : Nat => -(n : Int)) with
      | some v => Except.ok v | none => Except.error Exn.badFormat) = _
    rw [Trivial.parseAuto_ofNat]
    rfl

theorem strip_ofInt (n : Int) : PyStr.strip (PyStr.ofInt n) = PyStr.ofInt n := by
  refine PyStr.stripBy_of_stripped (PyStr.stripped_of_all fun c hc => ?_)
  cases n with
  | ofNat n => exact Trivial.ofNat_not_space _ c hc
  | negSucc n =>
    rcases List.mem_cons.1 hc with rfl | hc
    · decide
    · exact Trivial.ofNat_not_space _ c hc

/-- **C54.** The number of microseconds written is the nearest one to the requested number of seconds, up to
the relative error 2^-53 of the floating point multiplication. -/
theorem C54_nearest (fl : Rat → Rat) (hf : IsRounding fl) (s : Rat)
    (hs : s = 0 ∨ (1 / 2 ^ 1022 ≤ |s * 1000000| ∧ |s * 1000000| ≤ 2 ^ 1023)) :
    |(limitUs fl s : Rat) - s * 1000000| ≤ 1 / 2 + |s * 1000000| / 2 ^ 53 := by
  unfold limitUs
  have h1 := pyRound_near (fl (s * 1000000))
  have h2 : |fl (s * 1000000) - s * 1000000| ≤ |s * 1000000| / 2 ^ 53 := by
    rcases hs with rfl | hs
    · rw [zero_mul, hf.zero]; norm_num
    · exact hf.rel _ hs.1 hs.2
  calc |(pyRound (fl (s * 1000000)) : Rat) - s * 1000000|
      = |((pyRound (fl (s * 1000000)) : Rat) - fl (s * 1000000)) + (fl (s * 1000000) - s * 1000000)| := by
        congr 1; ring
    _ ≤ _ := (abs_add_le _ _).trans (add_le_add h1 h2)

/-- **C54.** Seconds that are a whole number of microseconds (up to 2^50, the kernel allows less than 2^31) are
converted to that number exactly, whatever the rounding errors of the division and multiplication are. -/
theorem C54_exact (fl : Rat → Rat) (hf : IsRounding fl) (n : Nat) (hn : n ≤ 2 ^ 50) :
    limitUs fl (fl ((n : Int) / 1000000)) = n := by
  unfold limitUs
  by_cases h0 : n = 0
  · subst h0
    have : fl (((0 : Nat) : Int) / 1000000) = 0 := by
      rw [show (((0 : Nat) : Int) : Rat) / 1000000 = 0 by norm_num]; exact hf.zero
    rw [this, zero_mul, hf.zero]
    decide +kernel
  have h1 : (1 : Rat) ≤ n := by exact_mod_cast Nat.one_le_iff_ne_zero.2 h0
  have h2 : (n : Rat) ≤ 1125899906842624 := by exact_mod_cast (by omega : n ≤ 1125899906842624)
  generalize hx : (((n : Nat) : Int) : Rat) / 1000000 = x
  have hnx : (n : Rat) = x * 1000000 := by
    rw [← hx]; push_cast; ring
  have hxpos : 0 < x := by linarith
  have big : (1 : Rat) / 2 ^ 1022 ≤ 1 / 2 ^ 21 := by
    apply one_div_le_one_div_of_le (by positivity)
    exact pow_le_pow_right₀ (by norm_num) (by norm_num)
  have huge : (2 : Rat) ^ 60 ≤ 2 ^ 1023 := pow_le_pow_right₀ (by norm_num) (by norm_num)
  have e1 := hf.rel x (by
    rw [abs_of_pos hxpos]
    refine big.trans ?_
    norm_num
    linarith) (by
    rw [abs_of_pos hxpos]
    refine le_trans ?_ huge
    norm_num
    linarith)
  rw [abs_of_pos hxpos] at e1
  have e1' := abs_le.1 e1
  generalize fl x = y at e1' ⊢
  have hy1 : x / 2 ≤ y := by
    have : x / 2 ^ 53 ≤ x / 2 := by
      apply div_le_div_of_nonneg_left hxpos.le (by norm_num) (by norm_num)
    linarith [e1'.1]
  have hy2 : y ≤ 2 * x := by
    have : x / 2 ^ 53 ≤ x := div_le_self hxpos.le (by norm_num)
    linarith [e1'.2]
  have hypos : 0 < y * 1000000 := by linarith
  have e2 := hf.rel (y * 1000000) (by
    rw [abs_of_pos hypos]
    refine big.trans ?_
    norm_num
    linarith) (by
    rw [abs_of_pos hypos]
    refine le_trans ?_ huge
    norm_num
    linarith)
  rw [abs_of_pos hypos] at e2
  have e2' := abs_le.1 e2
  apply pyRound_eq
  push_cast
  rw [abs_lt]
  have k1 : x / 2 ^ 53 = (n : Rat) / 1000000 / 2 ^ 53 := by rw [hnx]; ring
  norm_num at e1' e2' ⊢
  constructor <;> linarith [e1'.1, e1'.2, e2'.1, e2'.2]

theorem setLoop_spec (K : Kernel) (us : Int) (cpus : List Nat) (F F' : Files) (verify : Bool)
    (x : Except Exn Unit) (h : setLoop K verify us cpus F = (F', x)) :
    (∀ c, c ∉ cpus → F' c = F c) ∧
    (verify = true → x = .ok () → ∀ c ∈ cpus, ∃ text, F' c = some text ∧ PyStr.strip text = PyStr.ofInt us) ∧
    ((∀ c ∈ cpus, F c ≠ none) → (∀ c ∈ cpus, K c (PyStr.ofInt us) = .ok (PyStr.ofInt us)) →
      x = .ok () ∧ ∀ c ∈ cpus, F' c = some (PyStr.ofInt us)) := by
  induction cpus generalizing F with
  | nil =>
    cases h
    exact ⟨fun _ _ => rfl, fun _ _ c hc => (by cases hc), fun _ _ => ⟨rfl, fun c hc => (by cases hc)⟩⟩
  | cons d ds ih =>
    unfold setLoop at h
    unfold writeInt at h
    cases hd : F d with
    | none =>
      simp only [hd] at h
      cases h
      exact ⟨fun _ _ => rfl, fun _ h => (by cases h), fun h => absurd hd (h d List.mem_cons_self)⟩
    | some old =>
      simp only [hd] at h
      cases hk : K d (PyStr.ofInt us) with
      | error e =>
        simp only [hk] at h
        cases h
        exact ⟨fun _ _ => rfl, fun _ h => (by cases h),
          fun _ h => (by rw [h d List.mem_cons_self] at hk; cases hk)⟩
      | ok text =>
        simp only [hk] at h
        by_cases hv : verify = true ∧ PyStr.strip text ≠ PyStr.ofInt us
        · simp only [if_pos hv] at h
          cases h
          refine ⟨fun c hc => if_neg fun e => hc (by rw [e]; exact List.mem_cons_self),
            fun _ h => (by cases h), fun _ h => ?_⟩
          rw [h d List.mem_cons_self] at hk
          cases hk
          exact absurd (strip_ofInt us) hv.2
        · simp only [if_neg hv] at h
          obtain ⟨k1, k2, k3⟩ := ih _ h
          refine ⟨fun c hc => ?_, fun hver hx c hc => ?_, fun h1 h2 => ?_⟩
          · rw [k1 c fun e => hc (List.mem_cons_of_mem _ e)]
            exact if_neg fun e => hc (by rw [e]; exact List.mem_cons_self)
          · by_cases hcd : c ∈ ds
            · exact k2 hver hx c hcd
            · rw [k1 c hcd]
              have : c = d := (List.mem_cons.1 hc).resolve_right hcd
              refine ⟨text, if_pos this, ?_⟩
              apply Classical.byContradiction
              intro hne
              exact hv ⟨hver, hne⟩
          · obtain ⟨j1, j2⟩ := k3 (fun c hc => by
                split
                · simp
                · exact h1 c (List.mem_cons_of_mem _ hc))
              (fun c hc => h2 c (List.mem_cons_of_mem _ hc))
            refine ⟨j1, fun c hc => ?_⟩
            by_cases hcd : c ∈ ds
            · exact j2 c hcd
            · rw [k1 c hcd]
              have : c = d := (List.mem_cons.1 hc).resolve_right hcd
              rw [h2 d List.mem_cons_self] at hk
              cases hk
              exact if_pos this

/-- **C54.** After a verified setting of the limit has succeeded, the limit of every CPU reads back as the number
of microseconds closest to the requested value (see `C54_nearest`), for every kernel. Other CPUs are
not touched even if there was an error. -/
theorem C54_roundtrip (fl : Rat → Rat) (K : Kernel) (s : Rat) (cpus : List Nat) (F : Files) :
    ((setLimit fl K true s cpus F).2 = .ok () → ∀ c ∈ cpus,
      getLimit fl (setLimit fl K true s cpus F).1 c = .ok (fl (limitUs fl s / 1000000))) ∧
    ∀ verify c, c ∉ cpus → getLimit fl (setLimit fl K verify s cpus F).1 c = getLimit fl F c := by
  have key := fun v => setLoop_spec K (limitUs fl s) cpus F (setLimit fl K v s cpus F).1 v
    (setLimit fl K v s cpus F).2 rfl
  refine ⟨fun h c hc => ?_, fun v c hc => ?_⟩
  · obtain ⟨text, h1, h2⟩ := (key true).2.1 rfl h c hc
    unfold getLimit
    rw [h1]
    dsimp only
    rw [h2, strToInt_ofInt]
  · unfold getLimit
    rw [(key v).1 c hc]

/-- **C54.** A limit that is a whole number of microseconds reads back exactly as it was requested. -/
theorem C54_roundtrip_exact (fl : Rat → Rat) (hf : IsRounding fl) (K : Kernel) (n : Nat) (hn : n ≤ 2 ^ 50)
    (cpus : List Nat) (F : Files) (h : (setLimit fl K true (fl ((n : Int) / 1000000)) cpus F).2 = .ok ())
    (c : Nat) (hc : c ∈ cpus) :
    getLimit fl (setLimit fl K true (fl ((n : Int) / 1000000)) cpus F).1 c = .ok (fl ((n : Int) / 1000000)) := by
  rw [(C54_roundtrip fl K _ cpus F).1 h c hc, C54_exact fl hf n hn]

/-- **C54.** The limit can be set whenever the files exist and the kernel stores what is written. -/
theorem C54_succeeds (fl : Rat → Rat) (K : Kernel) (verify : Bool) (s : Rat) (cpus : List Nat) (F : Files)
    (hF : ∀ c ∈ cpus, F c ≠ none)
    (hK : ∀ c ∈ cpus, K c (PyStr.ofInt (limitUs fl s)) = .ok (PyStr.ofInt (limitUs fl s))) :
    (setLimit fl K verify s cpus F).2 = .ok () ∧ ∀ c ∈ cpus,
      getLimit fl (setLimit fl K verify s cpus F).1 c = .ok (fl (limitUs fl s / 1000000)) := by
  obtain ⟨h1, h2⟩ := (setLoop_spec K (limitUs fl s) cpus F (setLimit fl K verify s cpus F).1 verify
    (setLimit fl K verify s cpus F).2 rfl).2.2 hF hK
  refine ⟨h1, fun c hc => ?_⟩
  unfold getLimit
  rw [h2 c hc]
  dsimp only
  rw [strip_ofInt, strToInt_ofInt]

/-- **C54.** The global limit is the 32-bit number the kernel provides, least significant byte first. -/
theorem C54_global (fl : Rat → Rat) (b0 b1 b2 b3 : Fin 256) (rest : List (Fin 256)) :
    globalLimit fl (b0 :: b1 :: b2 :: b3 :: rest) =
      fl (((b0 : Nat) + 256 * b1 + 65536 * b2 + 16777216 * b3 : Nat) / 1000000) := by
  unfold globalLimit
  congr 2
  simp only [List.take_succ_cons, List.take_zero, List.foldr_cons, List.foldr_nil]
  push_cast
  ring

-- 100 microseconds for two CPUs, with exact arithmetic; CPU 2 has no file.
example : IsRounding (fun x => x) ∧
    (setLimit (fun x => x) (fun _ t => .ok t) true (1 / 10000) [0, 1]
      (fun c => if c < 2 then some "0".toList else none)).2 = .ok () ∧
    getLimit (fun x => x) (setLimit (fun x => x) (fun _ t => .ok t) true (1 / 10000) [0, 1]
      (fun c => if c < 2 then some "0".toList else none)).1 1 = .ok (1 / 10000) ∧
    (setLimit (fun x => x) (fun _ t => .ok t) true (1 / 10000) [0, 1, 2]
      (fun c => if c < 2 then some "0".toList else none)).2 = .error .notSupported ∧
    limitUs (fun x => x) (17 / 10000000) = 2 ∧
    globalLimit (fun x => x) [0, 1, 0, 0] = 256 / 1000000 :=
  ⟨⟨rfl, fun x _ _ => by rw [sub_self, abs_zero]; positivity⟩, by decide +kernel, by decide +kernel,
    by decide +kernel, by decide +kernel, by decide +kernel⟩

end Verif.PMQoS
