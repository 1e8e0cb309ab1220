import Verif.Lemmas.PStates
import Verif.Model.PropsBase

/-!
C30 - C33, C35, C36: CPU and uncore frequency limits, "sysfs" mechanism. The "msr" mechanism is in
`Verif/Props/HWP.lean`.
-/

namespace Verif.PStates

variable {κ σ : Type}

/-! ### Specification -/

/-- The platforms: CPUs or uncore dies. -/
inductive Platform : Plat κ → Prop
  | cpu (base pm : κ → Except Exn Int) (eff : Option (κ → Int)) (lo hi : κ → Int) :
      Platform (cpuPlat base pm eff lo hi)
  | uncore (bclk lo hi : κ → Int) : Platform (uncorePlat bclk lo hi)

/-- A request to change one of the limits, together with the CPUs the kernel refuses the write on. -/
structure Req (κ : Type) where
  isMin : Bool
  val : FVal
  cpus : List κ
  wfail : κ → Option Exn

/-- The state after a sequence of requests, no matter which ones of them succeed. -/
def after [DecidableEq κ] (P : Plat κ) (reqs : List (Req κ)) (s : Sysfs κ) : Sysfs κ :=
  reqs.foldl (fun s r => (setFreq P (sysfsBackend r.wfail) r.isMin r.val r.cpus s).1) s

/-- The limits of `c` are in order and within the hardware limits, all in kHz. -/
def Sane (P : Plat κ) (s : Sysfs κ) (c : κ) : Prop :=
  P.loKHz c ≤ s.mn c ∧ s.mn c ≤ s.mx c ∧ s.mx c ≤ P.hiKHz c

/-- The frequency `f` (Hz) cannot be honoured as the min. (`isMin`) or max. limit of `c`. -/
def Violates (P : Plat κ) (s : Sysfs κ) (isMin : Bool) (c : κ) (f : Int) : Prop :=
  f < P.loKHz c * 1000 ∨ P.hiKHz c * 1000 < f ∨
    (if isMin then s.mx c * 1000 < f else f < s.mn c * 1000)

/-! ### C30 -/

theorem mapM_fst (g : κ → Except Exn Int) (cpus : List κ) (l : List (κ × Int))
    (h : cpus.mapM (fun c => (g c).map fun f => (c, f)) = .ok l) : l.map Prod.fst = cpus := by
  induction cpus generalizing l with
  | nil =>
    have h : Except.ok [] = Except.ok l := h
    injection h with h; subst h; rfl
  | cons c cpus ih =>
    rw [List.mapM_cons] at h
    cases hg : g c with
    | error e => rw [hg] at h; cases h
    | ok f =>
      rw [hg] at h
      cases hm : cpus.mapM (fun c => (g c).map fun f => (c, f)) with
      | error e => rw [hm] at h; cases h
      | ok l' =>
        rw [hm] at h
        have h : Except.ok ((c, f) :: l') = Except.ok l := h
        injection h with h; subst h
        rw [List.map_cons, ih l' hm]

theorem platform_aligned {P : Plat κ} (h : Platform P) : Aligned P := by
  intro n cpus l hl
  cases h with
  | cpu base pm eff lo hi =>
    unfold cpuPlat at hl
    dsimp only at hl
    split at hl
    · exact mapM_fst _ _ _ hl
    · split at hl
      · split at hl <;> (injection hl with hl; subst hl; simp [Function.comp_def])
      · split at hl
        · exact mapM_fst _ _ _ hl
        · cases hl
  | uncore bclk lo hi =>
    unfold uncorePlat at hl
    dsimp only at hl
    split at hl
    · injection hl with hl; subst hl; simp [Function.comp_def]
    · cases hl

theorem sane_within (P : Plat κ) (s : Sysfs κ) (c : κ) :
    Sane P s c ↔ Within P (sysfsView s true) (sysfsView s false) c := by
  unfold Sane Within sysfsView Plat.lo Plat.hi Sysfs.file
  simp only [if_true, Bool.false_eq_true, if_false]
  omega

/-- C30: whatever the requests are and whichever of them fail, the limits do not cross and stay within
the hardware limits. -/
theorem C30_min_le_max [DecidableEq κ] (P : Plat κ) (hP : Platform P) (reqs : List (Req κ))
    (s : Sysfs κ) (h : ∀ c, Sane P s c) : ∀ c, Sane P (after P reqs s) c := by
  induction reqs generalizing s with
  | nil => exact h
  | cons r reqs ih =>
    apply ih
    intro c
    rw [sane_within]
    exact (within_setFreq (platform_aligned hP) (sysfsLaws r.wfail) (sysfsGrid P) r.isMin r.val r.cpus s
      trivial (fun c => (sane_within P s c).1 (h c))).2 c

/-- The CPUs not mentioned in any request keep their limits (so the claim is not about a system where
nothing can be changed). -/
theorem C30_others_keep [DecidableEq κ] (P : Plat κ) (hP : Platform P) (reqs : List (Req κ))
    (s : Sysfs κ) (c : κ) (hc : ∀ r ∈ reqs, c ∉ r.cpus) (m : Bool) :
    (after P reqs s).file m c = s.file m c := by
  induction reqs generalizing s with
  | nil => rfl
  | cons r reqs ih =>
    show (after P reqs (setFreq P (sysfsBackend r.wfail) r.isMin r.val r.cpus s).1).file m c = _
    rw [ih _ (fun r' h => hc r' (by simp [h]))]
    cases hl : numericFreq P r.val r.cpus with
    | error e => unfold setFreq; simp only [hl]
    | ok l =>
      have hal := numericFreq_aligned (platform_aligned hP) hl
      rcases setFreq_spec P (sysfsLaws r.wfail) r.isMin r.val r.cpus s trivial l hl hal with
        ⟨_, h' | h'⟩ | ⟨_, _, k2, k3, _, _⟩
      · rw [h'.1]
      · rw [h'.1]
      · have k2 := k2 c
        have k3 := k3 c
        have hnot : ∀ f, (c, f) ∈ l → False := fun f hf => hc r (by simp)
          (by rw [← hal]; exact List.mem_map_of_mem (f := Prod.fst) hf)
        have k3 : sysfsView (setFreq P (sysfsBackend r.wfail) r.isMin r.val r.cpus s).1 r.isMin c =
            sysfsView s r.isMin c := by
          rcases k3 with k3 | ⟨f, hf, _⟩
          · exact k3
          · exact (hnot f hf).elim
        unfold sysfsView at k2 k3
        by_cases hm : m = r.isMin
        · subst hm; omega
        · have : m = !r.isMin := by cases m <;> cases hr : r.isMin <;> simp_all
          subst this; omega

/-- The example platform: 3 CPUs, CPU 2 is slower. -/
def exPlat : Plat Nat := cpuPlat (fun _ => .ok 2000000000) (fun _ => .ok 800000000) none (fun _ => 800000)
  (fun c => if c = 2 then 2000000 else 3000000)

/-- All limits are open. -/
def exState : Sysfs Nat := ⟨fun _ => 800000, fun c => if c = 2 then 2000000 else 3000000⟩

example : ∀ c, Sane exPlat exState c := by
  intro c
  simp only [Sane, exPlat, cpuPlat, exState]
  split <;> decide

/-- A successful, a refused, a partly failing and another successful request. -/
example :
    let s := after exPlat [⟨true, .num 1500000000, [0, 1], fun _ => none⟩,
      ⟨false, .num 1000000000, [2, 1], fun _ => none⟩,
      ⟨true, .other "base", [0, 1, 2], fun c => if c = 1 then some .permissionDenied else none⟩,
      ⟨false, .num 2500000999, [0, 1], fun _ => none⟩] exState
    (s.mn 0, s.mn 1, s.mn 2) = (2000000, 1500000, 800000) ∧
    (s.mx 0, s.mx 1, s.mx 2) = (2500000, 2500000, 2000000) := by decide +kernel

/-! ### C31 -/

theorem violates_bad (P : Plat κ) (s : Sysfs κ) (m : Bool) (c : κ) (f : Int) :
    Violates P s m c f ↔ Bad P m (sysfsView s (!m)) c f := by
  unfold Violates Bad sysfsView Plat.lo Plat.hi Sysfs.file
  cases m <;> simp

/-- C31: a request which violates the range or the order on any of the CPUs is refused with an error
about the range or the order, and changes nothing. -/
theorem C31_refused [DecidableEq κ] (P : Plat κ) (hP : Platform P) (wfail : κ → Option Exn) (m : Bool)
    (v : FVal) (cpus : List κ) (s : Sysfs κ) (l : List (κ × Int)) (hl : numericFreq P v cpus = .ok l)
    (hv : ∃ p ∈ l, Violates P s m p.1 p.2) :
    setFreq P (sysfsBackend wfail) m v cpus s = (s, .error .freqRange) ∨
    setFreq P (sysfsBackend wfail) m v cpus s = (s, .error .freqOrder) := by
  obtain ⟨p, hp, hv⟩ := hv
  rcases setFreq_spec P (sysfsLaws wfail) m v cpus s trivial l hl
    (numericFreq_aligned (platform_aligned hP) hl) with ⟨_, h' | h'⟩ | ⟨hall, _⟩
  · exact Or.inl h'.1
  · exact Or.inr h'.1
  · exact absurd ((violates_bad P s m p.1 p.2).1 hv) (hall p hp)

/-- C31: the kind of the error tells the truth: a range error means a value out of range, an order error
means a value on the wrong side of the other limit. -/
theorem C31_refusal_reason [DecidableEq κ] (P : Plat κ) (hP : Platform P) (wfail : κ → Option Exn)
    (m : Bool) (v : FVal) (cpus : List κ) (s : Sysfs κ) (l : List (κ × Int))
    (hl : numericFreq P v cpus = .ok l) (hw : ∀ c, wfail c ≠ some .freqRange ∧ wfail c ≠ some .freqOrder) :
    ((setFreq P (sysfsBackend wfail) m v cpus s).2 = .error .freqRange →
      ∃ p ∈ l, p.2 < P.loKHz p.1 * 1000 ∨ P.hiKHz p.1 * 1000 < p.2) ∧
    ((setFreq P (sysfsBackend wfail) m v cpus s).2 = .error .freqOrder →
      ∃ p ∈ l, if m then s.mx p.1 * 1000 < p.2 else p.2 < s.mn p.1 * 1000) := by
  have hset : ∀ f cs (s : Sysfs κ) e, (sysfsSet wfail m f cs s).2 = .error e → ∃ c, wfail c = some e := by
    intro f cs
    induction cs with
    | nil => intro s e h; cases h
    | cons c cs ih =>
      intro s e h
      unfold sysfsSet at h
      split at h
      · rename_i e' he
        injection h with h; subst h; exact ⟨c, he⟩
      · exact ih _ e h
  have hgr : ∀ (d : Dict Int (List κ)) (s : Sysfs κ) e,
      (setGroups (sysfsBackend wfail) m d s).2 = .error e → ∃ c, wfail c = some e := by
    intro d
    induction d with
    | nil => intro s e h; cases h
    | cons q d ih =>
      intro s e h
      obtain ⟨f, cs⟩ := q
      unfold setGroups at h
      cases hr : (sysfsBackend wfail).set m f cs s with
      | mk s1 r =>
        rw [hr] at h
        cases r with
        | error e' =>
          injection h with h; subst h
          exact hset f cs s e' (by
            have : sysfsSet wfail m f cs s = (s1, .error e') := hr
            rw [this])
        | ok u => exact ih s1 e h
  have key : ∀ e, (setFreq P (sysfsBackend wfail) m v cpus s).2 = .error e →
      (e = .freqRange ∨ e = .freqOrder) → ∃ p ∈ l, Bad P m (sysfsView s (!m)) p.1 p.2 := by
    intro e he hk
    apply Classical.byContradiction
    intro hno
    unfold setFreq at he
    simp only [hl] at he
    have hz := zip_eq_zipped P (sysfsView s (!m)) l cpus (numericFreq_aligned (platform_aligned hP) hl)
    have hg : (sysfsBackend wfail).get (!m) cpus s = .ok (cpus.map fun c => (c, sysfsView s (!m) c)) := rfl
    simp only [hg, hz] at he
    rcases checkLoop_spec P m (sysfsView s (!m)) l [] with ⟨h1, _⟩ | ⟨_, d', hd', _⟩
    · exact hno h1
    · rw [hd'] at he
      obtain ⟨c, hc⟩ := hgr _ _ _ he
      rcases hk with rfl | rfl
      · exact (hw c).1 hc
      · exact (hw c).2 hc
  rcases setFreq_spec P (sysfsLaws wfail) m v cpus s trivial l hl
    (numericFreq_aligned (platform_aligned hP) hl) with ⟨_, ⟨h', p, hp, hb⟩ | ⟨h', p, hp, hb⟩⟩ | ⟨hall, _⟩
  · rw [h']
    refine ⟨fun _ => ⟨p, hp, by unfold Plat.lo Plat.hi at hb; exact hb⟩, fun h => by cases h⟩
  · rw [h']
    refine ⟨(fun h => by cases h), fun _ => ⟨p, hp, ?_⟩⟩
    unfold sysfsView Sysfs.file at hb
    cases m <;> simpa using hb
  · constructor
    · intro h
      obtain ⟨p, hp, hb⟩ := key _ h (Or.inl rfl)
      exact absurd hb (hall p hp)
    · intro h
      obtain ⟨p, hp, hb⟩ := key _ h (Or.inr rfl)
      exact absurd hb (hall p hp)

/-- C31: if the value cannot be determined, nothing is changed. -/
theorem C31_no_value [DecidableEq κ] (P : Plat κ) (wfail : κ → Option Exn) (m : Bool) (v : FVal)
    (cpus : List κ) (s : Sysfs κ) (e : Exn) (h : numericFreq P v cpus = .error e) :
    setFreq P (sysfsBackend wfail) m v cpus s = (s, .error e) := by
  unfold setFreq
  simp only [h]

/-- C31: without a violation, the other limit does not change, and this one changes at most on the
requested CPUs and at most to the requested value (in kHz, rounded down). A successful request has
changed all of them, and a request is successful unless the kernel refuses a write. -/
theorem C31_honoured [DecidableEq κ] (P : Plat κ) (hP : Platform P) (wfail : κ → Option Exn) (m : Bool)
    (v : FVal) (cpus : List κ) (s : Sysfs κ) (l : List (κ × Int)) (hl : numericFreq P v cpus = .ok l)
    (hn : cpus.Nodup) (hv : ∀ p ∈ l, ¬ Violates P s m p.1 p.2) :
    let r := setFreq P (sysfsBackend wfail) m v cpus s
    (∀ c, r.1.file (!m) c = s.file (!m) c) ∧
    (∀ c, c ∉ cpus → r.1.file m c = s.file m c) ∧
    (∀ p ∈ l, r.1.file m p.1 = s.file m p.1 ∨ r.1.file m p.1 = p.2 / 1000) ∧
    (r.2 = .ok () → ∀ p ∈ l, r.1.file m p.1 = p.2 / 1000) ∧
    ((∀ c ∈ cpus, wfail c = none) → r.2 = .ok ()) := by
  intro r
  have hal := numericFreq_aligned (platform_aligned hP) hl
  have huniq : ∀ c f f', (c, f) ∈ l → (c, f') ∈ l → f = f' := fun c f f' => snd_unique (by rw [hal]; exact hn)
  rcases setFreq_spec P (sysfsLaws wfail) m v cpus s trivial l hl hal with
    ⟨⟨p, hp, hb⟩, _⟩ | ⟨_, _, k2, k3, k4, k5⟩
  · exact absurd ((violates_bad P s m p.1 p.2).2 hb) (hv p hp)
  · have hmem : ∀ c f, (c, f) ∈ l → c ∈ cpus := fun c f hf => by
      rw [← hal]; exact List.mem_map_of_mem (f := Prod.fst) hf
    refine ⟨?_, ?_, ?_, ?_, ?_⟩
    · intro c
      have := k2 c
      unfold sysfsView at this
      show (setFreq P (sysfsBackend wfail) m v cpus s).1.file (!m) c = _
      omega
    · intro c hc
      show (setFreq P (sysfsBackend wfail) m v cpus s).1.file m c = _
      rcases k3 c with h | ⟨f, hf, _⟩
      · unfold sysfsView at h; omega
      · exact absurd (hmem c f hf) hc
    · intro p hp
      show (setFreq P (sysfsBackend wfail) m v cpus s).1.file m p.1 = _ ∨
        (setFreq P (sysfsBackend wfail) m v cpus s).1.file m p.1 = _
      rcases k3 p.1 with h | ⟨f, hf, h⟩
      · left; unfold sysfsView at h; omega
      · right
        have := huniq p.1 f p.2 hf hp
        subst this
        unfold sysfsView at h; omega
    · intro hok p hp
      show (setFreq P (sysfsBackend wfail) m v cpus s).1.file m p.1 = _
      have h := k4 huniq hok p.2 p.1 hp
      unfold sysfsView at h
      omega
    · intro hw
      exact k5 (fun f c hf => hw c (hmem c f hf))

/-- Setting the property with a mechanism, as called by the loop over the mechanisms: "sysfs" works on
the first part of the state, "msr" on the second one. Models: pepclibs/PStates.py:986-1009
`_set_prop_cpus()`. -/
def setMech {σ1 σ2 : Type} (P : Plat κ) (B1 : Backend κ σ1) (B2 : Backend κ σ2) (m : Bool) (v : FVal)
    (cpus : List κ) (mech : PropsBase.Mech) (s : σ1 × σ2) : (σ1 × σ2) × Except Exn Unit :=
  match mech with
  | .sysfs => let r := setFreq P B1 m v cpus s.1; ((r.1, s.2), r.2)
  | .msr => let r := setFreq P B2 m v cpus s.2; ((s.1, r.1), r.2)
  | _ => (s, .error .notSupported)

/-- C31 with both mechanisms: a range error makes the next mechanism be tried, but it cannot succeed
either. `B2`, `view2` and `Inv2` describe the other mechanism. -/
theorem C31_refused_mechanisms [DecidableEq κ] {σ2 : Type} (P : Plat κ) (hP : Platform P)
    (wfail : κ → Option Exn) (B2 : Backend κ σ2) {view2 : σ2 → Bool → κ → Int} {store2 : κ → Int → Int}
    {Ok2 : κ → Int → Prop} {Inv2 : σ2 → Prop} (L2 : Laws B2 view2 store2 Ok2 Inv2) (m : Bool) (v : FVal)
    (cpus : List κ) (s : Sysfs κ × σ2) (hs : Inv2 s.2) (l : List (κ × Int))
    (hl : numericFreq P v cpus = .ok l) (hv : ∃ p ∈ l, Violates P s.1 m p.1 p.2) :
    ∃ e, PropsBase.setLoop (setMech P (sysfsBackend wfail) B2 m v cpus) [.sysfs, .msr] false s =
      (s, .error e) := by
  have hal := numericFreq_aligned (platform_aligned hP) hl
  have h1 : setFreq P (sysfsBackend wfail) m v cpus s.1 = (s.1, .error .freqRange) ∧
      (∃ p ∈ l, p.2 < P.lo p.1 ∨ P.hi p.1 < p.2) ∨
      setFreq P (sysfsBackend wfail) m v cpus s.1 = (s.1, .error .freqOrder) := by
    obtain ⟨p, hp, hv⟩ := hv
    rcases setFreq_spec P (sysfsLaws wfail) m v cpus s.1 trivial l hl hal with ⟨_, h' | h'⟩ | ⟨hall, _⟩
    · exact Or.inl h'
    · exact Or.inr h'.1
    · exact absurd ((violates_bad P s.1 m p.1 p.2).1 hv) (hall p hp)
  rcases h1 with ⟨h1, hr⟩ | h1
  · rcases setFreq_spec P L2 m v cpus s.2 hs l hl hal with ⟨_, h' | h'⟩ | ⟨hall, _⟩
    · refine ⟨.notSupported, ?_⟩
      simp only [PropsBase.setLoop, setMech, h1, h'.1]
      rfl
    · refine ⟨.freqOrder, ?_⟩
      simp only [PropsBase.setLoop, setMech, h1, h'.1]
      rfl
    · obtain ⟨p, hp, hb⟩ := hr
      exact absurd (hb.elim Or.inl fun h => Or.inr (Or.inl h)) (hall p hp)
  · refine ⟨.freqOrder, ?_⟩
    simp only [PropsBase.setLoop, setMech, h1]
    rfl

/-- The order is violated on CPU 1 only; CPU 0 comes first but is not changed. -/
example : numericFreq exPlat (.num 2000000000) [0, 1] = .ok [(0, 2000000000), (1, 2000000000)] ∧
    Violates exPlat ⟨fun _ => 800000, fun c => if c = 1 then 1000000 else 3000000⟩ true 1 2000000000 := by
  refine ⟨rfl, ?_⟩
  unfold Violates exPlat cpuPlat
  decide

/-- No violation, different values on different CPUs. -/
example : numericFreq exPlat .max [2, 0] = .ok [(2, 2000000000), (0, 3000000000)] ∧
    ∀ p ∈ [(2, 2000000000), ((0 : Nat), (3000000000 : Int))], ¬ Violates exPlat exState false p.1 p.2 := by
  refine ⟨by decide +kernel, ?_⟩
  unfold Violates exPlat cpuPlat exState
  decide +kernel

/-! ### C32 -/

/-- Both limits of the requested CPUs are `n1` and `n2` (Hz), the other CPUs are as before. -/
def NewLimits (cpus : List κ) (n1 n2 : κ → Int) (s s' : Sysfs κ) : Prop :=
  (∀ c ∈ cpus, s'.mn c * 1000 = n1 c ∧ s'.mx c * 1000 = n2 c) ∧
  ∀ c, c ∉ cpus → s'.mn c = s.mn c ∧ s'.mx c = s.mx c

/-- A valid request for both limits: the values of the min. and the max. limit are `n1` and `n2`, they
are in order, within the hardware limits, and entire numbers of kHz. -/
structure ValidPair (P : Plat κ) (cpus : List κ) (v1 v2 : FVal) (n1 n2 : κ → Int) : Prop where
  val1 : numericFreq P v1 cpus = .ok (cpus.map fun c => (c, n1 c))
  val2 : numericFreq P v2 cpus = .ok (cpus.map fun c => (c, n2 c))
  lo : ∀ c ∈ cpus, P.loKHz c * 1000 ≤ n1 c
  le : ∀ c ∈ cpus, n1 c ≤ n2 c
  hi : ∀ c ∈ cpus, n2 c ≤ P.hiKHz c * 1000
  khz1 : ∀ c ∈ cpus, n1 c % 1000 = 0
  khz2 : ∀ c ∈ cpus, n2 c % 1000 = 0

theorem ValidPair.both {P : Plat κ} {cpus : List κ} {v1 v2 : FVal} {n1 n2 : κ → Int}
    (h : ValidPair P cpus v1 v2 n1 n2) :
    Both P (fun _ _ => (none : Option Exn) = none) (fun _ g => ∃ k, g = k * 1000) cpus v1 v2 n1 n2 where
  h1 := h.val1
  h2 := h.val2
  lo := h.lo
  le := h.le
  hi := h.hi
  g1 c hc := ⟨n1 c / 1000, by have := h.khz1 c hc; omega⟩
  g2 c hc := ⟨n2 c / 1000, by have := h.khz2 c hc; omega⟩
  ok1 _ _ := rfl
  ok2 _ _ := rfl

theorem newLimits_of {cpus : List κ} {n1 n2 : κ → Int} {s s' : Sysfs κ}
    (h : BothSet sysfsView cpus n1 n2 s s') : NewLimits cpus n1 n2 s s' := by
  refine ⟨fun c hc => h.1 c hc, fun c hc => ?_⟩
  have h1 := h.2 c true hc
  have h2 := h.2 c false hc
  unfold sysfsView Sysfs.file at h1 h2
  simp only [if_true, Bool.false_eq_true, if_false] at h1 h2
  omega

/-- The command with both options, in the order of the dictionary `opts`. -/
def setCommand [DecidableEq κ] (P : Plat κ) (cpus : List κ) (opts : Dict PName FVal) (s : Sysfs κ) :
    Sysfs κ × Except Exn Unit :=
  setProps (fun p v s => setFreq P (sysfsBackend fun _ => none) p v cpus s) opts s

/-- C32, the min. limit is requested first. The claim is that the command always succeeds. It succeeds
iff the new min. limit is not above the current max. limit on any CPU, or the new max. limit is not below
the current min. limit on any CPU; otherwise nothing is changed. What is missing: CPUs with current
limits on both sides of the new ones. -/
theorem C32_min_first_partial [DecidableEq κ] (P : Plat κ) (cpus : List κ) (v1 v2 : FVal)
    (n1 n2 : κ → Int) (hv : ValidPair P cpus v1 v2 n1 n2) (s : Sysfs κ) :
    (((∀ c ∈ cpus, n1 c ≤ s.mx c * 1000) ∨ (∀ c ∈ cpus, s.mn c * 1000 ≤ n2 c)) →
      ∃ s', setCommand P cpus [(true, v1), (false, v2)] s = (s', .ok ()) ∧ NewLimits cpus n1 n2 s s') ∧
    ((∃ c ∈ cpus, s.mx c * 1000 < n1 c) → (∃ c ∈ cpus, n2 c < s.mn c * 1000) →
      setCommand P cpus [(true, v1), (false, v2)] s = (s, .error .freqOrder)) := by
  rcases setProps_min_first (sysfsLaws fun _ => none) (sysfsGrid P) hv.both s trivial with
    ⟨hc, s', h, hb⟩ | ⟨⟨a, ha, ha'⟩, ⟨b, hb, hb'⟩, h⟩
  · refine ⟨fun _ => ⟨s', h, newLimits_of hb⟩, ?_⟩
    rintro ⟨a, ha, ha'⟩ ⟨b, hb, hb'⟩
    exfalso
    rcases hc with hc | hc
    · have : n1 a ≤ s.mx a * 1000 := hc a ha
      omega
    · have : s.mn b * 1000 ≤ n2 b := hc b hb
      omega
  · refine ⟨?_, fun _ _ => h⟩
    have ha' : s.mx a * 1000 < n1 a := ha'
    have hb' : n2 b < s.mn b * 1000 := hb'
    rintro (hc | hc)
    · have := hc a ha; omega
    · have := hc b hb; omega

/-- C32, the max. limit is requested first: the command succeeds iff the new max. limit is not below the
current min. limit on any CPU; otherwise nothing is changed, although changing the min. limit first would
have worked. What is missing: all the other current states. -/
theorem C32_max_first_partial [DecidableEq κ] (P : Plat κ) (cpus : List κ) (v1 v2 : FVal)
    (n1 n2 : κ → Int) (hv : ValidPair P cpus v1 v2 n1 n2) (s : Sysfs κ) :
    ((∀ c ∈ cpus, s.mn c * 1000 ≤ n2 c) →
      ∃ s', setCommand P cpus [(false, v2), (true, v1)] s = (s', .ok ()) ∧ NewLimits cpus n1 n2 s s') ∧
    ((∃ c ∈ cpus, n2 c < s.mn c * 1000) →
      setCommand P cpus [(false, v2), (true, v1)] s = (s, .error .freqOrder)) := by
  rcases setProps_max_first (sysfsLaws fun _ => none) (sysfsGrid P) hv.both s trivial with
    ⟨hc, s', h, hb⟩ | ⟨⟨b, hb, hb'⟩, h⟩
  · refine ⟨fun _ => ⟨s', h, newLimits_of hb⟩, ?_⟩
    rintro ⟨b, hb, hb'⟩
    exfalso
    have : s.mn b * 1000 ≤ n2 b := hc b hb
    omega
  · refine ⟨fun hc => ?_, fun _ => h⟩
    have hb' : n2 b < s.mn b * 1000 := hb'
    have := hc b hb
    omega

/-- C32, the min. limit is requested first and all the requested CPUs have the same current limits: the
command succeeds. -/
theorem C32_uniform_partial [DecidableEq κ] (P : Plat κ) (cpus : List κ) (v1 v2 : FVal) (n1 n2 : Int)
    (hv : ValidPair P cpus v1 v2 (fun _ => n1) (fun _ => n2)) (s : Sysfs κ) (mn mx : Int)
    (hu : ∀ c ∈ cpus, s.mn c = mn ∧ s.mx c = mx) (hs : ∀ c ∈ cpus, Sane P s c) :
    ∃ s', setCommand P cpus [(true, v1), (false, v2)] s = (s', .ok ()) ∧
      NewLimits cpus (fun _ => n1) (fun _ => n2) s s' := by
  apply (C32_min_first_partial P cpus v1 v2 _ _ hv s).1
  by_cases h : n1 ≤ mx * 1000
  · left; intro c hc; rw [(hu c hc).2]; exact h
  · right
    intro c hc
    have := (hs c hc).2.1
    have := hv.le c hc
    rw [(hu c hc).1] at *
    rw [(hu c hc).2] at *
    omega

/-- A valid pair and a state where the current limits are below the new ones: the order of the writes has
to be exchanged. -/
example : ValidPair exPlat [0, 1] (.num 2000000000) .max (fun _ => 2000000000) (fun _ => 3000000000) ∧
    (let s : Sysfs Nat := ⟨fun _ => 800000, fun _ => 1000000⟩
     (∀ c ∈ [0, 1], s.mn c * 1000 ≤ (3000000000 : Int)) ∧
     ((setCommand exPlat [0, 1] [(true, .num 2000000000), (false, .max)] s).1.mn 1 = 2000000)) := by
  refine ⟨⟨by decide +kernel, by decide +kernel, ?_, ?_, ?_, ?_, ?_⟩, by decide +kernel⟩ <;> decide +kernel

/-- C32 is false when the max. limit is requested first: CPU 0 runs at [2, 3] GHz, [1, 1.5] GHz is
requested, and the order error is not handled because the code looks for "mim_freq". -/
theorem C32_max_first_counterexample :
    let s : Sysfs Nat := ⟨fun _ => 2000000, fun _ => 3000000⟩
    Sane exPlat s 0 ∧
    ValidPair exPlat [0] (.num 1000000000) (.num 1500000000) (fun _ => 1000000000) (fun _ => 1500000000) ∧
    (setCommand exPlat [0] [(false, .num 1500000000), (true, .num 1000000000)] s).2 = .error .freqOrder ∧
    (setCommand exPlat [0] [(true, .num 1000000000), (false, .num 1500000000)] s).2 = .ok () := by
  refine ⟨⟨by decide +kernel, by decide +kernel, by decide +kernel⟩,
    ⟨rfl, rfl, ?_, ?_, ?_, ?_, ?_⟩, by decide +kernel, by decide +kernel⟩ <;> decide +kernel

/-- C32 is false for CPUs with different current limits: CPU 0 is at [0.8, 1] GHz, CPU 1 is at
[2.5, 3] GHz and [1.5, 2] GHz is requested for both. Both orders fail. -/
theorem C32_mixed_counterexample :
    let s : Sysfs Nat := ⟨fun c => if c = 0 then 800000 else 2500000,
      fun c => if c = 0 then 1000000 else 3000000⟩
    (∀ c ∈ [0, 1], Sane exPlat s c) ∧
    ValidPair exPlat [0, 1] (.num 1500000000) (.num 2000000000) (fun _ => 1500000000) (fun _ => 2000000000) ∧
    (setCommand exPlat [0, 1] [(true, .num 1500000000), (false, .num 2000000000)] s).2 = .error .freqOrder ∧
    (setCommand exPlat [0, 1] [(false, .num 2000000000), (true, .num 1500000000)] s).2 =
      .error .freqOrder := by
  refine ⟨?_, ⟨rfl, rfl, ?_, ?_, ?_, ?_, ?_⟩, by decide +kernel, by decide +kernel⟩
  · unfold Sane; decide +kernel
  all_goals decide +kernel

/-! ### C33 -/

/-- The saved values of one property: groups of CPUs with the same value. `K` are the CPUs in the file,
`f c` is the saved value of CPU `c` in Hz. -/
structure Saved (infos : List (FVal × List κ)) (K : κ → Prop) (f : κ → Int) : Prop where
  val : ∀ p ∈ infos, ∃ g, p.1 = .num g ∧ ∀ c ∈ p.2, f c = g
  cover : ∀ c, K c ↔ ∃ p ∈ infos, c ∈ p.2

/-- C33: restoring saved limits succeeds and ends with exactly the saved limits of all CPUs in the file,
whichever of the two properties comes first (`m`) and whatever the current limits are. The other CPUs are
not changed. `sv` are the saved limits in kHz. -/
theorem C33_restore [DecidableEq κ] (P : Plat κ) (m : Bool) (sv : Sysfs κ)
    (i1 i2 : List (FVal × List κ)) (K : κ → Prop) (h1 : Saved i1 K (fun c => sv.file m c * 1000))
    (h2 : Saved i2 K (fun c => sv.file (!m) c * 1000)) (hsv : ∀ c, K c → Sane P sv c) (s : Sysfs κ)
    (hs : ∀ c, K c → Sane P s c) :
    ∃ s', restoreProps (fun p v n s => setFreq P (sysfsBackend fun _ => none) p v n s)
        [(m, i1), (!m, i2)] s = (s', .ok ()) ∧
      (∀ c, K c → s'.mn c = sv.mn c ∧ s'.mx c = sv.mx c) ∧
      (∀ c, ¬ K c → s'.mn c = s.mn c ∧ s'.mx c = s.mx c) := by
  obtain ⟨s', h, k1, k2⟩ := restoreProps_spec (sysfsLaws fun _ => none) (sysfsGrid P)
    (fun _ _ _ _ _ => rfl) m (sysfsView sv) i1 i2 K ⟨h1.val, h1.cover⟩ ⟨h2.val, h2.cover⟩
    (fun m c _ => ⟨_, rfl⟩) (fun c hc => (sane_within P sv c).1 (hsv c hc)) s trivial
    (fun c hc => (sane_within P s c).1 (hs c hc))
  refine ⟨s', h, fun c hc => ?_, fun c hc => ?_⟩
  · have a := k1 c hc true
    have b := k1 c hc false
    unfold sysfsView Sysfs.file at a b
    simp only [if_true, Bool.false_eq_true, if_false] at a b
    omega
  · have a := k2 c true hc
    have b := k2 c false hc
    unfold sysfsView Sysfs.file at a b
    simp only [if_true, Bool.false_eq_true, if_false] at a b
    omega

/-- The saved limits are below the current ones on CPU 0 and above them on CPU 1. -/
example :
    let s : Sysfs Nat := ⟨fun c => if c = 0 then 2500000 else 800000, fun c => if c = 0 then 3000000 else 1000000⟩
    let sv : Sysfs Nat := ⟨fun c => if c = 0 then 800000 else 2000000, fun c => if c = 0 then 1500000 else 2500000⟩
    let i1 : List (FVal × List Nat) := [(.num 800000000, [0]), (.num 2000000000, [1])]
    let i2 : List (FVal × List Nat) := [(.num 2500000000, [1]), (.num 1500000000, [0])]
    Saved i1 (· < 2) (fun c => sv.file true c * 1000) ∧ Saved i2 (· < 2) (fun c => sv.file false c * 1000) ∧
    (∀ c, c < 2 → Sane exPlat sv c ∧ Sane exPlat s c) ∧
    (let s' := (restoreProps (fun p v n s => setFreq exPlat (sysfsBackend fun _ => none) p v n s)
        [(true, i1), (false, i2)] s).1
     (s'.mn 0, s'.mn 1, s'.mx 0, s'.mx 1) = (800000, 2000000, 1500000, 2500000)) := by
  refine ⟨⟨?_, ?_⟩, ⟨?_, ?_⟩, ?_, by decide +kernel⟩
  · intro p hp
    simp only [List.mem_cons, List.not_mem_nil, or_false] at hp
    rcases hp with rfl | rfl
    · exact ⟨_, rfl, by decide +kernel⟩
    · exact ⟨_, rfl, by decide +kernel⟩
  · intro c; simp; omega
  · intro p hp
    simp only [List.mem_cons, List.not_mem_nil, or_false] at hp
    rcases hp with rfl | rfl
    · exact ⟨_, rfl, by decide +kernel⟩
    · exact ⟨_, rfl, by decide +kernel⟩
  · intro c; simp; omega
  · intro c hc
    obtain rfl | rfl : c = 0 ∨ c = 1 := by omega
    · unfold Sane; decide +kernel
    · unfold Sane; decide +kernel

/-! ### C35 -/

theorem mem_freqGrid (bclk : Nat) (hb : 0 < bclk) (freq max f : Int) :
    f ∈ freqGrid bclk hb freq max ↔ f ≤ max ∧ ∃ k : Nat, f = freq + k * bclk := by
  fun_induction freqGrid bclk hb freq max with
  | case1 freq h ih =>
    rw [List.mem_cons, ih]
    constructor
    · rintro (rfl | ⟨h1, k, rfl⟩)
      · exact ⟨h, 0, by simp⟩
      · refine ⟨h1, k + 1, ?_⟩
        rw [Int.natCast_add, Int.add_mul]; omega
    · rintro ⟨h1, k, rfl⟩
      cases k with
      | zero => exact Or.inl (by simp)
      | succ k =>
        refine Or.inr ⟨h1, k, ?_⟩
        rw [Int.natCast_add, Int.add_mul]; omega
  | case2 freq h =>
    simp only [List.not_mem_nil, false_iff]
    rintro ⟨h1, k, rfl⟩
    have : (0 : Int) ≤ k * bclk := Int.mul_nonneg (by omega) (by omega)
    omega

/-- C35: on a CPU driven by "intel_pstate", the available frequencies are the grid points
`min_freq + k * bclk` which are not above the max. frequency, all of them, each once and in increasing
order. -/
theorem C35_frequencies (info : κ → FreqInfo) (cpus : List κ)
    (hd : ∀ c ∈ cpus, (info c).driver = "intel_pstate") :
    (getFrequenciesIntel info cpus).2 = none ∧
    (getFrequenciesIntel info cpus).1.map Prod.fst = cpus ∧
    ∀ p ∈ (getFrequenciesIntel info cpus).1,
      (∀ f, f ∈ p.2 ↔ f ≤ (info p.1).maxFreq ∧ ∃ k : Nat, f = (info p.1).minFreq + k * (info p.1).bclk) ∧
      p.2.Pairwise (· < ·) := by
  induction cpus with
  | nil => exact ⟨rfl, rfl, by intro p hp; cases hp⟩
  | cons c cpus ih =>
    obtain ⟨i1, i2, i3⟩ := ih (fun c hc => hd c (by simp [hc]))
    unfold getFrequenciesIntel
    rw [if_neg (by simp [hd c (by simp)])]
    refine ⟨i1, by rw [List.map_cons, i2], ?_⟩
    intro p hp
    rcases List.mem_cons.1 hp with rfl | hp
    · refine ⟨fun f => mem_freqGrid _ _ _ _ f, ?_⟩
      generalize (info c).minFreq = freq
      generalize hbe : (info c).hb = hb
      clear hbe i1 i2 i3 hp
      fun_induction freqGrid (info c).bclk hb freq (info c).maxFreq with
      | case1 freq h ih =>
        rw [List.pairwise_cons]
        refine ⟨?_, ih⟩
        intro f hf
        obtain ⟨_, k, rfl⟩ := (mem_freqGrid _ _ _ _ f).1 hf
        have : (0 : Int) ≤ k * (info c).bclk := Int.mul_nonneg (by omega) (by omega)
        omega
      | case2 freq h => exact List.Pairwise.nil
    · exact i3 p hp

/-- C35: the first CPU with another driver stops the listing with "not supported"; the CPUs before it
are listed. -/
theorem C35_other_driver (info : κ → FreqInfo) (pre post : List κ) (c : κ)
    (hd : ∀ c ∈ pre, (info c).driver = "intel_pstate") (hc : (info c).driver ≠ "intel_pstate") :
    getFrequenciesIntel info (pre ++ c :: post) = ((getFrequenciesIntel info pre).1, some .notSupported) := by
  induction pre with
  | nil => simp only [List.nil_append, getFrequenciesIntel]; rw [if_pos hc]
  | cons a pre ih =>
    have ha : ¬ (info a).driver ≠ "intel_pstate" := by simp [hd a (by simp)]
    have ih := ih (fun c hc => hd c (by simp [hc]))
    simp only [List.cons_append, getFrequenciesIntel, if_neg ha, ih]

example : (getFrequenciesIntel (fun _ : Nat => ⟨"intel_pstate", 800, 1150, 100, by decide⟩) [3, 5]) =
    ([(3, [800, 900, 1000, 1100]), (5, [800, 900, 1000, 1100])], none) := by decide +kernel

/-! ### C36 -/

/-- C36: the frequency used for "mdl" is a multiple of the bus clock, within the limits, and at most
half a bus clock away from the middle of the limits. -/
theorem C36_mdl (bclk lo hi : Int) (hb : 0 < bclk) (hlo : bclk ∣ lo) (hhi : bclk ∣ hi) (hle : lo ≤ hi) :
    bclk ∣ mdl bclk lo hi ∧ lo ≤ mdl bclk lo hi ∧ mdl bclk lo hi ≤ hi ∧
    2 * mdl bclk lo hi ≤ lo + hi + bclk ∧ lo + hi - bclk ≤ 2 * mdl bclk lo hi := by
  obtain ⟨a, rfl⟩ := hlo
  obtain ⟨b, rfl⟩ := hhi
  have hab : a ≤ b := Int.le_of_mul_le_mul_left hle hb
  have key : ∃ q, mdl bclk (bclk * a) (bclk * b) = bclk * q ∧ a ≤ q ∧ q ≤ b ∧ 2 * q ≤ a + b + 1 ∧
      a + b - 1 ≤ 2 * q := by
    refine ⟨roundDiv (bclk * a + bclk * b) (2 * bclk), rfl, ?_⟩
    have e1 : bclk * a + bclk * b = bclk * (a + b) := by rw [Int.mul_add]
    have e2 : 2 * bclk = bclk * 2 := Int.mul_comm _ _
    have e3 : (bclk * a + bclk * b) / (2 * bclk) = (a + b) / 2 := by
      rw [e1, e2, Int.mul_ediv_mul_of_pos _ _ hb]
    have e4 : (bclk * a + bclk * b) % (2 * bclk) = bclk * ((a + b) % 2) := by
      rw [e1, e2, Int.mul_emod_mul_of_pos _ _ hb]
    unfold roundDiv
    rw [e3, e4]
    dsimp only
    obtain h | h : (a + b) % 2 = 0 ∨ (a + b) % 2 = 1 := by omega
    · rw [h, Int.mul_zero]
      rw [if_pos (by omega)]
      omega
    · rw [h, Int.mul_one]
      rw [if_neg (by omega), if_neg (by omega)]
      split <;> omega
  obtain ⟨q, hq, h1, h2, h3, h4⟩ := key
  rw [hq]
  have m1 := Int.mul_le_mul_of_nonneg_left h1 (Int.le_of_lt hb)
  have m2 := Int.mul_le_mul_of_nonneg_left h2 (Int.le_of_lt hb)
  have m3 := Int.mul_le_mul_of_nonneg_left h3 (Int.le_of_lt hb)
  have m4 := Int.mul_le_mul_of_nonneg_left h4 (Int.le_of_lt hb)
  have s1 : bclk * (2 * q) = 2 * (bclk * q) := by rw [Int.mul_left_comm]
  have s2 : bclk * (a + b + 1) = bclk * a + bclk * b + bclk := by
    rw [Int.mul_add, Int.mul_add, Int.mul_one]
  have s3 : bclk * (a + b - 1) = bclk * a + bclk * b - bclk := by
    rw [Int.mul_sub, Int.mul_add, Int.mul_one]
  rw [s1, s2] at m3
  rw [s3, s1] at m4
  exact ⟨⟨q, rfl⟩, m1, m2, m3, m4⟩

/-- C36: for any limits, the frequency used for "mdl" is a multiple of the bus clock which is nearest to the
middle of the limits. -/
theorem C36_mdl_nearest (bclk lo hi : Int) (hb : 0 < bclk) :
    bclk ∣ mdl bclk lo hi ∧ ∀ k : Int, (2 * mdl bclk lo hi - (lo + hi)).natAbs ≤ (2 * (bclk * k) - (lo + hi)).natAbs := by
  refine ⟨⟨_, rfl⟩, fun k => ?_⟩
  unfold mdl
  have hdm := Int.mul_ediv_add_emod (lo + hi) (2 * bclk)
  have hr0 := Int.emod_nonneg (lo + hi) (b := 2 * bclk) (by omega)
  have hr1 := Int.emod_lt_of_pos (lo + hi) (b := 2 * bclk) (by omega)
  unfold roundDiv
  dsimp only
  generalize (lo + hi) / (2 * bclk) = q at hdm ⊢
  generalize (lo + hi) % (2 * bclk) = r at hdm hr0 hr1 ⊢
  rw [Int.mul_assoc] at hdm
  have hk : k ≤ q ∨ q + 1 ≤ k := by omega
  have m1 : k ≤ q → bclk * k ≤ bclk * q := fun h => Int.mul_le_mul_of_nonneg_left h (Int.le_of_lt hb)
  have m2 : q + 1 ≤ k → bclk * (q + 1) ≤ bclk * k := fun h => Int.mul_le_mul_of_nonneg_left h (Int.le_of_lt hb)
  have e : bclk * (q + 1) = bclk * q + bclk := by rw [Int.mul_add, Int.mul_one]
  rw [e] at m2
  split
  · rcases hk with h | h
    · have := m1 h; omega
    · have := m2 h; omega
  · split
    · rw [e]
      rcases hk with h | h
      · have := m1 h; omega
      · have := m2 h; omega
    · split
      · rcases hk with h | h
        · have := m1 h; omega
        · have := m2 h; omega
      · rw [e]
        rcases hk with h | h
        · have := m1 h; omega
        · have := m2 h; omega

/-- The middle is 1.56 GHz, which is nearer to 1.6 GHz than to 1.5 GHz. -/
example : mdl 100000000 820000000 2300000000 = 1600000000 := by decide +kernel

/-- C36: requesting "mdl" for uncore dies uses this frequency for every die, so it is never refused as
out of range. -/
theorem C36_mdl_in_range (bclk loKHz hiKHz : κ → Int) (dies : List κ)
    (h : ∀ d ∈ dies, 0 < bclk d ∧ bclk d ∣ loKHz d * 1000 ∧ bclk d ∣ hiKHz d * 1000 ∧ loKHz d ≤ hiKHz d) :
    ∃ l, numericFreq (uncorePlat bclk loKHz hiKHz) (.other "mdl") dies = .ok l ∧ l.map Prod.fst = dies ∧
      ∀ p ∈ l, bclk p.1 ∣ p.2 ∧ loKHz p.1 * 1000 ≤ p.2 ∧ p.2 ≤ hiKHz p.1 * 1000 := by
  refine ⟨_, rfl, by simp [Function.comp_def], ?_⟩
  intro p hp
  obtain ⟨d, hd, rfl⟩ := List.mem_map.1 hp
  obtain ⟨h1, h2, h3, h4⟩ := h d hd
  have := C36_mdl (bclk d) _ _ h1 h2 h3 (by omega)
  exact ⟨this.1, this.2.1, this.2.2.1⟩

/-- 0.8 - 2.4 GHz gives 1.6 GHz, 0.8 - 2.5 GHz is rounded to the even multiple of 100 MHz. -/
example : mdl 100000000 800000000 2400000000 = 1600000000 ∧ mdl 100000000 800000000 2500000000 = 1600000000 ∧
    mdl 100000000 900000000 2600000000 = 1800000000 := by decide +kernel

end Verif.PStates
