import Verif.Lemmas.UncoreFreq

/-!
C56, C64, C65: uncore frequency. The kernel is in Verif/Props/UncoreSpec.lean.
-/

namespace Verif.UncoreFreq

/-! ### C56 -/

/-- **C56.** The name of the directory identifies package and die. -/
theorem C56_round_trip (p d : Nat) : parseLegacy (legacyDir p d) = some ((p : Int), (d : Int)) :=
  parseLegacy_legacyDir p d

/-- **C56.** Different dies have different directories. -/
theorem C56_different (p d p' d' : Nat) (h : (p, d) ≠ (p', d')) : legacyDir p d ≠ legacyDir p' d' := by
  intro he
  have := legacyDir_inj (Int.natCast_nonneg p) (Int.natCast_nonneg p') (Int.natCast_nonneg d)
    (Int.natCast_nonneg d') he
  exact h (by rw [Int.ofNat.inj this.1, Int.ofNat.inj this.2])

/-- **C56.** The names are those of the kernel: at least two digits. -/
theorem C56_name (p d : Nat) : legacyDir p d =
    "package_".toList ++ (if p < 10 then ['0'] else []) ++ PyStr.ofNat p ++
      "_die_".toList ++ (if d < 10 then ['0'] else []) ++ PyStr.ofNat d := by
  have h : ∀ n : Nat, fmt02 n = (if n < 10 then ['0'] else []) ++ PyStr.ofNat n := by
    intro n
    unfold fmt02
    by_cases hn : n < 10
    · rw [if_pos ⟨Int.natCast_nonneg n, by exact_mod_cast hn⟩, if_pos hn]; rfl
    · rw [if_neg (fun h => hn (by exact_mod_cast h.2)), if_neg hn]; rfl
  unfold legacyDir
  rw [h p, h d]
  simp only [List.append_assoc]

theorem buildLegacy_eq (l : List (Nat × Nat)) (i : Info) :
    buildLegacy (l.map fun x => legacyDir x.1 x.2) i =
      addAll i (l.map fun x => (((x.1 : Int), (x.2 : Int)), legacyDir x.1 x.2)) := by
  induction l generalizing i with
  | nil => rfl
  | cons x l ih =>
    rw [List.map_cons]
    unfold buildLegacy
    rw [parseLegacy_legacyDir]
    dsimp only
    rw [ih]
    rfl

/-- **C56.** When there are legacy directories only, the dies information lists the dies of every package in the
order of the directories, and the directory used for a die is the one of this die. -/
theorem C56_dies {σ : Type} (fs : Sysfs σ) (l : List (Nat × Nat))
    (hl : fs.lsdir = l.map fun x => legacyDir x.1 x.2) :
    ∃ D, getDiesInfo fs = .ok D ∧ D.keys.Nodup ∧
      (∀ p : Nat, D.get? (p : Int) =
        let ds := (l.filter fun x => x.1 == p).map fun x => (x.2 : Int)
        if ds = [] then none else some ds) ∧
      (∀ p : Int, p < 0 → D.get? p = none) ∧
      ∀ x ∈ l, dieDir fs x.1 x.2 = .ok (legacyDir x.1 x.2) ∧ legacyDir x.1 x.2 ∈ fs.lsdir := by
  have hn : useNew fs = false := by
    unfold useNew
    rw [hl, List.any_eq_false]
    intro dir hdir hp
    obtain ⟨x, -, rfl⟩ := List.mem_map.1 hdir
    obtain ⟨t, ht⟩ := List.isPrefixOf_iff_prefix.1 hp
    have h1 : ∀ u : PyStr, ("package_".toList ++ u).head? = some 'p' := fun u => by rw [List.head?_append]; rfl
    have h2 : ∀ u : PyStr, ("uncore".toList ++ u).head? = some 'u' := fun u => by rw [List.head?_append]; rfl
    have := congrArg List.head? ht
    rw [h2] at this
    unfold legacyDir at this
    rw [List.append_assoc, List.append_assoc, h1] at this
    cases this
  have hb : build fs = .ok (addAll ⟨[], []⟩ (l.map fun x => (((x.1 : Int), (x.2 : Int)), legacyDir x.1 x.2))) := by
    unfold build
    rw [hn, if_neg (by decide), hl, buildLegacy_eq]
  have hk := keys_addAll (l.map fun x => (((x.1 : Int), (x.2 : Int)), legacyDir x.1 x.2)) ⟨[], []⟩ List.nodup_nil
  refine ⟨_, by unfold getDiesInfo; rw [hb], hk.1, fun p => ?_, fun p hp => ?_, fun x hx => ⟨?_, ?_⟩⟩
  · have hd := diesOf_addAll (l.map fun x => (((x.1 : Int), (x.2 : Int)), legacyDir x.1 x.2)) ⟨[], []⟩ p
    have e : ((((l.map fun x => (((x.1 : Int), (x.2 : Int)), legacyDir x.1 x.2)).map Prod.fst).filter
        fun x => x.1 == (p : Int)).map Prod.snd) = (l.filter fun x => x.1 == p).map fun x => (x.2 : Int) := by
      rw [List.map_map, List.filter_map, List.map_map]
      have : ((fun x : Int × Int => x.1 == (p : Int)) ∘
          (Prod.fst ∘ fun x : Nat × Nat => (((x.1 : Int), (x.2 : Int)), legacyDir x.1 x.2))) =
          fun x : Nat × Nat => x.1 == p := by
        funext x
        simp [Function.comp]
      rw [this]
      rfl
    rw [e] at hd
    have hd : _ = (l.filter fun x => x.1 == p).map fun x => (x.2 : Int) := hd
    dsimp only
    split
    · rename_i hnil
      rw [Dict.get?_eq_none_iff]
      intro hmem
      rcases (hk.2 p).1 hmem with h | ⟨e', he', h⟩
      · cases h
      · obtain ⟨x, hx, rfl⟩ := List.mem_map.1 he'
        rw [List.map_eq_nil_iff, List.filter_eq_nil_iff] at hnil
        exact hnil x hx (by simpa using h)
    · rename_i hne
      refine get?_of_getD hd ?_
      rw [hk.2]
      obtain ⟨d, hd'⟩ := List.exists_mem_of_ne_nil _ hne
      obtain ⟨x, hx, -⟩ := List.mem_map.1 hd'
      rw [List.mem_filter] at hx
      exact Or.inr ⟨_, List.mem_map.2 ⟨x, hx.1, rfl⟩, by simpa using hx.2⟩
  · rw [Dict.get?_eq_none_iff]
    intro hmem
    rcases (hk.2 p).1 hmem with h | ⟨e', he', h⟩
    · cases h
    · obtain ⟨x, hx, rfl⟩ := List.mem_map.1 he'
      dsimp only at h
      omega
  · unfold dieDir
    rw [hn]
    rfl
  · rw [hl]
    exact List.mem_map.2 ⟨x, hx, rfl⟩

-- Names; numbers with one and more digits.
example : legacyDir 0 1 = "package_00_die_01".toList ∧ legacyDir 12 3 = "package_12_die_03".toList ∧
    legacyDir 1 203 = "package_01_die_203".toList ∧
    parseLegacy "package_12_die_03".toList = some (12, 3) ∧ parseLegacy "uncore00".toList = none :=
  ⟨by decide +kernel, by decide +kernel, by decide +kernel, by decide +kernel, by decide +kernel⟩

/-! ### C64 -/

/-- **C64.** The dies information lists exactly the dies the driver has directories for, in their order. -/
theorem C64_dies (m : Machine) (hw : m.WF) :
    ∃ D, getDiesInfo m.sysfs = .ok D ∧ D.keys.Nodup ∧ ∀ p, D.get? p =
      let ds := (m.dies.filter fun x => x.1 == p).map Prod.snd
      if ds = [] then none else some ds := by
  have hk := keys_addAll m.entries ⟨[], []⟩ List.nodup_nil
  refine ⟨_, by unfold getDiesInfo; rw [build_sysfs hw], hk.1, fun p => ?_⟩
  have hi := info_dies m p
  have hd := diesOf_addAll m.entries ⟨[], []⟩ p
  rw [map_entries] at hd
  have hd : _ = (m.dies.filter fun x => x.1 == p).map Prod.snd := hd
  dsimp only
  split
  · rename_i hnil
    rw [Dict.get?_eq_none_iff, hi.1]
    rintro ⟨x, hx, rfl⟩
    rw [List.map_eq_nil_iff, List.filter_eq_nil_iff] at hnil
    exact hnil x hx (by simp)
  · rename_i hne
    refine get?_of_getD hd (hi.1.2 ?_)
    obtain ⟨d, hd'⟩ := List.exists_mem_of_ne_nil _ hne
    obtain ⟨x, hx, -⟩ := List.mem_map.1 hd'
    rw [List.mem_filter] at hx
    exact ⟨x, hx.1, by simpa using hx.2⟩

theorem getFreqDies_spec (m : Machine) (hw : m.WF) (s : KState) (key : Key) (limit : Bool) (dies : Dict Int (List Int))
    (h : ∀ p ds, (p, ds) ∈ dies → ∀ d ∈ ds, (p, d) ∈ m.dies) :
    getFreqDies m.sysfs s key limit dies = .ok (dies.flatMap fun e => e.2.map fun d =>
      ((e.1, d), (if limit then m.dieLimit (e.1, d) key else s.val (e.1, d) key) * 1000)) := by
  unfold getFreqDies
  rw [getFreqLoop_spec hw]
  · unfold pairs
    rw [List.map_flatMap]
    simp only [List.map_map]
    rfl
  · intro x hx
    obtain ⟨⟨p, ds⟩, he, hx⟩ := List.mem_flatMap.1 hx
    obtain ⟨d, hd, rfl⟩ := List.mem_map.1 hx
    exact h p ds he d hd

/-- **C64.** Reading the minimum or maximum frequency of dies gives the frequency of each of them, in Hz. -/
theorem C64_get (m : Machine) (hw : m.WF) (s : KState) (key : Key) (dies : Dict Int (List Int))
    (h : ∀ p ds, (p, ds) ∈ dies → ∀ d ∈ ds, (p, d) ∈ m.dies) :
    getFreqDies m.sysfs s key false dies =
      .ok (dies.flatMap fun e => e.2.map fun d => ((e.1, d), s.val (e.1, d) key * 1000)) :=
  getFreqDies_spec m hw s key false dies h

/-- **C64.** The same for the limits. -/
theorem C64_limits (m : Machine) (hw : m.WF) (s : KState) (key : Key) (dies : Dict Int (List Int))
    (h : ∀ p ds, (p, ds) ∈ dies → ∀ d ∈ ds, (p, d) ∈ m.dies) :
    getFreqDies m.sysfs s key true dies =
      .ok (dies.flatMap fun e => e.2.map fun d => ((e.1, d), m.dieLimit (e.1, d) key * 1000)) :=
  getFreqDies_spec m hw s key true dies h

/-- **C64.** Reading by CPUs gives the frequency or the limit of the die of each CPU, in Hz. -/
theorem C64_cpus (m : Machine) (hw : m.WF) (s : KState) (levels : Nat → Except Exn Die) (lv : Nat → Die) (key : Key)
    (cpus : List Nat) (hlv : ∀ c ∈ cpus, levels c = .ok (lv c)) (hd : ∀ c ∈ cpus, lv c ∈ m.dies) :
    getFreqCpus m.sysfs levels s key false cpus = .ok (cpus.map fun c => (c, s.val (lv c) key * 1000)) ∧
    getFreqCpus m.sysfs levels s key true cpus = .ok (cpus.map fun c => (c, m.dieLimit (lv c) key * 1000)) := by
  have hd' : ∀ x ∈ cpus.map lv, x ∈ m.dies := by
    intro x hx
    obtain ⟨c, hc, rfl⟩ := List.mem_map.1 hx
    exact hd c hc
  exact ⟨getFreqCpus_eq m.sysfs levels lv s key false cpus hlv (fun x => s.val x key * 1000)
      (getFreqLoop_spec hw s key false _ hd'),
    getFreqCpus_eq m.sysfs levels lv s key true cpus hlv (fun x => m.dieLimit x key * 1000)
      (getFreqLoop_spec hw s key true _ hd')⟩

/-! ### C65 -/

/-- The dies in a dictionary. -/
theorem mem_pairs (dies : Dict Int (List Int)) (p d : Int) :
    (p, d) ∈ pairs dies ↔ ∃ ds, (p, ds) ∈ dies ∧ d ∈ ds := by
  unfold pairs
  rw [List.mem_flatMap]
  constructor
  · rintro ⟨⟨q, ds⟩, he, hx⟩
    obtain ⟨d', hd, h⟩ := List.mem_map.1 hx
    cases h
    exact ⟨ds, he, hd⟩
  · rintro ⟨ds, he, hd⟩
    exact ⟨(p, ds), he, List.mem_map.2 ⟨d, hd, rfl⟩⟩

/-- The frequencies after `set_min_freq_dies()` or `set_max_freq_dies()`. -/
def After (val : Die → Key → Int) (freq : Int) (key : Key) (dies : Dict Int (List Int))
    (val' : Die → Key → Int) : Prop :=
  (∀ p ds d, (p, ds) ∈ dies → d ∈ ds → val' (p, d) key = freq / 1000) ∧
  (∀ p d, (∀ ds, (p, ds) ∈ dies → d ∉ ds) → val' (p, d) key = val (p, d) key) ∧
  ∀ x key', key' ≠ key → val' x key' = val x key'

theorem after_setSpec (val : Die → Key → Int) (freq : Int) (key : Key) (dies : Dict Int (List Int)) :
    After val freq key dies (setSpec val freq key (pairs dies)) := by
  refine ⟨fun p ds d h1 h2 => if_pos ⟨(mem_pairs _ _ _).2 ⟨ds, h1, h2⟩, rfl⟩, fun p d h => if_neg ?_,
    fun x key' h => if_neg fun h' => h h'.2⟩
  rintro ⟨h', -⟩
  obtain ⟨ds, h1, h2⟩ := (mem_pairs _ _ _).1 h'
  exact h ds h1 h2

/-- What is known about the object at any time: the driver is in a state it can be in, and if the object has
unlocked the new interface already, it is unlocked. -/
def Ready (m : Machine) (st : State KState) : Prop :=
  m.Good st.kernel ∧ (st.unlocked = true → m.Unlocked st.kernel)

/-- **C65.** After setting a frequency has succeeded, the given dies have it, and nothing else has changed: no
other die, and not the other one of the two frequencies. This is regardless of the bounds set via the legacy
interface before. -/
theorem C65_set (m : Machine) (hw : m.WF) (st : State KState) (hst : Ready m st) (freq : Int) (key : Key)
    (dies : Dict Int (List Int)) (hlim : ∀ p ds d, (p, ds) ∈ dies → d ∈ ds → m.InLimit p key (freq / 1000))
    (hok : (setFreqDies m.sysfs st freq key dies).2 = .ok ()) :
    After st.kernel.val freq key dies (setFreqDies m.sysfs st freq key dies).1.kernel.val ∧
    Ready m (setFreqDies m.sysfs st freq key dies).1 := by
  obtain ⟨h1, -⟩ := unlock_spec hw hst
  revert hok
  unfold setFreqDies
  rw [if_pos (useNew_sysfs hw)]
  cases hu : unlock m.sysfs st with
  | mk st1 r =>
    rw [hu] at h1
    cases r with
    | error e => intro h; cases h
    | ok u =>
      obtain ⟨hv, hf, hun⟩ := h1 rfl
      dsimp only at hv hf hun ⊢
      intro hok
      obtain ⟨c1, c2, -⟩ := setLoop_spec hw freq key (pairs dies) st1.kernel
      obtain ⟨c3, c4, c5⟩ := c2 hok
      refine ⟨?_, ?_, ?_⟩
      · rw [c3, hv]
        exact after_setSpec _ _ _ _
      · intro x hx k
        have hg := hf.1 x hx k
        rw [accepts_cap (congrFun (congrFun c1 x.1) k)]
        rw [c3]
        unfold setSpec
        split
        · rename_i hc
          obtain ⟨hc, rfl⟩ := hc
          obtain ⟨p, d⟩ := x
          obtain ⟨ds, e1, e2⟩ := (mem_pairs _ _ _).1 hc
          exact ⟨hlim p ds d e1 e2, c5 _ hc⟩
        · exact hg
      · intro _ x hx k v hv'
        rw [accepts_cap (congrFun (congrFun c1 x.1) k)]
        exact hf.2 hun x hx k v hv'

/-- **C65.** Setting a frequency within the limits succeeds for all existing dies, regardless of the bounds set
via the legacy interface, unless a write operation fails for other reasons. -/
theorem C65_succeeds (m : Machine) (hw : m.WF) (st : State KState) (hst : Ready m st) (freq : Int) (key : Key)
    (dies : Dict Int (List Int)) (hex : ∀ p ds d, (p, ds) ∈ dies → d ∈ ds → (p, d) ∈ m.dies)
    (hlim : ∀ p ds d, (p, ds) ∈ dies → d ∈ ds → m.InLimit p key (freq / 1000))
    (hrel : ∀ dir f v, m.wfail dir f v = none) :
    (setFreqDies m.sysfs st freq key dies).2 = .ok () := by
  obtain ⟨h1, h2⟩ := unlock_spec hw hst
  unfold setFreqDies
  rw [if_pos (useNew_sysfs hw)]
  cases hu : unlock m.sysfs st with
  | mk st1 r =>
    rw [hu] at h1 h2
    cases r with
    | error e => cases h2 hrel
    | ok u =>
      obtain ⟨hv, hf, hun⟩ := h1 rfl
      dsimp only at hv hf hun ⊢
      refine (setLoop_spec hw freq key (pairs dies) st1.kernel).2.2 hrel fun x hx => ?_
      obtain ⟨p, d⟩ := x
      obtain ⟨ds, e1, e2⟩ := (mem_pairs _ _ _).1 hx
      exact ⟨hex p ds d e1 e2, hf.2 hun _ (hex p ds d e1 e2) key _ (hlim p ds d e1 e2)⟩

/-- A call of `set_min_freq_dies()` or `set_max_freq_dies()`. -/
structure Call where
  freq : Int
  key : Key
  dies : Dict Int (List Int)

/-- The calls in sequence, as long as they succeed. -/
def run (m : Machine) : State KState → List Call → State KState × Except Exn Unit
  | st, [] => (st, .ok ())
  | st, c :: cs =>
    match setFreqDies m.sysfs st c.freq c.key c.dies with
    | (st, .error e) => (st, .error e)
    | (st, .ok ()) => run m st cs

open Classical in
/-- The value a die has after the calls: that of the last call for this die and key. -/
noncomputable def last (x : Die) (key : Key) : Int → List Call → Int
  | v, [] => v
  | v, c :: cs =>
    last x key (if c.key = key ∧ ∃ ds, (x.1, ds) ∈ c.dies ∧ x.2 ∈ ds then c.freq / 1000 else v) cs

/-- **C65.** After any number of successful calls every die has the frequencies last set for it, and those it
had before the first call if it was not in any of them. -/
theorem C65_history (m : Machine) (hw : m.WF) (st : State KState) (hst : Ready m st) (cs : List Call)
    (hlim : ∀ c ∈ cs, ∀ p ds d, (p, ds) ∈ c.dies → d ∈ ds → m.InLimit p c.key (c.freq / 1000))
    (hok : (run m st cs).2 = .ok ()) (x : Die) (key : Key) :
    (run m st cs).1.kernel.val x key = last x key (st.kernel.val x key) cs := by
  induction cs generalizing st with
  | nil => rfl
  | cons c cs ih =>
    unfold run at hok ⊢
    cases hr : setFreqDies m.sysfs st c.freq c.key c.dies with
    | mk st1 r =>
      rw [hr] at hok
      cases r with
      | error e => cases hok
      | ok u =>
        dsimp only at hok ⊢
        have h := C65_set m hw st hst c.freq c.key c.dies (hlim c List.mem_cons_self) (by rw [hr])
        rw [hr] at h
        rw [ih st1 h.2 (fun c' hc' => hlim c' (List.mem_cons_of_mem _ hc')) hok]
        rw [last]
        congr 1
        obtain ⟨⟨h1, h2, h3⟩, -⟩ := h
        dsimp only at h1 h2 h3
        split
        · rename_i hc
          obtain ⟨rfl, ds, e1, e2⟩ := hc
          exact h1 x.1 ds x.2 e1 e2
        · rename_i hc
          by_cases hk : c.key = key
          · subst hk
            refine h2 x.1 x.2 fun ds e1 e2 => hc ⟨rfl, ds, e1, e2⟩
          · exact h3 x key fun h => hk h.symm

theorem setFreqCpus_eq {σ : Type} (fs : Sysfs σ) (levels : Nat → Except Exn Die) (lv : Nat → Die)
    (freq : Int) (key : Key) (cpus : List Nat) (h : ∀ c ∈ cpus, levels c = .ok (lv c)) (s : σ) :
    setFreqCpus fs levels freq key s cpus = setLoop fs freq key s (cpus.map lv) := by
  induction cpus generalizing s with
  | nil => rfl
  | cons c cpus ih =>
    rw [List.map_cons]
    unfold setFreqCpus setLoop cpuDir dieDir
    rw [h c List.mem_cons_self]
    dsimp only
    split
    · rfl
    · rename_i dirname hd
      split
      · rfl
      · rename_i s' hw
        exact ih (fun c' hc' => h c' (List.mem_cons_of_mem _ hc')) s'

/-- **C65 (for CPUs), partial.** The functions taking CPU numbers do the same for the dies of the CPUs. Missing:
they do not unlock the new interface, therefore they succeed only if it is not locked
(`C65_cpus_counterexample`). -/
theorem C65_cpus_partial (m : Machine) (hw : m.WF) (s : KState) (levels : Nat → Except Exn Die) (lv : Nat → Die)
    (freq : Int) (key : Key) (cpus : List Nat) (hlv : ∀ c ∈ cpus, levels c = .ok (lv c)) :
    ((setFreqCpus m.sysfs levels freq key s cpus).2 = .ok () →
      (∀ c ∈ cpus, (setFreqCpus m.sysfs levels freq key s cpus).1.val (lv c) key = freq / 1000) ∧
      (∀ x, x ∉ cpus.map lv → (setFreqCpus m.sysfs levels freq key s cpus).1.val x key = s.val x key) ∧
      ∀ x key', key' ≠ key → (setFreqCpus m.sysfs levels freq key s cpus).1.val x key' = s.val x key') ∧
    (m.Unlocked s → (∀ c ∈ cpus, lv c ∈ m.dies ∧ m.InLimit (lv c).1 key (freq / 1000)) →
      (∀ dir f v, m.wfail dir f v = none) → (setFreqCpus m.sysfs levels freq key s cpus).2 = .ok ()) := by
  rw [setFreqCpus_eq m.sysfs levels lv freq key cpus hlv]
  obtain ⟨-, h2, h3⟩ := setLoop_spec hw freq key (cpus.map lv) s
  refine ⟨fun hok => ?_, fun hu hin hrel => h3 hrel fun x hx => ?_⟩
  · rw [(h2 hok).1]
    exact ⟨fun c hc => if_pos ⟨List.mem_map_of_mem hc, rfl⟩, fun x hx => if_neg fun h => hx h.1,
      fun x key' h => if_neg fun h' => h h'.2⟩
  · obtain ⟨c, hc, rfl⟩ := List.mem_map.1 hx
    exact ⟨(hin c hc).1, hu _ (hin c hc).1 key _ (hin c hc).2⟩

/-! ### Examples and counterexamples -/

/-- Two packages with two dies each. Limits are 0.8 GHz and 2.5 GHz. -/
def exMachine (wfail : PyStr → PyStr → Int → Option Exn) : Machine where
  ls := ["package_00_die_00".toList, "uncore00".toList, "uncore01".toList, "uncore02".toList,
    "package_01_die_00".toList, "uncore03".toList]
  domain := fun dir =>
    if dir = "uncore00".toList then some (0, 0)
    else if dir = "uncore01".toList then some (0, 1)
    else if dir = "uncore02".toList then some (1, 0)
    else if dir = "uncore03".toList then some (1, 4)
    else none
  limit := fun _ key => match key with
    | .min => 800000
    | .max => 2500000
  dieLimit := fun _ key => match key with
    | .min => 800000
    | .max => 2500000
  wfail := wfail

/-- The maximum was set to 1 GHz in package 0 via the legacy interface, and then to 0.9 GHz for die 1. -/
def exState : KState where
  val := fun x key => match key with
    | .min => 800000
    | .max => if x.1 = 0 then (if x.2 = 1 then 900000 else 1000000) else 2000000
  cap := fun p key => if p = 0 ∧ key = .max then some 1000000 else none

theorem exMachine_wf (wfail : PyStr → PyStr → Int → Option Exn) : (exMachine wfail).WF where
  nodup := by show (exMachine fun _ _ _ => none).ls.Nodup; decide +kernel
  named := by
    intro dir
    rw [← isUncoreDir_iff]
    have h : ∀ d ∈ (exMachine wfail).ls, ((exMachine wfail).domain d).isSome = isUncoreDir d := by
      show ∀ d ∈ ["package_00_die_00".toList, "uncore00".toList, "uncore01".toList, "uncore02".toList,
        "package_01_die_00".toList, "uncore03".toList], ((exMachine fun _ _ _ => none).domain d).isSome = _
      decide +kernel
    by_cases hd : dir ∈ (exMachine wfail).ls
    · rw [h dir hd]
      exact ⟨fun h => ⟨hd, h⟩, fun h => h.2⟩
    · refine ⟨fun hs => absurd ?_ hd, fun h => absurd h.1 hd⟩
      unfold exMachine at hs
      dsimp only at hs
      repeat' split at hs
      · rename_i h; rw [h]; exact List.mem_of_elem_eq_true (by show List.elem _ (exMachine fun _ _ _ => none).ls = true; decide +kernel)
      · rename_i h; rw [h]; exact List.mem_of_elem_eq_true (by show List.elem _ (exMachine fun _ _ _ => none).ls = true; decide +kernel)
      · rename_i h; rw [h]; exact List.mem_of_elem_eq_true (by show List.elem _ (exMachine fun _ _ _ => none).ls = true; decide +kernel)
      · rename_i h; rw [h]; exact List.mem_of_elem_eq_true (by show List.elem _ (exMachine fun _ _ _ => none).ls = true; decide +kernel)
      · cases hs
  inj := by
    intro a b x ha hb
    unfold exMachine at ha hb
    dsimp only at ha hb
    repeat' split at ha
    all_goals cases ha
    all_goals
      repeat' split at hb
      all_goals (first | (cases hb; done) | simp_all)
  nonneg := by
    intro dir p d h
    unfold exMachine at h
    dsimp only at h
    repeat' split at h
    all_goals (cases h; try decide)
  some_die := by
    show (exMachine fun _ _ _ => none).dies ≠ []
    decide +kernel

theorem exState_ready (wfail : PyStr → PyStr → Int → Option Exn) :
    Ready (exMachine wfail) ⟨exState, false⟩ := by
  refine ⟨?_, fun h => (by cases h)⟩
  have h : ∀ x ∈ (exMachine fun _ _ _ => none).dies,
      ((800000 : Int) ≤ exState.val x .min ∧ Machine.accepts exState x.1 .min (exState.val x .min) = true) ∧
      exState.val x .max ≤ 2500000 ∧ Machine.accepts exState x.1 .max (exState.val x .max) = true := by
    decide +kernel
  intro x hx key
  cases key
  · exact (h x hx).1
  · exact (h x hx).2

-- The maximum of die 0 of package 0 becomes 2 GHz, die 1 keeps its 0.9 GHz.
example : let r := setFreqDies (exMachine fun _ _ _ => none).sysfs ⟨exState, false⟩ 2000000999 .max [(0, [0])]
    r.2 = .ok () ∧ r.1.unlocked = true ∧ r.1.kernel.val (0, 0) .max = 2000000 ∧
    r.1.kernel.val (0, 1) .max = 900000 ∧ r.1.kernel.val (0, 0) .min = 800000 ∧
    r.1.kernel.val (1, 4) .max = 2000000 :=
  ⟨by decide +kernel, by decide +kernel, by decide +kernel, by decide +kernel, by decide +kernel,
    by decide +kernel⟩

-- Reading.
example : getFreqDies (exMachine fun _ _ _ => none).sysfs exState .max false [(0, [1]), (1, [4])] =
    .ok [((0, 1), 900000000), ((1, 4), 2000000000)] ∧
    getDiesInfo (exMachine fun _ _ _ => none).sysfs = .ok [(0, [0, 1]), (1, [0, 4])] :=
  ⟨by decide +kernel, by decide +kernel⟩

-- Reading by CPUs: 3 and 5 are in different dies.
example : (∀ c ∈ [3, 5], (if c = 3 then ((0, 1) : Die) else (1, 4)) ∈ (exMachine fun _ _ _ => none).dies) ∧
    getFreqCpus (exMachine fun _ _ _ => none).sysfs (fun c => .ok (if c = 3 then (0, 1) else (1, 4))) exState .max false
      [3, 5] = .ok [(3, 900000000), (5, 2000000000)] :=
  ⟨by decide +kernel, by decide +kernel⟩

/-- CPU 0 is in die 0 of package 0, where the maximum was set to 1 GHz via the legacy interface. Setting it to
2 GHz for the die succeeds, but for the CPU it is refused. -/
theorem C65_cpus_counterexample :
    ∃ (m : Machine) (s : KState) (levels : Nat → Except Exn Die), m.WF ∧ Ready m ⟨s, false⟩ ∧
      (∀ dir f v, m.wfail dir f v = none) ∧ levels 0 = .ok (0, 0) ∧ (0, 0) ∈ m.dies ∧
      m.InLimit 0 .max 2000000 ∧
      (setFreqCpus m.sysfs levels 2000000000 .max s [0]).2 = .error .error ∧
      (setFreqDies m.sysfs ⟨s, false⟩ 2000000000 .max [(0, [0])]).2 = .ok () :=
  ⟨exMachine fun _ _ _ => none, exState, fun _ => .ok (0, 0), exMachine_wf _, exState_ready _,
    fun _ _ _ => rfl, rfl, by decide +kernel, (by decide : (2000000 : Int) ≤ 2500000), by decide +kernel,
    by decide +kernel⟩

/-- If restoring the frequency of a die fails when the new interface is unlocked, a die which is not among the
given ones has changed: the maximum of die 1 of package 0 is 2.5 GHz, it was 0.9 GHz. -/
theorem C65_failure_counterexample :
    ∃ (m : Machine) (s : KState), m.WF ∧ Ready m ⟨s, false⟩ ∧
      let r := setFreqDies m.sysfs ⟨s, false⟩ 2000000000 .max [(1, [0])]
      r.2 = .error .error ∧ s.val (0, 1) .max = 900000 ∧ r.1.kernel.val (0, 1) .max = 2500000 :=
  ⟨exMachine fun dir _ _ => if dir = "uncore01".toList then some .error else none, exState, exMachine_wf _,
    exState_ready _, by decide +kernel, by decide +kernel, by decide +kernel⟩

/-- Two directories for the same package and domain (clusters of the domain): the die is listed twice, and only
the last one of the directories is ever used. -/
theorem C64_clusters_counterexample :
    ∃ (m : Machine) (s : KState), m.domain "uncore00".toList = some (0, 0) ∧
      m.domain "uncore01".toList = some (0, 0) ∧ m.ls = ["uncore00".toList, "uncore01".toList] ∧
      getDiesInfo m.sysfs = .ok [(0, [0, 0])] ∧
      newDir m.sysfs 0 0 = .ok "uncore01".toList ∧ s.cap 0 .max = none :=
  ⟨{ ls := ["uncore00".toList, "uncore01".toList], domain := fun _ => some (0, 0), limit := fun _ _ => 0,
     dieLimit := fun _ _ => 0, wfail := fun _ _ _ => none },
    ⟨fun _ _ => 0, fun _ _ => none⟩, rfl, rfl, rfl, by decide +kernel, by decide +kernel, rfl⟩

end Verif.UncoreFreq
