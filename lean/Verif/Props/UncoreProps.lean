import Verif.Lemmas.UncoreProps

/-!
C101: the commands for uncore frequencies, with the driver which has two interfaces. The driver is in
Verif/Props/UncoreSpec.lean, the other notions are in Verif/Props/UncorePropsSpec.lean.
-/

namespace Verif.UncoreProps

open Verif.UncoreFreq
open Verif.PStates (FVal PName)

/-! ### One property -/

/-- **C101.** After a frequency was set, every given die has the frequency which the value means for this die, in
whole kHz. No other die has changed, and neither has the other one of the two frequencies - whatever was
configured via the legacy interface before. -/
theorem C101_set (m : Machine) (hw : m.WF) (hc : Covers m) (ck : Clock) (isMin : Bool) (v : FVal)
    (dies : Dict Int (List Int)) (st : State KState) (hst : Ready m st)
    (hok : (setUncore m.sysfs ck isMin v dies st).2 = .ok ()) :
    let r := setUncore m.sysfs ck isMin v dies st
    let key := if isMin then Key.min else Key.max
    (∀ x, Among dies x → x ∈ m.dies ∧ ∃ f, wanted m x v = some f ∧ r.1.kernel.val x key = f / 1000 ∧
      ¬ Violates m st.kernel isMin x f) ∧
    (∀ x, ¬ Among dies x → r.1.kernel.val x key = st.kernel.val x key) ∧
    (∀ x key', key' ≠ key → r.1.kernel.val x key' = st.kernel.val x key') ∧
    Ready m r.1 := by
  by_cases hex : Exist m dies
  · have hmem := (exist_iff m dies).1 hex
    rcases setUncore_cases hw ck isMin v hex st with ⟨e, h1, -, -⟩ | ⟨n, hn, ⟨e, -, h1, -⟩ | ⟨hv, g, g', h1, -, h3, -⟩⟩
    · rw [h1] at hok; cases hok
    · rw [h1] at hok; cases hok
    · dsimp only
      rw [h1] at hok ⊢
      obtain ⟨a1, -⟩ := setGroups_ok hw isMin g
        (fun f x h => by
          obtain ⟨hx, rfl⟩ := (h3 f x).1 h
          exact inLimit_of hc (hmem x hx) (hv x hx))
        (fun x f f' h h' => by rw [((h3 _ _).1 h).2, ((h3 _ _).1 h').2]) hst
      obtain ⟨b1, b2, b3, b4⟩ := a1 hok
      refine ⟨fun x hx => ?_, fun x hx => b3 x fun f hf => hx ((among_iff dies x).2 ((h3 f x).1 hf).1), b4, b1⟩
      have hx' := (among_iff dies x).1 hx
      exact ⟨hmem x hx', n x, hn x, b2 (n x) x ((h3 _ _).2 ⟨hx', rfl⟩), hv x hx'⟩
  · obtain ⟨e, h⟩ := setUncore_missing hw ck isMin v hex st
    rw [h] at hok
    cases hok

/-- **C101.** If the frequency is beyond the limits of one of the dies, or beyond its other frequency, nothing
changes for any die, and the error tells which of the two is the case. -/
theorem C101_refused (m : Machine) (hw : m.WF) (ck : Clock) (isMin : Bool) (v : FVal) (dies : Dict Int (List Int))
    (hex : Exist m dies) (st : State KState) (n : Die → Int) (hn : ∀ x, wanted m x v = some (n x))
    (hv : ∃ x, Among dies x ∧ Violates m st.kernel isMin x (n x)) (hck : Modern ck ∨ v ≠ .other "mdl") :
    (setUncore m.sysfs ck isMin v dies st = (st, .error .freqRange) ∧
      ∃ x, Among dies x ∧ (n x < m.dieLimit x .min * 1000 ∨ m.dieLimit x .max * 1000 < n x)) ∨
    (setUncore m.sysfs ck isMin v dies st = (st, .error .freqOrder) ∧
      ∃ x, Among dies x ∧ if isMin then st.kernel.val x .max * 1000 < n x else n x < st.kernel.val x .min * 1000) := by
  have heq : ∀ n' : Die → Int, (∀ x, wanted m x v = some (n' x)) → n' = n := by
    intro n' hn'
    funext x
    have := hn x
    rw [hn' x] at this
    exact Option.some.inj this
  have none : ¬ ∀ x, wanted m x v = none := fun h => by
    have h1 := h (0, 0)
    rw [hn] at h1
    cases h1
  rcases setUncore_cases hw ck isMin v hex st with ⟨e, h1, h2, h3⟩ |
    ⟨n', hn', ⟨e, he, h1, -, h4, h5, -⟩ | ⟨hall, -⟩⟩
  · by_cases hm : Modern ck
    · exact absurd (h2 hm).1 none
    · rcases h3 hm with h | h
      · exact absurd h (hck.resolve_left hm)
      · exact absurd h none
  · obtain rfl := heq n' hn'
    rcases he with rfl | rfl
    · obtain ⟨x, hx, h⟩ := h4 rfl
      exact Or.inl ⟨h1, x, (among_iff dies x).2 hx, h⟩
    · obtain ⟨x, hx, h⟩ := h5 rfl
      exact Or.inr ⟨h1, x, (among_iff dies x).2 hx, h⟩
  · obtain rfl := heq n' hn'
    obtain ⟨x, hx, h⟩ := hv
    exact absurd h (hall x ((among_iff dies x).1 hx))

/-- **C101.** Setting a frequency succeeds if it is within the limits of every given die and its other frequency,
unless a write operation fails - whatever was configured via the legacy interface. -/
theorem C101_succeeds (m : Machine) (hw : m.WF) (hc : Covers m) (hrel : ∀ dir f v, m.wfail dir f v = none)
    (ck : Clock) (isMin : Bool) (v : FVal) (dies : Dict Int (List Int)) (hex : Exist m dies) (st : State KState)
    (hst : Ready m st) (n : Die → Int) (hn : ∀ x, wanted m x v = some (n x))
    (hv : ∀ x, Among dies x → ¬ Violates m st.kernel isMin x (n x)) (hck : Modern ck ∨ v ≠ .other "mdl") :
    (setUncore m.sysfs ck isMin v dies st).2 = .ok () := by
  have hmem := (exist_iff m dies).1 hex
  have none : ¬ ∀ x, wanted m x v = none := fun h => by
    have h1 := h (0, 0)
    rw [hn] at h1
    cases h1
  rcases setUncore_cases hw ck isMin v hex st with ⟨e, h1, h2, h3⟩ |
    ⟨n', hn', ⟨e, he, h1, ⟨x, hx, h⟩, -⟩ | ⟨hall, g, g', h1, -, h3, -⟩⟩
  · by_cases hm : Modern ck
    · exact absurd (h2 hm).1 none
    · rcases h3 hm with h | h
      · exact absurd h (hck.resolve_left hm)
      · exact absurd h none
  · have e : n' x = n x := by
      have := hn x
      rw [hn' x] at this
      exact Option.some.inj this
    rw [e] at h
    exact absurd h (hv x ((among_iff dies x).2 hx))
  · rw [h1]
    exact (setGroups_ok hw isMin g
        (fun f x h => by
          obtain ⟨hx, rfl⟩ := (h3 f x).1 h
          exact inLimit_of hc (hmem x hx) (hall x hx))
        (fun x f f' h h' => by rw [((h3 _ _).1 h).2, ((h3 _ _).1 h').2]) hst).2 hrel
      fun f x h => hmem x ((h3 _ _).1 h).1

/-- **C101.** The property reads back as it was set. -/
theorem C101_read_back (m : Machine) (hw : m.WF) (hc : Covers m) (ck : Clock) (isMin : Bool) (v : FVal)
    (dies : Dict Int (List Int)) (st : State KState) (hst : Ready m st)
    (hok : (setUncore m.sysfs ck isMin v dies st).2 = .ok ()) (n : Die → Int) (hn : ∀ x, wanted m x v = some (n x)) :
    getUncore m.sysfs isMin false dies (setUncore m.sysfs ck isMin v dies st).1 =
      .ok (dies.flatMap fun e => e.2.map fun d => ((e.1, d), n (e.1, d) / 1000 * 1000)) := by
  obtain ⟨h1, -, -, -⟩ := C101_set m hw hc ck isMin v dies st hst hok
  have hin : ∀ p ds, (p, ds) ∈ dies → ∀ d ∈ ds, Among dies (p, d) := fun p ds h d hd => ⟨ds, h, hd⟩
  unfold getUncore
  rw [C64_get m hw _ _ dies fun p ds h d hd => (h1 (p, d) (hin p ds h d hd)).1]
  congr 1
  refine List.flatMap_congr ?_
  rintro ⟨p, ds⟩ he
  refine List.map_congr_left fun d hd => ?_
  obtain ⟨-, f, hf, hval, -⟩ := h1 (p, d) (hin p ds he d hd)
  rw [hn] at hf
  cases hf
  congr 1
  show (setUncore m.sysfs ck isMin v dies st).1.kernel.val (p, d) (keyOf isMin) * 1000 = _
  unfold keyOf
  rw [hval]

/-! ### Both properties -/

/-- A request for both frequencies, in Hz: in order, within the limits of every die, in whole kHz. -/
structure Pair (m : Machine) (dies : Dict Int (List Int)) (v1 v2 : FVal) (n1 n2 : Die → Int) : Prop where
  val1 : ∀ x, wanted m x v1 = some (n1 x)
  val2 : ∀ x, wanted m x v2 = some (n2 x)
  order : ∀ x, Among dies x → m.dieLimit x .min * 1000 ≤ n1 x ∧ n1 x ≤ n2 x ∧ n2 x ≤ m.dieLimit x .max * 1000
  whole : ∀ x, Among dies x → n1 x % 1000 = 0 ∧ n2 x % 1000 = 0

/-- The given dies have the new frequencies, the others are as before. -/
def NewFreqs (dies : Dict Int (List Int)) (n1 n2 : Die → Int) (s s' : KState) : Prop :=
  (∀ x, Among dies x → s'.val x .min * 1000 = n1 x ∧ s'.val x .max * 1000 = n2 x) ∧
  ∀ x, ¬ Among dies x → ∀ key, s'.val x key = s.val x key

theorem numeric_of {m : Machine} {v : FVal} {n : Die → Int} (h : ∀ x, wanted m x v = some (n x)) (l : List Die) :
    PStates.numericFreq (plat m) v l = .ok (l.map fun x => (x, n x)) := by
  rcases numericFreq_plat m v l with ⟨-, h'⟩ | ⟨n', h', e⟩
  · have h1 := h (0, 0)
    rw [h'] at h1
    cases h1
  · rw [e]
    have : n' = n := by
      funext x
      have h1 := h x
      rw [h' x] at h1
      exact Option.some.inj h1
    rw [this]

theorem validPair {m : Machine} {dies : Dict Int (List Int)} {v1 v2 : FVal} {n1 n2 : Die → Int}
    (h : Pair m dies v1 v2 n1 n2) : PStates.ValidPair (plat m) (pairs dies) v1 v2 n1 n2 where
  val1 := numeric_of h.val1 _
  val2 := numeric_of h.val2 _
  lo x hx := (h.order x ((among_iff dies x).2 hx)).1
  le x hx := (h.order x ((among_iff dies x).2 hx)).2.1
  hi x hx := (h.order x ((among_iff dies x).2 hx)).2.2
  khz1 x hx := (h.whole x ((among_iff dies x).2 hx)).1
  khz2 x hx := (h.whole x ((among_iff dies x).2 hx)).2

theorem newFreqs_of {dies : Dict Int (List Int)} {n1 n2 : Die → Int} {s s' : KState}
    (h : PStates.NewLimits (pairs dies) n1 n2 (files s) (files s')) : NewFreqs dies n1 n2 s s' := by
  refine ⟨fun x hx => h.1 x ((among_iff dies x).1 hx), fun x hx key => ?_⟩
  have := h.2 x fun h' => hx ((among_iff dies x).2 h')
  cases key
  · exact this.1
  · exact this.2

/-- **C101 (both frequencies), partial.** A valid request for both frequencies, the min. one first: it succeeds and
sets both, if the new min. is not above the current max. of any die, or the new max. is not below the current min.
of any die. Otherwise it fails and nothing changes. Missing: dies with current frequencies on both sides of the new
ones (`C101_mixed_counterexample`). -/
theorem C101_config_min_first_partial (m : Machine) (hw : m.WF) (hc : Covers m)
    (hrel : ∀ dir f v, m.wfail dir f v = none) (ck : Clock) (hck : Modern ck) (dies : Dict Int (List Int))
    (hex : Exist m dies) (v1 v2 : FVal) (n1 n2 : Die → Int) (hp : Pair m dies v1 v2 n1 n2) (st : State KState)
    (hst : Ready m st) :
    let r := config m.sysfs ck dies [(true, v1), (false, v2)] st
    (((∀ x, Among dies x → n1 x ≤ st.kernel.val x .max * 1000) ∨
      (∀ x, Among dies x → st.kernel.val x .min * 1000 ≤ n2 x)) →
      r.2 = .ok () ∧ NewFreqs dies n1 n2 st.kernel r.1.kernel ∧ Ready m r.1) ∧
    ((∃ x, Among dies x ∧ st.kernel.val x .max * 1000 < n1 x) →
      (∃ x, Among dies x ∧ n2 x < st.kernel.val x .min * 1000) →
      r.2 = .error .freqOrder ∧ r.1.kernel.val = st.kernel.val ∧ Ready m r.1) := by
  have hs := sim_config hw hc hrel hck dies hex [(true, v1), (false, v2)]
  have hr : Rel m st (files st.kernel) := ⟨hst, rfl⟩
  obtain ⟨c1, c2⟩ := PStates.C32_min_first_partial (plat m) (pairs dies) v1 v2 n1 n2 (validPair hp) (files st.kernel)
  refine ⟨fun h => ?_, fun h1 h2 => ?_⟩
  · obtain ⟨a, ha, hn⟩ := c1 (h.imp (fun h x hx => h x ((among_iff dies x).2 hx))
      (fun h x hx => h x ((among_iff dies x).2 hx)))
    have e1 := hs.res st _ hr
    have e2 := hs.rel st _ hr
    rw [ha] at e1 e2
    refine ⟨e1, newFreqs_of ?_, e2.1⟩
    rw [e2.2]
    exact hn
  · have ha := c2 (h1.imp fun x h => ⟨(among_iff dies x).1 h.1, h.2⟩) (h2.imp fun x h => ⟨(among_iff dies x).1 h.1, h.2⟩)
    have e1 := hs.res st _ hr
    have e2 := hs.rel st _ hr
    rw [ha] at e1 e2
    refine ⟨e1, ?_, e2.1⟩
    funext x key
    have e3 : files _ = files st.kernel := e2.2
    cases key
    · exact congrFun (congrArg PStates.Sysfs.mn e3) x
    · exact congrFun (congrArg PStates.Sysfs.mx e3) x

/-- **C101 (both frequencies), partial.** The same with the max. frequency first. It succeeds if the new max. is not
below the current min. of any die, otherwise it fails and nothing changes. Missing: the other order is not tried
(`C101_max_first_counterexample`). -/
theorem C101_config_max_first_partial (m : Machine) (hw : m.WF) (hc : Covers m)
    (hrel : ∀ dir f v, m.wfail dir f v = none) (ck : Clock) (hck : Modern ck) (dies : Dict Int (List Int))
    (hex : Exist m dies) (v1 v2 : FVal) (n1 n2 : Die → Int) (hp : Pair m dies v1 v2 n1 n2) (st : State KState)
    (hst : Ready m st) :
    let r := config m.sysfs ck dies [(false, v2), (true, v1)] st
    ((∀ x, Among dies x → st.kernel.val x .min * 1000 ≤ n2 x) →
      r.2 = .ok () ∧ NewFreqs dies n1 n2 st.kernel r.1.kernel ∧ Ready m r.1) ∧
    ((∃ x, Among dies x ∧ n2 x < st.kernel.val x .min * 1000) →
      r.2 = .error .freqOrder ∧ r.1.kernel.val = st.kernel.val ∧ Ready m r.1) := by
  have hs := sim_config hw hc hrel hck dies hex [(false, v2), (true, v1)]
  have hr : Rel m st (files st.kernel) := ⟨hst, rfl⟩
  obtain ⟨c1, c2⟩ := PStates.C32_max_first_partial (plat m) (pairs dies) v1 v2 n1 n2 (validPair hp) (files st.kernel)
  refine ⟨fun h => ?_, fun h1 => ?_⟩
  · obtain ⟨a, ha, hn⟩ := c1 (fun x hx => h x ((among_iff dies x).2 hx))
    have e1 := hs.res st _ hr
    have e2 := hs.rel st _ hr
    rw [ha] at e1 e2
    refine ⟨e1, newFreqs_of ?_, e2.1⟩
    rw [e2.2]
    exact hn
  · have ha := c2 (h1.imp fun x h => ⟨(among_iff dies x).1 h.1, h.2⟩)
    have e1 := hs.res st _ hr
    have e2 := hs.rel st _ hr
    rw [ha] at e1 e2
    refine ⟨e1, ?_, e2.1⟩
    funext x key
    have e3 : files _ = files st.kernel := e2.2
    cases key
    · exact congrFun (congrArg PStates.Sysfs.mn e3) x
    · exact congrFun (congrArg PStates.Sysfs.mx e3) x

/-! ### Restoring -/

theorem savedPairs {infos : List (FVal × Dict Int (List Int))} {K : Die → Prop} {f : Die → Int}
    (h : Saved infos K f) : PStates.Saved (infos.map fun e => (e.1, pairs e.2)) K (fun x => f x * 1000) where
  val p hp := by
    obtain ⟨e, he, rfl⟩ := List.mem_map.1 hp
    obtain ⟨g, h1, h2⟩ := h.val e he
    exact ⟨g, h1, fun x hx => h2 x ((among_iff e.2 x).2 hx)⟩
  cover x := by
    rw [h.cover]
    constructor
    · rintro ⟨e, he, hx⟩
      exact ⟨_, List.mem_map.2 ⟨e, he, rfl⟩, (among_iff e.2 x).1 hx⟩
    · rintro ⟨p, hp, hx⟩
      obtain ⟨e, he, rfl⟩ := List.mem_map.1 hp
      exact ⟨e, he, (among_iff e.2 x).2 hx⟩

/-- **C101.** Restoring saved frequencies succeeds and brings back exactly the saved ones for all dies in the file,
whichever of the two properties comes first, whatever the current frequencies are, and whatever was configured via
the legacy interface. The other dies are not changed. -/
theorem C101_restore (m : Machine) (hw : m.WF) (hc : Covers m) (hrel : ∀ dir f v, m.wfail dir f v = none)
    (ck : Clock) (hck : Modern ck) (isMin : Bool) (sv : KState) (i1 i2 : List (FVal × Dict Int (List Int)))
    (K : Die → Prop) (hK : ∀ x, K x → x ∈ m.dies)
    (h1 : Saved i1 K (fun x => sv.val x (if isMin then .min else .max)))
    (h2 : Saved i2 K (fun x => sv.val x (if isMin then .max else .min)))
    (hsv : ∀ x, K x → Sane m sv x) (st : State KState) (hst : Ready m st) (hs : ∀ x, K x → Sane m st.kernel x) :
    let r := restore m.sysfs ck [(isMin, i1), (!isMin, i2)] st
    r.2 = .ok () ∧ Ready m r.1 ∧ (∀ x, K x → ∀ key, r.1.kernel.val x key = sv.val x key) ∧
    ∀ x, ¬ K x → ∀ key, r.1.kernel.val x key = st.kernel.val x key := by
  have hex : ∀ l ∈ [(isMin, i1), (!isMin, i2)], ∀ e ∈ l.2, Exist m e.2 := by
    intro l hl e he p ds d hd1 hd2
    refine hK (p, d) ?_
    rcases List.mem_cons.1 hl with rfl | hl
    · exact (h1.cover (p, d)).2 ⟨e, he, ds, hd1, hd2⟩
    · obtain rfl := List.mem_singleton.1 hl
      exact (h2.cover (p, d)).2 ⟨e, he, ds, hd1, hd2⟩
  have hs' := sim_restore hw hc hrel hck _ hex
  have hr : Rel m st (files st.kernel) := ⟨hst, rfl⟩
  have q1 : PStates.Saved (i1.map fun e => (e.1, pairs e.2)) K fun x => (files sv).file isMin x * 1000 := by
    have := savedPairs h1
    cases isMin <;> exact this
  have q2 : PStates.Saved (i2.map fun e => (e.1, pairs e.2)) K fun x => (files sv).file (!isMin) x * 1000 := by
    have := savedPairs h2
    cases isMin <;> exact this
  obtain ⟨a, ha, a1, a2⟩ := PStates.C33_restore (plat m) isMin (files sv) _ _ K q1 q2 hsv (files st.kernel) hs
  have e1 := hs'.res st _ hr
  have e2 := hs'.rel st _ hr
  rw [show ([(isMin, i1), (!isMin, i2)].map fun l => (l.1, l.2.map fun e => (e.1, pairs e.2))) =
    [(isMin, i1.map fun e => (e.1, pairs e.2)), (!isMin, i2.map fun e => (e.1, pairs e.2))] from rfl, ha] at e1 e2
  have e3 : files _ = a := e2.2
  refine ⟨e1, e2.1, fun x hx key => ?_, fun x hx key => ?_⟩
  · obtain ⟨b1, b2⟩ := a1 x hx
    rw [← e3] at b1 b2
    cases key
    · exact b1
    · exact b2
  · obtain ⟨b1, b2⟩ := a2 x hx
    rw [← e3] at b1 b2
    cases key
    · exact b1
    · exact b2

/-! ### Any history -/

/-- A command, together with the write operations which fail meanwhile. -/
inductive Command where
  | config (dies : Dict Int (List Int)) (opts : Dict PName FVal) (wfail : PyStr → PyStr → Int → Option Exn)
  | restore (file : List (PName × List (FVal × Dict Int (List Int)))) (wfail : PyStr → PyStr → Int → Option Exn)

/-- The state after a command. -/
def Command.run (m : Machine) (ck : Clock) : Command → State KState → State KState
  | .config dies opts w, st => (UncoreProps.config { m with wfail := w }.sysfs ck dies opts st).1
  | .restore file w, st => (UncoreProps.restore { m with wfail := w }.sysfs ck file st).1

theorem setUncore_inOrder {m : Machine} (hw : m.WF) (hc : Covers m) (ck : Clock) (isMin : Bool) (v : FVal)
    (dies : Dict Int (List Int)) {st : State KState} (hst : Ready m st) (ho : InOrder m st.kernel) :
    Ready m (setUncore m.sysfs ck isMin v dies st).1 ∧
    InOrder m (setUncore m.sysfs ck isMin v dies st).1.kernel := by
  by_cases hex : Exist m dies
  · have hmem := (exist_iff m dies).1 hex
    rcases setUncore_cases hw ck isMin v hex st with ⟨e, h1, -, -⟩ | ⟨n, hn, ⟨e, -, h1, -⟩ | ⟨hv, g, g', h1, -, h3, -⟩⟩
    · rw [h1]; exact ⟨hst, ho⟩
    · rw [h1]; exact ⟨hst, ho⟩
    · rw [h1]
      obtain ⟨a1, a2⟩ := setGroups_any hw isMin g
        (fun f x h hx => by
          obtain ⟨hx', rfl⟩ := (h3 f x).1 h
          exact inLimit_of hc hx (hv x hx')) hst
      refine ⟨a1, fun x hx => ?_⟩
      obtain ⟨o1, o2, o3⟩ := ho x hx
      obtain ⟨c1, c2, c3⟩ := hc x hx
      have k1 := a2 x .min
      have k2 := a2 x .max
      have hnew : ∀ f, InG g f x → m.dieLimit x .min ≤ f / 1000 ∧ f / 1000 ≤ m.dieLimit x .max ∧
          (isMin = true → f / 1000 ≤ st.kernel.val x .max) ∧ (isMin = false → st.kernel.val x .min ≤ f / 1000) := by
        intro f hf
        obtain ⟨hx', rfl⟩ := (h3 f x).1 hf
        have hv := hv x hx'
        unfold Violates at hv
        have v1 : ¬ n x < m.dieLimit x .min * 1000 := fun h => hv (Or.inl h)
        have v2 : ¬ m.dieLimit x .max * 1000 < n x := fun h => hv (Or.inr (Or.inl h))
        refine ⟨by omega, by omega, fun h => ?_, fun h => ?_⟩
        · have v3 : ¬ st.kernel.val x .max * 1000 < n x := fun h' => hv (Or.inr (Or.inr (by rw [if_pos h]; exact h')))
          omega
        · have v3 : ¬ n x < st.kernel.val x .min * 1000 := fun h' =>
            hv (Or.inr (Or.inr (by rw [if_neg (by rw [h]; decide)]; exact h')))
          omega
      cases isMin with
      | true =>
        have k2 : _ ∨ _ := k2.resolve_right fun h => (by cases h.1)
        rcases k1 with (k1 | ⟨-, k1⟩) | ⟨-, f, hf, k1⟩
        · rcases k2 with k2 | ⟨-, k2⟩ <;> (rw [k1, k2]; exact ⟨by omega, by omega, by omega⟩)
        · rcases k2 with k2 | ⟨-, k2⟩ <;> (rw [k1, k2]; exact ⟨by omega, by omega, by omega⟩)
        · obtain ⟨n1, n2, n3, -⟩ := hnew f hf
          have n3 := n3 rfl
          rcases k2 with k2 | ⟨-, k2⟩ <;> (rw [k1, k2]; exact ⟨by omega, by omega, by omega⟩)
      | false =>
        have k1 : _ ∨ _ := k1.resolve_right fun h => (by cases h.1)
        rcases k2 with (k2 | ⟨-, k2⟩) | ⟨-, f, hf, k2⟩
        · rcases k1 with k1 | ⟨-, k1⟩ <;> (rw [k1, k2]; exact ⟨by omega, by omega, by omega⟩)
        · rcases k1 with k1 | ⟨-, k1⟩ <;> (rw [k1, k2]; exact ⟨by omega, by omega, by omega⟩)
        · obtain ⟨n1, n2, -, n3⟩ := hnew f hf
          have n3 := n3 rfl
          rcases k1 with k1 | ⟨-, k1⟩ <;> (rw [k1, k2]; exact ⟨by omega, by omega, by omega⟩)
  · obtain ⟨e, h⟩ := setUncore_missing hw ck isMin v hex st
    rw [h]
    exact ⟨hst, ho⟩

/-- What the commands keep. -/
def Kept (m : Machine) (a b : State KState) : Prop := a = b ∧ Ready m a ∧ InOrder m a.kernel

theorem kept_sim {m : Machine} (hw : m.WF) (hc : Covers m) (ck : Clock) (p : PName) (v : FVal)
    (dies : Dict Int (List Int)) : Sim (Kept m) (fun st => setUncore m.sysfs ck p v dies st)
      (fun st => setUncore m.sysfs ck p v dies st) where
  res s t h := by rw [h.1]
  rel s t h := by
    obtain ⟨rfl, h1, h2⟩ := h
    exact ⟨rfl, setUncore_inOrder hw hc ck p v dies h1 h2⟩

theorem wf_wfail {m : Machine} (hw : m.WF) (w : PyStr → PyStr → Int → Option Exn) : { m with wfail := w }.WF :=
  ⟨hw.nodup, hw.named, hw.inj, hw.nonneg, hw.some_die⟩

/-- **C101.** After any history of commands, whichever of them and whichever write operations of them fail, the min.
frequency of every die is not above its max. frequency, and both are within the limits of the package. -/
theorem C101_in_order (m : Machine) (hw : m.WF) (hc : Covers m) (ck : Clock) (cmds : List Command)
    (st : State KState) (hst : Ready m st) (ho : InOrder m st.kernel) :
    InOrder m (cmds.foldl (fun st c => c.run m ck st) st).kernel := by
  suffices h : ∀ st, Ready m st → InOrder m st.kernel → ∀ c : Command, Ready m (c.run m ck st) ∧
      InOrder m (c.run m ck st).kernel by
    induction cmds generalizing st with
    | nil => exact ho
    | cons c cmds ih => exact ih _ (h st hst ho c).1 (h st hst ho c).2
  intro st hst ho c
  cases c with
  | config dies opts w =>
    have hs := sim_setProps (fun p v => kept_sim (wf_wfail hw w) (show Covers { m with wfail := w } from hc) ck p v dies) opts
    exact (hs.rel st st ⟨rfl, hst, ho⟩).2
  | restore file w =>
    have hs := sim_restoreProps (κ := Int × List Int) (κ' := Int × List Int) (φ := fun n => n) (Ok := fun _ => True)
      (R := Kept { m with wfail := w }) (set := fun p v n st => setUncore { m with wfail := w }.sysfs ck p v n st)
      (set' := fun p v n st => setUncore { m with wfail := w }.sysfs ck p v n st)
      (fun p v n _ => kept_sim (wf_wfail hw w) (show Covers { m with wfail := w } from hc) ck p v n) file
      (fun _ _ _ _ => trivial)
    exact (hs.rel st st ⟨rfl, hst, ho⟩).2

/-! ### Examples and counterexamples -/

/-- The machine of C65: two packages with two dies each, limits 0.8 GHz and 2.5 GHz. -/
abbrev exM : Machine := exMachine fun _ _ _ => none

abbrev exClock : Clock := ⟨.error .notSupported, true⟩

theorem exM_covers (w : PyStr → PyStr → Int → Option Exn) : Covers (exMachine w) := fun _ _ => by
  show (800000 : Int) ≤ 800000 ∧ (800000 : Int) ≤ 2500000 ∧ (2500000 : Int) ≤ 2500000
  decide

-- The maximum of package 0 was set to 1 GHz via the legacy interface, die 1 has 0.9 GHz. The middle (1.6 GHz) for die 0
-- of both packages; die 1 keeps its frequency. A minimum above 0.9 GHz is refused for die 1, and therefore for both.
example : let r := setUncore exM.sysfs exClock false (.other "mdl") [(0, [0]), (1, [0])] ⟨exState, false⟩
    r.2 = .ok () ∧ r.1.kernel.val (0, 0) .max = 1600000 ∧ r.1.kernel.val (1, 0) .max = 1600000 ∧
    r.1.kernel.val (0, 1) .max = 900000 ∧
    (setUncore exM.sysfs exClock true (.num 950000000) [(0, [0, 1])] ⟨exState, false⟩).2 = .error .freqOrder ∧
    (setUncore exM.sysfs exClock true (.num 700000000) [(0, [0, 1])] ⟨exState, false⟩).2 = .error .freqRange ∧
    getUncore exM.sysfs false false [(0, [0, 1])] r.1 = .ok [((0, 0), 1600000000), ((0, 1), 900000000)] :=
  ⟨by decide +kernel, by decide +kernel, by decide +kernel, by decide +kernel, by decide +kernel, by decide +kernel,
    by decide +kernel⟩

theorem exState_inOrder : InOrder exM exState := by
  intro x hx
  have h : ∀ x ∈ exM.dies, (800000 : Int) ≤ exState.val x .min ∧ exState.val x .min ≤ exState.val x .max ∧
    exState.val x .max ≤ 2500000 := by decide +kernel
  exact h x hx

-- Both frequencies above the current ones: it works with the min. one first.
example : Pair exM [(0, [0, 1])] (.num 1500000000) (.num 2000000000) (fun _ => 1500000000) (fun _ => 2000000000) ∧
    (let r := config exM.sysfs exClock [(0, [0, 1])] [(true, .num 1500000000), (false, .num 2000000000)] ⟨exState, false⟩
    r.2 = .ok () ∧ r.1.kernel.val (0, 1) .min = 1500000 ∧ r.1.kernel.val (0, 1) .max = 2000000) :=
  ⟨⟨fun _ => rfl, fun _ => rfl, fun _ _ => (by decide : (800000 * 1000 : Int) ≤ 1500000000 ∧ (1500000000 : Int) ≤ 2000000000 ∧
      (2000000000 : Int) ≤ 2500000 * 1000), fun _ _ => by decide⟩,
    by decide +kernel, by decide +kernel, by decide +kernel⟩

-- Saved frequencies of two dies are restored: 2 - 2.2 GHz and 0.8 - 1.2 GHz.
example : let r := restore exM.sysfs exClock [(false, [(.num 2200000000, [(0, [0])]), (.num 1200000000, [(0, [1])])]),
      (true, [(.num 2000000000, [(0, [0])]), (.num 800000000, [(0, [1])])])] ⟨exState, false⟩
    r.2 = .ok () ∧ r.1.kernel.val (0, 0) .min = 2000000 ∧ r.1.kernel.val (0, 0) .max = 2200000 ∧
    r.1.kernel.val (0, 1) .max = 1200000 :=
  ⟨by decide +kernel, by decide +kernel, by decide +kernel, by decide +kernel⟩

/-- All dies have 2 - 2.4 GHz. -/
def exHigh : KState := ⟨fun _ key => match key with | .min => 2000000 | .max => 2400000, fun _ _ => none⟩

/-- A valid request for 1 - 1.5 GHz fails if the max. frequency comes first, and succeeds otherwise. -/
theorem C101_max_first_counterexample :
    Pair exM [(0, [0])] (.num 1000000000) (.num 1500000000) (fun _ => 1000000000) (fun _ => 1500000000) ∧
    InOrder exM exHigh ∧
    (config exM.sysfs exClock [(0, [0])] [(false, .num 1500000000), (true, .num 1000000000)] ⟨exHigh, false⟩).2 =
      .error .freqOrder ∧
    (config exM.sysfs exClock [(0, [0])] [(true, .num 1000000000), (false, .num 1500000000)] ⟨exHigh, false⟩).2 =
      .ok () :=
  ⟨⟨fun _ => rfl, fun _ => rfl, fun _ _ => (by decide : (800000 * 1000 : Int) ≤ 1000000000 ∧ (1000000000 : Int) ≤ 1500000000 ∧
      (1500000000 : Int) ≤ 2500000 * 1000), fun _ _ => by decide⟩,
    fun _ _ => (by decide : (800000 : Int) ≤ 2000000 ∧ (2000000 : Int) ≤ 2400000 ∧ (2400000 : Int) ≤ 2500000),
    by decide +kernel, by decide +kernel⟩

/-- Die 0 of package 1 has 2 - 2.4 GHz, the others have 0.8 - 1 GHz. -/
def exMixed : KState :=
  ⟨fun x key => match key with
    | .min => if x = (1, 0) then 2000000 else 800000
    | .max => if x = (1, 0) then 2400000 else 1000000, fun _ _ => none⟩

/-- A valid request for 1.2 - 1.5 GHz for dies with current frequencies on both sides fails in both orders. -/
theorem C101_mixed_counterexample :
    Pair exM [(0, [0]), (1, [0])] (.num 1200000000) (.num 1500000000) (fun _ => 1200000000) (fun _ => 1500000000) ∧
    (config exM.sysfs exClock [(0, [0]), (1, [0])] [(true, .num 1200000000), (false, .num 1500000000)]
      ⟨exMixed, false⟩).2 = .error .freqOrder ∧
    (config exM.sysfs exClock [(0, [0]), (1, [0])] [(false, .num 1500000000), (true, .num 1200000000)]
      ⟨exMixed, false⟩).2 = .error .freqOrder :=
  ⟨⟨fun _ => rfl, fun _ => rfl, fun _ _ => (by decide : (800000 * 1000 : Int) ≤ 1200000000 ∧ (1200000000 : Int) ≤ 1500000000 ∧
      (1500000000 : Int) ≤ 2500000 * 1000), fun _ _ => by decide⟩, by decide +kernel, by decide +kernel⟩

end Verif.UncoreProps
