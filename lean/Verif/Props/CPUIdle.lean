import Verif.Lemmas.CPUIdleToggle

/-!
C43 and C44: C-states information and toggling C-states.

The specification is `Has`, `Reads`, `Shows`, `Describes`, `Table`, `Selected`, `NameOf`, `NameAt`, `Tog` and
the assumptions `WF`, `Good`, `Uniform` of `Verif.Lemmas.CPUIdle` and `Verif.Lemmas.CPUIdleToggle`. They only
talk about files, dictionaries and the cache, and do not use the functions of the model (except `upper` and
`EP.isInt`).
-/

namespace Verif.CPUIdle

/-! ### Checking `WF` of concrete systems -/

/-- Executable version of `WF`. -/
def wfCheck (files : List File) : Bool :=
  files.all (fun f => files.all (fun g =>
    !(f.cpu == g.cpu && f.idx == g.idx && f.fname == g.fname) || f.content == g.content)) &&
  files.all (fun f => fnames.all (fun k => files.any (fun g => g.cpu == f.cpu && g.idx == f.idx && g.fname == k))) &&
  files.all (fun f => !(fnames.contains f.fname) || (match EP.parse10 f.content with
    | .ok n => f.content == PyStr.ofNat n.toNat
    | .error _ => !EP.isInt f.content)) &&
  files.all (fun f => !(f.fname == "name".toList) || !EP.isInt f.content) &&
  files.all (fun f => files.all (fun g => !(f.fname == "name".toList && g.fname == "name".toList &&
    f.cpu == g.cpu && upper f.content == upper g.content) || f.idx == g.idx)) &&
  files.all (fun f => files.any (fun g => g.cpu == f.cpu && g.idx == 0) &&
    files.any (fun g => g.cpu == f.cpu && g.idx == 1))

theorem wf_of_check {files : List File} (h : wfCheck files = true) : WF files := by
  unfold wfCheck at h
  simp only [Bool.and_eq_true, List.all_eq_true, List.any_eq_true, Bool.or_eq_true, Bool.not_eq_true',
    beq_iff_eq, and_assoc] at h
  obtain ⟨h1, h2, h3, h4, h5, h6⟩ := h
  constructor
  · intro c i k s s' a b
    rcases h1 _ a _ b with h | h
    · simp at h
    · exact h
  · intro f hf k hk
    obtain ⟨g, hg, e1, e2, e3⟩ := h2 f hf k hk
    refine ⟨g.content, ?_⟩
    rw [← e1, ← e2, ← e3]
    exact hg
  · intro f hf hk
    rcases h3 f hf with h | h
    · simp only [List.contains_eq_mem, decide_eq_false_iff_not] at h
      exact absurd hk h
    · cases hp : EP.parse10 f.content with
      | ok n =>
        rw [hp] at h
        exact ⟨.num n.toNat, Or.inl ⟨n.toNat, by simpa using h, rfl⟩⟩
      | error e =>
        rw [hp] at h
        exact ⟨.text f.content, Or.inr ⟨by simpa using h, rfl⟩⟩
  · intro f hf hk
    rcases h4 f hf with h | h
    · rw [hk] at h; simp at h
    · exact h
  · intro c i j a b ha hb he
    rcases h5 _ ha _ hb with h | h
    · simp [he] at h
    · exact h
  · intro f hf
    obtain ⟨⟨g, a1, a2, a3⟩, g', b1, b2, b3⟩ := h6 f hf
    exact ⟨⟨g, a1, a2, a3⟩, g', b1, b2, b3⟩

instance (files : List File) (c i : Nat) (k s : PyStr) : Decidable (Has files c i k s) :=
  inferInstanceAs (Decidable (_ ∈ _))

/-- The seven files of a C-state. -/
def exState (c i : Nat) (name : String) (dis : String) (lat : Nat) : List File :=
  [⟨c, i, "name".toList, name.toList⟩, ⟨c, i, "desc".toList, "MWAIT".toList⟩,
   ⟨c, i, "disable".toList, dis.toList⟩, ⟨c, i, "latency".toList, PyStr.ofNat lat⟩,
   ⟨c, i, "residency".toList, PyStr.ofNat (3 * lat)⟩, ⟨c, i, "time".toList, "12345".toList⟩,
   ⟨c, i, "usage".toList, PyStr.ofNat (7 + c)⟩]

/-- CPUs 0, 1 and 10 with different C-states. -/
def exFiles : List File :=
  exState 10 1 "C1" "0" 2 ++ exState 10 0 "POLL" "0" 0 ++ exState 0 0 "POLL" "0" 0 ++ exState 0 1 "C1E" "1" 4 ++
  exState 0 2 "C6" "0" 170 ++ exState 1 0 "POLL" "0" 0 ++ exState 1 1 "C1E" "0" 4 ++ exState 1 2 "C6" "1" 190

theorem exFiles_wf : WF exFiles := wf_of_check (by decide +kernel)

/-- The system before anything was cached. -/
def exSt : St := ⟨exFiles, fun _ => none⟩

theorem exSt_good : Good exSt := ⟨exFiles_wf, fun _ _ h => by cases h⟩

/-- The kernel stores everything. -/
def exEnv : Env := ⟨true, fun _ _ _ => .stored, true⟩

/-! ### C43 -/

/-- C43 (reading): everything yielded is the exact table of the CPU it is attributed to, only requested CPUs
are yielded, and every requested CPU with C-states gets its table. Missing: systems with CPUs having only one
C-state, see `C43_single_state_counterexample`. -/
theorem C43_read_partial {files : List File} (W : WF files) (cpus : List Nat) :
    (readInfo files cpus).2 = .ok () ∧
    (∀ x ∈ (readInfo files cpus).1, x.1 ∈ cpus ∧ Table files x.1 x.2) ∧
    (∀ c ∈ cpus, (∃ f ∈ files, f.cpu = c) → ∃ ci, (c, ci) ∈ (readInfo files cpus).1) := by
  obtain ⟨h1, h2, h3, h4⟩ := readInfo_spec (cpus := cpus) W
  exact ⟨h1, fun x hx => ⟨h3 x hx, h2 x hx⟩, fun c hc hf => h4 c hc (Or.inl hf)⟩

example : (readInfo exFiles [0, 1, 10]).1.map (fun x => (x.1, x.2.keys.map String.ofList)) =
    [(0, ["POLL", "C1E", "C6"]), (1, ["POLL", "C1E", "C6"]), (10, ["POLL", "C1"])] := by decide +kernel

example : (readInfo exFiles [0, 1]).1.map (fun x => x.2.map (fun y => (y.2.index,
    y.2.attrs.get? "latency".toList))) =
    [[(0, some (.num 0)), (1, some (.num 4)), (2, some (.num 170))],
     [(0, some (.num 0)), (1, some (.num 4)), (2, some (.num 190))]] := by decide +kernel

/-- CPUs with a single C-state. -/
def exOne : List File := exState 0 0 "POLL" "0" 0 ++ exState 1 0 "POLL" "0" 0

/-- C43 is false when CPUs have only one C-state: CPU 0 gets no C-states at all, because a C-state is only
added when the index changes. -/
theorem C43_single_state_counterexample :
    (readInfo exOne [0, 1]).2 = .ok () ∧
    (readInfo exOne [0, 1]).1.map (fun x => (x.1, x.2.keys)) = [(0, []), (1, ["POLL".toList])] ∧
    (∃ nm, Has exOne 0 0 "name".toList nm) ∧ ¬ ∀ x ∈ (readInfo exOne [0, 1]).1, Table exOne x.1 x.2 := by
  refine ⟨by decide +kernel, by decide +kernel, ⟨"POLL".toList, by decide +kernel⟩, ?_⟩
  intro h
  have hm : (0, []) ∈ (readInfo exOne [0, 1]).1 := by decide +kernel
  obtain ⟨st, hst, _⟩ := (h _ hm).2 0 "POLL".toList trivial (by decide +kernel)
  simp at hst

/-- C43 (C-states given by name): `get_cstates_info()` succeeds if and only if every CPU has every name, and
then yields, for every CPU in the order of the request, exactly the requested C-states of this CPU with their
own attributes. The files do not change, and what gets cached is true. -/
theorem C43_get_names_partial {E : Env} (hd : E.driver = true) (hE : E.cacheOn = true) {s : St} (G : Good s)
    {cpus : List Nat} (hU : Uniform s.files cpus) (names : List PyStr) :
    let o := getInfo E (.list names) cpus s
    o.1.files = s.files ∧ Good o.1 ∧
    ((∃ l, o.2 = .ok l) ↔ ∀ c ∈ cpus, ∀ n ∈ names, NameOf s.files c (upper n)) ∧
    (∀ l, o.2 = .ok l → l.map Prod.fst = cpus ∧
      ∀ x ∈ l, Selected s.files x.1 (fun m => ∃ n ∈ names, m = upper n) x.2) := by
  obtain ⟨s', h1, h2, h3, _, h5⟩ := load_spec hE cpus s G
  obtain ⟨g1, g2⟩ := getLoop_list hE h3 ((pyDedup names).map upper) cpus (h5 hU)
  have ho : getInfo E (.list names) cpus s = (s', getLoop E s' (.list ((pyDedup names).map upper)) cpus) := by
    unfold getInfo
    simp only [hd, Bool.not_true, Bool.false_eq_true, if_false, h1, normalizeNames]
  have hmem : ∀ m, m ∈ (pyDedup names).map upper ↔ ∃ n ∈ names, m = upper n := by
    intro m
    simp only [List.mem_map, mem_pyDedup]
    exact exists_congr (fun n => and_congr Iff.rfl eq_comm)
  rw [ho]
  rw [h2] at g1 g2
  refine ⟨h2, h3, ?_, ?_⟩
  · dsimp only
    rw [g2]
    constructor
    · exact fun h c hc n hn => h c hc _ ((hmem _).2 ⟨n, hn, rfl⟩)
    · intro h c hc n hn
      obtain ⟨m, hm, rfl⟩ := (hmem n).1 hn
      exact h c hc m hm
  · intro l hl
    obtain ⟨a, b⟩ := g1 l hl
    refine ⟨a, fun x hx => ?_⟩
    obtain ⟨b1, b2⟩ := b x hx
    exact ⟨fun n st hst => ⟨(hmem n).1 (b1 n st hst).1, (b1 n st hst).2⟩, fun n hn => b2 n ((hmem n).2 hn)⟩

/-- The hypotheses hold and lower case names work. -/
example : Uniform exSt.files [1, 0] ∧
    (match (getInfo exEnv (.list ["c6".toList, "C1E".toList]) [1, 0] exSt).2 with
      | .ok l => l.map (fun x => (x.1, x.2.map (fun y => (String.ofList y.1, y.2.index))))
      | .error _ => []) = [(1, [("C6", 2), ("C1E", 1)]), (0, [("C6", 2), ("C1E", 1)])] :=
  ⟨Or.inl (by decide +kernel), by decide +kernel⟩

/-- C43 ("all"): when the requested CPUs have the same C-state names, `get_cstates_info()` succeeds and yields
for every CPU exactly all its C-states with their own attributes. Missing: CPUs with different names, see
`C43_hybrid_counterexample`. -/
theorem C43_get_all_partial {E : Env} (hd : E.driver = true) (hE : E.cacheOn = true) {s : St} (G : Good s)
    {cpus : List Nat} (hU : Uniform s.files cpus)
    (hsame : ∀ c ∈ cpus, ∀ c' ∈ cpus, ∀ n, NameOf s.files c n → NameOf s.files c' n) :
    let o := getInfo E .all cpus s
    o.1.files = s.files ∧ Good o.1 ∧
    ∃ l, o.2 = .ok l ∧ l.map Prod.fst = cpus ∧ ∀ x ∈ l, Table s.files x.1 x.2 := by
  obtain ⟨s', h1, h2, h3, _, h5⟩ := load_spec hE cpus s G
  have ho : getInfo E .all cpus s = (s', getLoop E s' .all cpus) := by
    unfold getInfo
    simp only [hd, Bool.not_true, Bool.false_eq_true, if_false, h1, normalizeNames]
  rw [ho]
  refine ⟨h2, h3, ?_⟩
  cases cpus with
  | nil => exact ⟨[], rfl, rfl, fun x hx => by cases hx⟩
  | cons c cpus =>
    obtain ⟨ci, hci⟩ := Option.isSome_iff_exists.1 (h5 hU c (List.mem_cons_self ..))
    have T := h3.cache c ci hci
    have hk : ∀ n, n ∈ ci.keys ↔ NameOf s.files c n := by
      intro n
      rw [mem_keys_iff, T.isSome, h2]
    obtain ⟨g1, g2⟩ := getLoop_list hE h3 ci.keys (c :: cpus) (h5 hU)
    dsimp only
    rw [getLoop_all hE hci]
    rw [h2] at g1 g2
    obtain ⟨l, hl⟩ := g2.2 (fun c' hc' n hn => hsame c (List.mem_cons_self ..) c' hc' n ((hk n).1 hn))
    obtain ⟨a, b⟩ := g1 l hl
    refine ⟨l, hl, a, fun x hx => ?_⟩
    obtain ⟨b1, b2⟩ := b x hx
    have hx' : x.1 ∈ c :: cpus := by rw [← a]; exact List.mem_map.2 ⟨x, hx, rfl⟩
    refine ⟨?_, ?_⟩
    · intro n st hst
      obtain ⟨_, i, nm, e1, e2, e3⟩ := b1 n st hst
      exact ⟨i, nm, trivial, e1, e2, e3⟩
    · intro i nm _ hn
      have hin := hsame x.1 hx' c (List.mem_cons_self ..) (upper nm) ⟨i, nm, hn, rfl⟩
      obtain ⟨st, hst⟩ := Option.isSome_iff_exists.1 (b2 _ ((hk _).2 hin))
      obtain ⟨_, j, nm', e1, e2, e3⟩ := b1 _ _ hst
      have := G.wf.distinct _ _ _ _ _ hn e1 e2
      subst this
      exact ⟨st, hst, e3⟩

/-- The hypotheses hold for CPUs 0 and 1. -/
example : ∃ l, (getInfo exEnv .all [0, 1] exSt).2 = .ok l ∧
    l.map (fun x => (x.1, x.2.keys.map String.ofList)) =
      [(0, ["POLL", "C1E", "C6"]), (1, ["POLL", "C1E", "C6"])] := by
  cases h : (getInfo exEnv .all [0, 1] exSt).2 with
  | error e =>
    have : Except.isOk' (getInfo exEnv .all [0, 1] exSt).2 = true := by decide +kernel
    rw [h] at this
    cases this
  | ok l =>
    refine ⟨l, rfl, ?_⟩
    have : (match (getInfo exEnv .all [0, 1] exSt).2 with
      | .ok l => l.map (fun x => (x.1, x.2.keys.map String.ofList))
      | .error _ => []) = [(0, ["POLL", "C1E", "C6"]), (1, ["POLL", "C1E", "C6"])] := by decide +kernel
    rw [h] at this
    exact this

/-- C43 is false for "all" when the CPUs have different C-states: the names of the first CPU are used for all
of them. Depending on the order of CPUs, C-states of the others are missing, or there is an error. -/
theorem C43_hybrid_counterexample :
    WF exFiles ∧ Uniform exFiles [10, 0] ∧
    Except.isOk' (getInfo exEnv .all [10, 0] exSt).2 = false ∧
    (∃ files, WF files ∧ Uniform files [0, 1] ∧ (∃ i, Has files 1 i "name".toList "C6".toList) ∧
      (match (getInfo exEnv .all [0, 1] ⟨files, fun _ => none⟩).2 with
        | .ok l => l.map (fun x => (x.1, x.2.keys.map String.ofList))
        | .error _ => []) = [(0, ["POLL", "C1E"]), (1, ["POLL", "C1E"])]) := by
  refine ⟨exFiles_wf, Or.inl (by decide +kernel), by decide +kernel,
    exState 0 0 "POLL" "0" 0 ++ exState 0 1 "C1E" "0" 4 ++ exState 1 0 "POLL" "0" 0 ++
      exState 1 1 "C1E" "0" 4 ++ exState 1 2 "C6" "0" 190,
    wf_of_check (by decide +kernel), Or.inl (by decide +kernel), ⟨2, by decide +kernel⟩, by decide +kernel⟩

/-- C43 is false without caching: nothing can be read, because the information is always taken from the
cache. -/
theorem C43_nocache_counterexample :
    (getInfo { exEnv with cacheOn := false } .all [0] exSt).2 = .error .notFound := by
  decide +kernel

/-- C43 is false when only some of the requested CPUs have C-states: `get_cstates_info()` fails for all. -/
theorem C43_mixed_counterexample :
    (getInfo exEnv .all [0, 5] exSt).2 = .error .notFound := by
  decide +kernel

/-! ### C44 -/

/-- The C-states which `enable_cstates()` and `disable_cstates()` are about. -/
def Targets (files : List File) (names : Names) (cpus : List Nat) (c i : Nat) : Prop :=
  c ∈ cpus ∧ match names with
    | .all => True
    | .list l => ∃ n ∈ l, NameAt files c i (upper n)

theorem normalized_mem (l : List PyStr) (m : PyStr) : m ∈ (pyDedup l).map upper ↔ ∃ n ∈ l, m = upper n := by
  simp only [List.mem_map, mem_pyDedup]
  exact exists_congr (fun n => and_congr Iff.rfl eq_comm)

/-- C44 (nothing else is touched): whether or not the call succeeds, only the "disable" files of the named
C-states of the requested CPUs may change, and they may only get the requested value. What is cached stays
true. -/
theorem C44_frame {E : Env} (hE : E.cacheOn = true) {s : St} (G : Good s) (names : Names) (cpus : List Nat)
    (enable : Bool) :
    let o := toggleCStates E names cpus enable s
    Good o.1 ∧
    (∀ c i k x, ¬ (Targets s.files names cpus c i ∧ k = "disable".toList) →
      (Has o.1.files c i k x ↔ Has s.files c i k x)) ∧
    (∀ c i x, Has o.1.files c i "disable".toList x →
      Has s.files c i "disable".toList x ∨ x = if enable then ['0'] else ['1']) := by
  have hmain : Good (toggleCStates E names cpus enable s).1 ∧
      Tog s.files (toggleCStates E names cpus enable s).1.files (Targets s.files names cpus) (data enable) := by
    unfold toggleCStates
    by_cases hd : E.driver = true
    · obtain ⟨s', h1, h2, h3, _, h5⟩ := load_spec hE cpus s G
      simp only [hd, Bool.not_true, Bool.false_eq_true, if_false, h1]
      rw [← h2]
      cases names with
      | list l =>
        obtain ⟨g1, _, g3, _⟩ := toggleLoop_list hE enable ((pyDedup l).map upper) cpus s' h3
        refine ⟨g1, g3.mono ?_⟩
        rintro c i ⟨hc, n, hn, ha⟩
        obtain ⟨m, hm, rfl⟩ := (normalized_mem l n).1 hn
        exact ⟨hc, m, hm, ha⟩
      | all =>
        cases cpus with
        | nil => exact ⟨h3, Tog.refl ..⟩
        | cons c cpus =>
          cases hci : s'.cache c with
          | none =>
            simp only [normalizeNames, toggleLoop_all_none hE enable hci]
            exact ⟨h3, Tog.refl ..⟩
          | some ci =>
            simp only [normalizeNames, toggleLoop_all hE enable hci]
            obtain ⟨g1, _, g3, _⟩ := toggleLoop_list hE enable ci.keys (c :: cpus) s' h3
            refine ⟨g1, g3.mono ?_⟩
            rintro c i ⟨hc, n, hn, ha⟩
            exact ⟨hc, trivial⟩
    · simp only [hd, Bool.not_false, if_true]
      exact ⟨G, Tog.refl ..⟩
  refine ⟨hmain.1, hmain.2.1, ?_⟩
  intro c i x hx
  rcases hmain.2.2.1 c i x hx with h | h
  · exact Or.inl h
  · exact Or.inr h

/-- C44 (named C-states): if the call succeeds, every named C-state of every requested CPU is enabled or
disabled as requested. -/
theorem C44_named {E : Env} (hE : E.cacheOn = true) {s : St} (G : Good s) (names : List PyStr)
    (cpus : List Nat) (enable : Bool) {s' : St} {l : List (Nat × List PyStr)}
    (h : toggleCStates E (.list names) cpus enable s = (s', .ok l)) :
    ∀ c ∈ cpus, ∀ n ∈ names, ∃ i, NameAt s.files c i (upper n) ∧
      Has s'.files c i "disable".toList (if enable then ['0'] else ['1']) := by
  unfold toggleCStates at h
  by_cases hd : E.driver = true
  · obtain ⟨s1, h1, h2, h3, _, h5⟩ := load_spec hE cpus s G
    simp only [hd, Bool.not_true, Bool.false_eq_true, if_false, h1, normalizeNames] at h
    obtain ⟨_, _, _, g4, _⟩ := toggleLoop_list hE enable ((pyDedup names).map upper) cpus s1 h3
    rw [h] at g4
    intro c hc n hn
    rw [← h2]
    exact g4 ⟨l, rfl⟩ c hc _ ((normalized_mem names _).2 ⟨n, hn, rfl⟩)
  · simp only [hd, Bool.not_false, if_true, Prod.mk.injEq] at h
    cases h.2

/-- The disable flags of a system. -/
def exFlags (s : St) : List (Nat × Nat × String) :=
  (s.files.filter (fun f => f.fname = "disable".toList)).map (fun f => (f.cpu, f.idx, String.ofList f.content))

/-- A successful call: "c6" of CPUs 0 and 1. -/
example : Except.isOk' (toggleCStates exEnv (.list ["c6".toList]) [0, 1] false exSt).2 = true ∧
    exFlags (toggleCStates exEnv (.list ["c6".toList]) [0, 1] false exSt).1 =
      [(10, 1, "0"), (10, 0, "0"), (0, 0, "0"), (0, 1, "1"), (0, 2, "1"), (1, 0, "0"), (1, 1, "0"), (1, 2, "1")] :=
  ⟨by decide +kernel, by decide +kernel⟩

/-- C44 ("all"): if the call succeeds and the CPUs have the same C-state names, all C-states of every requested
CPU are enabled or disabled as requested. Missing: CPUs with different names, see
`C44_hybrid_counterexample`. -/
theorem C44_all_partial {E : Env} (hE : E.cacheOn = true) {s : St} (G : Good s)
    (cpus : List Nat) (enable : Bool) {s' : St} {l : List (Nat × List PyStr)}
    (h : toggleCStates E .all cpus enable s = (s', .ok l))
    (hsame : ∀ c ∈ cpus, ∀ c' ∈ cpus, ∀ n, NameOf s.files c n → NameOf s.files c' n) :
    ∀ c ∈ cpus, ∀ i nm, Has s.files c i "name".toList nm →
      Has s'.files c i "disable".toList (if enable then ['0'] else ['1']) := by
  unfold toggleCStates at h
  by_cases hd : E.driver = true
  · obtain ⟨s1, h1, h2, h3, _, h5⟩ := load_spec hE cpus s G
    simp only [hd, Bool.not_true, Bool.false_eq_true, if_false, h1, normalizeNames] at h
    cases cpus with
    | nil => intro c hc; cases hc
    | cons c0 cpus =>
      cases hci : s1.cache c0 with
      | none =>
        rw [toggleLoop_all_none hE enable hci] at h
        cases h
      | some ci =>
        rw [toggleLoop_all hE enable hci] at h
        obtain ⟨_, _, _, g4, _⟩ := toggleLoop_list hE enable ci.keys (c0 :: cpus) s1 h3
        rw [h] at g4
        intro c hc i nm hn
        have hin : upper nm ∈ ci.keys := by
          rw [mem_keys_iff, (h3.cache c0 ci hci).isSome, h2]
          exact hsame c hc c0 (List.mem_cons_self ..) _ ⟨i, nm, hn, rfl⟩
        obtain ⟨j, ⟨nm', e1, e2⟩, e3⟩ := g4 ⟨l, rfl⟩ c hc _ hin
        rw [h2] at e1
        have := G.wf.distinct _ _ _ _ _ hn e1 e2
        subst this
        exact e3
  · simp only [hd, Bool.not_false, if_true, Prod.mk.injEq] at h
    cases h.2

/-- A successful call. -/
example : Except.isOk' (toggleCStates exEnv .all [0, 1] false exSt).2 = true ∧
    exFlags (toggleCStates exEnv .all [0, 1] false exSt).1 =
      [(10, 1, "0"), (10, 0, "0"), (0, 0, "1"), (0, 1, "1"), (0, 2, "1"), (1, 0, "1"), (1, 1, "1"), (1, 2, "1")] :=
  ⟨by decide +kernel, by decide +kernel⟩

/-- C44 is false for "all" when the CPUs have different C-states: the call succeeds, and C-state 2 of CPU 1
stays enabled. -/
theorem C44_hybrid_counterexample :
    ∃ files, WF files ∧ Uniform files [0, 1] ∧
      Except.isOk' (toggleCStates exEnv .all [0, 1] false ⟨files, fun _ => none⟩).2 = true ∧
      exFlags (toggleCStates exEnv .all [0, 1] false ⟨files, fun _ => none⟩).1 =
        [(0, 0, "1"), (0, 1, "1"), (1, 0, "1"), (1, 1, "1"), (1, 2, "0")] :=
  ⟨exState 0 0 "POLL" "0" 0 ++ exState 0 1 "C1E" "0" 4 ++ exState 1 0 "POLL" "0" 0 ++
      exState 1 1 "C1E" "0" 4 ++ exState 1 2 "C6" "0" 190,
    wf_of_check (by decide +kernel), Or.inl (by decide +kernel), by decide +kernel, by decide +kernel⟩

/-- C44 (the call succeeds when it should): every CPU has every name, and the kernel stores the value. -/
theorem C44_succeeds {E : Env} (hd : E.driver = true) (hE : E.cacheOn = true) {s : St} (G : Good s)
    (names : List PyStr) (cpus : List Nat) (enable : Bool) (hU : Uniform s.files cpus)
    (hn : ∀ c ∈ cpus, ∀ n ∈ names, NameOf s.files c (upper n))
    (hk : ∀ c ∈ cpus, ∀ i, ∀ n ∈ names, NameAt s.files c i (upper n) →
      E.kern c i (if enable then ['0'] else ['1']) = .stored) :
    ∃ l, (toggleCStates E (.list names) cpus enable s).2 = .ok l := by
  obtain ⟨s1, h1, h2, h3, _, h5⟩ := load_spec hE cpus s G
  obtain ⟨_, _, _, _, g5⟩ := toggleLoop_list hE enable ((pyDedup names).map upper) cpus s1 h3
  unfold toggleCStates
  simp only [hd, Bool.not_true, Bool.false_eq_true, if_false, h1, normalizeNames]
  rw [h2] at g5
  refine g5 (h5 hU) ?_ ?_
  · intro c hc n hm
    obtain ⟨m, hm', rfl⟩ := (normalized_mem names n).1 hm
    exact hn c hc m hm'
  · intro c hc i n hm ha
    obtain ⟨m, hm', rfl⟩ := (normalized_mem names n).1 hm
    exact hk c hc i m hm' ha

/-- The hypotheses hold for "C1E" on CPUs 0 and 1. -/
example : Uniform exSt.files [0, 1] ∧ NameOf exSt.files 0 (upper "c1e".toList) ∧
    NameOf exSt.files 1 (upper "c1e".toList) :=
  ⟨Or.inl (by decide +kernel), ⟨1, "C1E".toList, by decide +kernel, by decide +kernel⟩,
    ⟨1, "C1E".toList, by decide +kernel, by decide +kernel⟩⟩

/-- A name which CPU `c` does not have is refused when it is the first CPU, without changing anything. -/
theorem C44_bad_name {E : Env} (hd : E.driver = true) (hE : E.cacheOn = true) {s : St} (G : Good s)
    (names : List PyStr) (c : Nat) (cpus : List Nat) (enable : Bool) (hU : Uniform s.files (c :: cpus))
    {n : PyStr} (hn : n ∈ names) (hno : ¬ NameOf s.files c (upper n)) :
    (toggleCStates E (.list names) (c :: cpus) enable s).1.files = s.files ∧
    ∃ e, (toggleCStates E (.list names) (c :: cpus) enable s).2 = .error e := by
  obtain ⟨s1, h1, h2, h3, _, h5⟩ := load_spec hE (c :: cpus) s G
  obtain ⟨ci, hci⟩ := Option.isSome_iff_exists.1 (h5 hU c (List.mem_cons_self ..))
  have T := h3.cache c ci hci
  unfold toggleCStates
  simp only [hd, Bool.not_true, Bool.false_eq_true, if_false, h1, normalizeNames, toggleLoop,
    cacheGet_on hE, hci, fixNames]
  cases hp : pick ci ((pyDedup names).map upper) [] with
  | error e => exact ⟨h2, e, rfl⟩
  | ok r =>
    have := (pick_ok_iff T _).1 ⟨r, hp⟩ (upper n) ((normalized_mem names _).2 ⟨n, hn, rfl⟩)
    rw [h2] at this
    exact absurd this hno

example : (toggleCStates exEnv (.list ["C6".toList]) [10, 0] false exSt).2 = .error .error := by decide +kernel

/-- When a later CPU does not have the C-state, the earlier ones are changed already. -/
theorem C44_bad_name_later_counterexample :
    (toggleCStates exEnv (.list ["C6".toList]) [0, 10] false exSt).2 = .error .error ∧
    exFlags (toggleCStates exEnv (.list ["C6".toList]) [0, 10] false exSt).1 =
      [(10, 1, "0"), (10, 0, "0"), (0, 0, "0"), (0, 1, "1"), (0, 2, "1"), (1, 0, "0"), (1, 1, "0"), (1, 2, "1")] :=
  ⟨by decide +kernel, by decide +kernel⟩

/-- C44 (read back): after a successful call, the information about the named C-states has the flags as
requested: 'disable' is false (or 0) after enabling, and true (or 1) after disabling. -/
theorem C44_readback {E : Env} (hE : E.cacheOn = true) {s : St} (G : Good s) (names : List PyStr)
    (cpus : List Nat) (enable : Bool) {s' : St} {l : List (Nat × List PyStr)}
    (h : toggleCStates E (.list names) cpus enable s = (s', .ok l)) {info : List (Nat × CsInfo)}
    (hd : E.driver = true) (hU : Uniform s'.files cpus) (hi : (getInfo E (.list names) cpus s').2 = .ok info) :
    info.map Prod.fst = cpus ∧ ∀ x ∈ info, ∀ n ∈ names, ∃ st v, x.2.get? (upper n) = some st ∧
      st.attrs.get? "disable".toList = some v ∧
      (v = .bool (!enable) ∨ v = .num (if enable then 0 else 1)) := by
  have hf := C44_frame hE G (.list names) cpus enable
  have hnamed := C44_named hE G names cpus enable h
  rw [h] at hf
  obtain ⟨G', hfr, _⟩ := hf
  simp only at G' hfr
  obtain ⟨_, _, _, hget⟩ := C43_get_names_partial hd hE G' hU names
  obtain ⟨h1, h2⟩ := hget info hi
  refine ⟨h1, ?_⟩
  intro x hx n hn
  obtain ⟨a, b⟩ := h2 x hx
  have hxc : x.1 ∈ cpus := by rw [← h1]; exact List.mem_map.2 ⟨x, hx, rfl⟩
  obtain ⟨st, hst⟩ := Option.isSome_iff_exists.1 (b (upper n) ⟨n, hn, rfl⟩)
  obtain ⟨_, i, nm, e1, e2, e3⟩ := a _ _ hst
  obtain ⟨j, ⟨nm', f1, f2⟩, f3⟩ := hnamed x.1 hxc n hn
  have f1 : Has s'.files x.1 j "name".toList nm' :=
    (hfr _ _ _ _ (fun h => dis_ne_name h.2.symm)).2 f1
  have := G'.wf.distinct _ _ _ _ _ f1 e1 (f2.symm.trans e2)
  subst this
  obtain ⟨y, v, g1, g2, g3⟩ := e3.2.2 "disable".toList (by decide)
  refine ⟨st, v, hst, g3, ?_⟩
  rw [G'.wf.uniq _ _ _ _ _ g1 f3] at g2
  cases enable with
  | true =>
    rcases g2 with g2 | ⟨bv, rfl, g2⟩
    · right
      exact reads_unique g2 (Or.inl ⟨0, by decide +kernel, rfl⟩)
    · left
      cases bv
      · rfl
      · exact absurd g2 (by decide)
  | false =>
    rcases g2 with g2 | ⟨bv, rfl, g2⟩
    · right
      exact reads_unique g2 (Or.inl ⟨1, by decide +kernel, rfl⟩)
    · left
      cases bv
      · exact absurd g2 (by decide)
      · rfl

/-- Reading back in the example, after the information was cached with the opposite value. -/
example : (match (getInfo exEnv (.list ["C6".toList]) [0, 1]
      (toggleCStates exEnv (.list ["C6".toList]) [0, 1] false (getInfo exEnv .all [0, 1] exSt).1).1).2 with
    | .ok l => l.map (fun x => (x.1, x.2.map (fun y => y.2.attrs.get? "disable".toList)))
    | .error _ => []) = [(0, [some (.bool true)]), (1, [some (.bool true)])] := by decide +kernel

/-- Operations of the object. -/
inductive Op where
  | get (names : Names) (cpus : List Nat)
  | toggle (names : Names) (cpus : List Nat) (enable : Bool)

/-- Run an operation, whatever its outcome. -/
def Op.run (E : Env) (s : St) : Op → St
  | .get names cpus => (getInfo E names cpus s).1
  | .toggle names cpus enable => (toggleCStates E names cpus enable s).1

/-- Histories: whatever the operations and their outcomes are, what is cached stays true, so that C43 and C44
hold after any history. -/
theorem C43_history {E : Env} (hE : E.cacheOn = true) (ops : List Op) :
    ∀ s, Good s → Good (ops.foldl (Op.run E) s) := by
  induction ops with
  | nil => exact fun _ G => G
  | cons op ops ih =>
    intro s G
    refine ih _ ?_
    cases op with
    | get names cpus =>
      show Good (getInfo E names cpus s).1
      unfold getInfo
      by_cases hd : E.driver = true
      · obtain ⟨s', h1, _, h3, _⟩ := load_spec hE cpus s G
        simp only [hd, Bool.not_true, Bool.false_eq_true, if_false, h1]
        exact h3
      · simp only [hd, Bool.not_false, if_true]
        exact G
    | toggle names cpus enable => exact (C44_frame hE G names cpus enable).1

example : Good ([Op.get .all [0, 1], .toggle .all [0] true, .toggle (.list ["C6".toList]) [0, 10] false].foldl
    (Op.run exEnv) exSt) := C43_history rfl _ _ exSt_good

end Verif.CPUIdle
