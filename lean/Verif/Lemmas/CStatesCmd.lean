import Verif.Props.CStatesCmdSpec
import Verif.Lemmas.HotplugCmd
import Verif.Props.HumanCStates
import Verif.Props.OpTarget

/-! Lemmas for C95. -/

namespace Verif.CStatesCmd

open CPUInfo (Info WF)
open CPUIdle (Names St Env toggleCStates File Has NameOf NameAt Good Uniform upper getInfo)
open CStatesYaml (namesOfStr Clean)
open HumanPrint (Sys)
open HumanCStates (Block TellsAll printCStates Asked)
open HotplugCmd (Written Same)
open OpTarget (Selected Valid)

variable {W : Type}

/-! ### Options -/

theorem joinC_clean {ns : List PyStr} (hne : ns ≠ []) (h : ∀ n ∈ ns, Clean n) :
    Trivial.splitCsvLine (PyStr.joinC ',' ns) ',' false = ns := by
  rw [Trivial.splitCsvLine_eq, PyStr.splitC_joinC hne (fun n hn hc => ((h n hn).2 _ hc).1 rfl)]
  have h1 : ns.filter (fun v => !v.isEmpty) = ns := List.filter_eq_self.2 fun n hn => by simp [(h n hn).1]
  rw [h1]
  conv => rhs; rw [← List.map_id ns]
  exact List.map_congr_left fun n hn => PyStr.stripBy_of_stripped (PyStr.stripped_of_all fun c hc => ((h n hn).2 c hc).2)

theorem namesOfStr_means {text : PyStr} {names : Names} (h : MeansNames text names) : namesOfStr text = names := by
  unfold namesOfStr
  cases names with
  | all =>
    have h' : text = "all".toList := h
    rw [if_pos h']
  | list ns =>
    obtain ⟨h1, h2, h3, h4⟩ := h
    rw [if_neg h4, h3, joinC_clean h1 h2]

/-- The options with arguments, for any two different option names. -/
theorem given_eq {en di : PyStr} (hne : di ≠ en) (oargs : List (PyStr × Option PyStr)) :
    given (oargs.filterMap fun x => if x.1 = en then some (true, x.2) else if x.1 = di then some (false, x.2) else none) =
      (oargs.filter (fun x => (x.1 = en ∨ x.1 = di) ∧ x.2 ≠ none ∧ x.2 ≠ some [])).map
        fun x => (decide (x.1 = en), x.2.getD []) := by
  unfold given
  induction oargs with
  | nil => rfl
  | cons x oargs ih =>
    obtain ⟨k, v⟩ := x
    rw [List.filterMap_cons, List.filter_cons]
    by_cases h1 : k = en
    · subst h1
      cases v with
      | none => simpa using ih
      | some t => cases t <;> simpa using ih
    · by_cases h2 : k = di
      · subst h2
        cases v with
        | none => simpa [h1] using ih
        | some t => cases t <;> simpa [h1] using ih
      · simpa [h1, h2] using ih

theorem given_means {oargs : Dict PyStr (Option PyStr)} {opts : List (Bool × Names)} (h : MeansOpts oargs opts) :
    (given (enableOpts oargs)).map (fun x => (x.1, namesOfStr x.2)) = opts := by
  obtain ⟨l, h1, rfl, h3⟩ := h
  have hne : "disable".toList ≠ "enable".toList := by decide +kernel
  have key := given_eq hne oargs
  unfold enableOpts
  rw [key, ← h1, List.map_map, List.map_map]
  refine List.map_congr_left fun x hx => ?_
  show (_, namesOfStr x.2.1) = _
  rw [namesOfStr_means (h3 x hx)]

theorem noArg_eq {en di : PyStr} (oargs : List (PyStr × Option PyStr)) :
    (oargs.filterMap fun x => if x.1 = en then some (true, x.2) else if x.1 = di then some (false, x.2) else none).any
      (fun x => (x.2.getD []).isEmpty) = true ↔
    ∃ x ∈ oargs, (x.1 = en ∨ x.1 = di) ∧ (x.2 = none ∨ x.2 = some []) := by
  rw [List.any_eq_true]
  constructor
  · rintro ⟨x, hx, hx'⟩
    obtain ⟨y, hy, hyx⟩ := List.mem_filterMap.1 hx
    refine ⟨y, hy, ?_, ?_⟩
    · by_cases h1 : y.1 = en
      · exact Or.inl h1
      · by_cases h2 : y.1 = di
        · exact Or.inr h2
        · rw [if_neg h1, if_neg h2] at hyx
          cases hyx
    · have hv : x.2 = y.2 := by
        by_cases h1 : y.1 = en
        · rw [if_pos h1] at hyx
          cases hyx
          rfl
        · by_cases h2 : y.1 = di
          · rw [if_neg h1, if_pos h2] at hyx
            cases hyx
            rfl
          · rw [if_neg h1, if_neg h2] at hyx
            cases hyx
      rw [hv] at hx'
      cases h : y.2 with
      | none => exact Or.inl rfl
      | some t =>
        rw [h] at hx'
        cases t with
        | nil => exact Or.inr rfl
        | cons a t => cases hx'
  · rintro ⟨y, hy, h1, h2⟩
    have hv : (y.2.getD []).isEmpty = true := by
      rcases h2 with h2 | h2 <;> rw [h2] <;> rfl
    by_cases h : y.1 = en
    · exact ⟨(true, y.2), List.mem_filterMap.2 ⟨y, hy, if_pos h⟩, hv⟩
    · exact ⟨(false, y.2), List.mem_filterMap.2 ⟨y, hy, by rw [if_neg h, if_pos (h1.resolve_left h)]⟩, hv⟩

theorem printOpts_only {oargs : Dict PyStr (Option PyStr)} (h : OnlyStates oargs) : printOpts oargs = [] := by
  unfold printOpts
  exact List.filterMap_eq_nil_iff.2 fun x hx => if_pos (h x hx)

theorem setOpts_only {oargs : Dict PyStr (Option PyStr)} (h : OnlyStates oargs) : setOpts oargs = [] := by
  unfold setOpts
  exact List.filterMap_eq_nil_iff.2 fun x hx => if_pos (h x hx)

/-! ### The target -/

/-- The target, when the options mean something. -/
theorem target_written {i : Info} (wf : WF i) {o : HotplugCmd.Opts} {a : OpTarget.Args} (hw : Written o a)
    (hm : a.modSib ≠ [] → OpTarget.ModulesUnique i) :
    (¬ Valid i a ∧ ∃ e, target i o = .error e) ∨
    (Valid i a ∧ ∃ t, target i o = .ok t ∧
      (((∀ c, ¬ Selected i a c) ∧ ∃ e, targetCpus i t = .error e) ∨
        ∃ r, targetCpus i t = .ok r ∧ r ≠ [] ∧ r.Nodup ∧ ∀ c, c ∈ r ↔ Selected i a c)) := by
  obtain ⟨a', h1, hs⟩ := HotplugCmd.toArgs_written hw
  have hm' : a'.modSib ≠ [] → OpTarget.ModulesUnique i := fun h => hm ((HotplugCmd.ne_nil_congr hs.modSib).1 h)
  unfold target
  rw [h1]
  dsimp only
  by_cases hV : Valid i a
  · obtain ⟨⟨t, ca⟩, hi⟩ := (OpTarget.C52_accepts i wf a').2 ((hs.valid i).2 hV)
    rw [hi]
    refine .inr ⟨hV, _, rfl, ?_⟩
    unfold targetCpus
    dsimp only
    by_cases hex : ∃ c, Selected i a c
    · obtain ⟨c, hc⟩ := hex
      obtain ⟨r, hr⟩ := OpTarget.C52_finds i wf a' hm' t ca hi [] ⟨c, (hs.selected i c).2 hc⟩
      obtain ⟨k1, k2, k3⟩ := OpTarget.C52_cpus_partial i wf a' hm' t ca hi [] r hr
      rw [show OpTarget.calls i t ca [] = ca from rfl] at hr
      exact .inr ⟨r, hr, k1, k2, fun c => by rw [k3, hs.selected]⟩
    · have hex' : ∀ c, ¬ Selected i a c := fun c h => hex ⟨c, h⟩
      have := (OpTarget.C52_none i wf a' hm' t ca hi [] (fun ⟨c, h⟩ => hex' c ((hs.selected i c).1 h))).1
      rw [show OpTarget.calls i t ca [] = ca from rfl] at this
      refine .inl ⟨hex', ?_⟩
      rcases this with h | h
      · rw [h]; exact ⟨_, rfl⟩
      · rw [h]; exact ⟨_, rfl⟩
  · rw [OpTarget.C52_refuses i wf a' (fun h => hV ((hs.valid i).1 h))]
    exact .inl ⟨hV, _, rfl⟩

/-! ### Printing -/

theorem getInfo_keeps {E : Env} (hE : E.cacheOn = true) {s : St} (G : Good s) (names : Names) (cpus : List Nat) :
    (getInfo E names cpus s).1.files = s.files ∧ Good (getInfo E names cpus s).1 := by
  unfold getInfo
  by_cases hd : E.driver = true
  · obtain ⟨s', h1, h2, h3, _⟩ := CPUIdle.load_spec hE cpus s G
    simp only [hd, Bool.not_true, Bool.false_eq_true, if_false, h1]
    exact ⟨h2, h3⟩
  · simp only [hd, Bool.not_false, if_true]
    exact ⟨trivial, G⟩

theorem printCStates_keeps {E : Env} (hE : E.cacheOn = true) {s : St} (G : Good s) (i : Info) (descr : PyStr) (names : Names)
    (cpus : List Nat) (skipRo group : Bool) (action : Option PyStr) :
    (printCStates i descr E names cpus skipRo group action s).1.files = s.files ∧
      Good (printCStates i descr E names cpus skipRo group action s).1 := by
  have h := getInfo_keeps hE G names cpus
  unfold printCStates
  cases hg : getInfo E names cpus s with
  | mk s' r =>
    rw [hg] at h
    cases r with
    | ok l => exact h
    | error e => cases e <;> exact h

theorem printStep_keeps {E : Env} (hE : E.cacheOn = true) {s : St × W} (G : Good s.1) (i : Info) (descr : PyStr)
    (names : Names) (cpus : Except Exn (List Nat)) (skipRo group : Bool) (action : Option PyStr) :
    (printStep i descr E names cpus skipRo group action s).1.1.files = s.1.files ∧
      Good (printStep i descr E names cpus skipRo group action s).1.1 := by
  unfold printStep
  cases cpus with
  | error e => exact ⟨rfl, G⟩
  | ok l => exact printCStates_keeps hE G i descr names l skipRo group action

/-- The C-states asked for are those meant. -/
theorem asked_meant {files : List File} {cpus : List Nat} {names : Names} {n : PyStr} (hne : cpus ≠ [])
    (hall : ∀ c ∈ cpus, ∀ n, Asked files cpus names n → NameOf files c n) :
    Asked files cpus names n ↔ Meant names n ∧ ∃ c, c ∈ cpus ∧ NameOf files c n := by
  obtain ⟨c0, hc0⟩ := List.exists_mem_of_ne_nil _ hne
  cases names with
  | all => exact ⟨fun ⟨c, hc, h⟩ => ⟨trivial, c, hc, h⟩, fun ⟨_, c, hc, h⟩ => ⟨c, hc, h⟩⟩
  | list ns => exact ⟨fun h => ⟨h, c0, hc0, hall c0 hc0 n h⟩, fun h => h.1⟩

/-- What is printed about C-states. -/
theorem printStep_spec {i : Info} {S : Sys} (hS : S.Of i) (descr : PyStr) {E : Env} (hd : E.driver = true)
    (hE : E.cacheOn = true) {s : St × W} (G : Good s.1) {names : Names} {r : List Nat} (hne : r ≠ []) (hn : r.Nodup)
    (hon : ∀ c ∈ r, c ∈ S.online) (hst : ∀ c ∈ r, ∃ f ∈ s.1.files, f.cpu = c)
    (hnames : ∀ ns, names = .list ns → ns ≠ [])
    (hall : ∀ c ∈ r, ∀ n, Asked s.1.files r names n → NameOf s.1.files c n) (group : Bool) :
    (printStep i descr E names (.ok r) false group none s).2.2 = .ok () ∧
    TellsStates S descr group s.1.files (· ∈ r) names (printStep i descr E names (.ok r) false group none s).2.1 := by
  obtain ⟨s'', blocks, lines, e1, e2, e3, e4, e5, e6, e7, e8⟩ := HumanCStates.C94_exact_partial hS descr hd hE G hn hon
    (Or.inl hst) names hall false group none
  have hne' : blocks ≠ [] := by
    obtain ⟨c, hc⟩ := List.exists_mem_of_ne_nil _ hne
    have hex : ∃ n, Asked s.1.files r names n := by
      cases names with
      | all =>
        obtain ⟨f, hf, rfl⟩ := hst c hc
        obtain ⟨t, ht⟩ := G.wf.complete _ (CPUIdle.has_self _ f hf) _ CPUIdle.name_mem
        exact ⟨_, f.cpu, hc, f.idx, t, ht, rfl⟩
      | list ns =>
        obtain ⟨m, hm⟩ := List.exists_mem_of_ne_nil _ (hnames ns rfl)
        exact ⟨_, m, hm, rfl⟩
    obtain ⟨n, hn'⟩ := hex
    intro hb
    have := (e7 n).2 ⟨hne, hn'⟩
    rw [hb] at this
    cases this
  have hps : printStep i descr E names (.ok r) false group none s = ((s'', s.2), lines, .ok ()) := by
    unfold printStep
    dsimp only
    rw [e1]
    rfl
  rw [hps]
  refine ⟨rfl, blocks, e5 hne', e6, ?_, ?_⟩
  · intro n
    rw [e7, asked_meant hne hall]
    exact ⟨fun h => h.2, fun h => ⟨hne, h⟩⟩
  · intro b hb
    obtain ⟨f1, f2, f3, f4⟩ := e8 b hb
    refine ⟨f1, f2, f3, fun k t => (f4 k t).trans ?_⟩
    exact ⟨fun h => h.2, fun h => ⟨rfl, h⟩⟩

/-! ### Names do not change -/

/-- The files are the same except for some "disable" files. -/
def SameBut (T : Nat → Nat → Prop) (files files' : List File) : Prop :=
  ∀ c j k x, ¬ (k = "disable".toList ∧ T c j) → (Has files' c j k x ↔ Has files c j k x)

theorem name_ne_disable : "name".toList ≠ "disable".toList := by decide +kernel

theorem SameBut.nameAt {T : Nat → Nat → Prop} {files files' : List File} (h : SameBut T files files') (c j : Nat) (n : PyStr) :
    NameAt files' c j n ↔ NameAt files c j n := by
  unfold NameAt
  exact exists_congr fun nm => and_congr (h c j _ nm fun hh => name_ne_disable hh.1) Iff.rfl

theorem SameBut.nameOf {T : Nat → Nat → Prop} {files files' : List File} (h : SameBut T files files') (c : Nat) (n : PyStr) :
    NameOf files' c n ↔ NameOf files c n := by
  constructor
  · rintro ⟨j, h'⟩
    exact ⟨j, (h.nameAt c j n).1 h'⟩
  · rintro ⟨j, h'⟩
    exact ⟨j, (h.nameAt c j n).2 h'⟩

theorem SameBut.about {T : Nat → Nat → Prop} {files files' : List File} (h : SameBut T files files') (sel : Nat → Prop)
    (names : Names) (c j : Nat) : About files' sel names c j ↔ About files sel names c j := by
  unfold About
  exact and_congr Iff.rfl (exists_congr fun n => and_congr (h.nameAt c j n) Iff.rfl)

theorem SameBut.mono {T T' : Nat → Nat → Prop} {files files' : List File} (h : SameBut T files files')
    (hT : ∀ c j, T c j → T' c j) : SameBut T' files files' :=
  fun c j k x hn => h c j k x fun hh => hn ⟨hh.1, hT c j hh.2⟩

theorem SameBut.refl (T : Nat → Nat → Prop) (files : List File) : SameBut T files files := fun _ _ _ _ _ => Iff.rfl

theorem SameBut.trans {T : Nat → Nat → Prop} {a b c : List File} (h : SameBut T a b) (h' : SameBut T b c) : SameBut T a c :=
  fun x j k y hn => (h' x j k y hn).trans (h x j k y hn)

/-! ### Setting -/

theorem name_of_any {s : St} (G : Good s) {c j : Nat} {k x : PyStr} (h : Has s.files c j k x) : ∃ n, NameAt s.files c j n := by
  obtain ⟨t, ht⟩ := G.wf.complete _ h _ CPUIdle.name_mem
  exact ⟨_, t, ht, rfl⟩

/-- Whatever the outcome, only the "disable" files of the meant C-states may change, and they may only get the new value. -/
theorem toggle_keeps {E : Env} (hE : E.cacheOn = true) {s : St} (G : Good s) (names : Names) (cpus : List Nat)
    (enable : Bool) :
    Good (toggleCStates E names cpus enable s).1 ∧
      SameBut (About s.files (· ∈ cpus) names) s.files (toggleCStates E names cpus enable s).1.files ∧
      ∀ c j x, Has (toggleCStates E names cpus enable s).1.files c j "disable".toList x →
        Has s.files c j "disable".toList x ∨ x = flag enable := by
  obtain ⟨h1, h2, h3⟩ := CPUIdle.C44_frame (E := E) hE G names cpus enable
  have hnm : ∀ c j n, NameAt (toggleCStates E names cpus enable s).1.files c j n ↔ NameAt s.files c j n := by
    intro c j n
    unfold NameAt
    exact exists_congr fun nm => and_congr (h2 c j _ nm fun hh => name_ne_disable hh.2) Iff.rfl
  refine ⟨h1, ?_, ?_⟩
  · intro c j k x hn
    by_cases hT : CPUIdle.Targets s.files names cpus c j ∧ k = "disable".toList
    · have hno : ¬ ∃ n, NameAt s.files c j n ∧ Meant names n := fun h => hn ⟨hT.2, hT.1.1, h⟩
      have hno' : ¬ ∃ n, NameAt s.files c j n := by
        rintro ⟨n, hn'⟩
        cases names with
        | all => exact hno ⟨n, hn', trivial⟩
        | list ns =>
          obtain ⟨_, m, hm, hat⟩ := hT.1
          exact hno ⟨_, hat, m, hm, rfl⟩
      constructor
      · intro h
        obtain ⟨n, hn'⟩ := name_of_any h1 h
        exact absurd ⟨n, (hnm c j n).1 hn'⟩ hno'
      · intro h
        exact absurd (name_of_any G h) hno'
    · exact h2 c j k x hT
  · intro c j x hx
    rcases h3 c j x hx with h | h
    · exact Or.inl h
    · refine Or.inr ?_
      rw [h]
      cases enable <;> rfl

theorem setStep_keeps {E : Env} (hE : E.cacheOn = true) {s : St × W} (G : Good s.1) (i : Info) (descr : PyStr)
    (names : Names) (cpus : Except Exn (List Nat)) (enable : Bool) (sel : Nat → Prop)
    (hsel : ∀ r, cpus = .ok r → ∀ c ∈ r, sel c) :
    Good (setStep i descr E names cpus enable s).1.1 ∧
      SameBut (About s.1.files sel names) s.1.files (setStep i descr E names cpus enable s).1.1.files ∧
      ∀ c j x, Has (setStep i descr E names cpus enable s).1.1.files c j "disable".toList x →
        Has s.1.files c j "disable".toList x ∨ x = flag enable := by
  unfold setStep
  cases cpus with
  | error e => exact ⟨G, SameBut.refl _ _, fun c j x h => Or.inl h⟩
  | ok r =>
    dsimp only
    obtain ⟨h1, h2, h3⟩ := toggle_keeps (E := E) hE G names r enable
    cases ht : toggleCStates E names r enable s.1 with
    | mk s' res =>
      rw [ht] at h1 h2 h3
      have h2' : SameBut (About s.1.files sel names) s.1.files s'.files :=
        h2.mono fun c j h => ⟨hsel r rfl c h.1, h.2⟩
      cases res with
      | error e => exact ⟨h1, h2', h3⟩
      | ok l =>
        dsimp only
        obtain ⟨k1, k2⟩ := printStep_keeps (W := W) hE (s := (s', s.2)) h1 i descr names (.ok r) true false
          (some "set to".toList)
        rw [k1]
        exact ⟨k2, h2', h3⟩

/-- What a successful step did and printed. -/
theorem setStep_spec {i : Info} {S : Sys} (hS : S.Of i) (descr : PyStr) {E : Env} (hd : E.driver = true)
    (hE : E.cacheOn = true) {s : St × W} (G : Good s.1) {names : Names} {r : List Nat} (hne : r ≠ []) (hn : r.Nodup)
    (hon : ∀ c ∈ r, c ∈ S.online) (hst : ∀ c ∈ r, ∃ f ∈ s.1.files, f.cpu = c)
    (hnames : ∀ ns, names = .list ns → ns ≠ [])
    (hsame : names = .all → ∀ c ∈ r, ∀ c' ∈ r, ∀ n, NameOf s.1.files c n → NameOf s.1.files c' n) (enable : Bool)
    (hok : (setStep i descr E names (.ok r) enable s).2.2 = .ok ()) :
    (∀ c j, About s.1.files (· ∈ r) names c j →
      Has (setStep i descr E names (.ok r) enable s).1.1.files c j "disable".toList (flag enable)) ∧
    TellsSet S descr s.1.files (· ∈ r) (enable, names) (setStep i descr E names (.ok r) enable s).2.1 ∧
    (∀ ns, names = .list ns → ∀ m ∈ ns, ∀ c ∈ r, NameOf s.1.files c (upper m)) := by
  obtain ⟨h1, h2, h3⟩ := toggle_keeps (E := E) hE G names r enable
  unfold setStep at hok ⊢
  dsimp only at hok ⊢
  cases ht : toggleCStates E names r enable s.1 with
  | mk s' res =>
  rw [ht] at h1 h2 h3 hok
  cases res with
  | error e => cases hok
  | ok l =>
  dsimp only at h1 h2 h3 hok ⊢
  -- Every CPU has the C-states.
  have hall : ∀ c ∈ r, ∀ n, Asked s.1.files r names n → NameOf s.1.files c n := by
    cases names with
    | all =>
      rintro c hc n ⟨c', hc', h⟩
      exact hsame rfl c' hc' c hc n h
    | list ns =>
      rintro c hc n ⟨m, hm, rfl⟩
      obtain ⟨j, hj, _⟩ := CPUIdle.C44_named hE G ns r enable ht c hc m hm
      exact ⟨j, hj⟩
  have heff : ∀ c j, About s.1.files (· ∈ r) names c j → Has s'.files c j "disable".toList (flag enable) := by
    rintro c j ⟨hc, n, hat, hmn⟩
    have hfl : (if enable then ['0'] else ['1']) = flag enable := by cases enable <;> rfl
    cases names with
    | all =>
      obtain ⟨nm, hnm, _⟩ := hat
      rw [← hfl]
      exact CPUIdle.C44_all_partial hE G r enable ht (fun c hc c' hc' n h => hsame rfl c hc c' hc' n h) c hc j nm hnm
    | list ns =>
      obtain ⟨m, hm, rfl⟩ := hmn
      obtain ⟨j', ⟨nm', hj1, hj2⟩, hj⟩ := CPUIdle.C44_named hE G ns r enable ht c hc m hm
      obtain ⟨nm, hat1, hat2⟩ := hat
      have := G.wf.distinct _ _ _ _ _ hat1 hj1 (hat2.symm.trans hj2)
      subst this
      rw [← hfl]
      exact hj
  have hst' : ∀ c ∈ r, ∃ f ∈ s'.files, f.cpu = c := by
    intro c hc
    obtain ⟨f, hf, rfl⟩ := hst c hc
    obtain ⟨n, nm, hnm, _⟩ := name_of_any G (CPUIdle.has_self _ f hf)
    exact ⟨_, (h2 _ _ _ _ fun hh => name_ne_disable hh.1).2 hnm, rfl⟩
  have hasked : ∀ n, Asked s'.files r names n ↔ Asked s.1.files r names n := by
    intro n
    cases names with
    | all => exact exists_congr fun c => and_congr Iff.rfl (h2.nameOf c n)
    | list ns => exact Iff.rfl
  obtain ⟨s'', blocks, lines, e1, e2, e3, e4, e5, e6, e7, e8⟩ := HumanCStates.C94_exact_partial hS descr hd hE h1 hn hon
    (Or.inl hst') names (fun c hc n ha => (h2.nameOf c n).2 (hall c hc n ((hasked n).1 ha))) true false
    (some "set to".toList)
  have hne' : blocks ≠ [] := by
    obtain ⟨c, hc⟩ := List.exists_mem_of_ne_nil _ hne
    have hex : ∃ n, Asked s.1.files r names n := by
      cases names with
      | all =>
        obtain ⟨f, hf, rfl⟩ := hst c hc
        obtain ⟨n, nm, hnm, hn'⟩ := name_of_any G (CPUIdle.has_self _ f hf)
        exact ⟨n, f.cpu, hc, f.idx, nm, hnm, hn'⟩
      | list ns =>
        obtain ⟨m, hm⟩ := List.exists_mem_of_ne_nil _ (hnames ns rfl)
        exact ⟨_, m, hm, rfl⟩
    obtain ⟨n, hn'⟩ := hex
    intro hb
    have := (e7 n).2 ⟨hne, (hasked n).2 hn'⟩
    rw [hb] at this
    cases this
  have hps : printStep i descr E names (.ok r) true false (some "set to".toList) (s', s.2) =
      ((s'', s.2), lines, .ok ()) := by
    unfold printStep
    dsimp only
    rw [e1]
    rfl
  rw [hps]
  refine ⟨fun c j h => by rw [e2]; exact heff c j h, ⟨blocks, e5 hne', e6, ?_, ?_⟩, ?_⟩
  · intro n
    rw [e7, hasked, asked_meant hne hall]
    exact ⟨fun h => h.2, fun h => ⟨hne, h⟩⟩
  · intro b hb
    have hbm := ((e7 b.name).1 (List.mem_map.2 ⟨b, hb, rfl⟩)).2
    obtain ⟨f1, f2, f3, f4⟩ := e8 b hb
    have hbm' := (asked_meant hne hall).1 ((hasked _).1 hbm)
    refine ⟨?_, ?_⟩
    · intro on c
      rw [f1]
      have hflag : ∀ t, t = flag enable → (t == "0".toList || t == []) = enable := by
        rintro t rfl
        cases enable <;> decide +kernel
      constructor
      · rintro ⟨hc, j, t, t1, t2, rfl⟩
        refine ⟨hflag t ?_, hc⟩
        have := heff c j ⟨hc, b.name, (h2.nameAt c j _).1 t1, hbm'.1⟩
        exact h1.wf.uniq _ _ _ _ _ t2 this
      · rintro ⟨rfl, hc⟩
        obtain ⟨j, hj⟩ := hall c hc _ ((hasked _).1 hbm)
        have := heff c j ⟨hc, b.name, hj, hbm'.1⟩
        exact ⟨hc, j, _, (h2.nameAt c j _).2 hj, this, (hflag _ rfl).symm⟩
    · cases hbn : b.notes with
      | nil => rfl
      | cons y l =>
        have := (f4 y.1 y.2).1 (by rw [hbn]; exact List.mem_cons_self)
        cases this.1
  · rintro ns rfl m hm c hc
    exact hall c hc _ ⟨m, hm, rfl⟩

/-! ### Steps one after another -/

theorem andThen_ok {σ : Type} {a b : Step σ} {s : σ} (h : (Step.andThen a b s).2.2 = .ok ()) :
    (a s).2.2 = .ok () ∧ (b (a s).1).2.2 = .ok () ∧ (Step.andThen a b s).1 = (b (a s).1).1 ∧
      (Step.andThen a b s).2.1 = (a s).2.1 ++ (b (a s).1).2.1 := by
  unfold Step.andThen at h ⊢
  rcases ha : a s with ⟨s', lines, r⟩
  rw [ha] at h
  cases r with
  | error e => cases h
  | ok u => exact ⟨rfl, h, rfl, rfl⟩

theorem andThen_of_ok {σ : Type} {a b : Step σ} {s : σ} (h : (a s).2.2 = .ok ()) :
    Step.andThen a b s = ((b (a s).1).1, (a s).2.1 ++ (b (a s).1).2.1, (b (a s).1).2.2) := by
  unfold Step.andThen
  rcases ha : a s with ⟨s', lines, r⟩
  rw [ha] at h
  cases r with
  | error e => cases h
  | ok u => rfl

/-- What holds after each step holds at the end. -/
theorem andThen_inv {σ : Type} {a b : Step σ} {s : σ} (I : σ → Prop) (ha : I (a s).1) (hb : I (b (a s).1).1) :
    I (Step.andThen a b s).1 := by
  unfold Step.andThen
  rcases h : a s with ⟨s', lines, r⟩
  rw [h] at ha hb
  cases r with
  | error e => exact ha
  | ok u => exact hb

/-- What a list of options may have changed. -/
structure Kept (files : List File) (sel : Nat → Prop) (l : List (Bool × Names)) (s : St) : Prop where
  good : Good s
  frame : SameBut (fun c j => ∃ y ∈ l, About files sel y.2 c j) files s.files
  value : ∀ c j x, Has s.files c j "disable".toList x →
    Has files c j "disable".toList x ∨ ∃ y ∈ l, About files sel y.2 c j ∧ x = flag y.1

theorem Kept.refl {s : St} (G : Good s) (sel : Nat → Prop) (l : List (Bool × Names)) : Kept s.files sel l s :=
  ⟨G, SameBut.refl _ _, fun _ _ _ h => Or.inl h⟩

theorem Kept.trans {files : List File} {sel : Nat → Prop} {l : List (Bool × Names)} {s s' : St} (h : Kept files sel l s)
    (h' : Kept s.files sel l s') : Kept files sel l s' := by
  have hab : ∀ c j, (∃ y ∈ l, About s.files sel y.2 c j) → ∃ y ∈ l, About files sel y.2 c j := fun c j ⟨y, hy, ha⟩ =>
    ⟨y, hy, (h.frame.about sel y.2 c j).1 ha⟩
  refine ⟨h'.good, h.frame.trans (h'.frame.mono hab), fun c j x hx => ?_⟩
  rcases h'.value c j x hx with hh | ⟨y, hy, ha, hx'⟩
  · exact h.value c j x hh
  · exact Or.inr ⟨y, hy, (h.frame.about sel y.2 c j).1 ha, hx'⟩

theorem Kept.mono {files : List File} {sel : Nat → Prop} {l l' : List (Bool × Names)} {s : St} (h : Kept files sel l s)
    (hl : ∀ y ∈ l, y ∈ l') : Kept files sel l' s :=
  ⟨h.good, h.frame.mono fun _ _ ⟨y, hy, ha⟩ => ⟨y, hl y hy, ha⟩, fun c j x hx => by
    rcases h.value c j x hx with hh | ⟨y, hy, ha⟩
    · exact Or.inl hh
    · exact Or.inr ⟨y, hl y hy, ha⟩⟩

theorem Kept.of_files {files : List File} {sel : Nat → Prop} {l : List (Bool × Names)} {s s' : St} (h : Kept files sel l s)
    (G : Good s') (hf : s'.files = s.files) : Kept files sel l s' :=
  ⟨G, by rw [hf]; exact h.frame, by rw [hf]; exact h.value⟩

theorem setStep_kept {E : Env} (hE : E.cacheOn = true) {s : St × W} (G : Good s.1) (i : Info) (descr : PyStr)
    (names : Names) (cpus : Except Exn (List Nat)) (enable : Bool) (sel : Nat → Prop)
    (hsel : ∀ r, cpus = .ok r → ∀ c ∈ r, sel c) :
    Kept s.1.files sel [(enable, names)] (setStep i descr E names cpus enable s).1.1 := by
  obtain ⟨h1, h2, h3⟩ := setStep_keeps hE G i descr names cpus enable sel hsel
  refine ⟨h1, h2.mono fun c j h => ⟨_, List.mem_singleton_self _, h⟩, fun c j x hx => ?_⟩
  by_cases ha : About s.1.files sel names c j
  · rcases h3 c j x hx with h | h
    · exact Or.inl h
    · exact Or.inr ⟨_, List.mem_singleton_self _, ha, h⟩
  · exact Or.inl ((h2 c j _ x fun hh => ha hh.2).1 hx)

theorem setSteps_kept {E : Env} (hE : E.cacheOn = true) (i : Info) (descr : PyStr) (cpus : Except Exn (List Nat))
    (sel : Nat → Prop) (hsel : ∀ r, cpus = .ok r → ∀ c ∈ r, sel c) (l : List (Bool × PyStr)) :
    ∀ s : St × W, Good s.1 →
      Kept s.1.files sel (l.map fun x => (x.1, namesOfStr x.2)) (setSteps i descr E cpus l s).1.1 := by
  induction l with
  | nil => intro s G; exact Kept.refl G _ _
  | cons x l ih =>
    intro s G
    obtain ⟨en, text⟩ := x
    have h1 := (setStep_kept hE G i descr (namesOfStr text) cpus en sel hsel).mono
      (l' := ((en, text) :: l).map fun x => (x.1, namesOfStr x.2)) (fun y hy => by
        rw [List.mem_singleton.1 hy]; exact List.mem_cons_self)
    exact andThen_inv (fun s' : St × W => Kept s.1.files sel (((en, text) :: l).map fun x => (x.1, namesOfStr x.2)) s'.1) h1
      (h1.trans ((ih _ h1.good).mono fun y hy => List.mem_cons_of_mem _ hy))

theorem TellsSet.congr {S : Sys} {descr : PyStr} {T : Nat → Nat → Prop} {files files' : List File} (h : SameBut T files files')
    {sel sel' : Nat → Prop} (hsel : ∀ c, sel' c ↔ sel c) {y : Bool × Names} {lines : List PyStr}
    (ht : TellsSet S descr files' sel' y lines) : TellsSet S descr files sel y lines := by
  obtain ⟨blocks, h1, h2, h3, h4⟩ := ht
  refine ⟨blocks, h1, h2, fun n => (h3 n).trans ?_, fun b hb => ⟨fun on c => ?_, (h4 b hb).2⟩⟩
  · exact and_congr Iff.rfl (exists_congr fun c => and_congr (hsel c) (h.nameOf c n))
  · rw [(h4 b hb).1, hsel]

theorem setSteps_spec {i : Info} {S : Sys} (hS : S.Of i) (descr : PyStr) {E : Env} (hd : E.driver = true)
    (hE : E.cacheOn = true) {r : List Nat} (hne : r ≠ []) (hn : r.Nodup)
    (hon : ∀ c ∈ r, c ∈ S.online) (l : List (Bool × PyStr)) :
    ∀ s : St × W, Good s.1 → (∀ c ∈ r, ∃ f ∈ s.1.files, f.cpu = c) →
    (∀ y ∈ l.map fun x => (x.1, namesOfStr x.2), ∀ ns, y.2 = .list ns → ns ≠ []) →
    ((∃ y ∈ l.map fun x => (x.1, namesOfStr x.2), y.2 = .all) →
      ∀ c ∈ r, ∀ c' ∈ r, ∀ n, NameOf s.1.files c n → NameOf s.1.files c' n) →
    (setSteps i descr E (.ok r) l s).2.2 = .ok () →
    (∀ pre y post, (l.map fun x => (x.1, namesOfStr x.2)) = pre ++ y :: post →
      ∀ c j, About s.1.files (· ∈ r) y.2 c j → (∀ z ∈ post, ¬ About s.1.files (· ∈ r) z.2 c j) →
      Has (setSteps i descr E (.ok r) l s).1.1.files c j "disable".toList (flag y.1)) ∧
    (∃ ls, (setSteps i descr E (.ok r) l s).2.1 = ls.flatten ∧
      List.Forall₂ (TellsSet S descr s.1.files (· ∈ r)) (l.map fun x => (x.1, namesOfStr x.2)) ls) ∧
    ∀ y ∈ l.map fun x => (x.1, namesOfStr x.2), ∀ ns, y.2 = .list ns → ∀ m ∈ ns, ∀ c ∈ r,
      NameOf s.1.files c (upper m) := by
  induction l with
  | nil =>
    intro s G _ _ _ _
    refine ⟨fun pre y post h => ?_, ⟨[], rfl, List.Forall₂.nil⟩, fun y hy => by cases hy⟩
    rw [List.map_nil] at h
    exact absurd h.symm (by simp)
  | cons x l ih =>
    obtain ⟨en, text⟩ := x
    intro s G hst hnm hsame hok
    obtain ⟨k1, k2, k3, k4⟩ := andThen_ok hok
    have K := setStep_kept hE G i descr (namesOfStr text) (.ok r) en (· ∈ r) (fun r' h c hc => by cases h; exact hc)
    obtain ⟨a1, a2, a3⟩ := setStep_spec hS descr hd hE G hne hn hon hst (fun ns h => hnm _ List.mem_cons_self ns h)
      (fun h => hsame ⟨_, List.mem_cons_self, h⟩) en k1
    have hst' : ∀ c ∈ r, ∃ f ∈ (setStep i descr E (namesOfStr text) (.ok r) en s).1.1.files, f.cpu = c := by
      intro c hc
      obtain ⟨f, hf, rfl⟩ := hst c hc
      obtain ⟨n, nm, hnm', _⟩ := name_of_any G (CPUIdle.has_self _ f hf)
      exact ⟨_, (K.frame _ _ _ _ fun hh => name_ne_disable hh.1).2 hnm', rfl⟩
    obtain ⟨b1, ⟨ls, b2, b3⟩, b4⟩ := ih _ K.good hst' (fun y hy => hnm y (List.mem_cons_of_mem _ hy))
      (fun ⟨y, hy, h⟩ c hc c' hc' n hcn => (K.frame.nameOf c' n).2
        (hsame ⟨y, List.mem_cons_of_mem _ hy, h⟩ c hc c' hc' n ((K.frame.nameOf c n).1 hcn))) k2
    have hab := fun (z : Bool × Names) c j => K.frame.about (· ∈ r) z.2 c j
    show _ ∧ _ ∧ _
    unfold setSteps
    rw [k3, k4]
    refine ⟨?_, ⟨(setStep i descr E (namesOfStr text) (.ok r) en s).2.1 :: ls, ?_, ?_⟩, ?_⟩
    · intro pre y post hl c j hy hpost
      cases pre with
      | nil =>
        rw [List.map_cons, List.nil_append] at hl
        injection hl with e1 e2
        subst e1 e2
        have h1 := a1 c j hy
        have K2 := setSteps_kept (W := W) hE i descr (.ok r) (· ∈ r) (fun r' h c hc => by cases h; exact hc) l
          (setStep i descr E (namesOfStr text) (.ok r) en s).1 K.good
        exact (K2.frame c j _ _ fun ⟨_, z, hz, hz'⟩ => hpost z hz ((hab z c j).1 hz')).2 h1
      | cons y' pre =>
        rw [List.map_cons, List.cons_append] at hl
        injection hl with e1 e2
        exact b1 pre y post e2 c j ((hab y c j).2 hy) fun z hz h => hpost z hz ((hab z c j).1 h)
    · rw [List.flatten_cons, b2]
    · refine List.Forall₂.cons a2 (b3.imp fun y ln h => TellsSet.congr K.frame (fun _ => Iff.rfl) h)
    · intro y hy ns hyn m hm c hc
      rcases List.mem_cons.1 hy with rfl | hy
      · exact a3 ns hyn m hm c hc
      · exact (K.frame.nameOf c _).1 (b4 y hy ns hyn m hm c hc)

/-- Steps with names which all the CPUs have succeed, if the kernel stores what is written. -/
theorem setSteps_works {i : Info} {S : Sys} (hS : S.Of i) (descr : PyStr) {E : Env} (hd : E.driver = true)
    (hE : E.cacheOn = true) {r : List Nat} (hne : r ≠ []) (hn : r.Nodup) (hon : ∀ c ∈ r, c ∈ S.online)
    (hk : ∀ c ∈ r, ∀ j x, E.kern c j x = .stored) (l : List (Bool × PyStr)) :
    ∀ s : St × W, Good s.1 → (∀ c ∈ r, ∃ f ∈ s.1.files, f.cpu = c) →
    (∀ y ∈ l.map fun x => (x.1, namesOfStr x.2), ∃ ns, y.2 = .list ns ∧ ∀ m ∈ ns, ∀ c ∈ r, NameOf s.1.files c (upper m)) →
    (setSteps i descr E (.ok r) l s).2.2 = .ok () := by
  induction l with
  | nil => intro s _ _ _; rfl
  | cons x l ih =>
    obtain ⟨en, text⟩ := x
    intro s G hst hnm
    obtain ⟨ns, e, h⟩ := hnm _ List.mem_cons_self
    dsimp only at e
    have K := setStep_kept hE G i descr (namesOfStr text) (.ok r) en (· ∈ r) (fun r' h c hc => by cases h; exact hc)
    have h1 : (setStep i descr E (namesOfStr text) (.ok r) en s).2.2 = .ok () := by
      obtain ⟨l', hl'⟩ := CPUIdle.C44_succeeds hd hE G ns r en (Or.inl hst) (fun c hc m hm => h m hm c hc)
        (fun c hc j n hn' _ => hk c hc j _)
      obtain ⟨t1, t2, t3⟩ := toggle_keeps (E := E) hE G (namesOfStr text) r en
      rw [e] at t1 t2 ⊢
      unfold setStep
      dsimp only
      rcases htg : toggleCStates E (.list ns) r en s.1 with ⟨s', res⟩
      rw [htg] at hl' t1 t2
      dsimp only at hl' t1 t2
      subst hl'
      dsimp only
      have hst' : ∀ c ∈ r, ∃ f ∈ s'.files, f.cpu = c := by
        intro c hc
        obtain ⟨f, hf, rfl⟩ := hst c hc
        obtain ⟨n, nm, hnm', _⟩ := name_of_any G (CPUIdle.has_self _ f hf)
        exact ⟨_, (t2 _ _ _ _ fun hh => name_ne_disable hh.1).2 hnm', rfl⟩
      obtain ⟨s'', blocks, lines, e1, _⟩ := HumanCStates.C94_exact_partial hS descr hd hE t1 hn hon
        (Or.inl hst') (.list ns) (by
          rintro c hc n ⟨m, hm, rfl⟩
          exact (t2.nameOf c _).2 (h m hm c hc)) true false (some "set to".toList)
      unfold printStep
      dsimp only
      rw [e1]
      rfl
    show (Step.andThen _ _ s).2.2 = _
    rw [andThen_of_ok h1]
    refine ih _ K.good ?_ ?_
    · intro c hc
      obtain ⟨f, hf, rfl⟩ := hst c hc
      obtain ⟨n, nm, hnm', _⟩ := name_of_any G (CPUIdle.has_self _ f hf)
      exact ⟨_, (K.frame _ _ _ _ fun hh => name_ne_disable hh.1).2 hnm', rfl⟩
    · intro y hy
      obtain ⟨ns', e', h'⟩ := hnm y (List.mem_cons_of_mem _ hy)
      exact ⟨ns', e', fun m hm c hc => (K.frame.nameOf c _).2 (h' m hm c hc)⟩

/-! ### Mechanisms -/

theorem joinC_clean_dedup {ns : List PyStr} (hne : ns ≠ []) (h : ∀ n ∈ ns, Clean n) :
    Trivial.splitCsvLine (PyStr.joinC ',' ns) ',' true = pyDedup ns := by
  rw [show Trivial.splitCsvLine (PyStr.joinC ',' ns) ',' true = pyDedup (Trivial.splitCsvLine (PyStr.joinC ',' ns) ',' false)
    from rfl, joinC_clean hne h]

theorem mechsOpt_means (known : List PyStr) {text : PyStr} {ms : List PyStr} (h : MeansMechs text ms) :
    ((∀ m ∈ ms, m ∈ known) → mechsOpt known (some text) = .ok (some (pyDedup ms))) ∧
    ((∃ m ∈ ms, m ∉ known) → mechsOpt known (some text) = .error .notSupported) := by
  obtain ⟨h1, h2, rfl⟩ := h
  have hne : (PyStr.joinC ',' ms).isEmpty = false := by
    cases ms with
    | nil => exact absurd rfl h1
    | cons m l =>
      have hm := (h2 m List.mem_cons_self).1
      cases m with
      | nil => exact absurd rfl hm
      | cons a m => cases l <;> rfl
  unfold mechsOpt parseMechs
  dsimp only
  rw [hne, joinC_clean_dedup h1 h2]
  constructor
  · intro h
    rw [if_neg (fun h => nomatch h), if_pos]
    exact List.all_eq_true.2 fun m hm => List.contains_iff_mem.2 (h m (mem_pyDedup.1 hm))
  · rintro ⟨m, hm, hmk⟩
    rw [if_neg (fun h => nomatch h), if_neg]
    intro h
    exact hmk (List.contains_iff_mem.1 (List.all_eq_true.1 h m (mem_pyDedup.2 hm)))

end Verif.CStatesCmd
