import Verif.Lemmas.EmulHost2
import Verif.Props.Emul
import Verif.Props.FileOps

/-! C115: an emulated system is what its dataset describes, and stays in its directory. -/

namespace Verif.EmulHost

open Spec

/-! ### Datasets -/

/-- C115: a text file with a path and a value per line becomes files with those values (and a newline); of several lines
about a file, the last one counts. Other files are as before. -/
theorem C115_inline (ro : Bool) (sep : Char) (hsep : sep ≠ '\n') (T : List (PyStr × PyStr))
    (hT : ∀ x ∈ T, Abs x.1 ∧ sep ∉ x.1 ∧ sep ∉ x.2 ∧ '\n' ∉ x.1 ∧ '\n' ∉ x.2) (s : Sys) :
    ∃ s', initInline [⟨ro, sep, inlineText sep T⟩] s = .ok s' ∧
      ∀ p, Abs p → readFile s' p = match lastOf T p with
        | some v => some (v ++ ['\n'])
        | none => readFile s p := by
  refine ⟨_, ?_, fun p hp => read_fold ro T (fun x hx => (hT x hx).1) s hp⟩
  rw [initInline, lines_inline sep hsep T (fun x hx => (hT x hx).2.2.2),
    inlineLines_eq ro sep hsep T fun x hx => ⟨(hT x hx).2.1, (hT x hx).2.2.1⟩]
  rfl

/-- C115: a line which does not have exactly one separator is an `Error`, and nothing else is. -/
theorem C115_inline_bad (ro : Bool) (sep : Char) (text : PyStr) (s : Sys) :
    initInline [⟨ro, sep, text⟩] s = .error .error ↔ ∃ l ∈ Tpmi.lines text, l.count sep ≠ 1 := by
  have hc : ∀ l : PyStr, (PyStr.splitC sep l).length = l.count sep + 1 := by
    intro l
    induction l with
    | nil => rfl
    | cons c l ih =>
      rw [List.count_cons]
      by_cases h : c = sep
      · subst h
        rw [PyStr.splitC, if_pos rfl, List.length_cons, ih]
        simp
      · rw [PyStr.splitC, if_neg h]
        have : (c == sep) = false := by simpa using h
        rw [this]
        cases hs : PyStr.splitC sep l with
        | nil => rw [hs] at ih; cases ih
        | cons w ws => rw [hs] at ih; simpa using ih
  have hiff := inlineLines_ok ro sep (Tpmi.lines text) s
  rw [initInline]
  cases h : inlineLines ro sep (Tpmi.lines text) s with
  | ok s' =>
    have hall := hiff.mp ⟨s', h⟩
    refine ⟨fun he => (by cases he), fun ⟨l, hl, hne⟩ => ?_⟩
    have := hall l hl
    rw [hc] at this
    omega
  | error e =>
    have he := inlineLines_err ro sep _ s h
    subst he
    refine ⟨fun _ => ?_, fun _ => rfl⟩
    refine Classical.byContradiction fun hn => ?_
    have : ∀ l ∈ Tpmi.lines text, (PyStr.splitC sep l).length = 2 := by
      intro l hl
      rw [hc]
      have : l.count sep = 1 := Classical.byContradiction fun h => hn ⟨l, hl, h⟩
      omega
    obtain ⟨s', hs'⟩ := hiff.mpr this
    rw [h] at hs'
    cases hs'

/-- C115: a text file with registers becomes device nodes whose registers have those values, and other registers are 0. -/
theorem C115_msr (sep1 sep2 : Char) (h1 : Separator sep1) (h2 : Separator sep2) (hne : sep1 ≠ sep2)
    (hs1 : PyStr.isSpace sep1 = false) (hs2 : PyStr.isSpace sep2 = false) (T : List (PyStr × List (Nat × Nat)))
    (hT : ∀ x ∈ T, Abs x.1 ∧ sep1 ∉ x.1 ∧ (∀ c ∈ x.1, PyStr.isSpace c = false) ∧ ∀ y ∈ x.2, y.2 < 2 ^ 64) (s : Sys) :
    ∃ s', initMsrs (some ⟨sep1, sep2, msrText sep1 sep2 T⟩) s = .ok s' ∧
      (∀ p, Abs p → ∀ a, readMsr s' p a = match lastOf T p with
        | some l => some (Emul.initial l a)
        | none => readMsr s p a) ∧
      ∀ p, Abs p → lastOf T p = none → readFile s' p = readFile s p := by
  refine ⟨T.foldl (fun s x => addMsr x s) s, ?_, fun p hp a => ?_, fun p hp hn => ?_⟩
  · rw [initMsrs, lines_msr hs1 hs2 T fun x hx => (hT x hx).2.2.1]
    exact msrLines_eq h1 h2 hne hs1 hs2 T (fun x hx => (hT x hx).2) s
  · rw [readMsr_fold T (fun x hx => (hT x hx).1) s hp]
    cases hl : lastOf T p with
    | none => rfl
    | some l =>
      dsimp only
      rw [Emul.C103_msr_initial l (hT _ (lastOf_mem hl)).2.2.2]
  · exact (keeps_read (keeps_msrFold T (fun x hx => (hT x hx).1) s hp hn)).1

/-- C115: a module with inline files, registers, copied files and commands: what files have is what the dataset has (copied
files before inline files before what was there), registers have their values, commands have their output, and the module
is initialised. -/
theorem C115_dataset (commonData data : PyStr → Option Config) (m : PyStr) (s : Sys) (ro : Bool) (sep sep1 sep2 : Char)
    (T : List (PyStr × PyStr)) (R : List (PyStr × List (Nat × Nat))) (F : List (Bool × PyStr × PyStr))
    (K : List (PyStr × PyStr × PyStr)) (ds ids : List PyStr)
    (hm : m ∉ s.modules) (hcpu : m ≠ "CPUInfo".toList) (hcom : s.common = true)
    (hd : data m = some ⟨ids, K, [⟨ro, sep, inlineText sep T⟩], some ⟨sep1, sep2, msrText sep1 sep2 R⟩, F, ds⟩)
    (hsep : sep ≠ '\n') (h1 : Separator sep1) (h2 : Separator sep2) (hne : sep1 ≠ sep2)
    (hs1 : PyStr.isSpace sep1 = false) (hs2 : PyStr.isSpace sep2 = false)
    (hT : ∀ x ∈ T, Abs x.1 ∧ sep ∉ x.1 ∧ sep ∉ x.2 ∧ '\n' ∉ x.1 ∧ '\n' ∉ x.2)
    (hR : ∀ x ∈ R, Abs x.1 ∧ sep1 ∉ x.1 ∧ (∀ c ∈ x.1, PyStr.isSpace c = false) ∧ ∀ y ∈ x.2, y.2 < 2 ^ 64)
    (hF : ∀ x ∈ F, Abs x.2.1) :
    ∃ s', initModule commonData data m s = .ok s' ∧ m ∈ s'.modules ∧
      (∀ p, Abs p → lastOf R p = none → readFile s' p =
        match lastOf (F.map fun x => x.2) p, lastOf T p with
        | some v, _ => some v
        | none, some v => some (v ++ ['\n'])
        | none, none => readFile s p) ∧
      (∀ p, Abs p → lastOf (F.map fun x => x.2) p = none → ∀ l, lastOf R p = some l →
        ∀ a, readMsr s' p a = some (Emul.initial l a)) ∧
      ∀ W base c out err, lastOf K c = some (out, err) → run W base s' c = .recorded out err 0 := by
  obtain ⟨s1, e1, r1⟩ := C115_inline ro sep hsep T hT (initCmds K (initInlineDirs ids s))
  obtain ⟨s2, e2, r2, r2'⟩ := C115_msr sep1 sep2 h1 h2 hne hs1 hs2 R hR s1
  have hl : initModule commonData data m s =
      .ok { initDirs ds (initFiles F s2) with modules := if m ∈ (initDirs ds (initFiles F s2)).modules
              then (initDirs ds (initFiles F s2)).modules else m :: (initDirs ds (initFiles F s2)).modules } := by
    unfold initModule loadModule loadOne
    rw [if_neg hm, if_pos hcom, if_neg hcpu, hd]
    dsimp only
    rw [e1]
    dsimp only
    rw [e2]
  refine ⟨_, hl, ?_, fun p hp hn => ?_, fun p hp hF' l hl' a => ?_, fun W base c out err hc => ?_⟩
  · dsimp only
    split
    · assumption
    · exact List.mem_cons_self
  · have : readFile (initFiles F s2) p = _ := read_initFiles F hF s2 hp
    rw [r2' p hp hn, r1 p hp] at this
    refine Eq.trans ?_ (this.trans ?_)
    · rfl
    · cases lastOf (F.map fun x => x.2) p <;> cases lastOf T p <;> rfl
  · have hk := keeps_initFiles F (fun f hf he => lastOf_none hF' f.2 (List.mem_map.mpr ⟨f, hf, rfl⟩)
      (relative_inj (hF f hf) hp he)) s2
    refine Eq.trans ?_ (((keeps_read hk).2 a).trans ?_)
    · rfl
    · rw [r2 p hp a, hl']
  · have hcm : (initFiles F s2).cmds.get? c = some (out, err) := by
      rw [(cmds_initFiles F s2).1]
      have k1 : s1.cmds = (initCmds K (initInlineDirs ids s)).cmds := by
        rw [initInline, lines_inline sep hsep T (fun x hx => (hT x hx).2.2.2),
          inlineLines_eq ro sep hsep T fun x hx => ⟨(hT x hx).2.1, (hT x hx).2.2.1⟩] at e1
        have := Except.ok.inj e1
        rw [← this]
        exact (cmds_inlineFold ro T _).1
      have k2 : s2.cmds = s1.cmds := by
        rw [initMsrs, lines_msr hs1 hs2 R fun x hx => (hR x hx).2.2.1,
          msrLines_eq h1 h2 hne hs1 hs2 R (fun x hx => (hR x hx).2) s1] at e2
        have := Except.ok.inj e2
        rw [← this]
        exact (cmds_msrFold R _).1
      rw [k2, k1]
      unfold initCmds
      dsimp only
      rw [cmds_fold, hc]
    unfold run initDirs
    dsimp only
    rw [hcm]

/-- The check of register and value pairs is about another list: a pair without a separator is an exception which nothing
catches. -/
theorem C115_msr_bad_counterexample :
    ¬ ∀ (sep1 sep2 : Char) (text : PyStr) (s : Sys) (e : Exn),
      initMsrs (some ⟨sep1, sep2, text⟩) s = .error e → e = .error := by
  intro h
  exact absurd (h ':' '|' "/dev/cpu/0/msr: 26\n".toList {} .pyValueError (by decide +kernel)) (by decide)

/-! ### Modules -/

/-- C115: initialising a module once more does nothing. -/
theorem C115_again (commonData data : PyStr → Option Config) (m : PyStr) (s : Sys) (h : m ∈ s.modules) :
    initModule commonData data m s = .ok s := by
  unfold initModule
  rw [if_pos h]

/-- C115: initialising a module keeps the files its dataset is not about, with all the changes made to them. -/
theorem C115_kept (commonData data : PyStr → Option Config) (m : PyStr) (s s' : Sys)
    (hr : initModule commonData data m s = .ok s') (p : PyStr)
    (h1 : ∀ c, data m = some c → ¬ Mentions c p)
    (h2 : m = "CPUInfo".toList → ∀ c, data "CPUOnline".toList = some c → ¬ Mentions c p)
    (h3 : s.common = false → ∀ c, commonData "common".toList = some c → ¬ Mentions c p) :
    readFile s' p = readFile s p ∧ (∀ a, readMsr s' p a = readMsr s p a) ∧
      m ∈ s'.modules ∧ ∀ x ∈ s.modules, x ∈ s'.modules := by
  have load : ∀ s s' : Sys, loadModule data m s = .ok s' →
      Keeps p s s' ∧ m ∈ s'.modules ∧ ∀ x ∈ s.modules, x ∈ s'.modules := by
    intro s s' h
    unfold loadModule at h
    by_cases hm : m = "CPUInfo".toList
    · rw [if_pos hm] at h
      cases ho : loadOne data "CPUOnline".toList s with
      | error e => rw [ho] at h; cases h
      | ok s1 =>
        rw [ho] at h
        dsimp only at h
        exact ⟨(keeps_loadOne (h2 hm) ho).trans (keeps_loadOne h1 h), ((modules_loadOne h).1 m).mpr (.inl rfl),
          fun x hx => ((modules_loadOne h).1 x).mpr (.inr (((modules_loadOne ho).1 x).mpr (.inr hx)))⟩
    · rw [if_neg hm] at h
      exact ⟨keeps_loadOne h1 h, ((modules_loadOne h).1 m).mpr (.inl rfl),
        fun x hx => ((modules_loadOne h).1 x).mpr (.inr hx)⟩
  unfold initModule at hr
  by_cases hm : m ∈ s.modules
  · rw [if_pos hm] at hr
    cases hr
    exact ⟨rfl, fun _ => rfl, hm, fun _ h => h⟩
  · rw [if_neg hm] at hr
    by_cases hc : s.common = true
    · rw [if_pos hc] at hr
      obtain ⟨k, a, b⟩ := load s s' hr
      exact ⟨(keeps_read k).1, (keeps_read k).2, a, b⟩
    · rw [if_neg hc] at hr
      have hcf : s.common = false := by simpa using hc
      cases ho : loadModule commonData "common".toList s with
      | error e => rw [ho] at hr; cases hr
      | ok s1 =>
        rw [ho] at hr
        dsimp only at hr
        unfold loadModule at ho
        rw [if_neg (by decide)] at ho
        obtain ⟨k, a, b⟩ := load _ s' hr
        have k0 := keeps_loadOne (h3 hcf) ho
        have k1 : Keeps p s { s1 with common := true } := ⟨k0.1, k0.2⟩
        exact ⟨(keeps_read (k1.trans k)).1, (keeps_read (k1.trans k)).2, a,
          fun x hx => b x (((modules_loadOne ho).1 x).mpr (.inr hx))⟩

/-- The dataset of the example: CPU 1 is online. -/
def exData (m : PyStr) : Option Config :=
  if m = "CPUOnline".toList then
    some { inl := [⟨false, '|', "/sys/devices/system/cpu/cpu1/online|1\n".toList⟩] }
  else if m = "CPUInfo".toList then
    some { inl := [⟨true, ':', "/proc/cpuinfo:model name\n".toList⟩],
           msrs := some ⟨':', '|', "/dev/cpu/0/msr: 26|ff 432|0\n".toList⟩,
           cmds := [("lscpu".toList, "Vendor: x\n".toList, [])],
           files := [(false, "/sys/kernel/a".toList, "a\n".toList)] }
  else none

/-- "common" has nothing. -/
def exCommon (m : PyStr) : Option Config := if m = "common".toList then some {} else none

/-- The file. -/
def exOnline : PyStr := "/sys/devices/system/cpu/cpu1/online".toList

/-- The system where "CPUOnline" is initialised. -/
def exSys : Sys :=
  ⟨[(exOnline, .rw)], [(relative exOnline, .text "1\n".toList)], [], [], ["CPUOnline".toList, "common".toList], true⟩

/-- `s` is the state when the call succeeds. -/
def gives (r : Except Exn Sys) (f : Sys → Bool) : Bool :=
  match r with
  | .ok s => f s
  | .error _ => false

/-- Loading "CPUInfo" loads "CPUOnline" again: a CPU which was brought offline is online once more. The dataset of "CPUInfo"
is not about that file. -/
theorem C115_reset_counterexample :
    initModule exCommon exData "CPUOnline".toList {} = .ok exSys ∧
    readFile (writeFile exSys exOnline "0".toList) exOnline = some "0".toList ∧
    (∀ c, exData "CPUInfo".toList = some c → ¬ Mentions c exOnline) ∧
    ∃ s', initModule exCommon exData "CPUInfo".toList (writeFile exSys exOnline "0".toList) = .ok s' ∧
      readFile s' exOnline = some "1\n".toList := by
  refine ⟨by decide +kernel, by decide +kernel, ?_, ?_⟩
  · intro c hc
    have hi : c.inl = [⟨true, ':', "/proc/cpuinfo:model name\n".toList⟩] := by cases hc; rfl
    have hm : c.msrs = some ⟨':', '|', "/dev/cpu/0/msr: 26|ff 432|0\n".toList⟩ := by cases hc; rfl
    have hf : c.files = [(false, "/sys/kernel/a".toList, "a\n".toList)] := by cases hc; rfl
    rintro (⟨i, hi', line, hl, q, hq, he⟩ | ⟨ms, hms, line, hl, q, hq, he⟩ | ⟨f, hf', he⟩)
    · rw [hi] at hi'
      cases List.mem_singleton.mp hi'
      have e : Tpmi.lines "/proc/cpuinfo:model name\n".toList = ["/proc/cpuinfo:model name\n".toList] := by decide +kernel
      rw [e] at hl
      cases List.mem_singleton.mp hl
      have e : (PyStr.splitC ':' "/proc/cpuinfo:model name\n".toList).head? = some "/proc/cpuinfo".toList := by decide +kernel
      have := Option.some.inj (e.symm.trans hq)
      rw [← this] at he
      exact absurd he (by decide +kernel)
    · rw [hm] at hms
      cases hms
      have e : Tpmi.lines "/dev/cpu/0/msr: 26|ff 432|0\n".toList = ["/dev/cpu/0/msr: 26|ff 432|0\n".toList] := by
        decide +kernel
      rw [e] at hl
      cases List.mem_singleton.mp hl
      have e : (PyStr.splitC ':' "/dev/cpu/0/msr: 26|ff 432|0\n".toList).head? = some "/dev/cpu/0/msr".toList := by
        decide +kernel
      have := Option.some.inj (e.symm.trans hq)
      rw [← this] at he
      exact absurd he (by decide +kernel)
    · rw [hf] at hf'
      cases List.mem_singleton.mp hf'
      exact absurd he (by decide +kernel)
  · have hg : gives (initModule exCommon exData "CPUInfo".toList (writeFile exSys exOnline "0".toList))
        (fun s => decide (readFile s exOnline = some "1\n".toList)) = true := by decide +kernel
    cases h : initModule exCommon exData "CPUInfo".toList (writeFile exSys exOnline "0".toList) with
    | error e => rw [h] at hg; cases hg
    | ok s' =>
      rw [h] at hg
      exact ⟨s', rfl, of_decide_eq_true hg⟩

/-! ### Files -/

/-- C115: a file which is not read-only exists exactly if it can be read or is a device node. -/
theorem C115_exists_partial (s : Sys) (p : PyStr) (h : ∀ d, s.emuls.get? p ≠ some (.ro d)) :
    isFile s p = true ↔ (readFile s p).isSome = true ∨ ∃ b, s.files.get? (relative p) = some (.bytes b) := by
  have hr : readFile s p = match s.files.get? (relative p) with
      | some (.text t) => some t
      | _ => none := by
    unfold readFile
    cases he : s.emuls.get? p with
    | none => rfl
    | some f =>
      cases f with
      | ro d => exact absurd he (h d)
      | rw => rfl
      | msr => rfl
  unfold isFile
  rw [hr]
  cases s.files.get? (relative p) with
  | none => simp
  | some c => cases c <;> simp

/-- Read-only files can be read, but do not exist. -/
theorem C115_exists_counterexample :
    ∃ s', initModule exCommon exData "CPUInfo".toList {} = .ok s' ∧
      readFile s' "/proc/cpuinfo".toList = some "model name\n".toList ∧ isFile s' "/proc/cpuinfo".toList = false := by
  have hg : gives (initModule exCommon exData "CPUInfo".toList {}) (fun s =>
      decide (readFile s "/proc/cpuinfo".toList = some "model name\n".toList) &&
        !isFile s "/proc/cpuinfo".toList) = true := by decide +kernel
  cases h : initModule exCommon exData "CPUInfo".toList {} with
  | error e => rw [h] at hg; cases hg
  | ok s' =>
    rw [h] at hg
    simp only [gives, Bool.and_eq_true, decide_eq_true_eq, Bool.not_eq_true'] at hg
    exact ⟨s', rfl, hg.1, hg.2⟩

variable {σ : Type}

/-- C115: these operations do what they do for a process which has the base directory as its root directory; only the paths
of directory entries are without the slash at the start. -/
theorem C115_paths_partial (K : FileOps.Kernel σ) (base : PyStr) (s : σ) (op : FileOps.Op) (p : PyStr)
    (hop : redirected op = some p) (hb : base.getLast? ≠ some '/') (hp : Abs p ∨ Root p)
    (hl : ∀ es, K.listdir s (inside base p) = .ok es → ∀ e ∈ es, e ≠ []) :
    emulOp K base s op =
      ((FileOps.localOp (reroot K base) s op).1, (FileOps.localOp (reroot K base) s op).2.map noSlash) := by
  have hpt : ∀ f, FileOps.pathTest (reroot K base) s p f = FileOps.pathTest K s (inside base p) f := fun f => rfl
  cases op with
  | pathExists q =>
    cases hop
    simp only [emulOp, FileOps.localOp, emulPath_eq hp, hpt]
    cases FileOps.pathTest K s (inside base p) _ <;> rfl
  | isFile q =>
    cases hop
    simp only [emulOp, FileOps.localOp, emulPath_eq hp, hpt]
    cases FileOps.pathTest K s (inside base p) _ <;> rfl
  | isDir q =>
    cases hop
    simp only [emulOp, FileOps.localOp, emulPath_eq hp, hpt]
    cases FileOps.pathTest K s (inside base p) _ <;> rfl
  | isSocket q =>
    cases hop
    simp only [emulOp, FileOps.localOp, emulPath_eq hp, hpt]
    cases FileOps.pathTest K s (inside base p) _ <;> rfl
  | isExe q =>
    cases hop
    have : FileOps.localIsExe (reroot K base) s p = FileOps.localIsExe K s (inside base p) := rfl
    simp only [emulOp, FileOps.localOp, emulPath_eq hp, this]
    cases FileOps.localIsExe K s (inside base p) <;> rfl
  | mkdir q ok =>
    cases hop
    have : FileOps.localMkdir (reroot K base) s p ok = FileOps.localMkdir K s (inside base p) ok := rfl
    simp only [emulOp, FileOps.localOp, emulPath_eq hp, this]
    cases (FileOps.localMkdir K s (inside base p) ok).2 <;> rfl
  | lsdir q must =>
    cases hop
    have key : (FileOps.localLsdir K s (inside base p) must).map (fun l =>
        FileOps.Val.entries (l.map fun x => (x.1, x.2.1.drop (base.length + 1), x.2.2))) =
        ((FileOps.localLsdir (reroot K base) s p must).map FileOps.Val.entries).map noSlash := by
      have hlist : ∀ r r' : Except FileOps.Err (List (PyStr × PyStr × Nat)),
          r = (match K.listdir s (inside base p) with
            | .error _ => .error .error
            | .ok es =>
              match FileOps.statEntries K s (inside base p) es with
              | none => .error .error
              | some l => .ok (FileOps.sortEntries (inside base p) l)) →
          r' = (match K.listdir s (inside base p) with
            | .error _ => .error .error
            | .ok es =>
              match FileOps.statEntries (reroot K base) s p es with
              | none => .error .error
              | some l => .ok (FileOps.sortEntries p l)) →
          r.map (fun l => FileOps.Val.entries (l.map fun x => (x.1, x.2.1.drop (base.length + 1), x.2.2))) =
            (r'.map FileOps.Val.entries).map noSlash := by
        rintro r r' rfl rfl
        cases hd : K.listdir s (inside base p) with
        | error e => rfl
        | ok es =>
          dsimp only
          rw [statEntries_reroot K s hb hp es (hl es hd)]
          cases hse : FileOps.statEntries K s (inside base p) es with
          | none => rfl
          | some l =>
            dsimp only [Except.map, noSlash]
            congr 2
            unfold FileOps.sortEntries
            rw [List.map_map, List.map_map]
            refine List.map_congr_left fun e he => ?_
            have hne : e.name ≠ [] := by
              refine hl es hd _ ?_
              exact statEntries_names K s (inside base p) es hse e (mem_sort he)
            simp only [Function.comp]
            rw [drop_join hb hp hne]
      unfold FileOps.localLsdir
      dsimp only
      cases must
      · simp only [Bool.false_eq_true, if_false, hpt]
        cases FileOps.pathTest K s (inside base p) _ with
        | error e => rfl
        | ok b =>
          cases b
          · rfl
          · exact hlist _ _ rfl rfl
      · exact hlist _ _ rfl rfl
    simp only [emulOp, FileOps.localOp, emulPath_eq hp, key]
  | mtime q => cases hop
  | mkfifo q ok => cases hop
  | unlink q => cases hop
  | rmtree q => cases hop

/-- A host with a base directory. -/
def exFs : FileOps.Fs :=
  [("/home".toList, ⟨.dir, 16877, 1, 1⟩, []), ("/home/me".toList, ⟨.file, 33188, 1, 1⟩, []),
   ("/tmp/b".toList, ⟨.dir, 16877, 1, 1⟩, []), ("/tmp/b/home".toList, ⟨.dir, 16877, 2, 2⟩, []),
   ("/tmp/b/home/x".toList, ⟨.file, 33188, 3, 3⟩, [])]

/-- Removing a directory of the emulated system removes that of the host; `unlink`, `mkfifo` and `get_mtime` are of the host
as well. -/
theorem C115_paths_counterexample :
    ¬ ∀ (base : PyStr) (s : FileOps.Fs) (op : FileOps.Op) (p : PyStr), Abs p → base.getLast? ≠ some '/' →
      (op = .rmtree p ∨ op = .unlink p ∨ op = .mtime p ∨ op = .mkfifo p false) →
      emulOp FileOps.fsKernel base s op = FileOps.localOp (reroot FileOps.fsKernel base) s op := by
  intro h
  have := h "/tmp/b".toList exFs (.rmtree "/home".toList) "/home".toList
    ⟨"home".toList, rfl, by decide, by decide, by decide⟩ (by decide) (.inl rfl)
  exact absurd this (by decide +kernel)

/-- What the operations do on the example: the file of the host is gone, that of the emulated system is not. -/
theorem C115_host_counterexample :
    (emulOp FileOps.fsKernel "/tmp/b".toList exFs (.rmtree "/home".toList)).1 =
      [("/tmp/b".toList, ⟨.dir, 16877, 1, 1⟩, []), ("/tmp/b/home".toList, ⟨.dir, 16877, 2, 2⟩, []),
       ("/tmp/b/home/x".toList, ⟨.file, 33188, 3, 3⟩, [])] ∧
    (emulOp FileOps.fsKernel "/tmp/b".toList exFs (.unlink "/home/me".toList)).1 = exFs.filter
      (fun x => decide (x.1 ≠ "/home/me".toList)) ∧
    (emulOp FileOps.fsKernel "/tmp/b".toList exFs (.mtime "/home/me".toList)).2 = .ok (.time 1) ∧
    (emulOp FileOps.fsKernel "/tmp/b".toList exFs (.pathExists "/home/me".toList)).2 = .ok (.bool false) := by
  decide +kernel

example : emulOp FileOps.fsKernel "/tmp/b".toList exFs (.lsdir "/home".toList true) =
    (exFs, .ok (.entries [("x".toList, "home/x".toList, 33188)])) := by decide +kernel

/-! ### Commands -/

/-- C115: commands with recorded output are not run. -/
theorem C115_recorded (W : Where) (base : PyStr) (s : Sys) (cmd out err : PyStr) (h : s.cmds.get? cmd = some (out, err)) :
    run W base s cmd = .recorded out err 0 := by
  unfold run
  rw [h]

/-- C115: commands which are run name the base directory. -/
theorem C115_run_inside (W : Where) (base : PyStr) (s : Sys) (cmd c : PyStr) (h : run W base s cmd = .real c) :
    base <:+: c := by
  unfold run at h
  split at h
  · cases h
  · cases hr : rebaseCmd W base cmd with
    | none => rw [hr] at h; cases h
    | some r =>
      rw [hr] at h
      cases r with
      | nil => cases h
      | cons d t =>
        cases h
        unfold rebaseCmd at hr
        split at hr
        · rename_i hs
          cases hr
          exact (FileOps.hasSub_iff _ _).mp hs
        · split at hr
          · cases hr
          · cases hr
          · rename_i q t' hq
            have hq' := Option.some.inj hr
            obtain ⟨w, hw, hi⟩ := extractPath_infix W _ hq
            have := replace_has (new := base ++ '/' :: relative (q :: t')) (List.cons_ne_nil q t')
              (hi.trans ((words_infix cmd).1 w hw))
            rw [hq'] at this
            exact (List.prefix_append _ _).isInfix.trans this

/-- C115: commands which are not recorded, and where no word names a file of the emulated system, are not run. -/
theorem C115_run_unknown (W : Where) (base : PyStr) (s : Sys) (cmd : PyStr) (h : s.cmds.get? cmd = none)
    (hb : ¬ base <:+: cmd) (hw : ∀ w ∈ FreqInfo.splitWs cmd, ¬ Names W w) : run W base s cmd = .notSupported := by
  unfold run rebaseCmd
  rw [h, if_neg (fun h => hb ((FileOps.hasSub_iff _ _).mp h)), extractPath_none W _ hw]

/-- C115: when the first word which names something is a path, maybe in quotes, of a file of the emulated system, the command
is run with the path of that file in the base directory in place of it. With the slash before it or without, that is the
same path. -/
theorem C115_run_path_partial (W : Where) (base : PyStr) (s : Sys) (q w a b : PyStr) (pre post : List PyStr)
    (h : s.cmds.get? (a ++ '/' :: (q ++ b)) = none) (hb : ¬ base <:+: a ++ '/' :: (q ++ b))
    (hs : FreqInfo.splitWs (a ++ '/' :: (q ++ b)) = pre ++ w :: post) (hpre : ∀ x ∈ pre, ¬ Names W x)
    (hw : Quoted q w) (hq : q ≠ []) (hq1 : ∀ c ∈ ['/', '\'', '"'], q.head? ≠ some c)
    (hq2 : ∀ c ∈ ['/', '\'', '"'], q.getLast? ≠ some c)
    (he : W.emul q = true) (hquo : w ≠ '/' :: q → W.emul w = false)
    (hone : ∀ a' b', a ++ '/' :: (q ++ b) = a' ++ (q ++ b') → a' = a ++ ['/']) :
    run W base s (a ++ '/' :: (q ++ b)) = .real (a ++ (base ++ '/' :: (q ++ b))) ∨
    run W base s (a ++ '/' :: (q ++ b)) = .real (a ++ '/' :: (base ++ '/' :: (q ++ b))) := by
  have hemul : there W q = true := by
    unfold there
    rw [if_neg (hq1 '/' (by decide)), he]
  have hrel : relative q = q := by
    unfold relative PyStr.lstripBy
    refine PyStr.dropWhile_eq_self fun c hc => ?_
    have := hq1 '/' (by decide)
    rw [hc] at this
    simpa using fun e : c = '/' => this (by rw [e])
  have notin : ∀ cs : List Char, (∀ c ∈ cs, c ∈ ['/', '\'', '"']) →
      (∀ c, q.head? = some c → c ∉ cs) ∧ ∀ c, q.getLast? = some c → c ∉ cs := by
    intro cs hcs
    exact ⟨fun c hc hm => hq1 c (hcs c hm) hc, fun c hc hm => hq2 c (hcs c hm) hc⟩
  have n1 := notin ['\'', '/'] (by decide)
  have n2 := notin ['"', '/'] (by decide)
  -- The path which is found.
  have hpath : extractPath W (pre ++ w :: post) = some ('/' :: q) ∨ extractPath W (pre ++ w :: post) = some q := by
    rw [extractPath_append W pre _ hpre, extractPath]
    rcases hw with rfl | rfl | rfl
    · by_cases ht : there W ('/' :: q) = true
      · rw [if_pos ht]; exact .inl rfl
      · have e : stripChars ['\'', '/'] ('/' :: q) = q := by
          have := strip_mid (cs := ['\'', '/']) (x := ['/']) (y := []) (by decide) (by decide) hq n1.1 n1.2
          rwa [List.append_nil] at this
        rw [if_neg ht, e, if_pos hemul]; exact .inr rfl
    · have hne : ('\'' :: '/' :: (q ++ ['\'']) : PyStr) ≠ '/' :: q := fun h => absurd (List.cons.inj h).1 (by decide)
      have ht : there W ('\'' :: '/' :: (q ++ ['\''])) = false := hquo hne
      have e : stripChars ['\'', '/'] ('\'' :: '/' :: (q ++ ['\''])) = q :=
        strip_mid (cs := ['\'', '/']) (x := ['\'', '/']) (y := ['\'']) (by decide) (by decide) hq n1.1 n1.2
      rw [if_neg (by rw [ht]; decide), e, if_pos hemul]; exact .inr rfl
    · have hne : ('"' :: '/' :: (q ++ ['"']) : PyStr) ≠ '/' :: q := fun h => absurd (List.cons.inj h).1 (by decide)
      have ht : there W ('"' :: '/' :: (q ++ ['"'])) = false := hquo hne
      have e1 : stripChars ['\'', '/'] ('"' :: '/' :: (q ++ ['"'])) = '"' :: '/' :: (q ++ ['"']) := by
        have := strip_mid (cs := ['\'', '/']) (x := []) (y := []) (q := '"' :: '/' :: (q ++ ['"']))
          (by decide) (by decide) (List.cons_ne_nil _ _) (fun c hc => by cases hc; decide) (fun c hc => by
            have : ('"' :: '/' :: (q ++ ['"']) : PyStr) = ('"' :: '/' :: q) ++ ['"'] := rfl
            rw [this, List.getLast?_concat] at hc
            cases hc
            decide)
        rwa [List.nil_append, List.append_nil] at this
      have e2 : stripChars ['"', '/'] ('"' :: '/' :: (q ++ ['"'])) = q :=
        strip_mid (cs := ['"', '/']) (x := ['"', '/']) (y := ['"']) (by decide) (by decide) hq n2.1 n2.2
      rw [if_neg (by rw [ht]; decide), e1, if_neg (by rw [ht]; decide), e2, if_pos hemul]; exact .inr rfl
  have hsub : FileOps.hasSub base (a ++ '/' :: (q ++ b)) ≠ true := fun h => hb ((FileOps.hasSub_iff _ _).mp h)
  have out : ∀ x : PyStr, x ≠ [] → (match some x with
      | none => Run.notSupported
      | some [] => .notSupported
      | some (c :: t) => .real (c :: t)) = .real x := by
    intro x hx
    cases x with
    | nil => exact absurd rfl hx
    | cons c t => rfl
  rcases hpath with hp | hp
  · left
    unfold run rebaseCmd
    rw [h, if_neg hsub, hs, hp]
    dsimp only
    have er : relative ('/' :: q) = q := relative_abs (hq1 '/' (by decide))
    have e : a ++ '/' :: (q ++ b) = a ++ (('/' :: q) ++ b) := rfl
    rw [er, e, replace_one (List.cons_ne_nil _ _), List.append_assoc]
    · exact out _ (by simp)
    · intro a' b' hab
      have := hone (a' ++ ['/']) b' (by
        rw [← List.cons_append, hab]
        simp)
      exact (List.append_inj' this rfl).1
  · right
    cases q with
    | nil => exact absurd rfl hq
    | cons d q =>
      unfold run rebaseCmd
      rw [h, if_neg hsub, hs, hp]
      dsimp only
      have e : a ++ '/' :: ((d :: q) ++ b) = (a ++ ['/']) ++ ((d :: q) ++ b) := by simp
      have e' : a ++ '/' :: (base ++ '/' :: ((d :: q) ++ b)) = (a ++ ['/']) ++ ((base ++ '/' :: (d :: q)) ++ b) := by simp
      rw [hrel, e, e', replace_one (List.cons_ne_nil _ _)]
      · exact out _ (by simp)
      · intro a' b' hab
        exact hone a' b' (by rw [e]; exact hab)

/-- Only the first path is that of the emulated system: here the second file is read from the host which runs the
emulation. -/
theorem C115_two_paths_counterexample :
    run ⟨fun _ => false, fun w => decide (w = "sys/a".toList ∨ w = "sys/b".toList)⟩ "/tmp/b".toList {}
      "cat /sys/a /sys/b".toList = .real "cat //tmp/b/sys/a /sys/b".toList := by decide +kernel

/-- A path which is not of the emulated system but exists on the host which runs the emulation: the command is run. -/
theorem C115_real_path_counterexample :
    run ⟨fun w => decide (w = "/usr/bin/lscpu".toList), fun _ => false⟩ "/tmp/b".toList {} "/usr/bin/lscpu -v".toList =
      .real "/tmp/b/usr/bin/lscpu -v".toList := by decide +kernel

/-- The search for a path ends at an empty string in quotes, although there is a path after it. -/
theorem C115_quotes_counterexample :
    run ⟨fun _ => false, fun w => decide (w = [] ∨ w = "sys/a".toList)⟩ "/tmp/b".toList {}
      "grep '' /sys/a".toList = .notSupported := by decide +kernel

/-! ### Examples -/

example : initModule exCommon exData "CPUInfo".toList {} =
    .ok ⟨[(exOnline, .rw), ("/proc/cpuinfo".toList, .ro "model name\n".toList), ("/dev/cpu/0/msr".toList, .msr),
        ("/sys/kernel/a".toList, .rw)],
      [(relative exOnline, .text "1\n".toList),
       ("dev/cpu/0/msr".toList, .bytes (Emul.populate (Emul.msrData [(26, 255), (432, 0)]))),
       ("sys/kernel/a".toList, .text "a\n".toList)], [],
      [("lscpu".toList, "Vendor: x\n".toList, [])], ["CPUInfo".toList, "CPUOnline".toList, "common".toList], true⟩ := by
  decide +kernel

example : Abs "/sys/a b".toList := ⟨"sys/a b".toList, rfl, by decide, by decide, by decide⟩

example : Separator ':' ∧ Separator '|' ∧ PyStr.isSpace ':' = false ∧ PyStr.isSpace '|' = false := by
  unfold Separator; decide

example : inlineText '|' [("/sys/a".toList, "1".toList), ("/sys/b".toList, "x y".toList)] = "/sys/a|1\n/sys/b|x y\n".toList := by
  decide +kernel

example : msrText ':' '|' [("/dev/cpu/0/msr".toList, [(26, 255), (432, 0)])] = "/dev/cpu/0/msr:26|ff 432|0 \n".toList := by
  decide +kernel

/-- A dataset which meets the conditions of `C115_dataset`. -/
example : ∃ s', initModule exCommon (fun _ => some ⟨[], [("lscpu".toList, "x\n".toList, [])],
      [⟨false, '|', inlineText '|' [("/sys/a".toList, "1".toList)]⟩],
      some ⟨':', '|', msrText ':' '|' [("/dev/cpu/0/msr".toList, [(26, 255)])]⟩,
      [(true, "/sys/b".toList, "b\n".toList)], []⟩) "PStates".toList exSys = .ok s' ∧
    readFile s' "/sys/a".toList = some "1\n".toList ∧ readFile s' "/sys/b".toList = some "b\n".toList ∧
    readMsr s' "/dev/cpu/0/msr".toList 26 = some 255 := by
  obtain ⟨s', h1, _, h3, h4, _⟩ := C115_dataset exCommon (fun _ => some ⟨[], [("lscpu".toList, "x\n".toList, [])],
      [⟨false, '|', inlineText '|' [("/sys/a".toList, "1".toList)]⟩],
      some ⟨':', '|', msrText ':' '|' [("/dev/cpu/0/msr".toList, [(26, 255)])]⟩,
      [(true, "/sys/b".toList, "b\n".toList)], []⟩) "PStates".toList exSys false '|' ':' '|'
    [("/sys/a".toList, "1".toList)] [("/dev/cpu/0/msr".toList, [(26, 255)])] [(true, "/sys/b".toList, "b\n".toList)]
    [("lscpu".toList, "x\n".toList, [])] [] [] (by decide +kernel) (by decide) rfl rfl (by decide) (by unfold Separator; decide)
    (by unfold Separator; decide) (by decide) (by decide) (by decide)
    (fun x hx => by
      cases List.mem_singleton.mp hx
      exact ⟨⟨"sys/a".toList, rfl, by decide, by decide, by decide⟩, by decide, by decide, by decide, by decide⟩)
    (fun x hx => by
      cases List.mem_singleton.mp hx
      refine ⟨⟨"dev/cpu/0/msr".toList, rfl, by decide, by decide, by decide⟩, by decide, by decide, ?_⟩
      intro y hy
      cases List.mem_singleton.mp hy
      decide)
    (fun x hx => by
      cases List.mem_singleton.mp hx
      exact ⟨"sys/b".toList, rfl, by decide, by decide, by decide⟩)
  refine ⟨s', h1, ?_, ?_, ?_⟩
  · rw [h3 "/sys/a".toList ⟨"sys/a".toList, rfl, by decide, by decide, by decide⟩ (by decide +kernel)]
    decide +kernel
  · rw [h3 "/sys/b".toList ⟨"sys/b".toList, rfl, by decide, by decide, by decide⟩ (by decide +kernel)]
    decide +kernel
  · exact h4 _ ⟨"dev/cpu/0/msr".toList, rfl, by decide, by decide, by decide⟩ (by decide +kernel) [(26, 255)]
      (by decide +kernel) 26

/-- A command which meets the conditions of `C115_run_path_partial`. -/
example : run ⟨fun _ => false, fun w => decide (w = "sys/a".toList)⟩ "/tmp/b".toList {} "grep -r x '/sys/a' | sort".toList =
      .real "grep -r x '//tmp/b/sys/a' | sort".toList ∧
    FreqInfo.splitWs "grep -r x '/sys/a' | sort".toList =
      ["grep".toList, "-r".toList, "x".toList] ++ "'/sys/a'".toList :: ["|".toList, "sort".toList] ∧
    Quoted "sys/a".toList "'/sys/a'".toList := by
  exact ⟨by decide +kernel, by decide +kernel, .inr (.inl rfl)⟩

end Verif.EmulHost
