import Verif.Lemmas.ProjectFiles

/-!
C111: the files of the project are taken from the first documented place which has them, and '-D' runs a command for
the right datasets with the right data.
-/

namespace Verif.ProjectFiles

/-- C111: data are searched in exactly the documented places, in the documented order, and it is an error that they
are not found if and only if they are in none of them. -/
theorem C111_search (e : Env) (subpath datadir : PyStr) (envars : List PyStr) :
    (searchProjectData e subpath datadir envars).1 =
      (((places e subpath envars).filterMap id).map (· ++ '/' :: datadir)).filter e.present ∧
    ((searchProjectData e subpath datadir envars).2 = some .notFound ↔
      ∀ p, some p ∈ places e subpath envars → e.present (p ++ '/' :: datadir) = false) ∧
    ((searchProjectData e subpath datadir envars).2 = none ↔
      ∃ p, some p ∈ places e subpath envars ∧ e.present (p ++ '/' :: datadir) = true) := by
  have h1 : (searchProjectData e subpath datadir envars).1 =
      (((places e subpath envars).filterMap id).map (· ++ '/' :: datadir)).filter e.present := by
    unfold searchProjectData
    dsimp only
    rw [searchLoop_eq, searchPaths_eq]
    rfl
  have h2 : (searchProjectData e subpath datadir envars).2 =
      if (searchProjectData e subpath datadir envars).1.length > 0 then none else some .notFound := rfl
  have hm : ∀ p, p ∈ (places e subpath envars).filterMap id ↔ some p ∈ places e subpath envars := by
    intro p
    rw [List.mem_filterMap]
    exact ⟨fun ⟨a, ha, hb⟩ => by cases hb; exact ha, fun h => ⟨some p, h, rfl⟩⟩
  have h3 : (∃ p, some p ∈ places e subpath envars ∧ e.present (p ++ '/' :: datadir) = true) ↔
      (searchProjectData e subpath datadir envars).1.length > 0 := by
    rw [gt_iff_lt, List.length_pos_iff_exists_mem, h1]
    constructor
    · rintro ⟨p, hp, hx⟩
      exact ⟨_, List.mem_filter.2 ⟨List.mem_map.2 ⟨p, (hm p).2 hp, rfl⟩, hx⟩⟩
    · rintro ⟨q, hq⟩
      obtain ⟨hq, hx⟩ := List.mem_filter.1 hq
      obtain ⟨p, hp, rfl⟩ := List.mem_map.1 hq
      exact ⟨p, (hm p).1 hp, hx⟩
  refine ⟨h1, ?_, ?_⟩
  · rw [h2]
    by_cases hl : (searchProjectData e subpath datadir envars).1.length > 0
    · rw [if_pos hl]
      refine ⟨(nomatch ·), fun h => ?_⟩
      obtain ⟨p, hp, hx⟩ := h3.2 hl
      rw [h p hp] at hx
      cases hx
    · rw [if_neg hl]
      refine ⟨fun _ p hp => ?_, fun _ => rfl⟩
      cases hx : e.present (p ++ '/' :: datadir) with
      | false => rfl
      | true => exact absurd (h3.1 ⟨p, hp, hx⟩) hl
  · rw [h2, h3]
    by_cases hl : (searchProjectData e subpath datadir envars).1.length > 0
    · rw [if_pos hl]
      exact ⟨fun _ => hl, fun _ => rfl⟩
    · rw [if_neg hl]
      exact ⟨(nomatch ·), fun h => absurd h hl⟩

/-- C111: the data of the project are the ones of the first documented place which has them. -/
theorem C111_find (e : Env) (prj datadir : PyStr) :
    (∀ p, findProjectData e prj datadir = .ok p ↔
      (((places e prj [prj.map envC ++ "_DATA_PATH".toList]).filterMap id).map (· ++ '/' :: datadir)).find? e.present =
        some p) ∧
    (findProjectData e prj datadir = .error .notFound ↔
      ∀ p, some p ∈ places e prj [prj.map envC ++ "_DATA_PATH".toList] → e.present (p ++ '/' :: datadir) = false) ∧
    dataEnvar "pepc".toList = "PEPC_DATA_PATH".toList := by
  obtain ⟨h1, h2, _⟩ := C111_search e prj datadir [dataEnvar prj]
  have hs : (searchProjectData e prj datadir [dataEnvar prj]).2 =
      if (searchProjectData e prj datadir [dataEnvar prj]).1.length > 0 then none else some .notFound := rfl
  refine ⟨?_, ?_, by decide +kernel⟩
  · intro p
    rw [findProjectData_eq, h1]
    rw [← List.head?_filter]
    show _ ↔ List.head? (List.filter e.present (((places e prj [dataEnvar prj]).filterMap id).map _)) = some p
    cases List.filter e.present (((places e prj [dataEnvar prj]).filterMap id).map (· ++ '/' :: datadir)) with
    | nil => exact ⟨(nomatch ·), (nomatch ·)⟩
    | cons q l =>
      rw [List.head?_cons]
      dsimp only
      rw [Except.ok.injEq, Option.some.injEq]
  · rw [findProjectData_eq]
    refine Iff.trans ?_ h2
    rw [hs]
    cases (searchProjectData e prj datadir [dataEnvar prj]).1 with
    | nil => exact ⟨fun _ => rfl, fun _ => rfl⟩
    | cons q l => exact ⟨(nomatch ·), (nomatch ·)⟩

/-- C111 (partial): a helper program is the first executable in the documented places, if the places which are not
"$PATH" are directories or do not exist. Missing: the variable of the project on the local host, see
`C111_helper_counterexample`. -/
theorem C111_helper_partial (e : Env) (prj helper : PyStr)
    (hd : ∀ p q, some p ∈ (helperDirs e (value e.envar (prj.map envC ++ "_HELPERSPATH".toList))).1 ++
      (helperDirs e (value e.envar (prj.map envC ++ "_HELPERSPATH".toList))).2 →
      e.isDir p = false → e.isExe p = false ∧ e.isExe (p ++ '/' :: q) = false)
    (hw : ∀ p, value e.which helper = some p → e.isDir p = false) :
    findProjectHelper e prj helper =
      match helperSpec e helper (value e.envar (prj.map envC ++ "_HELPERSPATH".toList)) with
      | some p => .ok p
      | none => .error .notFound := by
  unfold findProjectHelper
  rw [helperLoop_eq]
  suffices h : ((helperPaths e prj helper).map fun p => if e.isDir p then join p helper else p).find? e.isExe =
      helperSpec e helper (value e.envar (prj.map envC ++ "_HELPERSPATH".toList)) by
    rw [h]
    cases helperSpec e helper (value e.envar (prj.map envC ++ "_HELPERSPATH".toList)) <;> rfl
  generalize hv : value e.envar (prj.map envC ++ "_HELPERSPATH".toList) = var at hd ⊢
  have hp : helperPaths e prj helper =
      (helperDirs e var).1.filterMap id ++ (value e.which helper).toList ++ (helperDirs e var).2.filterMap id := by
    unfold helperPaths helperDirs
    rw [truthy_eq, truthy_eq, truthy_eq, truthy_eq]
    rw [show helpersEnvar prj = prj.map envC ++ "_HELPERSPATH".toList from rfl, hv]
    have j : ∀ a b : PyStr, join a b = a ++ ('/' :: b) := fun _ _ => rfl
    cases e.isRemote <;> cases var <;> cases value e.which helper <;> cases value e.envar "HOME".toList <;>
      cases value e.envar "VIRTUAL_ENV".toList <;> rfl
  have key : ∀ l : List (Option PyStr), (∀ p, some p ∈ l → ∀ q, e.isDir p = false → e.isExe p = false ∧
      e.isExe (p ++ '/' :: q) = false) →
      ∀ r r' : List PyStr, r.find? e.isExe = r'.find? e.isExe →
      ((l.filterMap id).map (fun p => if e.isDir p then join p helper else p) ++ r).find? e.isExe =
      (l.filterMap (fun d => d.map (· ++ '/' :: helper)) ++ r').find? e.isExe := by
    intro l hl r r' hr
    induction l with
    | nil => exact hr
    | cons a l ih =>
      have ih := ih fun p hp => hl p (List.mem_cons_of_mem _ hp)
      cases a with
      | none => exact ih
      | some p =>
        rw [List.filterMap_cons_some (f := id) (b := p) rfl,
          List.filterMap_cons_some (f := fun d : Option PyStr => d.map (· ++ '/' :: helper)) (b := p ++ '/' :: helper) rfl,
          List.map_cons,
          List.cons_append, List.cons_append, List.find?_cons, List.find?_cons, ih]
        cases hdir : e.isDir p with
        | true => rfl
        | false =>
          obtain ⟨h1, h2⟩ := hl p List.mem_cons_self helper hdir
          rw [if_neg Bool.false_ne_true, h1, h2]
  rw [hp]
  unfold helperSpec
  dsimp only
  rw [List.map_append, List.map_append, List.append_assoc, List.append_assoc]
  refine key _ (fun p hp q => hd p q (List.mem_append_left _ hp)) _ _ ?_
  have k2 := key (helperDirs e var).2 (fun p hp q => hd p q (List.mem_append_right _ hp)) [] [] rfl
  rw [List.append_nil, List.append_nil] at k2
  cases hwh : value e.which helper with
  | none => exact k2
  | some w =>
    show List.find? e.isExe ((if e.isDir w then join w helper else w) ::
      ((helperDirs e var).2.filterMap id).map fun p => if e.isDir p then join p helper else p) =
      List.find? e.isExe (w :: (helperDirs e var).2.filterMap fun d => d.map (· ++ '/' :: helper))
    rw [hw w hwh, if_neg Bool.false_ne_true, List.find?_cons, List.find?_cons, k2]

/-- C111: '-D all' runs the command for each dataset in each of the directories, except for "common", in this order.
The command is run for all of them if their names are different. Otherwise it is an error, and the command is run
for the ones before the first repeated name. -/
theorem C111_all (e : Env) (localIsDir : PyStr → Bool) (listdir : PyStr → List PyStr)
    (run : (common path : PyStr) → Option Exn) (hd : localIsDir "all".toList = false)
    {common : PyStr} (hc : findProjectData e "pepc".toList "tests/data/common".toList = .ok common)
    (hr : ∀ p, run common p = none) :
    let bases := (searchProjectData e "pepc".toList "tests/data".toList []).1
    let all := bases.flatMap fun b => (names listdir b).map fun n => (b, n)
    ((all.map Prod.snd).Nodup → runDatasets e localIsDir listdir run "all".toList =
      (all.map fun p => p.1 ++ '/' :: p.2, (searchProjectData e "pepc".toList "tests/data".toList []).2)) ∧
    (¬(all.map Prod.snd).Nodup → ∃ pre x post, all = pre ++ x :: post ∧ x.2 ∈ pre.map Prod.snd ∧
      runDatasets e localIsDir listdir run "all".toList = (pre.map fun p => p.1 ++ '/' :: p.2, some .error)) := by
  intro bases all
  have hn : ∀ (l : List PyStr) (r : Option Exn),
      baseLoop listdir (searchProjectData e "pepc".toList "tests/data".toList []).2 bases [] = (l, r) →
      runDatasets e localIsDir listdir run "all".toList = (l, r) := by
    intro l r h
    unfold runDatasets
    rw [hc]
    dsimp only
    unfold nextDataset
    rw [hd, if_neg Bool.false_ne_true, if_pos rfl]
    have hb : searchProjectData e "pepc".toList "tests/data".toList [] =
      (bases, (searchProjectData e "pepc".toList "tests/data".toList []).2) := rfl
    rw [hb]
    dsimp only
    rw [h]
    exact runLoop_ok _ _ _ fun p _ => hr p
  cases hb : baseLoop listdir (searchProjectData e "pepc".toList "tests/data".toList []).2 bases [] with
  | mk l r =>
    have hrun := hn l r hb
    rcases baseLoop_spec listdir _ bases [] l r hb with ⟨q1, q2, _, q4⟩ | ⟨q1, pre, x, post, q2, q3, q4⟩
    · refine ⟨fun _ => ?_, fun h => absurd q2 h⟩
      rw [hrun, q1, q4]
      rfl
    · have hx : x.2 ∈ pre.map Prod.snd := q4.resolve_left fun h => h rfl
      refine ⟨fun h => ?_, fun _ => ⟨pre, x, post, q2, hx, ?_⟩⟩
      · exfalso
        have h : ((pairs listdir bases).map Prod.snd).Nodup := h
        rw [q2, List.map_append, List.map_cons, List.nodup_append] at h
        exact h.2.2 x.2 hx x.2 List.mem_cons_self rfl
      · rw [hrun, q1, q3]
        rfl

/-- C111: '-D' with the path of a directory runs the command for this directory, and with a name it runs the command
for the dataset with this name. A failed command ends the program. -/
theorem C111_one (e : Env) (localIsDir : PyStr → Bool) (listdir : PyStr → List PyStr)
    (run : (common path : PyStr) → Option Exn) {dataset common : PyStr}
    (hc : findProjectData e "pepc".toList "tests/data/common".toList = .ok common) :
    (localIsDir dataset = true → runDatasets e localIsDir listdir run dataset = ([dataset], run common dataset)) ∧
    (localIsDir dataset = false → dataset ≠ "all".toList →
      (∀ p, findProjectData e "pepc".toList ("tests/data/".toList ++ dataset) = .ok p →
        runDatasets e localIsDir listdir run dataset = ([p], run common p)) ∧
      ∀ x, findProjectData e "pepc".toList ("tests/data/".toList ++ dataset) = .error x →
        runDatasets e localIsDir listdir run dataset = ([], some x)) := by
  have one : ∀ p, runLoop (run common) none [p] = ([p], run common p) := by
    intro p
    unfold runLoop
    cases run common p with
    | some x => rfl
    | none => rfl
  refine ⟨?_, ?_⟩
  · intro h
    unfold runDatasets
    rw [hc]
    dsimp only
    unfold nextDataset
    rw [if_pos h]
    exact one _
  · intro h hn
    refine ⟨?_, ?_⟩
    · intro p hp
      unfold runDatasets
      rw [hc]
      dsimp only
      unfold nextDataset
      rw [h, if_neg Bool.false_ne_true, if_neg hn, hp]
      exact one p
    · intro x hx
      unfold runDatasets
      rw [hc]
      dsimp only
      unfold nextDataset
      rw [h, if_neg Bool.false_ne_true, if_neg hn, hx]
      rfl

/-- C111: a failed command is the end of '-D all', too: it is not run for the other datasets. -/
theorem C111_stop (e : Env) (localIsDir : PyStr → Bool) (listdir : PyStr → List PyStr)
    (run : (common path : PyStr) → Option Exn) {dataset common p : PyStr} {pre post : List PyStr} {err : Option Exn}
    {x : Exn} (hc : findProjectData e "pepc".toList "tests/data/common".toList = .ok common)
    (hn : nextDataset e localIsDir listdir dataset = (pre ++ p :: post, err))
    (hp : ∀ q ∈ pre, run common q = none) (hx : run common p = some x) :
    runDatasets e localIsDir listdir run dataset = (pre ++ [p], some x) := by
  unfold runDatasets
  rw [hc]
  dsimp only
  rw [hn]
  exact runLoop_fail _ _ hp hx

/-- C111: for each command which can be used with '-D', the data which it reads are the ones which are loaded. -/
theorem C111_modules : ∀ c ∈ functions, ∀ sub ∈ c.2,
    modulesOf ("_".toList ++ c.1 ++ "_".toList ++ sub ++ "_command".toList) = .ok
      (if c.1 = "aspm".toList then ["ASPM".toList, "Systemctl".toList]
      else if c.1 = "cstates".toList then ["CPUInfo".toList, "CStates".toList, "Systemctl".toList]
      else if c.1 = "pstates".toList then ["CPUInfo".toList, "PStates".toList, "Systemctl".toList]
      else if c.1 = "power".toList then ["CPUInfo".toList, "Power".toList]
      else if c.1 = "topology".toList then ["CPUInfo".toList]
      else if c.1 = "cpu_hotplug".toList then ["CPUInfo".toList, "CPUOnline".toList, "Systemctl".toList]
      else ["TPMI".toList]) := by decide +kernel

/-- C111 is false for 'pepc pmqos': none of its commands can be used with '-D'. -/
theorem C111_pmqos_counterexample : ∀ sub ∈ ["info".toList, "config".toList, "save".toList, "restore".toList],
    modulesOf ("_pmqos_".toList ++ sub ++ "_command".toList) = .error .error := by decide +kernel

/-! ### Examples and counterexamples -/

/-- A local host: files and directories are given, the program is in /opt/pepc. -/
def toy (env : Dict PyStr PyStr) (files dirs : List PyStr) : Env where
  envar v := env.get? v
  present p := decide (p ∈ files)
  isDir p := decide (p ∈ dirs)
  isExe p := decide (p ∈ files)
  which _ := none
  isRemote := false
  prog := "/opt/pepc".toList
  localEnvar v := env.get? v

/-- C111 is false for helper programs on a remote host, and the variable of the project which is set on the local
host: it is read, but the directory is not used. -/
theorem C111_helper_counterexample :
    let e := { toy [] ["/h/pepc-helper".toList] ["/h".toList] with
      isRemote := true, localEnvar := fun v => if v = "PEPC_HELPERSPATH".toList then some "/h".toList else none }
    findProjectHelper e "pepc".toList "pepc-helper".toList = .error .notFound ∧
      helperSpec e "pepc-helper".toList (value e.localEnvar "PEPC_HELPERSPATH".toList) =
        some "/h/pepc-helper".toList := by decide +kernel

/-- C111 is false for '-D all' and the variable of the project: a dataset in this directory can be used by its name, but
it is not one of all the datasets. -/
theorem C111_all_counterexample :
    let e := toy [("PEPC_DATA_PATH".toList, "/d".toList)]
      ["/d/tests/data".toList, "/d/tests/data/common".toList, "/d/tests/data/x".toList] []
    let listdir := fun _ => ["common".toList, "x".toList]
    runDatasets e (fun _ => false) listdir (fun _ _ => none) "x".toList = (["/d/tests/data/x".toList], none) ∧
      runDatasets e (fun _ => false) listdir (fun _ _ => none) "all".toList = ([], some .notFound) := by
  decide +kernel

example : findProjectData (toy [("HOME".toList, "/root".toList)] ["/root/share/pepc/tpmi".toList,
    "/usr/share/pepc/tpmi".toList] []) "pepc".toList "tpmi".toList = .ok "/root/share/pepc/tpmi".toList := by
  decide +kernel

/-- Two directories with datasets. -/
def two : Env := toy [] ["/opt/pepc/tests/data".toList, "/opt/pepc/tests/data/common".toList,
  "/usr/share/pepc/tests/data".toList] []

example : runDatasets two (fun _ => false)
    (fun b => if b = "/opt/pepc/tests/data".toList then ["a".toList, "common".toList, "b".toList] else ["c".toList])
    (fun _ _ => none) "all".toList =
    (["/opt/pepc/tests/data/a".toList, "/opt/pepc/tests/data/b".toList, "/usr/share/pepc/tests/data/c".toList],
      none) := by decide +kernel

/-- The same name in both directories. -/
example : runDatasets two (fun _ => false)
    (fun b => if b = "/opt/pepc/tests/data".toList then ["a".toList, "common".toList, "b".toList] else ["a".toList])
    (fun _ _ => none) "all".toList =
    (["/opt/pepc/tests/data/a".toList, "/opt/pepc/tests/data/b".toList], some .error) := by decide +kernel

/-- The hypotheses of `C111_helper_partial`, and a helper in the directory of the variable. -/
example :
    let e := toy [("PEPC_HELPERSPATH".toList, "/h".toList)] ["/h/x".toList, "/usr/bin/x".toList]
      ["/h".toList, "/usr/bin".toList]
    findProjectHelper e "pepc".toList "x".toList = .ok "/h/x".toList := by decide +kernel

/-- Names of environment variables: capital letters, and underscores for dashes. -/
theorem C111_envar (prj : PyStr) :
    dataEnvar prj = prj.map (fun c => (("-abcdefghijklmnopqrstuvwxyz".toList.zip "_ABCDEFGHIJKLMNOPQRSTUVWXYZ".toList).lookup c).getD c)
        ++ "_DATA_PATH".toList ∧
      helpersEnvar prj = prj.map (fun c => (("-abcdefghijklmnopqrstuvwxyz".toList.zip "_ABCDEFGHIJKLMNOPQRSTUVWXYZ".toList).lookup
        c).getD c) ++ "_HELPERSPATH".toList := by
  have hlow : ∀ n, n < 128 → envC (Char.ofNat n) =
      (("-abcdefghijklmnopqrstuvwxyz".toList.zip "_ABCDEFGHIJKLMNOPQRSTUVWXYZ".toList).lookup (Char.ofNat n)).getD
        (Char.ofNat n) := by decide +kernel
  have key : ∀ c, envC c =
      (("-abcdefghijklmnopqrstuvwxyz".toList.zip "_ABCDEFGHIJKLMNOPQRSTUVWXYZ".toList).lookup c).getD c := by
    intro c
    by_cases h : c.toNat < 128
    · have := hlow c.toNat h
      rw [Char.ofNat_toNat] at this
      exact this
    · have hkeys : ∀ x ∈ "-abcdefghijklmnopqrstuvwxyz".toList.zip "_ABCDEFGHIJKLMNOPQRSTUVWXYZ".toList, x.1.toNat < 128 := by
        decide +kernel
      have hnone : ("-abcdefghijklmnopqrstuvwxyz".toList.zip "_ABCDEFGHIJKLMNOPQRSTUVWXYZ".toList).lookup c = none := by
        rw [List.lookup_eq_none_iff]
        intro x hx
        have := hkeys x hx
        rw [bne_iff_ne]
        rintro rfl
        omega
      rw [hnone]
      unfold envC
      rw [if_neg (by rintro rfl; exact h (by decide)), if_neg (by omega)]
      rfl
  have hf : envC = fun c =>
      (("-abcdefghijklmnopqrstuvwxyz".toList.zip "_ABCDEFGHIJKLMNOPQRSTUVWXYZ".toList).lookup c).getD c := funext key
  unfold dataEnvar helpersEnvar
  rw [hf]
  exact ⟨rfl, rfl⟩

example : dataEnvar "my-tool2".toList = "MY_TOOL2_DATA_PATH".toList := by decide +kernel

end Verif.ProjectFiles
