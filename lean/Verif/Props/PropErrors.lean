import Verif.Lemmas.PropErrors
import Verif.Props.PropsTarget

/-!
C118: messages about properties which are not supported, and the methods for a single CPU or package.
-/

namespace Verif.PropErrors

open Spec CPUInfo PropsBase

/-- **C118.** The text about CPUs names the CPUs. -/
theorem C118_cpus (cpus : List Nat) (h : cpus ≠ []) :
    ∃ t r, cpusToStr cpus = .ok t ∧ readNums t = some (.cpus r) ∧ r.Perm cpus := cpus_read h

example : cpusToStr [3, 0, 1, 2, 7] = .ok "the following CPUs: 0-3,7".toList ∧
    readNums "the following CPUs: 0-3,7".toList = some (.cpus [0, 1, 2, 3, 7]) ∧ cpusToStr [5] = .ok "CPU 5".toList := by
  refine ⟨?_, by decide +kernel, ?_⟩ <;> exact congrArg Except.ok (by decide +kernel)

/-- **C118.** The text about two or more packages names the packages. -/
theorem C118_packages (packages : List Nat) (h : 2 ≤ packages.length) :
    ∃ t r, packagesToStr packages = .ok t ∧ readNums t = some (.packages r) ∧ r.Perm packages := packages_read h

example : packagesToStr [0, 1, 3] = .ok "the following packages: 0,1,3".toList := congrArg Except.ok (by decide +kernel)

/-- **C118.** The text about one package names a CPU with the number of the package, whatever the number: the reader of the
message cannot tell them apart. -/
theorem C118_package_counterexample (p : Nat) :
    packagesToStr [p] = cpusToStr [p] ∧ ∀ t, packagesToStr [p] = .ok t → readNums t = some (.cpus [p]) := by
  refine ⟨rfl, fun t h => ?_⟩
  obtain ⟨t', r, h1, h2, h3⟩ := cpus_read (cpus := [p]) (by simp)
  rw [show packagesToStr [p] = cpusToStr [p] from rfl, h1] at h
  injection h with h
  subst h
  rw [h2, List.perm_singleton.1 h3]

example : packagesToStr [1] = .ok "CPU 1".toList := congrArg Except.ok (by decide +kernel)

/-- **C118.** The text about dies names the dies of every package. -/
theorem C118_dies (dies : List (Nat × List Nat)) (hne : dies ≠ []) (h : ∀ x ∈ dies, x.2 ≠ []) :
    ∃ t d, diesToStr dies = .ok t ∧ readDies t = some d ∧ SameDies d dies := dies_read hne h

example : diesToStr [(0, [2, 1, 0]), (1, [4]), (2, [0, 1])] =
    .ok "package 0 dies 0-2, package 1 die 4, and package 2 dies 0,1".toList ∧
    readDies "package 0 dies 0-2, package 1 die 4, and package 2 dies 0,1".toList = some [(0, [0, 1, 2]), (1, [4]), (2, [0, 1])] :=
  ⟨congrArg Except.ok (by decide +kernel), by decide +kernel⟩

/-- **C118.** All the mechanisms are named, in the order of the attempts. -/
theorem C118_mechanisms (ms : List PyStr) (hne : ms ≠ []) (h : ∀ m ∈ ms, '\'' ∉ m) :
    ∃ t, mnamesToStr ms = .ok t ∧ readQuoted t = ms := by
  match ms, hne with
  | [a], _ =>
    refine ⟨_, rfl, ?_⟩
    rw [List.append_assoc, odds_quoted (h a (by simp)) (by decide), readQuoted_none (by decide)]
  | [a, b], _ =>
    refine ⟨_, rfl, ?_⟩
    rw [List.append_assoc, List.append_assoc, List.append_assoc, odds_quoted (h a (by simp)) (by decide),
      odds_quoted (h b (by simp)) (by decide), readQuoted_none (by decide)]
  | a :: b :: c :: l, hne =>
    refine ⟨_, rfl, ?_⟩
    have hd : (a :: b :: c :: l).dropLast ≠ [] := by simp
    obtain ⟨z, hz⟩ : ∃ z, (a :: b :: c :: l).getLast? = some z := by
      cases hg : (a :: b :: c :: l).getLast? with
      | none => simp at hg
      | some z => exact ⟨z, rfl⟩
    have hsplit : (a :: b :: c :: l).dropLast ++ [z] = a :: b :: c :: l := by
      obtain ⟨hn, hl⟩ := List.getLast?_eq_some_iff.1 hz |>.imp fun ys hys => hys
      rw [hl]; simp
    rw [← List.map_dropLast, List.getLast?_map, hz, List.append_assoc, List.append_assoc, List.append_assoc,
      odds_list hd (fun x hx => h x (List.dropLast_subset _ hx)) (by decide)]
    show _ ++ readQuoted (" and ".toList ++ (quoted z ++ " methods".toList)) = _
    rw [odds_quoted (h z (List.mem_of_getLast? hz)) (by decide), readQuoted_none (by decide), hsplit]

example : mnamesToStr ["sysfs".toList, "msr".toList, "cppc".toList] = .ok "using 'sysfs', 'msr' and 'cppc' methods".toList :=
  congrArg Except.ok (by decide +kernel)

/-- **C118.** In the message, the name of the property starts with a small letter if it starts with an ordinary word, and it is
not changed otherwise. -/
theorem C118_name (s : PyStr) :
    (Ordinary s → ∃ c t, s = c :: t ∧ uncapitalize s = c.toLower :: t) ∧ (¬ Ordinary s → uncapitalize s = s) := by
  have hs := uncapitalize_eq s
  constructor
  · rintro ⟨a, b, w, hw, ha, hb, hd⟩
    rw [hw] at hs
    dsimp only at hs
    have hn : ((a :: b :: w).any Char.isDigit) = false := List.any_eq_false.2 fun c hc => by rw [hd c hc]; simp
    rw [ha, hb, hn] at hs
    cases s with
    | nil => cases hw
    | cons c t => exact ⟨c, t, rfl, hs⟩
  · intro hno
    rw [hs]
    match hw : firstWord s with
    | [] => rfl
    | [_] => rfl
    | a :: b :: w =>
      dsimp only
      by_cases h1 : (a.isLower || b.isUpper) = true
      · rw [if_pos h1]
      · rw [if_neg h1]
        by_cases h2 : ((a :: b :: w).any Char.isDigit) = true
        · rw [if_pos h2]
        · refine absurd ⟨a, b, w, hw, ?_, ?_, fun c hc => ?_⟩ hno
          · cases h : a.isLower <;> simp_all
          · cases h : b.isUpper <;> simp_all
          · cases h : c.isDigit
            · rfl
            · exact absurd (List.any_eq_true.2 ⟨c, hc, h⟩) h2

example : uncapitalize "Package C-state limit".toList = "package C-state limit".toList ∧
    uncapitalize "EPP".toList = "EPP".toList ∧ uncapitalize "C1 demotion".toList = "C1 demotion".toList ∧
    uncapitalize "C-state pre-wake".toList = "C-state pre-wake".toList := by decide +kernel

/-- What the text about the target has to tell. -/
def Tells : Target → PyStr → Prop
  | .cpus l, t => ∃ r, readNums t = some (.cpus r) ∧ r.Perm l
  | .dies d, t => ∃ r, readDies t = some r ∧ SameDies r d
  | .packages l, t => ∃ r, readNums t = some (.packages r) ∧ r.Perm l

/-- Something is accessed, and it is not one package. -/
def Fine : Target → Prop
  | .cpus l => l ≠ []
  | .dies d => d ≠ [] ∧ ∀ x ∈ d, x.2 ≠ []
  | .packages l => 2 ≤ l.length

/-- **C118.** With reasons the result is `ErrorNotSupported`, without reasons it is a debug message. The message tells what was
done, the property, all the mechanisms, exactly the CPUs, dies or packages, and every different reason once. -/
theorem C118_message (name action : PyStr) (t : Target) (ht : Fine t) (ms exs : List PyStr) (hms : ms ≠ [])
    (hq : ∀ m ∈ ms, '\'' ∉ m) (hexs : ∀ r ∈ exs, ∃ c m, r = c :: m ∧ PyStr.isSpace c = false) :
    ∃ (m n : PyStr) (reasons : List PyStr), readQuoted m = ms ∧ Tells t n ∧
      reasons.Nodup ∧ (∀ r, r ∈ reasons ↔ r ∈ exs) ∧ reasons.Pairwise (Earlier exs) ∧
      notSupported name t ms action exs =
        (if exs = [] then Report.debug else Report.raises)
          ("cannot ".toList ++ action ++ " ".toList ++ uncapitalize name ++ " ".toList ++ m ++ " for ".toList ++ n ++
            (reasons.map reasonText).flatten) := by
  obtain ⟨m, hm1, hm2⟩ := C118_mechanisms ms hms hq
  have hn : ∃ n, notSupported name t ms action exs = doNotSupported name n ms action exs ∧ Tells t n := by
    unfold notSupported
    cases t with
    | cpus l =>
      obtain ⟨n, r, h1, h2⟩ := C118_cpus l ht
      exact ⟨n, by dsimp only; rw [h1], r, h2⟩
    | dies d =>
      obtain ⟨n, r, h1, h2⟩ := C118_dies d ht.1 ht.2
      exact ⟨n, by dsimp only; rw [h1], r, h2⟩
    | packages l =>
      obtain ⟨n, r, h1, h2⟩ := C118_packages l ht
      exact ⟨n, by dsimp only; rw [h1], r, h2⟩
  obtain ⟨n, hn1, hn2⟩ := hn
  refine ⟨m, n, Trivial.listDedup exs, hm2, hn2, nodup_pyDedup exs, fun _ => mem_pyDedup, pyDedup_idxOf exs, ?_⟩
  rw [hn1]
  unfold doNotSupported
  rw [hm1]
  dsimp only
  by_cases he : exs = []
  · subst he
    rfl
  · rw [if_pos he, if_neg he, errmsgs_eq he hexs]

example : notSupported "EPP".toList (.cpus [0, 1]) ["sysfs".toList, "msr".toList] "get".toList ["no file".toList, "no file".toList] =
    .raises "cannot get EPP using 'sysfs' and 'msr' methods for the following CPUs: 0,1\n  No file".toList ∧
    Fine (.cpus [0, 1]) := ⟨by decide +kernel, by simp [Fine]⟩

variable {V : Type} [DecidableEq V]

/-- **C118.** As long as no package has an empty list of dies, the text about the dies does not matter: the method for dies gives
what `C86`, `C87` and others are about. -/
theorem C118_dies_fine (i : Info) (P : PropDesc) (get : Mech → List Nat → Gen (Nat × Option V)) (dies : List (Nat × List Nat))
    (h : ∀ x ∈ dies, x.2 ≠ []) (mnames : Option (List Mech)) :
    getPropDiesText i P get dies mnames = PropsTarget.getPropDies i P get dies mnames := by
  unfold getPropDiesText PropsTarget.getPropDies
  cases normalizeMnames P mnames true with
  | error e => rfl
  | ok ms =>
    dsimp only
    cases normalizePackages i (.nums (dies.map Prod.fst)) with
    | error e => rfl
    | ok _ =>
      dsimp only
      cases normalizeDiesDict i dies with
      | error e => rfl
      | ok ds =>
        dsimp only
        by_cases he : dies = []
        · subst he; rfl
        · rw [crashOf_none he h]
          split
          · rfl
          · unfold PropsTarget.getUnits
            cases P.sname with
            | none => rfl
            | some sn =>
              dsimp only
              split
              · rfl
              · cases PropsTarget.validateUnits P sn get (fun b => diesToCpus i (.nums [b.2]) (.nums [b.1])) ms ds with
                | error e => rfl
                | ok u =>
                  dsimp only
                  unfold getPvinfo
                  cases (orDefault P ms).getLast? with
                  | none => rfl
                  | some last => exact getLoopText_none _ _ _ _

/-- For the examples: a per-die property which no mechanism supports. -/
def exDie : PropDesc := { sname := some (.lvl .die), iosname := .lvl .die, mnames := [.msr, .sysfs], writable := true }

/-- For the examples: nothing is supported. -/
def exRefuse (_ : Mech) (_ : List Nat) : Gen (Nat × Option Nat) := ⟨[], some .notSupported⟩

/-- **C118.** When the property is not supported, a package with an empty list of dies ends the method with `IndexError` instead
of the value `None` for the dies which were asked for, and without the package the value is given. -/
theorem C118_empty_counterexample :
    getPropDiesText exInfo exDie exRefuse [(0, [0]), (1, [])] none = ⟨[], some .pyIndexError⟩ ∧
    getPropDiesText exInfo exDie exRefuse [(0, [0])] none = ⟨[⟨(0, 0), none, .sysfs⟩], none⟩ := by
  decide +kernel

omit [DecidableEq V] in
/-- **C118.** A property is supported for an online CPU if and only if the first mechanism which does not refuse gives a value.
Errors other than a refusal are not hidden. -/
theorem C118_supported (i : Info) (P : PropDesc) (get : Mech → List Nat → Gen (Nat × Option V)) (cpu : Nat)
    (ans : Mech → Except Exn (Option V)) (ha : Answers get cpu ans) (hc : cpu ∈ i.online) (hs : P.sname ≠ none) (hm : P.mnames ≠ []) :
    isSupportedCpu i P get cpu = match firstAnswer ans P.mnames with
      | .ok v => .ok v.isSome
      | .error e => .error e := by
  have hn : normalizeCpus i (.nums [cpu]) false = .ok [cpu] := by
    unfold normalizeCpus
    dsimp only
    rw [show pyDedup [cpu] = [cpu] from rfl, if_pos]
    simpa using hc
  unfold isSupportedCpu getCpuProp getPropCpus normalizeMnames
  dsimp only
  rw [hn]
  dsimp only
  rw [if_neg (by simp)]
  cases hsn : P.sname with
  | none => exact absurd hsn hs
  | some sn =>
    dsimp only
    unfold getPvinfo orDefault
    have he : P.mnames.isEmpty = false := by
      cases h : P.mnames with
      | nil => exact absurd h hm
      | cons a b => rfl
    rw [if_neg (by rw [he]; exact Bool.false_ne_true)]
    cases hl : P.mnames.getLast? with
    | none => exact absurd (List.getLast?_eq_none_iff.1 hl) hm
    | some last =>
      exact first_loop _ cpu [] last ans (fun m v h => ⟨[], none, ha.ok m v h⟩) (fun m e h => ha.error m e h) P.mnames

/-- For the examples: only `sysfs` works. -/
def exAns (m : Mech) : Except Exn (Option Nat) := if m = .sysfs then .ok (some 7) else .error .notSupported

/-- For the examples: the answers for every CPU. -/
def exGet (m : Mech) (l : List Nat) : Gen (Nat × Option Nat) :=
  match exAns m with
  | .ok v => ⟨l.map fun c => (c, v), none⟩
  | .error e => ⟨[], some e⟩

example : Answers exGet 3 exAns ∧ isSupportedCpu exInfo exDie exGet 3 = .ok true ∧ isSupportedCpu exInfo exDie exRefuse 3 = .ok false := by
  refine ⟨⟨fun m v h => ?_, fun m e h => ?_⟩, rfl, rfl⟩
  · unfold exGet; rw [h]; rfl
  · unfold exGet; rw [h]

/-- **C118.** A property with the package scope is supported for a package if and only if the first mechanism which does not refuse
gives a value for the first CPU of the package. -/
theorem C118_supported_package (i : Info) (P : PropDesc) (get : Mech → List Nat → Gen (Nat × Option V)) (package cpu : Nat)
    (rest : List Nat) (hp : normalizePackages i (.nums [package]) = .ok [package])
    (hcpus : packagesToCpus i (.nums [package]) = .ok (cpu :: rest)) (ans : Mech → Except Exn (Option V)) (ha : Answers get cpu ans)
    (hs : P.sname = some (.lvl .package)) (hio : P.iosname = .lvl .package) (hm : P.mnames ≠ []) :
    isSupportedPackage i P get package = match firstAnswer ans P.mnames with
      | .ok v => .ok v.isSome
      | .error e => .error e := by
  unfold isSupportedPackage getPackageProp PropsTarget.getPropPackages normalizeMnames
  dsimp only
  rw [hp]
  dsimp only
  rw [if_neg (by simp)]
  unfold PropsTarget.getUnits
  rw [hs]
  dsimp only
  rw [if_neg (by decide), PropsTarget.validateUnits, if_pos hio.symm, PropsTarget.validateUnits]
  dsimp only
  unfold getPvinfo orDefault
  have he : P.mnames.isEmpty = false := by
    cases h : P.mnames with
    | nil => exact absurd h hm
    | cons a b => rfl
  rw [if_neg (by rw [he]; exact Bool.false_ne_true)]
  cases hl : P.mnames.getLast? with
  | none => exact absurd (List.getLast?_eq_none_iff.1 hl) hm
  | some last =>
    refine first_loop _ package [] last ans (fun m v h => ⟨[], none, ?_⟩) (fun m e h => ?_) P.mnames
    · rw [PropsTarget.readUnits, hcpus]
      dsimp only
      unfold PropsTarget.readFirst
      rw [ha.ok m v h]
      rfl
    · rw [PropsTarget.readUnits, hcpus]
      dsimp only
      unfold PropsTarget.readFirst
      rw [ha.error m e h]

/-- For the examples: a per-package property. -/
def exPkgProp : PropDesc := { exDie with sname := some (.lvl .package), iosname := .lvl .package }

example : (normalizePackages exInfo (.nums [1])).toOption = some [1] ∧ (packagesToCpus exInfo (.nums [1])).toOption = some [2, 3, 6, 7] ∧
    (isSupportedPackage exInfo exPkgProp exGet 1).toOption = some true ∧
    (isSupportedPackage exInfo exPkgProp exRefuse 1).toOption = some false := by decide +kernel

end Verif.PropErrors
