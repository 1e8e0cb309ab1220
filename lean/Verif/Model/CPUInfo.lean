import Verif.Lib.Exn
import Verif.Lib.Dict
import Verif.Lib.PyList

/-!
Model of the topology queries of pepclibs/CPUInfo.py.
-/

namespace Verif.CPUInfo

/-- The number used for "no such level". Models: pepclibs/_CPUInfoBase.py:29 `NA`. -/
def NA : Nat := 0xFFFFFFFF

/-- Level names, from the smallest to the largest one.
Models: pepclibs/_CPUInfoBase.py:25 `LEVELS`. Unknown level names cannot be expressed. -/
inductive Level where
  | CPU | core | module | die | node | package
  deriving DecidableEq, Repr

/-- Models: pepclibs/_CPUInfoBase.py:25, `self._lvl2idx`. -/
def Level.idx : Level → Nat
  | .CPU => 0 | .core => 1 | .module => 2 | .die => 3 | .node => 4 | .package => 5

/-- A topology table line. I/O die lines have `NA` in every level but die and package.
Models: pepclibs/CPUInfo.py:92-112. -/
structure TLine where
  cpu : Nat
  core : Nat
  module : Nat
  die : Nat
  node : Nat
  package : Nat
  deriving DecidableEq, Repr

/-- `tline[lvl]`. -/
def TLine.get (t : TLine) : Level → Nat
  | .CPU => t.cpu | .core => t.core | .module => t.module | .die => t.die | .node => t.node
  | .package => t.package

/-- What a `CPUInfo` object knows: the topology lines (in any order), the online and the present
CPUs, and I/O die numbers per package. Levels are initialised lazily in the code; here a line always
has all levels. Models: pepclibs/_CPUInfoBase.py:268-344. -/
structure Info where
  topology : List TLine
  online : List Nat
  present : List Nat
  ioDies : Nat → List Nat

/-- The sorting keys of an order. Models: pepclibs/_CPUInfoBase.py:471-476 `_sorting_map`. -/
def sortKey (order : Level) (t : TLine) : List Nat :=
  match order with
  | .CPU => [t.cpu]
  | .core => [t.package, t.core, t.cpu]
  | .module => [t.module, t.cpu]
  | .die => [t.package, t.die, t.cpu]
  | .node => [t.node, t.cpu]
  | .package => [t.package, t.cpu]

/-- Tuple comparison `<=` of Python. -/
def lexLe : List Nat → List Nat → Bool
  | [], _ => true
  | _ :: _, [] => false
  | a :: as, b :: bs => if a < b then true else if b < a then false else lexLe as bs

/-- Models: pepclibs/_CPUInfoBase.py:228-232 `_sort_topology()` and 268-313 `_get_topology()`. -/
def getTopology (i : Info) (order : Level) : List TLine :=
  sortBy (fun a b => lexLe (sortKey order a) (sortKey order b)) i.topology

/-- The `nums` argument: a collection of integers or the string "all". -/
inductive Nums where
  | all
  | nums (l : List Nat)
  deriving DecidableEq, Repr

/-- The loop of `_get_level_nums()`: the values of the result dictionary keys, in insertion order,
before de-duplication. Models: pepclibs/CPUInfo.py:255-262. -/
def levelNumsRaw (lines : List TLine) (sub lvl : Level) (nums : Nums) : List Nat :=
  (lines.filter (fun t =>
    !(t.get lvl == NA) && !(t.get sub == NA) &&
      match nums with | .all => true | .nums l => l.contains (t.get lvl))).map (·.get sub)

/-- Models: pepclibs/CPUInfo.py:256-259, `valid_nums`. -/
def validNums (lines : List TLine) (lvl : Level) : List Nat :=
  (lines.map (·.get lvl)).filter (fun n => !(n == NA))

/-- Models: pepclibs/CPUInfo.py:194-275 `_get_level_nums()`. -/
def getLevelNums (i : Info) (sub lvl : Level) (nums : Nums) (order : Level) :
    Except Exn (List Nat) :=
  if lvl.idx < sub.idx then .error .error
  else
    let lines := getTopology i order
    let result := pyDedup (levelNumsRaw lines sub lvl nums)
    match nums with
    | .all => .ok result
    | .nums l => if l.all (fun n => (validNums lines lvl).contains n) then .ok result
                 else .error .error

/-- Models: pepclibs/CPUInfo.py:277-288 `get_cpus()`. -/
def getCpus (i : Info) (order : Level) : Except Exn (List Nat) :=
  match order with
  | .CPU => .ok (sortNat (pyDedup i.online))
  | o => getLevelNums i .CPU .CPU .all o

/-- Models: pepclibs/CPUInfo.py:864-892 `normalize_cpus()`. Non-integer elements cannot be
expressed. -/
def normalizeCpus (i : Info) (cpus : Nums) (offlineOk : Bool) : Except Exn (List Nat) :=
  let allcpus := if offlineOk then i.present else i.online
  match cpus with
  | .all => .ok (sortNat (pyDedup allcpus))
  | .nums l =>
    let l := pyDedup l
    if l.all (fun c => allcpus.contains c) then .ok l else .error .error

/-- Models: pepclibs/CPUInfo.py:361-369 `get_packages()`. -/
def getPackages (i : Info) : Except Exn (List Nat) := getLevelNums i .package .package .all .package

/-- Models: pepclibs/CPUInfo.py:436-444 `package_to_cpus()`. -/
def packageToCpus (i : Info) (pkg : Nat) : Except Exn (List Nat) :=
  getLevelNums i .CPU .package (.nums [pkg]) .CPU

/-- Models: pepclibs/CPUInfo.py:446-454 `package_to_cores()`. -/
def packageToCores (i : Info) (pkg : Nat) : Except Exn (List Nat) :=
  getLevelNums i .core .package (.nums [pkg]) .core

/-- Models: pepclibs/CPUInfo.py:466-476 `package_to_dies()`. -/
def packageToDies (i : Info) (pkg : Nat) : Except Exn (List Nat) :=
  getLevelNums i .die .package (.nums [pkg]) .die

/-- Models: pepclibs/CPUInfo.py:506-515 `modules_to_cpus()`. -/
def modulesToCpus (i : Info) (modules : Nums) : Except Exn (List Nat) :=
  getLevelNums i .CPU .module modules .CPU

/-- Models: pepclibs/CPUInfo.py:539-548 `nodes_to_cpus()`. -/
def nodesToCpus (i : Info) (nodes : Nums) : Except Exn (List Nat) :=
  getLevelNums i .CPU .node nodes .CPU

/-- Models: pepclibs/CPUInfo.py:550-559 `packages_to_cpus()`. -/
def packagesToCpus (i : Info) (packages : Nums) : Except Exn (List Nat) :=
  getLevelNums i .CPU .package packages .CPU

/-- The shared shape of `cores_to_cpus()` and `dies_to_cpus()`: CPUs of the given cores/dies which
are also in the given packages. Models: pepclibs/CPUInfo.py:484-504 and 517-537. -/
def inPackageToCpus (i : Info) (lvl : Level) (nums packages : Nums) : Except Exn (List Nat) :=
  match getLevelNums i .CPU lvl nums .CPU with
  | .error e => .error e
  | .ok byLvl =>
    match getLevelNums i .CPU .package packages .CPU with
    | .error e => .error e
    | .ok byPkg => .ok (byLvl.filter (fun c => byPkg.contains c))

/-- Models: pepclibs/CPUInfo.py:484-504 `cores_to_cpus()`. -/
def coresToCpus (i : Info) (cores packages : Nums) : Except Exn (List Nat) :=
  inPackageToCpus i .core cores packages

/-- Models: pepclibs/CPUInfo.py:517-537 `dies_to_cpus()`. -/
def diesToCpus (i : Info) (dies packages : Nums) : Except Exn (List Nat) :=
  inPackageToCpus i .die dies packages

/-- Models: pepclibs/CPUInfo.py:383-404 `get_cpu_levels()`: the topology line of a CPU. -/
def getCpuLevels (i : Info) (cpu : Nat) : Except Exn TLine :=
  match (getTopology i .CPU).find? (fun t => t.cpu == cpu) with
  | some t => .ok t
  | none => .error .error

/-- A scope name: a level or "global". Models: pepclibs/CPUInfo.py:406-434. -/
inductive Scope where
  | global
  | lvl (l : Level)
  deriving DecidableEq, Repr

/-- Models: pepclibs/CPUInfo.py:406-434 `get_cpu_siblings()`. -/
def getCpuSiblings (i : Info) (cpu : Nat) (scope : Scope) : Except Exn (List Nat) :=
  match scope with
  | .lvl .CPU => normalizeCpus i (.nums [cpu]) false
  | .global => getCpus i .CPU
  | .lvl l =>
    match getCpuLevels i cpu with
    | .error e => .error e
    | .ok t =>
      match l with
      | .package => packageToCpus i t.package
      | .node => nodesToCpus i (.nums [t.node])
      | .die => diesToCpus i (.nums [t.die]) (.nums [t.package])
      | .module => modulesToCpus i (.nums [t.module])
      | _ => coresToCpus i (.nums [t.core]) (.nums [t.package])

/-- Models: pepclibs/CPUInfo.py:980-1004 `normalize_packages()`. -/
def normalizePackages (i : Info) (packages : Nums) : Except Exn (List Nat) :=
  match getPackages i with
  | .error e => .error e
  | .ok allpkgs =>
    match packages with
    | .all => .ok allpkgs
    | .nums l =>
      let l := pyDedup l
      if l.all (fun p => allpkgs.contains p) then .ok l else .error .error

/-- One step of the "divide" loops: if all CPUs of the unit are in `cpus_set`, take the unit and
remove its CPUs. Models: pepclibs/CPUInfo.py:851-855 (and 756-760, 811-815). -/
def divStep {β : Type} (unit : β) (unitCpus : List Nat) (st : List β × List Nat) : List β × List Nat :=
  if unitCpus.all (fun c => st.2.contains c) then
    (st.1 ++ [unit], st.2.filter (fun c => !unitCpus.contains c))
  else st

/-- The package loop of `cpus_div_packages()`. Models: pepclibs/CPUInfo.py:850-855. -/
def divPackagesLoop (i : Info) : List Nat → List Nat × List Nat → Except Exn (List Nat × List Nat)
  | [], st => .ok st
  | pkg :: pkgs, st =>
    match packageToCpus i pkg with
    | .error e => .error e
    | .ok cpus => divPackagesLoop i pkgs (divStep pkg cpus st)

/-- Models: pepclibs/CPUInfo.py:824-862 `cpus_div_packages()`. -/
def cpusDivPackages (i : Info) (cpus packages : Nums) : Except Exn (List Nat × List Nat) :=
  match normalizeCpus i cpus true with
  | .error e => .error e
  | .ok cpus =>
    match normalizePackages i packages with
    | .error e => .error e
    | .ok pkgs =>
      match divPackagesLoop i pkgs ([], cpus) with
      | .error e => .error e
      | .ok (res, rest) => .ok (res, cpus.filter (fun c => rest.contains c))

/-- The inner loop of `cpus_div_cores()` / `cpus_div_dies()` over the units of one package. The
result dictionary `{pkg: [unit, ...]}` is flattened to a list of `(pkg, unit)` pairs in the same
order. Models: pepclibs/CPUInfo.py:752-760 and 802-815. -/
def divUnitsLoop (i : Info) (lvl : Level) (pkg : Nat) :
    List Nat → List (Nat × Nat) × List Nat → Except Exn (List (Nat × Nat) × List Nat)
  | [], st => .ok st
  | u :: us, st =>
    if lvl == .die && (i.ioDies pkg).contains u then divUnitsLoop i lvl pkg us st
    else
      match inPackageToCpus i lvl (.nums [u]) (.nums [pkg]) with
      | .error e => .error e
      | .ok cpus => divUnitsLoop i lvl pkg us (divStep (pkg, u) cpus st)

/-- The outer loop over packages. Models: pepclibs/CPUInfo.py:751-760 and 801-815. -/
def divPkgsLoop (i : Info) (lvl : Level) :
    List Nat → List (Nat × Nat) × List Nat → Except Exn (List (Nat × Nat) × List Nat)
  | [], st => .ok st
  | pkg :: pkgs, st =>
    match getLevelNums i lvl .package (.nums [pkg]) lvl with
    | .error e => .error e
    | .ok units =>
      match divUnitsLoop i lvl pkg units st with
      | .error e => .error e
      | .ok st => divPkgsLoop i lvl pkgs st

/-- The common body of `cpus_div_cores()` and `cpus_div_dies()`.
Models: pepclibs/CPUInfo.py:723-767 and 769-822. -/
def cpusDivUnits (i : Info) (lvl : Level) (cpus : Nums) :
    Except Exn (List (Nat × Nat) × List Nat) :=
  match normalizeCpus i cpus true with
  | .error e => .error e
  | .ok cpus =>
    match getPackages i with
    | .error e => .error e
    | .ok pkgs =>
      match divPkgsLoop i lvl pkgs ([], cpus) with
      | .error e => .error e
      | .ok (res, rest) => .ok (res, cpus.filter (fun c => rest.contains c))

/-- Models: pepclibs/CPUInfo.py:723-767 `cpus_div_cores()`. -/
def cpusDivCores (i : Info) (cpus : Nums) := cpusDivUnits i .core cpus

/-- Models: pepclibs/CPUInfo.py:769-822 `cpus_div_dies()`. -/
def cpusDivDies (i : Info) (cpus : Nums) := cpusDivUnits i .die cpus

/-- Group a dictionary-like list of pairs: `dies[pkg] = [...]`, in order of first appearance.
Models: pepclibs/CPUInfo.py:757-759, 812-814. -/
def groupPairs (l : List (Nat × Nat)) : Dict Nat (List Nat) :=
  l.foldl (fun d p => d.set p.1 ((d.get? p.1).getD [] ++ [p.2])) []

/-- The index loop of `select_core_siblings()` and `select_module_siblings()`: `(unit, package)` of
the previous line and the running index. Models: pepclibs/CPUInfo.py:646-656 and 703-713. -/
def indexLoop (unitOf : TLine → Nat) :
    List TLine → Option (Nat × Nat) × Nat → Dict Nat Nat → Dict Nat Nat
  | [], _, d => d
  | t :: ts, (prev, index), d =>
    let index := if prev = some (unitOf t, t.package) then index else 0
    indexLoop unitOf ts (some (unitOf t, t.package), index + 1) (d.set t.cpu index)

/-- Models: pepclibs/CPUInfo.py:610-664 `select_core_siblings()` (`unitOf` = core, order = core) and
666-721 `select_module_siblings()` (`unitOf` = module, order = module). -/
def selectSiblings (i : Info) (lvl : Level) (cpus : Nums) (indexes : List Nat) :
    Except Exn (List Nat) :=
  match normalizeCpus i cpus true with
  | .error e => .error e
  | .ok cpus =>
    let cpu2index := indexLoop (·.get lvl) (getTopology i lvl) (none, 0) []
    .ok (cpus.filter (fun c => match cpu2index.get? c with
      | some idx => indexes.contains idx
      | none => false))

/-- Models: pepclibs/CPUInfo.py:610-664. -/
def selectCoreSiblings (i : Info) (cpus : Nums) (indexes : List Nat) :=
  selectSiblings i .core cpus indexes

/-- Models: pepclibs/CPUInfo.py:666-721. -/
def selectModuleSiblings (i : Info) (cpus : Nums) (indexes : List Nat) :=
  selectSiblings i .module cpus indexes

end Verif.CPUInfo
