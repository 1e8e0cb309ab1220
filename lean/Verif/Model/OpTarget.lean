import Verif.Model.CPUInfo

/-!
Model of pepctool/_OpTarget.py: what CPUs, dies and packages a command is applied to.
-/

namespace Verif.OpTarget

open Verif.CPUInfo

/-- Models: pepclibs/CPUInfo.py:893-920 `normalize_cores()` (`lvl` = core) and 949-978
`normalize_dies()` (`lvl` = die). Non-integer elements cannot be expressed. -/
def normalizeUnits (i : Info) (lvl : Level) (nums : Nums) (pkg : Nat) : Except Exn (List Nat) :=
  match getLevelNums i lvl .package (.nums [pkg]) lvl with
  | .error e => .error e
  | .ok pkgUnits =>
    match nums with
    | .all => .ok pkgUnits
    | .nums l =>
      if (pyDedup l).all (fun u => pkgUnits.contains u) then .ok (pyDedup l) else .error .error

/-- Models: pepclibs/CPUInfo.py:310-320 `get_modules()`. -/
def getModules (i : Info) : Except Exn (List Nat) := getLevelNums i .module .module .all .module

/-- Models: pepclibs/CPUInfo.py:922-945 `normalize_modules()`. -/
def normalizeModules (i : Info) (nums : Nums) : Except Exn (List Nat) :=
  match getModules i with
  | .error e => .error e
  | .ok modules =>
    match nums with
    | .all => .ok modules
    | .nums l =>
      if (pyDedup l).all (fun u => modules.contains u) then .ok (pyDedup l) else .error .error

/-- Models: pepclibs/CPUInfo.py:322-353 `get_dies()` with `compute_dies=False`. -/
def getIoDies (i : Info) (pkg : Nat) : Except Exn (List Nat) :=
  match getLevelNums i .die .package (.nums [pkg]) .die with
  | .error e => .error e
  | .ok dies => .ok (dies.filter (fun d => (i.ioDies pkg).contains d))

/-- The `cores` and `dies` arguments: nothing, a collection of numbers (or "all"), or a dictionary
indexed by the package number. -/
inductive UnitArg where
  | none
  | nums (n : Nums)
  | dict (d : List (Nat × List Nat))
  deriving DecidableEq, Repr

/-- The arguments of `OpTarget()`. Models: pepctool/_OpTarget.py:267-268. The texts are already parsed
(C01, C02 are about the parser), and `None` and an empty collection are the same thing, because the code
only tests their truth value. -/
structure Args where
  cpus : Option Nums := .none
  cores : UnitArg := .none
  modules : Option Nums := .none
  dies : UnitArg := .none
  packages : Option Nums := .none
  coreSib : List Nat := []
  modSib : List Nat := []
  offlineOk : Bool := false

/-- The truth value of an argument in Python. -/
def truthy : Option Nums → Bool
  | .none => false
  | some .all => true
  | some (.nums l) => !l.isEmpty

/-- The truth value of an argument in Python. -/
def UnitArg.truthy : UnitArg → Bool
  | .none => false
  | .nums n => OpTarget.truthy (some n)
  | .dict d => !d.isEmpty

/-- `nums == "all"`. -/
def UnitArg.isAll : UnitArg → Bool
  | .nums .all => true
  | _ => false

/-- Models: pepctool/_OpTarget.py:199-207 `_parse_input_nums()`: the parser removes duplicates. -/
def parse : Nums → Nums
  | .all => .all
  | .nums l => .nums (pyDedup l)

/-- The attributes of an `OpTarget` object. `None` is the same as an empty collection, because the code
only tests their truth value. Models: pepctool/_OpTarget.py:379-387. The `core_sib_cpus` and
`module_sib_cpus` attributes are only used in debug messages and are not modelled. -/
structure Tgt where
  cpus : List Nat := []
  cores : Dict Nat (List Nat) := []
  modules : List Nat := []
  dies : Dict Nat (List Nat) := []
  packages : List Nat := []
  coreSib : List Nat := []
  modSib : List Nat := []
  offlineOk : Bool := false

/-- `pkg2nums` of `_build_package_indexed_dict()`. Models: pepctool/_OpTarget.py:223-227. -/
def pkgUnits (i : Info) (lvl : Level) : List Nat → Except Exn (List (Nat × List Nat))
  | [] => .ok []
  | p :: ps =>
    match getLevelNums i lvl .package (.nums [p]) lvl with
    | .error e => .error e
    | .ok us =>
      match pkgUnits i lvl ps with
      | .error e => .error e
      | .ok rest => .ok ((p, us) :: rest)

/-- `dict.setdefault(k, []).append(v)`. -/
def addTo (d : Dict Nat (List Nat)) (k : Nat) (vs : List Nat) : Dict Nat (List Nat) :=
  d.set k ((d.get? k).getD [] ++ vs)

/-- The inner loop of `_build_package_indexed_dict()` (`num2pkg`, `result`).
Models: pepctool/_OpTarget.py:248-263. -/
def buildNums (pkg : Nat) (units : List Nat) :
    List Nat → Dict Nat Nat × Dict Nat (List Nat) → Except Exn (Dict Nat Nat × Dict Nat (List Nat))
  | [], st => .ok st
  | n :: ns, (num2pkg, result) =>
    if !units.contains n then buildNums pkg units ns (num2pkg, result)
    else
      match num2pkg.get? n with
      | none => buildNums pkg units ns (num2pkg.set n pkg, addTo result pkg [n])
      | some _ => .error .error

/-- The outer loop of `_build_package_indexed_dict()`. Models: pepctool/_OpTarget.py:247-263. -/
def buildPkgs (nums : List Nat) :
    List (Nat × List Nat) → Dict Nat Nat × Dict Nat (List Nat) →
      Except Exn (Dict Nat Nat × Dict Nat (List Nat))
  | [], st => .ok st
  | (pkg, units) :: rest, st =>
    match buildNums pkg units nums st with
    | .error e => .error e
    | .ok st => buildPkgs nums rest st

/-- Models: pepctool/_OpTarget.py:209-265 `_build_package_indexed_dict()`. With "all" the loop is over the
letters of the word, none of which is a number. -/
def buildDict (i : Info) (lvl : Level) (nums : Nums) : Except Exn (Dict Nat (List Nat)) :=
  match getPackages i with
  | .error e => .error e
  | .ok pkgs =>
    match pkgUnits i lvl pkgs with
    | .error e => .error e
    | .ok pkg2nums =>
      let l := match nums with | .all => [] | .nums l => l
      if !l.all (fun n => pkg2nums.any (fun pu => pu.2.contains n)) then .error .error
      else
        match buildPkgs l pkg2nums ([], []) with
        | .error e => .error e
        | .ok (_, result) => .ok result

/-- `self.cores[pkg] = normalize_cores(nums, package=pkg)` for every package.
Models: pepctool/_OpTarget.py:436-437 and 456-457. -/
def perPackage (i : Info) (lvl : Level) (nums : Nums) :
    List Nat → Dict Nat (List Nat) → Except Exn (Dict Nat (List Nat))
  | [], d => .ok d
  | p :: ps, d =>
    match normalizeUnits i lvl nums p with
    | .error e => .error e
    | .ok us => perPackage i lvl nums ps (d.set p us)

/-- The inner loop over a dictionary argument. Models: pepctool/_OpTarget.py:441-446 and 461-466. -/
def dictUnits (i : Info) (lvl : Level) (pkg : Nat) :
    List Nat → Dict Nat (List Nat) → Except Exn (Dict Nat (List Nat))
  | [], d => .ok d
  | u :: us, d =>
    match normalizeUnits i lvl (.nums [u]) pkg with
    | .error e => .error e
    | .ok _ =>
      dictUnits i lvl pkg us
        (if ((d.get? pkg).getD []).contains u then d else addTo d pkg [u])

/-- The outer loop over a dictionary argument. Models: pepctool/_OpTarget.py:439-446 and 459-466. -/
def dictPkgs (i : Info) (lvl : Level) :
    List (Nat × List Nat) → Dict Nat (List Nat) → Except Exn (Dict Nat (List Nat))
  | [], d => .ok d
  | (p, us) :: rest, d =>
    match normalizePackages i (.nums [p]) with
    | .error e => .error e
    | .ok _ =>
      match dictUnits i lvl p us d with
      | .error e => .error e
      | .ok d => dictPkgs i lvl rest d

/-- The cores or dies part of `__init__()`. `packages` tells whether packages were given, `pkgs` are the
normalised package numbers. Models: pepctool/_OpTarget.py:429-446 and 449-466. -/
def initUnits (i : Info) (lvl : Level) (arg : UnitArg) (packages : Bool) (pkgs : List Nat) :
    Except Exn (Dict Nat (List Nat)) :=
  if !arg.truthy then .ok []
  else
    match arg with
    | .none => .ok []
    | .nums n =>
      if !packages then buildDict i lvl (parse n) else perPackage i lvl (parse n) pkgs []
    | .dict d => dictPkgs i lvl d []

/-- The defaults. Models: pepctool/_OpTarget.py:398-411. -/
def defaults (a : Args) : Args :=
  let a := if !truthy a.cpus && !a.cores.truthy && !truthy a.modules && !a.dies.truthy &&
      !truthy a.packages then
    { a with cpus := some .all, dies := .nums .all, packages := some .all }
  else a
  if !truthy a.packages && (a.dies.truthy || a.cores.truthy) && (a.dies.isAll || a.cores.isAll) then
    { a with packages := some .all }
  else a

/-- An argument that is normalised only if it is given. -/
def optional (arg : Option Nums) (f : Nums → Except Exn (List Nat)) : Except Exn (List Nat) :=
  match arg with
  | .none => .ok []
  | some n => if truthy (some n) then f (parse n) else .ok []

/-- The part of `__init__()` that sets the attributes, except for the siblings.
Models: pepctool/_OpTarget.py:398-466. -/
def initTgt (i : Info) (a : Args) : Except Exn Tgt :=
  let a := defaults a
  match optional a.cpus (fun n => normalizeCpus i n a.offlineOk) with
  | .error e => .error e
  | .ok cpus =>
    match optional a.modules (normalizeModules i) with
    | .error e => .error e
    | .ok modules =>
      match optional a.packages (normalizePackages i) with
      | .error e => .error e
      | .ok packages =>
        match initUnits i .core a.cores (truthy a.packages) packages with
        | .error e => .error e
        | .ok cores =>
          match initUnits i .die a.dies (truthy a.packages) packages with
          | .error e => .error e
          | .ok dies =>
            .ok { cpus := cpus, modules := modules, packages := packages, cores := cores, dies := dies,
                  offlineOk := a.offlineOk }

/-- `for pkg, nums in d.items(): cpus += f(nums, packages=(pkg,))`.
Models: pepctool/_OpTarget.py:59-60 and 66-67. -/
def unitsCpus (i : Info) (lvl : Level) : Dict Nat (List Nat) → Except Exn (List Nat)
  | [] => .ok []
  | (p, us) :: rest =>
    match inPackageToCpus i lvl (.nums us) (.nums [p]) with
    | .error e => .error e
    | .ok cpus =>
      match unitsCpus i lvl rest with
      | .error e => .error e
      | .ok more => .ok (cpus ++ more)

/-- The union of everything that is targeted, before the siblings are taken into account. The check for
"module" in the case of dies and packages is what the code does.
Models: pepctool/_OpTarget.py:40-74. -/
def unionCpus (i : Info) (t : Tgt) (exclude : List Level) : Except Exn (List Nat) :=
  let inCpus := if !exclude.contains .CPU then t.cpus else []
  let inCores := if !exclude.contains .core then t.cores else []
  let inModules := if !exclude.contains .module then t.modules else []
  let inDies := if !exclude.contains .module then t.dies else []
  let inPackages := if !exclude.contains .module then t.packages else []
  match unitsCpus i .core inCores with
  | .error e => .error e
  | .ok coreCpus =>
    match (if inModules.isEmpty then .ok [] else modulesToCpus i (.nums inModules)) with
    | .error e => .error e
    | .ok modCpus =>
      match unitsCpus i .die inDies with
      | .error e => .error e
      | .ok dieCpus =>
        match (if !inPackages.isEmpty && !(!t.cores.isEmpty || !t.dies.isEmpty) then
            packagesToCpus i (.nums inPackages) else .ok []) with
        | .error e => .error e
        | .ok pkgCpus => .ok (inCpus ++ coreCpus ++ modCpus ++ dieCpus ++ pkgCpus)

/-- Models: pepctool/_OpTarget.py:40-85 `_get_cpus()`. -/
def getCpus' (i : Info) (t : Tgt) (exclude : List Level) : Except Exn (List Nat) :=
  let coreSib := if !exclude.contains .core then t.coreSib else []
  let modSib := if !exclude.contains .module then t.modSib else []
  match unionCpus i t exclude with
  | .error e => .error e
  | .ok cpus =>
    if !coreSib.isEmpty then
      match selectCoreSiblings i (.nums cpus) coreSib with
      | .error e => .error e
      | .ok cpus => if !modSib.isEmpty then selectModuleSiblings i (.nums cpus) modSib
                    else normalizeCpus i (.nums cpus) t.offlineOk
    else if !modSib.isEmpty then selectModuleSiblings i (.nums cpus) modSib
    else normalizeCpus i (.nums cpus) t.offlineOk

/-- `self._cache`. Models: pepctool/_OpTarget.py:389-390. -/
structure Cache where
  cpus : Option (List Nat) := none
  dies : Option (Dict Nat (List Nat)) := none
  packages : Option (List Nat) := none

/-- Models: pepctool/_OpTarget.py:267-505 `__init__()`. The siblings are lists of numbers. Lines 472, 478
and 484 only compute attributes for debug messages out of valid CPU numbers. -/
def init (i : Info) (a : Args) : Except Exn (Tgt × Cache) :=
  match initTgt i a with
  | .error e => .error e
  | .ok t =>
    let t := { t with coreSib := pyDedup a.coreSib }
    match (if !t.coreSib.isEmpty then (getCpus' i t []).map some else .ok none) with
    | .error e => .error e
    | .ok cpus =>
      let t := { t with modSib := pyDedup a.modSib }
      match (if !t.modSib.isEmpty then (getCpus' i t []).map some else .ok cpus) with
      | .error e => .error e
      | .ok cpus => .ok (t, { cpus := cpus })

/-- `dies[package] += nums` for every package of the second dictionary.
Models: pepctool/_OpTarget.py:155-158 and 162-165. -/
def addDies (d : Dict Nat (List Nat)) (more : List (Nat × List Nat)) : Dict Nat (List Nat) :=
  more.foldl (fun d pu => addTo d pu.1 pu.2) d

/-- Models: pepctool/_OpTarget.py:130-171 `get_dies()`. -/
def getDies (i : Info) (t : Tgt) (strict : Bool) (ca : Cache) : Except Exn (Dict Nat (List Nat)) × Cache :=
  match ca.dies with
  | some d => (.ok d, ca)
  | none =>
    match getCpus' i t [.die] with
    | .error e => (.error e, ca)
    | .ok cpus =>
      match cpusDivDies i (.nums cpus) with
      | .error e => (.error e, ca)
      | .ok (pairs, rem) =>
        if strict && !rem.isEmpty then (.error .noTarget, ca)
        else
          let dies := groupPairs pairs
          match (if !t.dies.isEmpty then .ok (addDies dies t.dies)
                 else if t.cpus.isEmpty && t.cores.isEmpty && t.modules.isEmpty &&
                     !t.packages.isEmpty then
                   (pkgUnits i .die t.packages).map (addDies dies)
                 else .ok dies) with
          | .error e => (.error e, ca)
          | .ok dies =>
            let dies := dies.map (fun pu => (pu.1, pyDedup pu.2))
            (.ok dies, { ca with dies := some dies })

/-- Models: pepctool/_OpTarget.py:173-197 `get_packages()`. -/
def getPackages' (i : Info) (t : Tgt) (strict : Bool) (ca : Cache) : Except Exn (List Nat) × Cache :=
  match ca.packages with
  | some p => (.ok p, ca)
  | none =>
    match getCpus' i t [.package] with
    | .error e => (.error e, ca)
    | .ok cpus =>
      match cpusDivPackages i (.nums cpus) .all with
      | .error e => (.error e, ca)
      | .ok (pkgs, rem) =>
        if strict && !rem.isEmpty then (.error .noTarget, ca)
        else
          let pkgs := pyDedup (pkgs ++ t.packages)
          (.ok pkgs, { ca with packages := some pkgs })

/-- The loop of `_only_io_dies()`. Models: pepctool/_OpTarget.py:97-102. -/
def onlyIo (i : Info) : List (Nat × List Nat) → Except Exn Bool
  | [] => .ok true
  | (p, ds) :: rest =>
    match getIoDies i p with
    | .error e => .error e
    | .ok io => if !ds.all (fun d => io.contains d) then .ok false else onlyIo i rest

/-- Models: pepctool/_OpTarget.py:87-102 `_only_io_dies()`. -/
def onlyIoDies (i : Info) (t : Tgt) (ca : Cache) : Except Exn Bool × Cache :=
  match getDies i t true ca with
  | (.error e, ca) => (.error e, ca)
  | (.ok d, ca) => if d.isEmpty then (.ok false, ca) else (onlyIo i d, ca)

/-- Models: pepctool/_OpTarget.py:104-128 `get_cpus()`. Line 126 repeats a call which has just succeeded
and formats its result for the error message. -/
def getCpus (i : Info) (t : Tgt) (ca : Cache) : Except Exn (List Nat) × Cache :=
  let (r, ca) : Except Exn (List Nat) × Cache :=
    match ca.cpus with
    | some cpus => (.ok cpus, ca)
    | none =>
      match getCpus' i t [] with
      | .error e => (.error e, ca)
      | .ok cpus => (.ok cpus, { ca with cpus := some cpus })
  match r with
  | .error e => (.error e, ca)
  | .ok cpus =>
    if cpus.length ≠ 0 then (.ok cpus, ca)
    else if t.dies.isEmpty then (.error .noTarget, ca)
    else
      match onlyIoDies i t ca with
      | (.error e, ca) => (.error e, ca)
      | (.ok false, ca) => (.error .noTarget, ca)
      | (.ok true, ca) => (.error .noCPUTarget, ca)

end Verif.OpTarget
