import Verif.Model.CPUInfo
import Verif.Model.Trivial

/-!
Model of pepclibs/_CPUInfoBase.py: building the topology table from the files of the kernel, one level at a time, and
keeping it up to date when CPUs go online and offline.

Simplifications: sets are lists without duplicates, in the order of insertion (the code does not rely on the order
of set elements). Topology lines are values: in the code, the lines of the previous table are changed in place before
the new table is saved, so after a failure they may have more levels than the table is said to have. Therefore the
object is not used any more after a failure. The objects for the MSR and the uncore driver either exist or are not
supported, and do not change.
-/

namespace Verif.TopoBuild

open CPUInfo (Level)

/-- Models: pepclibs/_CPUInfoBase.py:29 `NA`. -/
def NA : Int := 0xFFFFFFFF

/-- The files. `pli` is reading the "domain_id" feature of MSR_PM_LOGICAL_ID (`none` if not supported), `uncore` is
`UncoreFreqSysfs.get_dies_info()` (`none` if not supported). Files are indexed by CPU or node number. -/
structure Host where
  online : Except Exn PyStr
  cpuinfo : Except Exn PyStr
  cacheId : Int → Except Exn PyStr
  cacheCpus : Int → Except Exn PyStr
  pli : Option (Int → Except Exn Int)
  dieId : Int → Except Exn PyStr
  dieCpus : Int → Except Exn PyStr
  nodes : Except Exn PyStr
  nodeCpus : Int → Except Exn PyStr
  uncore : Option (Except Exn (Dict Int (List Int)))

/-- A topology line: a dictionary with at least the "CPU" key. -/
structure Row where
  cpu : Int
  core : Option Int
  module : Option Int
  die : Option Int
  node : Option Int
  package : Option Int
  deriving DecidableEq, Repr

/-- `tline.get(lvl)`. -/
def Row.get (r : Row) : Level → Option Int
  | .CPU => some r.cpu | .core => r.core | .module => r.module | .die => r.die | .node => r.node
  | .package => r.package

/-- `{"CPU": cpu}`. -/
def Row.new (cpu : Int) : Row := ⟨cpu, none, none, none, none, none⟩

/-- Models: pepclibs/_CPUInfoBase.py:198-206, 217-225. -/
def Row.io (package die : Int) : Row := ⟨NA, some NA, some NA, some die, some NA, some package⟩

/-- `tinfo`: lines by CPU number. -/
abbrev TInfo := Dict Int Row

/-- The object. `levels` are the initialised levels. Models: pepclibs/_CPUInfoBase.py:449-467. -/
structure St where
  cpus : List Int
  computeDies : Dict Int (List Int)
  ioDies : Dict Int (List Int)
  topology : Dict Level (List Row)
  mustUpdate : Bool
  levels : List Level

/-- A new object. Models: pepclibs/_CPUInfoBase.py:449-467. -/
def St.new : St := ⟨[], [], [], [], false, []⟩

/-- Models: pepclibs/_CPUInfoBase.py:315-323 `_read_range()`. -/
def readRange (text : Except Exn PyStr) : Except Exn (List Int) :=
  match text with
  | .error e => .error e
  | .ok s => Trivial.splitCsvLineInt (PyStr.strip s) ',' false

/-- Models: pepclibs/_CPUInfoBase.py:325-330 `_get_online_cpus_set()`. An empty set is read again. -/
def onlineCpus (h : Host) (st : St) : Except Exn (St × List Int) :=
  if st.cpus = [] then
    match readRange h.online with
    | .error e => .error e
    | .ok l => .ok ({ st with cpus := pyDedup l }, pyDedup l)
  else .ok (st, st.cpus)

/-! ### Cores and packages -/

/-- `s.split("\n\n")`. -/
def splitBlocks : PyStr → List PyStr
  | [] => [[]]
  | '\n' :: '\n' :: s => [] :: splitBlocks s
  | c :: s =>
    match splitBlocks s with
    | [] => [[c]]
    | b :: bs => (c :: b) :: bs

/-- `line.partition(":")[2]`. -/
def afterColon (line : PyStr) : PyStr := (line.dropWhile (· ≠ ':')).drop 1

/-- Models: pepclibs/_CPUInfoBase.py:80-91 `_get_number()`. -/
def getNumber (start : PyStr) (lines : List PyStr) (index : Nat) : Except Exn Int :=
  match lines[index]? with
  | none => .error .error
  | some line => if start.isPrefixOf line then Trivial.strToInt (afterColon line) else .error .error

/-- The first loop. Models: pepclibs/_CPUInfoBase.py:93-97. -/
def parseBlocks : List PyStr → Dict Int (List PyStr) → Except Exn (Dict Int (List PyStr))
  | [], info => .ok info
  | data :: rest, info =>
    match getNumber "processor".toList (PyStr.splitC '\n' data) 0 with
    | .error e => .error e
    | .ok cpu => parseBlocks rest (info.set cpu (PyStr.splitC '\n' data))

/-- The second loop. Models: pepclibs/_CPUInfoBase.py:99-105. -/
def addCoresLoop (info : Dict Int (List PyStr)) : List Int → TInfo → Except Exn TInfo
  | [], tinfo => .ok tinfo
  | cpu :: rest, tinfo =>
    match info.get? cpu with
    | none => .error .error
    | some lines =>
      match getNumber "physical id".toList lines 9 with
      | .error e => .error e
      | .ok package =>
        match getNumber "core id".toList lines 11 with
        | .error e => .error e
        | .ok core =>
          match tinfo.get? cpu with
          | none => .error .pyKeyError
          | some r => addCoresLoop info rest (tinfo.set cpu { r with package := some package, core := some core })

/-- Models: pepclibs/_CPUInfoBase.py:77-105 `_add_cores_and_packages()`. -/
def addCores (h : Host) (tinfo : TInfo) (cpus : List Int) : Except Exn TInfo :=
  match h.cpuinfo with
  | .error e => .error e
  | .ok text =>
    match parseBlocks (splitBlocks (PyStr.strip text)) [] with
    | .error e => .error e
    | .ok info => addCoresLoop info cpus tinfo

/-! ### Modules -/

/-- Models: pepclibs/_CPUInfoBase.py:132-135. -/
def setModules (module : Int) : List Int → TInfo → TInfo
  | [], tinfo => tinfo
  | sibling :: rest, tinfo =>
    match tinfo.get? sibling with
    | none => setModules module rest tinfo
    | some r => setModules module rest (tinfo.set sibling { r with module := some module })

/-- `tinfo[cpu]["module"] = tinfo[cpu]["core"]`. -/
def coreAsModule (r : Row) : Except Exn Row :=
  match r.core with
  | none => .error .pyKeyError
  | some core => .ok { r with module := some core }

/-- The loop; the first argument is `no_cache_info`. Models: pepclibs/_CPUInfoBase.py:107-135 `_add_modules()`. -/
def addModulesLoop (h : Host) : Bool → List Int → TInfo → Except Exn TInfo
  | _, [], tinfo => .ok tinfo
  | noCache, cpu :: rest, tinfo =>
    match tinfo.get? cpu with
    | none => .error .pyKeyError
    | some r =>
      if r.module ≠ none then addModulesLoop h noCache rest tinfo
      else if noCache then
        match coreAsModule r with
        | .error e => .error e
        | .ok r => addModulesLoop h true rest (tinfo.set cpu r)
      else
        match h.cacheId cpu with
        | .error .notFound =>
          match coreAsModule r with
          | .error e => .error e
          | .ok r => addModulesLoop h true rest (tinfo.set cpu r)
        | .error e => .error e
        | .ok data =>
          match Trivial.strToInt data with
          | .error e => .error e
          | .ok module =>
            match readRange (h.cacheCpus cpu) with
            | .error e => .error e
            | .ok siblings => addModulesLoop h false rest (setModules module siblings tinfo)

/-! ### Dies -/

/-- `d[k].add(v)` for a dictionary of sets, after adding an empty set if there is none. -/
def addTo (d : Dict Int (List Int)) (k v : Int) : Dict Int (List Int) :=
  match d.get? k with
  | none => d.set k [v]
  | some l => if v ∈ l then d else d.set k (l ++ [v])

/-- Models: pepclibs/_CPUInfoBase.py:145-148. -/
def initDies (d : Dict Int (List Int)) (package : Int) (isNew : Bool) : Dict Int (List Int) :=
  if isNew then d.set package [] else d

/-- Models: pepclibs/_CPUInfoBase.py:140-149 `_add_compute_die()`. -/
def addComputeDie (st : St) (tinfo : TInfo) (cpu die : Int) : Except Exn (St × TInfo) :=
  match tinfo.get? cpu with
  | none => .error .pyKeyError
  | some r =>
    match r.package with
    | none => .error .pyKeyError
    | some package =>
      .ok ({ st with
              computeDies := addTo st.computeDies package die
              ioDies := initDies st.ioDies package (st.computeDies.get? package).isNone },
        tinfo.set cpu { r with die := some die })

/-- Models: pepclibs/_CPUInfoBase.py:152-154. -/
def addDiesPli (read : Int → Except Exn Int) : List Int → St → TInfo → Except Exn (St × TInfo)
  | [], st, tinfo => .ok (st, tinfo)
  | cpu :: rest, st, tinfo =>
    match read cpu with
    | .error e => .error e
    | .ok die =>
      match addComputeDie st tinfo cpu die with
      | .error e => .error e
      | .ok (st, tinfo) => addDiesPli read rest st tinfo

/-- The die of the CPU is set once for every sibling, which is the same as once. A missing "package" key is not
modelled: packages are added before dies. Models: pepclibs/_CPUInfoBase.py:155-167. -/
def addDiesSysfs (h : Host) : List Int → St → TInfo → Except Exn (St × TInfo)
  | [], st, tinfo => .ok (st, tinfo)
  | cpu :: rest, st, tinfo =>
    match tinfo.get? cpu with
    | none => .error .pyKeyError
    | some r =>
      if r.die ≠ none then addDiesSysfs h rest st tinfo
      else
        match h.dieId cpu with
        | .error e => .error e
        | .ok data =>
          match Trivial.strToInt data with
          | .error e => .error e
          | .ok die =>
            match readRange (h.dieCpus cpu) with
            | .error e => .error e
            | .ok [] => addDiesSysfs h rest st tinfo
            | .ok (_ :: _) =>
              match addComputeDie st tinfo cpu die with
              | .error e => .error e
              | .ok (st, tinfo) => addDiesSysfs h rest st tinfo

/-- Models: pepclibs/_CPUInfoBase.py:137-167 `_add_compute_dies()`. -/
def addDies (h : Host) (st : St) (tinfo : TInfo) (cpus : List Int) : Except Exn (St × TInfo) :=
  match h.pli with
  | some read => addDiesPli read cpus st tinfo
  | none => addDiesSysfs h cpus st tinfo

/-- The inner loop. Models: pepclibs/_CPUInfoBase.py:194-210. -/
def ioDiesInner (package : Int) : List Int → St → List Row → St × List Row
  | [], st, topology => (st, topology)
  | die :: rest, st, topology =>
    if die ∈ (st.computeDies.get? package).getD [] then ioDiesInner package rest st topology
    else
      ioDiesInner package rest { st with ioDies := addTo st.ioDies package die } (topology ++ [Row.io package die])

/-- The outer loop. Models: pepclibs/_CPUInfoBase.py:190-210. -/
def ioDiesOuter : Dict Int (List Int) → St → List Row → St × List Row
  | [], st, topology => (st, topology)
  | (package, dies) :: rest, st, topology =>
    match st.computeDies.get? package with
    | none => ioDiesOuter rest st topology
    | some _ =>
      match ioDiesInner package dies st topology with
      | (st, topology) => ioDiesOuter rest st topology

/-- Models: pepclibs/_CPUInfoBase.py:180-210 `_add_io_dies()`. -/
def addIoDies (h : Host) (st : St) (topology : List Row) : Except Exn (St × List Row) :=
  match h.uncore with
  | none => .ok (st, topology)
  | some (.error e) => .error e
  | some (.ok info) => .ok (ioDiesOuter info st topology)

/-- Models: pepclibs/_CPUInfoBase.py:212-226 `_add_io_dies_from_cache()`. -/
def addIoDiesCached (st : St) (topology : List Row) : List Row :=
  topology ++ st.ioDies.flatMap fun e => e.2.map fun die => Row.io e.1 die

/-! ### Nodes -/

/-- Models: pepclibs/_CPUInfoBase.py:175-178. -/
def setNode (node : Int) : List Int → TInfo → TInfo
  | [], tinfo => tinfo
  | cpu :: rest, tinfo =>
    match tinfo.get? cpu with
    | none => setNode node rest tinfo
    | some r => setNode node rest (tinfo.set cpu { r with node := some node })

/-- Models: pepclibs/_CPUInfoBase.py:173-178. -/
def addNodesLoop (h : Host) : List Int → TInfo → Except Exn TInfo
  | [], tinfo => .ok tinfo
  | node :: rest, tinfo =>
    match readRange (h.nodeCpus node) with
    | .error e => .error e
    | .ok cpus => addNodesLoop h rest (setNode node cpus tinfo)

/-- Models: pepclibs/_CPUInfoBase.py:169-178 `_add_nodes()`. -/
def addNodes (h : Host) (tinfo : TInfo) : Except Exn TInfo :=
  match readRange h.nodes with
  | .error e => .error e
  | .ok nodes => addNodesLoop h nodes tinfo

/-! ### The table -/

/-- Models: pepclibs/_CPUInfoBase.py:471-476 `_sorting_map`. -/
def sortingMap : Level → List Level
  | .CPU => [.CPU]
  | .core => [.package, .core, .CPU]
  | .module => [.module, .CPU]
  | .die => [.package, .die, .CPU]
  | .node => [.node, .CPU]
  | .package => [.package, .CPU]

/-- Tuple comparison `<=` of Python. -/
def lexLe : List Int → List Int → Bool
  | [], _ => true
  | _ :: _, [] => false
  | a :: as, b :: bs => if a < b then true else if b < a then false else lexLe as bs

/-- The sorting key. A missing key is handled in `sortTopology`. -/
def Row.key (order : Level) (r : Row) : List Int := (sortingMap order).map fun l => (r.get l).getD 0

/-- Models: pepclibs/_CPUInfoBase.py:228-232 `_sort_topology()`. -/
def sortTopology (st : St) (topology : List Row) (order : Level) : Except Exn St :=
  if topology.all (fun r => (sortingMap order).all fun l => (r.get l).isSome) then
    .ok { st with topology :=
            st.topology.set order (sortBy (fun a b => lexLe (a.key order) (b.key order)) topology) }
  else .error .pyKeyError

/-- Models: pepclibs/_CPUInfoBase.py:263-264, 310-311. -/
def sortAll (topology : List Row) : List Level → St → Except Exn St
  | [], st => .ok st
  | order :: rest, st =>
    match sortTopology st topology order with
    | .error e => .error e
    | .ok st => sortAll topology rest st

/-- Add the levels to the lines, modules to nodes. `want` tells whether a level has to be added.
Models: pepclibs/_CPUInfoBase.py:249-254, 295-300. -/
def addLevels (h : Host) (want : Level → Bool) (st : St) (tinfo : TInfo) (cpus : List Int) : Except Exn (St × TInfo) :=
  match (if want .module then addModulesLoop h false cpus tinfo else .ok tinfo) with
  | .error e => .error e
  | .ok tinfo =>
    match (if want .die then addDies h st tinfo cpus else .ok (st, tinfo)) with
    | .error e => .error e
    | .ok (st, tinfo) =>
      match (if want .node then addNodes h tinfo else .ok tinfo) with
      | .error e => .error e
      | .ok tinfo => .ok (st, tinfo)

/-- The lines to start with: new CPUs, and the lines of the CPUs which are still online. Models:
pepclibs/_CPUInfoBase.py:242-245. -/
def keptLines (online : List Int) : List Row → TInfo → TInfo
  | [], tinfo => tinfo
  | r :: rest, tinfo => keptLines online rest (if r.cpu ∈ online then tinfo.set r.cpu r else tinfo)

/-- `{cpu: {"CPU": cpu} for cpu in cpus}`. -/
def newLines (cpus : List Int) : TInfo := cpus.foldl (fun d c => d.set c (Row.new c)) []

/-- `list(tinfo.values())`. -/
def values (tinfo : TInfo) : List Row := tinfo.map Prod.snd

/-- The part for a changed set of online CPUs. The branch for I/O dies from the cache is not reachable. Models:
pepclibs/_CPUInfoBase.py:240-264. -/
def rebuild (h : Host) (st : St) (old : List Row) (online : List Int) : Except Exn St :=
  let fresh := online.filter fun c => !(old.map Row.cpu).contains c
  let tinfo := keptLines online old (newLines fresh)
  match (if .package ∈ st.levels ∨ .core ∈ st.levels then addCores h tinfo fresh else .ok tinfo) with
  | .error e => .error e
  | .ok tinfo =>
    match addLevels h (fun l => decide (l ∈ st.levels)) st tinfo fresh with
    | .error e => .error e
    | .ok (st, tinfo) =>
      match (if .die ∈ st.levels then addIoDies h st (values tinfo) else .ok (st, values tinfo)) with
      | .error e => .error e
      | .ok (st, topology) => sortAll topology st.levels st

/-- Equality of sets. -/
def sameSet (a b : List Int) : Bool := a.all (b.contains ·) && b.all (a.contains ·)

/-- Models: pepclibs/_CPUInfoBase.py:234-266 `_update_topology()`. -/
def updateTopology (h : Host) (st : St) : Except Exn St :=
  match onlineCpus h st with
  | .error e => .error e
  | .ok (st, online) =>
    match st.topology.get? .CPU with
    | none => .error .pyKeyError
    | some old =>
      if sameSet online (old.map Row.cpu) then .ok { st with mustUpdate := false }
      else
        match rebuild h st old online with
        | .error e => .error e
        | .ok st => .ok { st with mustUpdate := false }

/-- Union of sets. -/
def addLevelsTo (a b : List Level) : List Level := a ++ b.filter fun l => !a.contains l

/-- `{tline["CPU"]: tline for tline in ... if tline["CPU"] != NA}`. -/
def linesOf (rows : List Row) : TInfo := rows.foldl (fun d r => if r.cpu ≠ NA then d.set r.cpu r else d) []

/-- Models: pepclibs/_CPUInfoBase.py:286-289. -/
def startLines (st : St) (online : List Int) : Except Exn TInfo :=
  if st.topology = [] then .ok (newLines online)
  else
    match st.topology.get? .CPU with
    | none => .error .pyKeyError
    | some rows => .ok (linesOf rows)

/-- `self._topology[order]`. -/
def lookup (st : St) (order : Level) : Except Exn (St × List Row) :=
  match st.topology.get? order with
  | none => .error .pyKeyError
  | some t => .ok (st, t)

/-- The part for new levels. Models: pepclibs/_CPUInfoBase.py:286-313. -/
def extend (h : Host) (st : St) (levels : List Level) (order : Level) : Except Exn (St × List Row) :=
  match onlineCpus h st with
  | .error e => .error e
  | .ok (st, online) =>
    match startLines st online with
    | .error e => .error e
    | .ok tinfo =>
      match addCores h tinfo online with
      | .error e => .error e
      | .ok tinfo =>
        match addLevels h (fun l => decide (l ∈ levels)) st tinfo online with
        | .error e => .error e
        | .ok (st, tinfo) =>
          match (if .die ∈ levels then addIoDies h st (values tinfo)
            else if .die ∈ st.levels then .ok (st, addIoDiesCached st (values tinfo))
            else .ok (st, values tinfo)) with
          | .error e => .error e
          | .ok (st, topology) =>
            let all := addLevelsTo st.levels (addLevelsTo levels [.package, .core])
            match sortAll topology all { st with levels := all } with
            | .error e => .error e
            | .ok st => lookup st order

/-- Models: pepclibs/_CPUInfoBase.py:268-313 `_get_topology()`. -/
def getTopology (h : Host) (st : St) (levels : List Level) (order : Level) : Except Exn (St × List Row) :=
  match (if st.mustUpdate then updateTopology h st else .ok st) with
  | .error e => .error e
  | .ok st =>
    let todo := (addLevelsTo levels (sortingMap order)).filter fun l => !st.levels.contains l
    if todo = [] then lookup st order else extend h st todo order

/-- Models: pepclibs/_CPUInfoBase.py:414-423 `_cpus_hotplugged()`. -/
def hotplugged (st : St) : St :=
  { st with cpus := [], mustUpdate := if st.topology = [] then st.mustUpdate else true }

end Verif.TopoBuild
