import Verif.Model.FeaturedMSR
import Verif.Model.TopoBuild

/-!
Model of pepctool/_PepcTopology.py, the "pepc topology info" command.

The CPUs and dies the user asks for (`OpTarget`, see Verif/Model/OpTarget.lean), the offline CPUs and the P-core CPUs
are inputs. The printed lines are returned.
-/

namespace Verif.TopoPrint

open CPUInfo (Level)
open TopoBuild (Row St Host NA getTopology)

/-- Models: pepclibs/_CPUInfoBase.py:25 `LEVELS`. -/
def LEVELS : List Level := [.CPU, .core, .module, .die, .node, .package]

/-- Models: pepclibs/_CPUInfoBase.py:25 `LEVELS`, the names. -/
def levelName : Level → PyStr
  | .CPU => "CPU".toList | .core => "core".toList | .module => "module".toList | .die => "die".toList
  | .node => "node".toList | .package => "package".toList

/-- The first loop. The first argument is `module`, `core` and `package` (`none` before the first line). It tells
whether the loop was left with "break". Models: pepctool/_PepcTopology.py:29-38. -/
def scanModules : Option (Option Int × Option Int × Option Int) → List Row → Bool
  | _, [] => false
  | none, r :: rs => scanModules (some (r.module, r.core, r.package)) rs
  | some (m, c, p), r :: rs =>
    if m ≠ r.module then scanModules (some (r.module, r.core, r.package)) rs
    else if c ≠ r.core ∨ p ≠ r.package then true
    else scanModules (some (m, c, p)) rs

/-- The second loop. Models: pepctool/_PepcTopology.py:40-48. -/
def scanDies : Option (Option Int × Option Int) → List Row → Bool
  | _, [] => false
  | none, r :: rs => scanDies (some (r.package, r.die)) rs
  | some (p, d), r :: rs =>
    if p ≠ r.package then scanDies (some (r.package, r.die)) rs
    else if d ≠ r.die then true
    else scanDies (some (p, d)) rs

/-- Models: pepctool/_PepcTopology.py:20-50 `_get_default_colnames()`. -/
def defaultColnames (h : Host) (st : St) : Except Exn (St × List Level) :=
  match getTopology h st [.core, .module, .package] .module with
  | .error e => .error e
  | .ok (st, rows) =>
    let cols := if scanModules none rows then LEVELS else LEVELS.filter (· ≠ .module)
    match getTopology h st [.die, .package] .package with
    | .error e => .error e
    | .ok (st, rows) => .ok (st, if scanDies none rows then cols else cols.filter (· ≠ .die))

/-- The options. -/
structure Args where
  columns : Option PyStr
  order : PyStr
  onlineOnly : Bool

/-- The level with the given name. Models: pepctool/_PepcTopology.py:118-121, 133-138. -/
def findLevel (name : PyStr) : List Level → Option Level
  | [] => none
  | l :: ls => if FeaturedMSR.lower name = FeaturedMSR.lower (levelName l) then some l else findLevel name ls

/-- The column names; the second component is `show_hybrid`. Models: pepctool/_PepcTopology.py:116-128. -/
def parseColumns : List PyStr → List Level → Bool → Except Exn (List Level × Bool)
  | [], cols, hyb => .ok (cols, hyb)
  | n :: ns, cols, hyb =>
    match findLevel n LEVELS with
    | some l => parseColumns ns (cols ++ [l]) hyb
    | none => if n = "hybrid".toList then parseColumns ns cols true else .error .error

/-- Models: pepctool/_PepcTopology.py:113-128. -/
def colnames (h : Host) (st : St) (args : Args) : Except Exn (St × List Level × Bool) :=
  match args.columns with
  | none =>
    match defaultColnames h st with
    | .error e => .error e
    | .ok (st, cols) => .ok (st, cols, false)
  | some text =>
    match parseColumns (Trivial.splitCsvLine text ',' false) [] false with
    | .error e => .error e
    | .ok (cols, hyb) => .ok (st, cols, hyb)

/-- What the user asks for: `optar.get_cpus()` and `optar.get_dies(strict=False)`. -/
structure Target where
  cpus : List Int
  dies : Dict Int (List Int)

/-- A table line: of the topology table, or for an offline CPU. -/
inductive Line where
  | row (r : Row)
  | offline (cpu : Int)
  deriving DecidableEq, Repr

/-- Models: pepctool/_PepcTopology.py:68-78 `_filter_cpus()`. -/
def filterCpus (cpus : List Int) (rows : List Row) : List Row :=
  rows.filter fun r => decide (r.cpu = NA) || decide (r.cpu ∈ cpus)

/-- Lines of I/O dies always have the package and the die. Models: pepctool/_PepcTopology.py:80-102
`_filter_io_dies()`. -/
def filterIoDies (dies : Dict Int (List Int)) (cols : List Level) (rows : List Row) : List Row :=
  let dies := if .die ∈ cols then dies else []
  rows.filter fun r => decide (r.cpu ≠ NA) ||
    match dies.get? (r.package.getD 0) with
    | none => false
    | some l => decide (r.die.getD 0 ∈ l)

/-- Models: pepctool/_PepcTopology.py:52-66 `_add_offline_cpus()`. -/
def addOffline (cpus offline : List Int) (lines : List Line) : List Line :=
  lines ++ (offline.filter fun c => decide (c ∈ cpus)).map .offline

/-- The text of a number. Models: pepctool/_PepcTopology.py:185-189. -/
def numCell (n : Int) : PyStr := if n = NA then ['-'] else PyStr.ofInt n

/-- Models: pepctool/_PepcTopology.py:60-64, 185-189. -/
def levelCell : Line → Level → Except Exn PyStr
  | .row r, l =>
    match r.get l with
    | none => .error .pyKeyError
    | some n => .ok (numCell n)
  | .offline c, .CPU => .ok (numCell c)
  | .offline _, _ => .ok ['?']

/-- Models: pepctool/_PepcTopology.py:60-64, 166-172. -/
def hybridCell (pcore : List Int) : Line → PyStr
  | .row r => if r.cpu ∈ pcore then "P-core".toList else "E-core".toList
  | .offline _ => ['?']

/-- `tuple(str(tline[name]) for name in colnames)`, the levels. -/
def levelCells (line : Line) : List Level → Except Exn (List PyStr)
  | [] => .ok []
  | l :: ls =>
    match levelCell line l with
    | .error e => .error e
    | .ok s =>
      match levelCells line ls with
      | .error e => .error e
      | .ok ss => .ok (s :: ss)

/-- All the values; the second component is the one of the "hybrid" column. The P-core CPUs are given if that column is
shown. Models: pepctool/_PepcTopology.py:189. -/
def cells (hyb : Option (List Int)) (cols : List Level) (line : Line) : Except Exn (List PyStr × Option PyStr) :=
  match levelCells line cols with
  | .error e => .error e
  | .ok ss => .ok (ss, hyb.map fun pcore => hybridCell pcore line)

/-- `"%<n>s" % s`. -/
def pad (n : Nat) (s : PyStr) : PyStr := List.replicate (n - s.length) ' ' ++ s

/-- `"    ".join(...)`. Models: pepctool/_PepcTopology.py:143. -/
def joinCols : List PyStr → PyStr
  | [] => []
  | [s] => s
  | s :: t :: ss => s ++ "    ".toList ++ joinCols (t :: ss)

/-- `fmt % args`, the column widths are the lengths of the names. Models: pepctool/_PepcTopology.py:143, 164, 190. -/
def format (cols : List Level) (ss : List PyStr × Option PyStr) : PyStr :=
  joinCols (List.zipWith (fun l s => pad (levelName l).length s) cols ss.1) ++
    match ss.2 with
    | none => []
    | some s => "    ".toList ++ pad 6 s

/-- `name[0].upper() + name[1:]`. Models: pepctool/_PepcTopology.py:147. -/
def capitalize : PyStr → PyStr
  | [] => []
  | c :: s => c.toUpper :: s

/-- Models: pepctool/_PepcTopology.py:147, 163. -/
def headers (hyb : Bool) (cols : List Level) : List PyStr × Option PyStr :=
  (cols.map fun l => capitalize (levelName l), if hyb then some "Hybrid".toList else none)

/-- The printing loop. Models: pepctool/_PepcTopology.py:182-195. -/
def printLoop (hyb : Option (List Int)) (cols : List Level) : List Line → List PyStr → Except Exn (List PyStr)
  | [], _ => .ok []
  | line :: lines, printed =>
    match cells hyb cols line with
    | .error e => .error e
    | .ok ss =>
      let s := format cols ss
      if s ∈ printed then printLoop hyb cols lines printed
      else
        match printLoop hyb cols lines (s :: printed) with
        | .error e => .error e
        | .ok out => .ok (s :: out)

/-- The whole command. Line 158 makes `show_hybrid` true on every hybrid system, so the "hybrid" column does not depend on
`hyb`, which only matters on other systems. `hybrid` is the list of P-core CPUs on a hybrid system and `none` otherwise; `optar` is creating the
`OpTarget` object, which may use the topology, and asking it for the CPUs and dies; `offline` is
`get_offline_cpus()`. Models: pepctool/_PepcTopology.py:104-195 `topology_info_command()`. -/
def infoCommand (h : Host) (hybrid : Option (List Int)) (optar : St → Except Exn (St × Target)) (offline : List Int)
    (args : Args) (st : St) : Except Exn (List PyStr) :=
  match colnames h st args with
  | .error e => .error e
  | .ok (st, cols, hyb) =>
    if hyb ∧ hybrid = none then .error .error
    else
      match findLevel args.order LEVELS with
      | none => .error .error
      | some order =>
        match optar st with
        | .error e => .error e
        | .ok (st, target) =>
          match getTopology h st (if cols = [] then LEVELS else cols) order with
          | .error e => .error e
          | .ok (_, rows) =>
            let lines := (filterIoDies target.dies cols (filterCpus target.cpus rows)).map Line.row
            let lines := if args.onlineOnly then lines else addOffline target.cpus offline lines
            match printLoop hybrid cols lines [] with
            | .error e => .error e
            | .ok body => .ok (format cols (headers hybrid.isSome cols) :: body)

end Verif.TopoPrint
