import Verif.Lib.Exn
import Verif.Lib.PyStr
import Verif.Lib.Dict

/-!
Model of how files of the project are found, and of the datasets of the '-D' option. Sources:
pepclibs/helperlibs/ProjectFiles.py, pepctool/_Pepc.py.

Simplifications: a path is a text, `a / b` is the text "a/b" (the directories are normalised paths without a trailing
slash, and what is appended is relative); the methods of the process manager do not fail; messages are dropped. A
generator is the list of what it yields and the exception it ends with.
-/

namespace Verif.ProjectFiles

/-- What is known about the host where the files are searched (`envar` to `which`), and about the local host: the
directory of the program, and the environment variables. -/
structure Env where
  envar : PyStr → Option PyStr
  present : PyStr → Bool
  isDir : PyStr → Bool
  isExe : PyStr → Bool
  which : PyStr → Option PyStr
  isRemote : Bool
  prog : PyStr
  localEnvar : PyStr → Option PyStr

/-- `Path(a) / b`. -/
def join (a b : PyStr) : PyStr := a ++ '/' :: b

/-- `if path:`: not `None` and not empty. -/
def truthy : Option PyStr → Option PyStr
  | some (c :: s) => some (c :: s)
  | _ => none

/-- `upper()` of an ASCII letter after "-" was replaced by "_". -/
def envC (c : Char) : Char :=
  if c = '-' then '_' else if 97 ≤ c.toNat ∧ c.toNat ≤ 122 then Char.ofNat (c.toNat - 32) else c

/-- Models: pepclibs/helperlibs/ProjectFiles.py:17-24 `get_project_data_envar()`. -/
def dataEnvar (prj : PyStr) : PyStr := prj.map envC ++ "_DATA_PATH".toList

/-- Models: pepclibs/helperlibs/ProjectFiles.py:26-33 `get_project_helpers_envar()`. -/
def helpersEnvar (prj : PyStr) : PyStr := prj.map envC ++ "_HELPERSPATH".toList

/-- The directories of environment variables. Models: pepclibs/helperlibs/ProjectFiles.py:69-75. -/
def envPaths (e : Env) : List PyStr → List PyStr
  | [] => []
  | v :: vs =>
    match truthy (e.envar v) with
    | some p => p :: envPaths e vs
    | none =>
      match truthy (e.localEnvar v) with
      | some p => p :: envPaths e vs
      | none => envPaths e vs

/-- Models: pepclibs/helperlibs/ProjectFiles.py:66-85. -/
def searchPaths (e : Env) (subpath : PyStr) (envars : List PyStr) : List PyStr :=
  [e.prog] ++ envPaths e envars ++
  (match truthy (e.envar "HOME".toList) with
    | some h => [join h (".local/share/".toList ++ subpath), join h ("share/".toList ++ subpath)]
    | none => []) ++
  (match truthy (e.envar "VIRTUAL_ENV".toList) with
    | some v => [join v ("share/".toList ++ subpath)]
    | none => []) ++
  ["/usr/local/share/".toList ++ subpath, "/usr/share/".toList ++ subpath]

/-- The loop over the paths. Models: pepclibs/helperlibs/ProjectFiles.py:87-92. -/
def searchLoop (e : Env) (datadir : PyStr) : List PyStr → List PyStr
  | [] => []
  | p :: ps =>
    let p := join p datadir
    if e.present p then p :: searchLoop e datadir ps else searchLoop e datadir ps

/-- Models: pepclibs/helperlibs/ProjectFiles.py:35-113 `search_project_data()`. -/
def searchProjectData (e : Env) (subpath datadir : PyStr) (envars : List PyStr) : List PyStr × Option Exn :=
  let found := searchLoop e datadir (searchPaths e subpath envars)
  (found, if found.length > 0 then none else some .notFound)

/-- Models: pepclibs/helperlibs/ProjectFiles.py:115-138 `find_project_data()`. -/
def findProjectData (e : Env) (prj datadir : PyStr) : Except Exn PyStr :=
  match searchProjectData e prj datadir [dataEnvar prj] with
  | (p :: _, _) => .ok p
  | ([], some err) => .error err
  | ([], none) => .error .pyValueError

/-- The paths of a helper. The value of the local variable is read, but it is not used.
Models: pepclibs/helperlibs/ProjectFiles.py:177-206. -/
def helperPaths (e : Env) (prj helper : PyStr) : List PyStr :=
  (if e.isRemote then [] else [e.prog]) ++
  (match truthy (e.envar (helpersEnvar prj)) with
    | some p => [p]
    | none => []) ++
  (match truthy (e.which helper) with
    | some p => [p]
    | none => []) ++
  (match truthy (e.envar "HOME".toList) with
    | some h => [join h ".local/bin".toList, join h "bin".toList]
    | none => []) ++
  (match truthy (e.envar "VIRTUAL_ENV".toList) with
    | some v => [join v "bin".toList]
    | none => []) ++
  ["/usr/local/bin".toList, "/usr/bin".toList]

/-- The loop over the paths. Models: pepclibs/helperlibs/ProjectFiles.py:208-216. -/
def helperLoop (e : Env) (helper : PyStr) : List PyStr → Except Exn PyStr
  | [] => .error .notFound
  | p :: ps =>
    let exe := if e.isDir p then join p helper else p
    if e.isExe exe then .ok exe else helperLoop e helper ps

/-- Models: pepclibs/helperlibs/ProjectFiles.py:157-219 `find_project_helper()`. -/
def findProjectHelper (e : Env) (prj helper : PyStr) : Except Exn PyStr :=
  helperLoop e helper (helperPaths e prj helper)

/-! ### Datasets -/

/-- The loop over the names in a directory. `datasets` are the names so far, with their directories. The last
component is the new dictionary, or the exception. Models: pepctool/_Pepc.py:1037-1045. -/
def nameLoop (base : PyStr) : List PyStr → Dict PyStr PyStr → List PyStr × Except Exn (Dict PyStr PyStr)
  | [], datasets => ([], .ok datasets)
  | name :: names, datasets =>
    if name = "common".toList then nameLoop base names datasets
    else
      match datasets.get? name with
      | some _ => ([], .error .error)
      | none =>
        match nameLoop base names (datasets.set name (join base name)) with
        | (l, r) => (join base name :: l, r)

/-- The loop over the directories; `err` is how the generator of directories ends. Models: pepctool/_Pepc.py:1035-1045. -/
def baseLoop (listdir : PyStr → List PyStr) (err : Option Exn) :
    List PyStr → Dict PyStr PyStr → List PyStr × Option Exn
  | [], _ => ([], err)
  | base :: bases, datasets =>
    match nameLoop base (listdir base) datasets with
    | (l, .error e) => (l, some e)
    | (l, .ok datasets) =>
      match baseLoop listdir err bases datasets with
      | (l', r) => (l ++ l', r)

/-- `localIsDir` tells which paths are directories for the program. Models: pepctool/_Pepc.py:1021-1049
`_get_next_dataset()`. -/
def nextDataset (e : Env) (localIsDir : PyStr → Bool) (listdir : PyStr → List PyStr) (dataset : PyStr) :
    List PyStr × Option Exn :=
  if localIsDir dataset then ([dataset], none)
  else if dataset = "all".toList then
    match searchProjectData e "pepc".toList "tests/data".toList [] with
    | (bases, err) => baseLoop listdir err bases []
  else
    match findProjectData e "pepc".toList ("tests/data/".toList ++ dataset) with
    | .ok p => ([p], none)
    | .error err => ([], some err)

/-- The loop of `main()`: `run` is a command for a dataset. The result is the datasets the command was run for and how
the program ends. Models: pepctool/_Pepc.py:1135-1137. -/
def runLoop (run : PyStr → Option Exn) (err : Option Exn) : List PyStr → List PyStr × Option Exn
  | [] => ([], err)
  | p :: ps =>
    match run p with
    | some e => ([p], some e)
    | none =>
      match runLoop run err ps with
      | (l, r) => (p :: l, r)

/-- Models: pepctool/_Pepc.py:1132-1137. -/
def runDatasets (e : Env) (localIsDir : PyStr → Bool) (listdir : PyStr → List PyStr)
    (run : (common path : PyStr) → Option Exn) (dataset : PyStr) : List PyStr × Option Exn :=
  match findProjectData e "pepc".toList "tests/data/common".toList with
  | .error err => ([], some err)
  | .ok common =>
    match nextDataset e localIsDir listdir dataset with
    | (paths, err) => runLoop (run common) err paths

/-- `sub in s`. -/
def hasSub (sub : PyStr) : PyStr → Bool
  | [] => sub.isEmpty
  | c :: s => sub.isPrefixOf (c :: s) || hasSub sub s

/-- Models: pepctool/_Pepc.py:1059-1067. -/
def cmdModules : Dict PyStr (List PyStr) :=
  [("aspm".toList, ["ASPM".toList, "Systemctl".toList]),
   ("cstates".toList, ["CPUInfo".toList, "CStates".toList, "Systemctl".toList]),
   ("pstates".toList, ["CPUInfo".toList, "PStates".toList, "Systemctl".toList]),
   ("power".toList, ["CPUInfo".toList, "Power".toList]),
   ("topology".toList, ["CPUInfo".toList]),
   ("cpu_hotplug".toList, ["CPUInfo".toList, "CPUOnline".toList, "Systemctl".toList]),
   ("tpmi".toList, ["TPMI".toList])]

/-- Models: pepctool/_Pepc.py:1069-1074. -/
def modulesOf (fname : PyStr) : Except Exn (List PyStr) :=
  match cmdModules.find? fun c => hasSub c.1 fname with
  | some c => .ok c.2
  | none => .error .error

end Verif.ProjectFiles
