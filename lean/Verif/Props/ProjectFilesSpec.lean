import Verif.Model.ProjectFiles

/-! Specification for C111: the documented places of the files of the project. -/

namespace Verif.ProjectFiles

/-- A variable which is set to something. -/
def value (get : PyStr → Option PyStr) (var : PyStr) : Option PyStr := (get var).filter (· ≠ [])

/-- The documented places of data, in the documented order; `none` is a place which does not apply. A variable of the
host wins over the local one. -/
def places (e : Env) (subpath : PyStr) (envars : List PyStr) : List (Option PyStr) :=
  some e.prog ::
  (envars.map fun v => (value e.envar v).or (value e.localEnvar v)) ++
  [(value e.envar "HOME".toList).map (· ++ "/.local/share/".toList ++ subpath),
   (value e.envar "HOME".toList).map (· ++ "/share/".toList ++ subpath),
   (value e.envar "VIRTUAL_ENV".toList).map (· ++ "/share/".toList ++ subpath),
   some ("/usr/local/share/".toList ++ subpath),
   some ("/usr/share/".toList ++ subpath)]

/-- The documented places of helper programs, without "$PATH"; `var` is the value of the variable of the project. -/
def helperDirs (e : Env) (var : Option PyStr) : List (Option PyStr) × List (Option PyStr) :=
  ([if e.isRemote then none else some e.prog, var],
   [(value e.envar "HOME".toList).map (· ++ "/.local/bin".toList),
    (value e.envar "HOME".toList).map (· ++ "/bin".toList),
    (value e.envar "VIRTUAL_ENV".toList).map (· ++ "/bin".toList),
    some "/usr/local/bin".toList, some "/usr/bin".toList])

/-- The first path which is an executable: in the directories before "$PATH", the one of "$PATH", and in the
directories after it. -/
def helperSpec (e : Env) (helper : PyStr) (var : Option PyStr) : Option PyStr :=
  let dirs := helperDirs e var
  let inDirs := fun l : List (Option PyStr) => l.filterMap fun d => d.map (· ++ '/' :: helper)
  (inDirs dirs.1 ++ (value e.which helper).toList ++ inDirs dirs.2).find? e.isExe

/-- The names of datasets in a directory. -/
def names (listdir : PyStr → List PyStr) (base : PyStr) : List PyStr := (listdir base).filter (· ≠ "common".toList)

/-- The functions of the commands, without the underscore at the beginning. -/
def functions : List (PyStr × List PyStr) :=
  [("aspm".toList, ["info".toList, "config".toList]),
   ("cstates".toList, ["info".toList, "config".toList, "save".toList, "restore".toList]),
   ("pstates".toList, ["info".toList, "config".toList, "save".toList, "restore".toList]),
   ("power".toList, ["info".toList, "config".toList, "save".toList, "restore".toList]),
   ("topology".toList, ["info".toList]),
   ("cpu_hotplug".toList, ["info".toList, "online".toList, "offline".toList]),
   ("tpmi".toList, ["ls".toList, "read".toList, "write".toList])]

end Verif.ProjectFiles
