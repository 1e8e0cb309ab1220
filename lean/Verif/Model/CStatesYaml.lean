import Verif.Model.CPUIdle
import Verif.Model.PropsYaml

/-!
Model of saving the on/off status of C-states to a file and restoring it: pepctool/_PepcPrinter.py and
pepctool/_PepcSetter.py. The YAML library is not modelled: what is loaded is what was dumped.
-/

namespace Verif.CStatesYaml

open CPUIdle (Value CState CsInfo Names St Env getInfo toggleCStates)
open PropsYaml (rangifyN)

/-! ### Saving -/

/-- A value as a dictionary key: in Python, `True == 1` and `False == 0`. Simplification: the dictionary keeps the key that
was added first, here it is always the number. -/
def dictKey : Value → Value
  | .bool true => .num 1
  | .bool false => .num 0
  | v => v

/-- Python's truth value. -/
def truthy : Value → Bool
  | .num n => n != 0
  | .text s => !s.isEmpty
  | .bool b => b

/-- The "disable" part of the aggregate C-states dictionary: the CPUs by C-state name and value. Without values there is no
"disable" key in the code. -/
abbrev Aggr := Dict PyStr (Dict Value (List Nat))

/-- One C-state of one CPU. Models: pepctool/_PepcPrinter.py:745-758 with `keys = {"disable"}`. -/
def addState (cpu : Nat) (name : PyStr) (st : CState) (aggr : Aggr) : Aggr :=
  let kinfo := (aggr.get? name).getD []
  match st.attrs.get? "disable".toList with
  | none => aggr.set name kinfo
  | some v => aggr.set name (kinfo.set (dictKey v) ((kinfo.get? (dictKey v)).getD [] ++ [cpu]))

/-- Models: pepctool/_PepcPrinter.py:745-758, all C-states of a CPU. -/
def addStates (cpu : Nat) : CsInfo → Aggr → Aggr
  | [], aggr => aggr
  | (name, st) :: cs, aggr => addStates cpu cs (addState cpu name st aggr)

/-- Models: pepctool/_PepcPrinter.py:726-760 `_build_aggr_rcsinfo()`. -/
def build : List (Nat × CsInfo) → Aggr → Aggr
  | [], aggr => aggr
  | (cpu, cs) :: l, aggr => build l (addStates cpu cs aggr)

/-- What is saved as the value: "on" or "off", or whatever the value was. -/
inductive Saved where
  | status (on : Bool)
  | raw (v : Value)
  deriving DecidableEq, Repr

/-- `{"value": value, "CPU": cpus}`. -/
structure CEntry where
  value : Saved
  cpus : PyStr
  deriving DecidableEq, Repr

/-- The entries of a C-state. The value is turned to "on" or "off" when `key == "disable"`, and then `key` is changed to
"value": this is why only the first value is turned. Models: pepctool/_PepcPrinter.py:693-702. -/
def entries : Dict Value (List Nat) → List CEntry
  | [] => []
  | (v, cpus) :: rest => ⟨.status (!truthy v), rangifyN cpus⟩ :: rest.map fun p => ⟨.raw p.1, rangifyN p.2⟩

/-- The C-states part of the file. -/
abbrev File := Dict PyStr (List CEntry)

/-- Models: pepctool/_PepcPrinter.py:687-705 `_print_aggr_rcsinfo_yaml()`. -/
def toYaml (aggr : Aggr) : File := (aggr.map fun p => (p.1, entries p.2)).filter fun p => !p.2.isEmpty

/-- Models: pepctool/_PepcPrinter.py:762-795 `print_cstates()` with all C-states and `skip_ro=True`,
pepctool/_PepcCStates.py:195. Without C-states nothing is saved. -/
def save (E : Env) (cpus : List Nat) (s : St) : St × Except Exn File :=
  match getInfo E .all cpus s with
  | (s, .error .notSupported) => (s, .ok [])
  | (s, .error e) => (s, .error e)
  | (s, .ok l) => (s, .ok (toYaml (build l [])))

/-! ### Restoring -/

/-- C-state names given as a string. Models: pepclibs/CPUIdle.py:216-220. -/
def namesOfStr (s : PyStr) : Names := if s = "all".toList then .all else .list (Trivial.splitCsvLine s ',' false)

/-- CPU numbers in the file; `none` stands for "all".
Models: pepctool/_PepcCommon.py:37-46 `parse_cpus_string()`. -/
def parseCpusStr (s : PyStr) : Except Exn (Option (List Int)) :=
  if s = "all".toList then .ok none
  else match Trivial.parseIntList [s] ',' true with
    | .error e => .error e
    | .ok l => .ok (some l)

/-- Models: pepclibs/CPUInfo.py:864-892 `normalize_cpus()`, `online` are the CPUs that are on-line in ascending order. -/
def normalizeCpus (online : List Nat) : Option (List Int) → Except Exn (List Nat)
  | none => .ok online
  | some l =>
    let l := pyDedup l
    if l.all (fun c => online.any fun o => (o : Int) == c) then .ok (l.map Int.toNat) else .error .error

/-- Models: pepclibs/CPUIdle.py:416-429 with 287-318: the arguments of `enable_cstates()` and `disable_cstates()`, given as
in the file. -/
def toggleStr (E : Env) (online : List Nat) (csname : PyStr) (cpus : Option (List Int)) (enable : Bool) (s : St) :
    St × Except Exn Unit :=
  if !E.driver then (s, .error .notSupported)
  else match normalizeCpus online cpus with
    | .error e => (s, .error e)
    | .ok cpus =>
      match toggleCStates E (namesOfStr csname) cpus enable s with
      | (s, .error e) => (s, .error e)
      | (s, .ok _) => (s, .ok ())

/-- The information is read for printing it. Models: pepctool/_PepcPrinter.py:762-795 `print_cstates()` with one name. -/
def print (E : Env) (online : List Nat) (csname : PyStr) (cpus : Option (List Int)) (s : St) : St × Except Exn Unit :=
  if !E.driver then (s, .ok ())
  else match normalizeCpus online cpus with
    | .error e => (s, .error e)
    | .ok cpus =>
      match getInfo E (.list [csname]) cpus s with
      | (s, .error .notSupported) => (s, .ok ())
      | (s, .error e) => (s, .error e)
      | (s, .ok _) => (s, .ok ())

/-- One entry. Models: pepctool/_PepcSetter.py:326-339. -/
def restoreEntry (E : Env) (online : List Nat) (csname : PyStr) (e : CEntry) (s : St) : St × Except Exn Unit :=
  match parseCpusStr e.cpus with
  | .error err => (s, .error err)
  | .ok cpus =>
    match e.value with
    | .raw _ => (s, .error .error)
    | .status on =>
      match toggleStr E online csname cpus on s with
      | (s, .error err) => (s, .error err)
      | (s, .ok ()) => print E online csname cpus s

/-- The entries of a C-state. Models: pepctool/_PepcSetter.py:326-339. -/
def restoreEntries (E : Env) (online : List Nat) (csname : PyStr) : List CEntry → St → St × Except Exn Unit
  | [], s => (s, .ok ())
  | e :: es, s =>
    match restoreEntry E online csname e s with
    | (s, .error err) => (s, .error err)
    | (s, .ok ()) => restoreEntries E online csname es s

/-- Models: pepctool/_PepcSetter.py:319-340 `_restore_cstates()`. -/
def restoreCStates (E : Env) (online : List Nat) : File → St → St × Except Exn Unit
  | [], s => (s, .ok ())
  | (csname, es) :: f, s =>
    match restoreEntries E online csname es s with
    | (s, .error err) => (s, .error err)
    | (s, .ok ()) => restoreCStates E online f s

/-- The C-states part of restoring: the C-state names of the system are collected, and other names in the file are refused.
Models: pepctool/_PepcSetter.py:342-373 `restore()`. Simplification: the file has no properties (restoring these is
`PropsYaml.restore`; in the code names which are not C-states are looked for among the properties). -/
def restore (E : Env) (online : List Nat) (f : File) (s : St) : St × Except Exn Unit :=
  match getInfo E .all online s with
  | (s, .error .notSupported) => if f.isEmpty then (s, .ok ()) else (s, .error .error)
  | (s, .error e) => (s, .error e)
  | (s, .ok l) =>
    if f.keys.all (fun n => l.any fun x => x.2.keys.contains n) then restoreCStates E online f s
    else (s, .error .error)

/-! ### The package C-state limit -/

/-- What the information about the package C-state limit becomes. -/
inductive Adjusted (α : Type) where
  | same (a : α)
  | removed
  | broken
  deriving DecidableEq

/-- Removing CPUs with a locked limit. When only some of the CPUs are locked, the loop goes over the keys "sname" and "vals",
and the result has lists instead of the scope name and the dictionary with the values.
Models: pepctool/_PepcPrinter.py:559-604 `_adjust_aggr_pinfo_pcs_limit()` for one mechanism. -/
def adjustLimit {α : Type} (locked : Nat → Bool) (cpus : List Nat) (pinfo : α) : Adjusted α :=
  let lockedCpus := cpus.filter locked
  if lockedCpus.isEmpty then .same pinfo
  else if lockedCpus.length = cpus.length then .removed
  else .broken

/-- Printing: "vals" has to be a dictionary. Models: pepctool/_PepcPrinter.py:303-305. -/
def printAdjusted {α : Type} : Adjusted α → Except Exn (Option α)
  | .same a => .ok (some a)
  | .removed => .ok none
  | .broken => .error .pyAttributeError

end Verif.CStatesYaml
