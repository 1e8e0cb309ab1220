import Verif.Model.CPUIdle
import Verif.Model.PrinterText
import Verif.Model.CStatesYaml

/-!
Model of printing requestable C-states for people: pepctool/_PepcPrinter.py `CStatesPrinter`.
-/

namespace Verif.HumanCStates

open CPUInfo (Info)
open CPUIdle (Value CState CsInfo Names St Env getInfo)
open CStatesYaml (dictKey truthy)
open PrinterText (fmtCpus)

/-- CPUs by value. -/
abbrev KInfo := Dict Value (List Nat)

/-- The aggregate C-states dictionary: CPUs by C-state name, key ("disable", "latency" and so on) and value. -/
abbrev Aggr := Dict PyStr (Dict PyStr KInfo)

/-- The loop over the values of a C-state. There are no `None` values.
Models: pepctool/_PepcPrinter.py:749-758. -/
def addAttrs (keys : List PyStr) (cpu : Nat) : Dict PyStr Value → Dict PyStr KInfo → Dict PyStr KInfo
  | [], info => info
  | (k, v) :: attrs, info =>
    if !keys.contains k then addAttrs keys cpu attrs info
    else
      let kinfo := (info.get? k).getD []
      addAttrs keys cpu attrs (info.set k (kinfo.set (dictKey v) ((kinfo.get? (dictKey v)).getD [] ++ [cpu])))

/-- The loop over the C-states of a CPU. Models: pepctool/_PepcPrinter.py:745-758. -/
def addStates (keys : List PyStr) (cpu : Nat) : CsInfo → Aggr → Aggr
  | [], aggr => aggr
  | (name, st) :: cs, aggr =>
    addStates keys cpu cs (aggr.set name (addAttrs keys cpu st.attrs ((aggr.get? name).getD [])))

/-- Models: pepctool/_PepcPrinter.py:726-760 `_build_aggr_rcsinfo()`. -/
def build (keys : List PyStr) : List (Nat × CsInfo) → Aggr → Aggr
  | [], aggr => aggr
  | (cpu, cs) :: l, aggr => build keys l (addStates keys cpu cs aggr)

/-- `str(val)`. -/
def valText : Value → PyStr
  | .num n => PyStr.ofInt n
  | .text s => s
  | .bool true => "True".toList
  | .bool false => "False".toList

/-- The line with the status, the only one with CPU numbers: `_print_val_msg(val, name=csname, cpus=cpus, action=action,
prefix=prefix)`. Models: pepctool/_PepcPrinter.py:606-636 `_print_val_msg()`, 666-668. -/
def statusLine (i : Info) (group : Bool) (action : Option PyStr) (name : PyStr) (val : Value) (cpus : List Nat) :
    Except Exn PyStr :=
  match fmtCpus i cpus with
  | .error e => .error e
  | .ok t =>
    let sfx := " for ".toList ++ t
    let pfx := name ++ ": ".toList
    let pfx := match action with
      | none => pfx
      | some a => if a.isEmpty then pfx else pfx ++ (a ++ " ".toList)
    let msg := (if group then " - ".toList else []) ++ pfx
    .ok (msg ++ ('\'' :: (if truthy val then "off".toList else "on".toList) ++ ['\''] ++ sfx))

/-- The name and the suffix of a line for a key. Models: pepctool/_PepcPrinter.py:671-681. -/
def keyText (key : PyStr) : Option (PyStr × PyStr) :=
  if key = "latency".toList then some ("expected latency".toList, " us".toList)
  else if key = "residency".toList then some ("target residency".toList, " us".toList)
  else if key = "desc".toList then some ("description".toList, [])
  else none

/-- `_print_val_msg(val, name=name, prefix=sub_prefix, suffix=suffix)`.
Models: pepctool/_PepcPrinter.py:606-636 `_print_val_msg()`, 652-658, 683-684. -/
def noteLine (group : Bool) (name sfx : PyStr) (val : Value) : PyStr :=
  (if group then "    - ".toList else " - ".toList) ++ (name ++ ": ".toList) ++ (valText val ++ sfx)

/-- Models: pepctool/_PepcPrinter.py:666-668. -/
def statusLines (i : Info) (group : Bool) (action : Option PyStr) (name : PyStr) :
    KInfo → List PyStr × Except Exn Unit
  | [] => ([], .ok ())
  | (val, cpus) :: rest =>
    match statusLine i group action name val cpus with
    | .error e => ([], .error e)
    | .ok line =>
      let r := statusLines i group action name rest
      (line :: r.1, r.2)

/-- Models: pepctool/_PepcPrinter.py:670-684. -/
def noteLines (group : Bool) (csinfo : Dict PyStr KInfo) : List PyStr :=
  csinfo.flatMap fun x =>
    match keyText x.1 with
    | none => []
    | some (name, sfx) => x.2.map fun y => noteLine group name sfx y.1

/-- The loop over the C-states. Models: pepctool/_PepcPrinter.py:660-686. -/
def printStates (i : Info) (group : Bool) (action : Option PyStr) : Aggr → List PyStr × Except Exn Nat
  | [] => ([], .ok 0)
  | (name, csinfo) :: aggr =>
    match csinfo.get? "disable".toList with
    | none => printStates i group action aggr
    | some disable =>
      match statusLines i group action name disable with
      | (lines, .error e) => (lines, .error e)
      | (lines, .ok ()) =>
        let r := printStates i group action aggr
        (lines ++ noteLines group csinfo ++ r.1, match r.2 with
          | .error e => .error e
          | .ok n => .ok (n + 1))

/-- `descr` is the description of the "sysfs" mechanism.
Models: pepctool/_PepcPrinter.py:638-686 `_print_aggr_rcsinfo_human()`. -/
def printAggr (i : Info) (descr : PyStr) (group : Bool) (action : Option PyStr) (aggr : Aggr) :
    List PyStr × Except Exn Nat :=
  if aggr.isEmpty then (["This system does not support C-states".toList], .ok 0)
  else
    let r := printStates i group action aggr
    ((if group then ["Source: ".toList ++ descr] else []) ++ r.1, r.2)

/-- Models: pepctool/_PepcPrinter.py:762-795 `print_cstates()` in the "human" format; the CPUs are normalized already. The
message at 786-788 is a line. -/
def printCStates (i : Info) (descr : PyStr) (E : Env) (names : Names) (cpus : List Nat) (skipRo group : Bool)
    (action : Option PyStr) (s : St) : St × (List PyStr × Except Exn Nat) :=
  let keys := if skipRo then ["disable".toList]
    else ["disable".toList, "latency".toList, "residency".toList, "desc".toList]
  match getInfo E names cpus s with
  | (s, .error .notSupported) => (s, (["C-states are not supported".toList], .ok 0))
  | (s, .error e) => (s, ([], .error e))
  | (s, .ok l) => (s, printAggr i descr group action (build keys l []))

end Verif.HumanCStates
