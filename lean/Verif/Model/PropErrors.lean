import Verif.Model.PrinterText
import Verif.Model.PropsTarget
import Verif.Model.ToolChecker

/-!
Model of what pepclibs/_PropsClassBase.py tells when a property is not supported, and of its methods for a single CPU, die or
package.
-/

namespace Verif.PropErrors

open CPUInfo (Info Scope Level)
open PropsBase
open PropsYaml (rangifyN)

/-! ### Texts -/

/-- The part of a text before the first separator: `text.split(sep)[0]`. -/
def firstPart (sep : Char) (s : PyStr) : PyStr := ((PyStr.splitC sep s).head?).getD []

/-- Letters are those of ASCII. Models: pepclibs/helperlibs/Human.py:569-608 `uncapitalize()`. The list of parts is never empty,
so the check in line 592 does nothing. -/
def uncapitalize (sentence : PyStr) : PyStr :=
  let word := firstPart ' ' sentence
  if word.length < 2 then sentence
  else
    let word := firstPart '-' word
    match word with
    | a :: b :: _ =>
      if a.isLower || b.isUpper then sentence
      else if word.any Char.isDigit then sentence
      else match sentence with
        | [] => []
        | c :: s => c.toLower :: s
    | _ => sentence

/-- Models: pepclibs/CPUInfo.py:1112-1116. -/
def dieStr (package : Nat) (dies : List Nat) : Except Exn PyStr :=
  if dies.length > 1 then .ok ("package ".toList ++ PyStr.ofNat package ++ " dies ".toList ++ rangifyN dies)
  else match dies with
    | [] => .error .pyIndexError
    | die :: _ => .ok ("package ".toList ++ PyStr.ofNat package ++ " die ".toList ++ PyStr.ofNat die)

/-- The loop. Models: pepclibs/CPUInfo.py:1110-1116. -/
def dieStrs : List (Nat × List Nat) → Except Exn (List PyStr)
  | [] => .ok []
  | (package, dies) :: rest =>
    match dieStr package dies with
    | .error e => .error e
    | .ok s =>
      match dieStrs rest with
      | .error e => .error e
      | .ok l => .ok (s :: l)

/-- Models: pepclibs/CPUInfo.py:1102-1125 `dies_to_str()`. -/
def diesToStr (dies : List (Nat × List Nat)) : Except Exn PyStr :=
  match dieStrs dies with
  | .error e => .error e
  | .ok [] => .error .pyIndexError
  | .ok [s] => .ok s
  | .ok (s :: t :: l) =>
    .ok (PrinterText.joinComma (s :: t :: l).dropLast ++ ", and ".toList ++ ((s :: t :: l).getLast?).getD [])

/-- Models: pepclibs/_PropsClassBase.py:478-481. -/
def cpusToStr (cpus : List Nat) : Except Exn PyStr :=
  if cpus.length > 1 then .ok ("the following CPUs: ".toList ++ rangifyN cpus)
  else match cpus with
    | [] => .error .pyIndexError
    | cpu :: _ => .ok ("CPU ".toList ++ PyStr.ofNat cpu)

/-- Models: pepclibs/_PropsClassBase.py:500-503. -/
def packagesToStr (packages : List Nat) : Except Exn PyStr :=
  if packages.length > 1 then .ok ("the following packages: ".toList ++ rangifyN packages)
  else match packages with
    | [] => .error .pyIndexError
    | package :: _ => .ok ("CPU ".toList ++ PyStr.ofNat package)

/-- `f"'{name}'"`. -/
def quoted (s : PyStr) : PyStr := '\'' :: (s ++ ['\''])

/-- Models: pepclibs/_PropsClassBase.py:451-457. -/
def mnamesToStr (mnames : List PyStr) : Except Exn PyStr :=
  match mnames with
  | [] => .error .pyIndexError
  | [a] => .ok ("using the ".toList ++ quoted a ++ " method".toList)
  | [a, b] => .ok ("using ".toList ++ quoted a ++ " and ".toList ++ quoted b ++ " methods".toList)
  | a :: b :: c :: l =>
    .ok ("using ".toList ++ PrinterText.joinComma ((a :: b :: c :: l).map quoted).dropLast ++ " and ".toList ++
      (((a :: b :: c :: l).map quoted).getLast?).getD [] ++ " methods".toList)

/-- `exceptions` are the messages. Models: pepclibs/_PropsClassBase.py:459-463. -/
def errmsgs (exceptions : List PyStr) : PyStr :=
  if exceptions ≠ [] then '\n' :: PyStr.joinC '\n' ((Trivial.listDedup exceptions).map ToolChecker.indent2)
  else []

/-- The result: `ErrorNotSupported`, a debug message, or another exception. -/
inductive Report where
  | raises (msg : PyStr)
  | debug (msg : PyStr)
  | other (e : Exn)
  deriving DecidableEq

/-- Models: pepclibs/_PropsClassBase.py:445-470 `_do_prop_not_supported()`. -/
def doNotSupported (name nums : PyStr) (mnames : List PyStr) (action : PyStr) (exceptions : List PyStr) : Report :=
  match mnamesToStr mnames with
  | .error e => .other e
  | .ok m =>
    let msg := "cannot ".toList ++ action ++ " ".toList ++ uncapitalize name ++ " ".toList ++ m ++ " for ".toList ++ nums ++
      errmsgs exceptions
    if exceptions ≠ [] then .raises msg else .debug msg

/-- What a property is accessed for. -/
inductive Target where
  | cpus (l : List Nat)
  | dies (d : List (Nat × List Nat))
  | packages (l : List Nat)

/-- Models: pepclibs/_PropsClassBase.py:472-505 `_prop_not_supported_cpus()`, `_prop_not_supported_dies()`,
`_prop_not_supported_packages()`. -/
def notSupported (name : PyStr) (t : Target) (mnames : List PyStr) (action : PyStr) (exceptions : List PyStr) : Report :=
  match (match t with
    | .cpus l => cpusToStr l
    | .dies d => diesToStr d
    | .packages l => packagesToStr l) with
  | .error e => .other e
  | .ok nums => doNotSupported name nums mnames action exceptions

/-! ### Dies -/

variable {V κ : Type} [DecidableEq V]

/-- `getLoop` with the exception which the text about the dies ends with. Models: pepclibs/_PropsClassBase.py:662-706. -/
def getLoopText (crash : Option Exn) (get : Mech → Gen (κ × Option V)) (nums : List κ) (last : Mech) : List Mech → Gen (PVInfo κ V)
  | [] =>
    match crash with
    | some e => ⟨[], some e⟩
    | none => ⟨nums.map (fun n => ⟨n, none, last⟩), none⟩
  | m :: ms =>
    let g := get m
    match g.err with
    | none => ⟨tag m g.yields, none⟩
    | some e =>
      if e.isNotSupported then
        if g.yields.isEmpty then getLoopText crash get nums last ms
        else ⟨tag m g.yields, some .error⟩
      else ⟨tag m g.yields, some e⟩

/-- The exception of `dies_to_str()`. -/
def crashOf (dies : List (Nat × List Nat)) : Option Exn :=
  match diesToStr dies with
  | .error e => some e
  | .ok _ => none

/-- `PropsTarget.getPropDies` along with the text about the dies. The lists are without duplicates. Models:
pepclibs/_PropsClassBase.py:730-794 `get_prop_dies()` for a dictionary, consumed to the end. -/
def getPropDiesText (i : Info) (P : PropDesc) (get : Mech → List Nat → Gen (Nat × Option V)) (dies : List (Nat × List Nat))
    (mnames : Option (List Mech)) : Gen (PVInfo (Nat × Nat) V) :=
  match normalizeMnames P mnames true with
  | .error e => ⟨[], some e⟩
  | .ok ms =>
    match CPUInfo.normalizePackages i (.nums (dies.map Prod.fst)) with
    | .error e => ⟨[], some e⟩
    | .ok _ =>
      match normalizeDiesDict i dies with
      | .error e => ⟨[], some e⟩
      | .ok ds =>
        if dies.all (fun p => p.2.isEmpty) then ⟨[], none⟩
        else
          match P.sname with
          | none => match ms.getLast? with
            | none => ⟨[], if ds.isEmpty then none else some .pyIndexError⟩
            | some last => ⟨ds.map (fun u => ⟨u, none, last⟩), none⟩
          | some sname =>
            let cpusOf := fun b : Nat × Nat => CPUInfo.diesToCpus i (.nums [b.2]) (.nums [b.1])
            if !scopeOkFor .die sname then ⟨[], some .error⟩
            else match PropsTarget.validateUnits P sname get cpusOf ms ds with
              | .error e => ⟨[], some e⟩
              | .ok () =>
                match (orDefault P ms).getLast? with
                | none => ⟨[], some .pyIndexError⟩
                | some last =>
                  getLoopText (crashOf dies) (fun m => PropsTarget.readUnits cpusOf (fun c => PropsTarget.readFirst get c m) ds)
                    ds last (orDefault P ms)

/-! ### One CPU -/

/-- The first item of a generator; `none` is `None`. -/
def first {α : Type} (g : Gen α) : Except Exn (Option α) :=
  match g.yields with
  | x :: _ => .ok (some x)
  | [] => match g.err with
    | some e => .error e
    | none => .ok none

/-- `x["val"] is not None`. -/
def hasVal : Except Exn (Option (PVInfo κ V)) → Except Exn Bool
  | .error e => .error e
  | .ok none => .error .pyTypeError
  | .ok (some x) => .ok x.val.isSome

/-- Models: pepclibs/_PropsClassBase.py:623-633 `get_cpu_prop()`. -/
def getCpuProp (i : Info) (P : PropDesc) (get : Mech → List Nat → Gen (Nat × Option V)) (cpu : Nat) (mnames : Option (List Mech)) :
    Except Exn (Option (PVInfo Nat V)) :=
  first (getPropCpus i P get (.nums [cpu]) mnames)

/-- Models: pepclibs/_PropsClassBase.py:635-643 `prop_is_supported_cpu()`. -/
def isSupportedCpu (i : Info) (P : PropDesc) (get : Mech → List Nat → Gen (Nat × Option V)) (cpu : Nat) : Except Exn Bool :=
  hasVal (getCpuProp i P get cpu none)

/-- Models: pepclibs/_PropsClassBase.py:947-957 `get_package_prop()`. -/
def getPackageProp (i : Info) (P : PropDesc) (get : Mech → List Nat → Gen (Nat × Option V)) (package : Nat)
    (mnames : Option (List Mech)) : Except Exn (Option (PVInfo Nat V)) :=
  first (PropsTarget.getPropPackages i P get [package] mnames)

/-- Models: pepclibs/_PropsClassBase.py:959-967 `prop_is_supported_package()`. -/
def isSupportedPackage (i : Info) (P : PropDesc) (get : Mech → List Nat → Gen (Nat × Option V)) (package : Nat) : Except Exn Bool :=
  hasVal (getPackageProp i P get package none)

end Verif.PropErrors
