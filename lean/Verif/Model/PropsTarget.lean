import Verif.Model.OpTarget
import Verif.Model.PropsBase

/-!
Model of how the "pepc" tool reads and changes a property of the target given with the command line options:
pepctool/_PepcCommon.py, along with the per-die and per-package "get" methods of pepclibs/_PropsClassBase.py. The
"get" and "set" methods of sub-classes are parameters, as in `Verif.Model.PropsBase`.
-/

namespace Verif.PropsTarget

open CPUInfo (Info Scope Level Nums)
open OpTarget (Tgt Cache)
open PropsBase

variable {V σ κ : Type}

/-- What a property is accessed for: the scope name along with the numbers.
Models: the result of pepctool/_PepcCommon.py:110-135. -/
inductive Where where
  | cpus (l : List Nat)
  | dies (d : Dict Nat (List Nat))
  | packages (l : List Nat)
  deriving DecidableEq

/-- `return "CPU", optar.get_cpus()`. Models: pepctool/_PepcCommon.py:135. -/
def cpuNums (i : Info) (t : Tgt) (ca : Cache) : Except Exn Where × Cache :=
  match OpTarget.getCpus i t ca with
  | (.error e, ca) => (.error e, ca)
  | (.ok l, ca) => (.ok (.cpus l), ca)

/-- The scope to use. Models: pepctool/_PepcCommon.py:116-121. -/
def useScope (sname override : Option Scope) : Scope :=
  match override with
  | some s => s
  | none => match sname with
    | some s => s
    | none => .lvl .CPU

/-- Models: pepctool/_PepcCommon.py:110-135 `_get_sname_and_nums()`. `sname` is the result of `get_sname()`. Only
`ErrorNoTarget` is caught: `ErrorNoCPUTarget` is not a sub-class of it (pepctool/_OpTarget.py:20-27). -/
def snameAndNums (i : Info) (t : Tgt) (sname override : Option Scope) (ca : Cache) : Except Exn Where × Cache :=
  if useScope sname override = .lvl .package then
    match OpTarget.getPackages' i t true ca with
    | (.ok l, ca) => (.ok (.packages l), ca)
    | (.error e, ca) => if e = .noTarget then cpuNums i t ca else (.error e, ca)
  else if useScope sname override = .lvl .die then
    match OpTarget.getDies i t true ca with
    | (.ok d, ca) => (.ok (.dies d), ca)
    | (.error e, ca) => if e = .noTarget then cpuNums i t ca else (.error e, ca)
  else cpuNums i t ca

/-- Models: pepctool/_PepcCommon.py:164-188 `set_prop_sname()`. The exception of lines 178-180 is re-raised as the same
class. -/
def setPropSname (i : Info) (P : PropDesc) (norm : V → Except Exn V)
    (set : Mech → V → List Nat → σ → σ × Except Exn Unit) (t : Tgt) (val : Option V)
    (mnames : Option (List Mech)) (ca : Cache) (s : σ) : (σ × Except Exn Mech) × Cache :=
  match snameAndNums i t P.sname none ca with
  | (.error e, ca) => ((s, .error e), ca)
  | (.ok (.cpus l), ca) => (setPropCpus i P norm set val (.nums l) mnames s, ca)
  | (.ok (.dies d), ca) => (setPropDies i P norm set val d mnames s, ca)
  | (.ok (.packages l), ca) => (setPropPackages i P norm set val l mnames s, ca)

/-! ### Getting a property -/

/-- The disagreement check: the first value against the others. `ErrorUsePerCPU` is raised only after all the values
have been read. Models: pepclibs/_PropsClassBase.py:354-374, where the value of the first CPU is compared with the others. -/
def sameVals [DecidableEq V] (l : List (PVInfo Nat V)) : Bool :=
  match l with
  | [] => true
  | x :: xs => xs.all (fun y => decide (y.val = x.val))

/-- Models: pepclibs/_PropsClassBase.py:338-400 `_validate_prop_vs_ioscope()`. -/
def validateIoscope [DecidableEq V] (P : PropDesc) (get : Mech → List Nat → Gen (Nat × Option V))
    (cpus : List Nat) (mnames : List Mech) : Except Exn Unit :=
  let g := getPvinfo P (fun m => get m cpus) cpus mnames
  match g.err with
  | some e => .error e
  | none => if sameVals g.yields then .ok () else .error .usePerCPU

/-- Models: pepclibs/_PropsClassBase.py:573-581 `_get_cpu_prop_mnames()` with one mechanism: the first item of the
generator. A refusal raises `ErrorNotSupported`, and a generator which ends without any item raises `StopIteration`,
which becomes `RuntimeError` in the generator calling it (of no class the callers handle). -/
def readFirst (get : Mech → List Nat → Gen (Nat × Option V)) (c : Nat) (m : Mech) : Except Exn (Option V) :=
  match (get m [c]).yields with
  | p :: _ => .ok p.2
  | [] =>
    match (get m [c]).err with
    | some e => .error e
    | none => .error .pyValueError

/-- The generators `_get_prop_packages()` and `_get_prop_dies()`: read the first CPU of every unit.
Models: pepclibs/_PropsClassBase.py:645-660, 820-834. -/
def readUnits (cpusOf : κ → Except Exn (List Nat)) (read : Nat → Except Exn (Option V)) :
    List κ → Gen (κ × Option V)
  | [] => ⟨[], none⟩
  | u :: us =>
    match cpusOf u with
    | .error e => ⟨[], some e⟩
    | .ok [] => ⟨[], some .pyIndexError⟩
    | .ok (c :: _) =>
      match read c with
      | .error e => ⟨[], some e⟩
      | .ok v =>
        let g := readUnits cpusOf read us
        ⟨(u, v) :: g.yields, g.err⟩

/-- The I/O scope validation loop. Models: pepclibs/_PropsClassBase.py:784-789, 932-936. -/
def validateUnits [DecidableEq V] (P : PropDesc) (sname : Scope) (get : Mech → List Nat → Gen (Nat × Option V))
    (cpusOf : κ → Except Exn (List Nat)) (mnames : List Mech) : List κ → Except Exn Unit
  | [] => .ok ()
  | u :: us =>
    if sname = P.iosname then validateUnits P sname get cpusOf mnames us
    else match cpusOf u with
      | .error e => .error e
      | .ok cpus =>
        match validateIoscope P get cpus mnames with
        | .error e => .error e
        | .ok () => validateUnits P sname get cpusOf mnames us

/-- The common part of `get_prop_packages()` and `get_prop_dies()`: the units are normalized.
Models: pepclibs/_PropsClassBase.py:773-792, 920-939. Line 778 passes a wrong property name, which is not a part of
the model. -/
def getUnits [DecidableEq V] (P : PropDesc) (op : Level) (get : Mech → List Nat → Gen (Nat × Option V))
    (cpusOf : κ → Except Exn (List Nat)) (units : List κ) (ms : List Mech) : Gen (PVInfo κ V) :=
  match P.sname with
  | none => match ms.getLast? with
    | none => ⟨[], if units.isEmpty then none else some .pyIndexError⟩
    | some last => ⟨units.map (fun u => ⟨u, none, last⟩), none⟩
  | some sname =>
    if !scopeOkFor op sname then ⟨[], some .error⟩
    else match validateUnits P sname get cpusOf ms units with
      | .error e => ⟨[], some e⟩
      | .ok () => getPvinfo P (fun m => readUnits cpusOf (fun c => readFirst get c m) units) units ms

/-- Models: pepclibs/_PropsClassBase.py:890-939 `get_prop_packages()` for a list of packages, consumed to the end. -/
def getPropPackages [DecidableEq V] (i : Info) (P : PropDesc) (get : Mech → List Nat → Gen (Nat × Option V))
    (packages : List Nat) (mnames : Option (List Mech)) : Gen (PVInfo Nat V) :=
  match normalizeMnames P mnames true with
  | .error e => ⟨[], some e⟩
  | .ok ms =>
    match CPUInfo.normalizePackages i (.nums packages) with
    | .error e => ⟨[], some e⟩
    | .ok pkgs =>
      if pkgs.isEmpty then ⟨[], none⟩
      else getUnits P .package get (fun p => CPUInfo.packagesToCpus i (.nums [p])) pkgs ms

/-- Models: pepclibs/_PropsClassBase.py:727-792 `get_prop_dies()` for a dictionary, consumed to the end. Lines 769-772
change the caller's dictionary (delete the packages with empty lists of dies), which is not modelled. Nor is
the `IndexError` of `dies_to_str()` for a package with an empty list of dies when the error message is made (see C118). -/
def getPropDies [DecidableEq V] (i : Info) (P : PropDesc) (get : Mech → List Nat → Gen (Nat × Option V))
    (dies : List (Nat × List Nat)) (mnames : Option (List Mech)) : Gen (PVInfo (Nat × Nat) V) :=
  match normalizeMnames P mnames true with
  | .error e => ⟨[], some e⟩
  | .ok ms =>
    match CPUInfo.normalizePackages i (.nums (dies.map Prod.fst)) with
    | .error e => ⟨[], some e⟩
    | .ok _ =>
      match normalizeDiesDict i dies with
      | .error e => ⟨[], some e⟩
      | .ok ds =>
        if dies.all (fun p => p.2.isEmpty) then ⟨[], none⟩
        else getUnits P .die get (fun b => CPUInfo.diesToCpus i (.nums [b.2]) (.nums [b.1])) ds ms

/-- The items yielded by `get_prop_sname()`: property value dictionaries of CPUs, dies or packages. -/
inductive Item (V : Type) where
  | cpu (pv : PVInfo Nat V)
  | die (pv : PVInfo (Nat × Nat) V)
  | package (pv : PVInfo Nat V)
  deriving DecidableEq

/-- Apply a function to the items of a generator. -/
def Gen.map {α β : Type} (f : α → β) (g : Gen α) : Gen β := ⟨g.yields.map f, g.err⟩

/-- Models: pepctool/_PepcCommon.py:137-162 `get_prop_sname()`. -/
def getPropSname [DecidableEq V] (i : Info) (P : PropDesc) (get : Mech → List Nat → Gen (Nat × Option V))
    (t : Tgt) (mnames : Option (List Mech)) (override : Option Scope) (ca : Cache) : Gen (Item V) × Cache :=
  match snameAndNums i t P.sname override ca with
  | (.error e, ca) => (⟨[], some e⟩, ca)
  | (.ok (.cpus l), ca) => (Gen.map .cpu (getPropCpus i P get (.nums l) mnames), ca)
  | (.ok (.dies d), ca) => (Gen.map .die (getPropDies i P get d mnames), ca)
  | (.ok (.packages l), ca) => (Gen.map .package (getPropPackages i P get l mnames), ca)

end Verif.PropsTarget
