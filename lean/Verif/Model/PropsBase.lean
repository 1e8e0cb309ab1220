import Verif.Model.CPUInfo

/-!
Model of the property "get" and "set" logic of pepclibs/_PropsClassBase.py: mechanism selection, scope
validation, CPU list reduction. The sub-class methods which actually read and write a property
(`_get_prop_cpus()`, `_set_prop_cpus()`) are parameters.
-/

namespace Verif.PropsBase

open CPUInfo (Info Scope Level Nums)

/-- Mechanism names. Models: pepclibs/_PropsClassBase.py:44-70 `MECHANISMS`. -/
inductive Mech where
  | sysfs | cdev | msr | cppc | doc
  deriving DecidableEq, Repr

/-- Models: pepclibs/_PropsClassBase.py:44-70, the "writable" key. -/
def Mech.writable : Mech → Bool
  | .sysfs | .cdev | .msr => true
  | .cppc | .doc => false

/-- A property description. `sname` is the scope after `_set_sname()`, `none` means that `_set_sname()`
raises `ErrorNotSupported`. Models: the `PROPS` dictionaries, e.g. pepclibs/PStates.py:52-223, and
pepclibs/_PropsClassBase.py:178-208. -/
structure PropDesc where
  mnames : List Mech
  sname : Option Scope
  iosname : Scope
  writable : Bool

/-- What a generator yields before it ends (`err = none`) or raises. -/
structure Gen (α : Type) where
  yields : List α
  err : Option Exn
  deriving DecidableEq

/-- A property value dictionary: CPU number (or another number), value, mechanism name; `val = none`
stands for `None`. Models: pepclibs/_PropsClassBase.py:402-425 `_construct_*_pvinfo()`. -/
structure PVInfo (κ V : Type) where
  num : κ
  val : Option V
  mname : Mech
  deriving DecidableEq

variable {V σ κ : Type}

/-- The validation loop. Models: pepclibs/_PropsClassBase.py:133-161 `_validate_mname()` with "pname". -/
def validateMnames (P : PropDesc) (allowReadonly : Bool) : List Mech → Except Exn Unit
  | [] => .ok ()
  | m :: ms =>
    if !P.mnames.contains m then .error .notSupported
    else if !allowReadonly && !m.writable then .error .error
    else validateMnames P allowReadonly ms

/-- Models: pepclibs/_PropsClassBase.py:163-176 `_normalize_mnames()` with "pname". -/
def normalizeMnames (P : PropDesc) (mnames : Option (List Mech)) (allowReadonly : Bool) :
    Except Exn (List Mech) :=
  match mnames with
  | none => .ok P.mnames
  | some l =>
    match validateMnames P allowReadonly l with
    | .error e => .error e
    | .ok () => .ok (pyDedup l)

/-- `if not mnames: mnames = prop["mnames"]`. -/
def orDefault (P : PropDesc) (mnames : List Mech) : List Mech :=
  if mnames.isEmpty then P.mnames else mnames

/-- Attach the mechanism name. -/
def tag (m : Mech) (l : List (κ × Option V)) : List (PVInfo κ V) := l.map (fun p => ⟨p.1, p.2, m⟩)

/-- The loop over the mechanisms; `get m` is what `_get_prop_cpus(pname, cpus, m)` (or the per-die or
per-package method) yields, `nums` are the requested numbers and `last` is the last mechanism. The last
branch is with `raise_not_supported=False`.
Models: pepclibs/_PropsClassBase.py:519-560, 662-705 and 836-879. -/
def getLoop (get : Mech → Gen (κ × Option V)) (nums : List κ) (last : Mech) :
    List Mech → Gen (PVInfo κ V)
  | [] => ⟨nums.map (fun n => ⟨n, none, last⟩), none⟩
  | m :: ms =>
    let g := get m
    match g.err with
    | none => ⟨tag m g.yields, none⟩
    | some e =>
      if e.isNotSupported then
        if g.yields.isEmpty then getLoop get nums last ms
        else ⟨tag m g.yields, some .error⟩
      else ⟨tag m g.yields, some e⟩

/-- Models: pepclibs/_PropsClassBase.py:519-560 `_get_prop_pvinfo_cpus()` with
`raise_not_supported=False`, and the same for dies and packages. -/
def getPvinfo (P : PropDesc) (get : Mech → Gen (κ × Option V)) (nums : List κ) (mnames : List Mech) :
    Gen (PVInfo κ V) :=
  match (orDefault P mnames).getLast? with
  | none => ⟨[], some .pyIndexError⟩
  | some last => getLoop get nums last (orDefault P mnames)

/-- Models: pepclibs/_PropsClassBase.py:583-621 `get_prop_cpus()`, consumed to the end. -/
def getPropCpus (i : Info) (P : PropDesc) (get : Mech → List Nat → Gen (Nat × Option V)) (cpus : Nums)
    (mnames : Option (List Mech)) : Gen (PVInfo Nat V) :=
  match normalizeMnames P mnames true with
  | .error e => ⟨[], some e⟩
  | .ok ms =>
    match CPUInfo.normalizeCpus i cpus false with
    | .error e => ⟨[], some e⟩
    | .ok cpus =>
      if cpus.isEmpty then ⟨[], none⟩
      else match P.sname with
        | none => match ms.getLast? with
          | none => ⟨[], some .pyIndexError⟩
          | some last => ⟨cpus.map (fun c => ⟨c, none, last⟩), none⟩
        | some _ => getPvinfo P (fun m => get m cpus) cpus ms

/-- The loop over the mechanisms when setting: `set m` is `_set_prop_cpus(pname, val, cpus, m)`. The
final error is `ErrorNotSupported`; without any mechanism building the message raises `IndexError`.
Models: pepclibs/_PropsClassBase.py:1016-1033, 1122-1139, 1205-1222, 445-471. -/
def setLoop (set : Mech → σ → σ × Except Exn Unit) : List Mech → Bool → σ → σ × Except Exn Mech
  | [], tried, s => (s, if tried then .error .notSupported else .error .pyIndexError)
  | m :: ms, _, s =>
    match set m s with
    | (s, .ok ()) => (s, .ok m)
    | (s, .error e) =>
      if e.isNotSupported || e.isTryAnother then setLoop set ms true s
      else (s, .error e)

/-- Models: pepclibs/_PropsClassBase.py:1016-1033 `_set_prop_cpus_mnames()`. -/
def setMnames (P : PropDesc) (set : Mech → σ → σ × Except Exn Unit) (mnames : List Mech) (s : σ) :
    σ × Except Exn Mech :=
  setLoop set (orDefault P mnames) false s

/-- Models: pepclibs/_PropsClassBase.py:237-314 `_validate_cpus_vs_scope()`; the construction of the
error message is dropped. -/
def validateCpusVsScope (i : Info) (sname : Scope) (cpus : List Nat) : Except Exn Unit :=
  match sname with
  | .lvl .CPU => .ok ()
  | .global =>
    match CPUInfo.getCpus i .CPU with
    | .error e => .error e
    | .ok all => if all.all (fun c => cpus.contains c) then .ok () else .error .error
  | .lvl .package =>
    match CPUInfo.cpusDivPackages i (.nums cpus) .all with
    | .error e => .error e
    | .ok (_, rem) => if rem.isEmpty then .ok () else .error .error
  | .lvl .die =>
    match CPUInfo.cpusDivDies i (.nums cpus) with
    | .error e => .error e
    | .ok (_, rem) => if rem.isEmpty then .ok () else .error .error
  | .lvl .core =>
    match CPUInfo.cpusDivCores i (.nums cpus) with
    | .error e => .error e
    | .ok (_, rem) => if rem.isEmpty then .ok () else .error .error
  | .lvl .module | .lvl .node => .error .error

/-- The checks of `_normalize_inprop()`; `norm` is the conversion of the value (`none` stands for a
`None` value). Models: pepclibs/_PropsClassBase.py:969-1005. -/
def normalizeInprop (P : PropDesc) (norm : V → Except Exn V) (val : Option V) : Except Exn V :=
  match val with
  | none => .error .error
  | some v => if !P.writable then .error .error else norm v

/-- Models: pepclibs/_PropsClassBase.py:1035-1063 `set_prop_cpus()`. `set m v cpus` is
`_set_prop_cpus(pname, v, cpus, m)`. -/
def setPropCpus (i : Info) (P : PropDesc) (norm : V → Except Exn V)
    (set : Mech → V → List Nat → σ → σ × Except Exn Unit) (val : Option V) (cpus : Nums)
    (mnames : Option (List Mech)) (s : σ) : σ × Except Exn Mech :=
  match normalizeMnames P mnames false with
  | .error e => (s, .error e)
  | .ok ms =>
    match normalizeInprop P norm val with
    | .error e => (s, .error e)
    | .ok v =>
      match CPUInfo.normalizeCpus i cpus false with
      | .error e => (s, .error e)
      | .ok cpus =>
        if cpus.isEmpty then (s, .error .error)
        else match P.sname with
          | none => (s, .error .notSupported)
          | some sname =>
            match validateCpusVsScope i sname cpus with
            | .error e => (s, .error e)
            | .ok () => setMnames P (fun m => set m v cpus) ms s

/-- The first loop of `_reduce_cpus_ioscope()`: returns the set "reduced".
Models: pepclibs/_PropsClassBase.py:1090-1099. -/
def reduceLoop (i : Info) (iosname : Scope) :
    List Nat → List Nat → List Nat → Except Exn (List Nat)
  | [], _, reduced => .ok reduced
  | cpu :: cpus, handled, reduced =>
    if handled.contains cpu then reduceLoop i iosname cpus handled reduced
    else match CPUInfo.getCpuSiblings i cpu iosname with
      | .error e => .error e
      | .ok [] => .error .pyIndexError
      | .ok (first :: rest) => reduceLoop i iosname cpus (handled ++ rest) (reduced ++ [first])

/-- Models: pepclibs/_PropsClassBase.py:1077-1106 `_reduce_cpus_ioscope()`. -/
def reduceCpusIoscope (i : Info) (cpus : List Nat) (iosname : Scope) : Except Exn (List Nat) :=
  if iosname = .lvl .CPU then .ok cpus
  else
    match reduceLoop i iosname cpus [] [] with
    | .error e => .error e
    | .ok reduced => .ok (cpus.filter (fun c => reduced.contains c))

/-- Concatenate the CPUs of the packages. Models: pepclibs/_PropsClassBase.py:1198-1200. -/
def packagesCpus (i : Info) : List Nat → Except Exn (List Nat)
  | [] => .ok []
  | p :: ps =>
    match CPUInfo.packagesToCpus i (.nums [p]) with
    | .error e => .error e
    | .ok l =>
      match packagesCpus i ps with
      | .error e => .error e
      | .ok r => .ok (l ++ r)

/-- Concatenate the CPUs of the `(package, die)` pairs. Models: pepclibs/_PropsClassBase.py:1114-1117. -/
def diesCpus (i : Info) : List (Nat × Nat) → Except Exn (List Nat)
  | [] => .ok []
  | (p, d) :: ps =>
    match CPUInfo.diesToCpus i (.nums [d]) (.nums [p]) with
    | .error e => .error e
    | .ok l =>
      match diesCpus i ps with
      | .error e => .error e
      | .ok r => .ok (l ++ r)

/-- The default per-die and per-package "set" methods after collecting the CPUs: reduce the list and use
the per-CPU method with one mechanism. When it refuses an empty list, building the message raises
`IndexError` (481). Models: pepclibs/_PropsClassBase.py:1119-1120 and 1202-1203. -/
def setReduced (i : Info) (P : PropDesc) (set : Mech → List Nat → σ → σ × Except Exn Unit)
    (cpus : Except Exn (List Nat)) (m : Mech) (s : σ) : σ × Except Exn Unit :=
  match cpus with
  | .error e => (s, .error e)
  | .ok cpus =>
    match reduceCpusIoscope i cpus P.iosname with
    | .error e => (s, .error e)
    | .ok cpus =>
      match setMnames P (fun m => set m cpus) [m] s with
      | (s, .ok _) => (s, .ok ())
      | (s, .error e) => (s, .error (if e.isNotSupported && cpus.isEmpty then .pyIndexError else e))

/-- Models: pepclibs/_PropsClassBase.py:316-336 `_validate_prop_vs_scope()`. -/
def scopeOkFor (op : Level) (sname : Scope) : Bool :=
  match op, sname with
  | .die, .lvl .die | .die, .lvl .package | .die, .global => true
  | .package, .lvl .package | .package, .global => true
  | _, _ => false

/-- Models: pepclibs/_PropsClassBase.py:1224-1249 `set_prop_packages()` for a list of packages, with the
default `_set_prop_packages()` (1192-1203). -/
def setPropPackages (i : Info) (P : PropDesc) (norm : V → Except Exn V)
    (set : Mech → V → List Nat → σ → σ × Except Exn Unit) (val : Option V) (packages : List Nat)
    (mnames : Option (List Mech)) (s : σ) : σ × Except Exn Mech :=
  match normalizeMnames P mnames false with
  | .error e => (s, .error e)
  | .ok ms =>
    match normalizeInprop P norm val with
    | .error e => (s, .error e)
    | .ok v =>
      match CPUInfo.normalizePackages i (.nums packages) with
      | .error e => (s, .error e)
      | .ok pkgs =>
        if packages.isEmpty then (s, .error .error)
        else match P.sname with
          | none => (s, .error .notSupported)
          | some sname =>
            if !scopeOkFor .package sname then (s, .error .error)
            else setMnames P (setReduced i P (fun m => set m v) (packagesCpus i pkgs)) ms s

/-- Validate dies of one package. Models: pepclibs/CPUInfo.py:949-978 `normalize_dies()`. -/
def normalizeDies (i : Info) (dies : List Nat) (package : Nat) : Except Exn (List Nat) :=
  match CPUInfo.packageToDies i package with
  | .error e => .error e
  | .ok pkgDies =>
    if (pyDedup dies).all (fun d => pkgDies.contains d) then .ok (pyDedup dies) else .error .error

/-- Models: pepclibs/_PropsClassBase.py:1159-1163: the dictionary is a list of (package, dies) pairs,
flattened in the result. -/
def normalizeDiesDict (i : Info) : List (Nat × List Nat) → Except Exn (List (Nat × Nat))
  | [] => .ok []
  | (p, dies) :: rest =>
    match normalizeDies i dies p with
    | .error e => .error e
    | .ok ds =>
      match normalizeDiesDict i rest with
      | .error e => .error e
      | .ok r => .ok (ds.map (fun d => (p, d)) ++ r)

/-- Models: pepclibs/_PropsClassBase.py:1141-1177 `set_prop_dies()` for a dictionary, with the default
`_set_prop_dies()` (1108-1120). The keys of a dictionary are distinct. -/
def setPropDies (i : Info) (P : PropDesc) (norm : V → Except Exn V)
    (set : Mech → V → List Nat → σ → σ × Except Exn Unit) (val : Option V)
    (dies : List (Nat × List Nat)) (mnames : Option (List Mech)) (s : σ) : σ × Except Exn Mech :=
  match normalizeMnames P mnames false with
  | .error e => (s, .error e)
  | .ok ms =>
    match normalizeInprop P norm val with
    | .error e => (s, .error e)
    | .ok v =>
      match CPUInfo.normalizePackages i (.nums (dies.map Prod.fst)) with
      | .error e => (s, .error e)
      | .ok _ =>
        match normalizeDiesDict i dies with
        | .error e => (s, .error e)
        | .ok ds =>
          if dies.any (fun p => p.2.isEmpty) || dies.isEmpty then (s, .error .error)
          else match P.sname with
            | none => (s, .error .notSupported)
            | some sname =>
              if !scopeOkFor .die sname then (s, .error .error)
              else setMnames P (setReduced i P (fun m => set m v) (diesCpus i ds)) ms s

end Verif.PropsBase
