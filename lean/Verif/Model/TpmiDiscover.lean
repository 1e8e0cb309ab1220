import Verif.Model.TpmiSpecFile

/-!
Finding TPMI features: the spec files and the devices. Models: pepclibs/Tpmi.py:122-217, 343-510 and 844-871.

Simplifications: the spec files do not change while the tool runs; file names do not include '/'; the spec
directories exist; every device has the debugfs files of the 'tpmi_info' feature; exceptions of the YAML
library are represented by `pyValueError` (like them, it is not derived from `Error`).
-/

namespace Verif.Tpmi

/-- An event of the YAML parser: a scalar, another one (they have no `value` attribute), or an exception. -/
inductive Ev where
  | scalar (v : PyStr)
  | mark
  | bad

/-- A file in a spec directory. -/
structure SpecFile where
  name : PyStr
  /-- The events of the YAML parser, or the error of the checks before it (the file cannot be opened, is too
  large or not a regular file). -/
  events : Except Exn (List Ev)
  /-- What `YAML.load()` returns. -/
  load : Except Exn Yaml

/-- The spec dictionary; `dir` and `file` are the path. -/
structure SDict where
  name : PyStr
  desc : PyStr
  fid : Int
  dir : Nat
  file : PyStr
  deriving DecidableEq

/-- Skip to the first scalar. Models: pepclibs/Tpmi.py:175-183. -/
def skipMarks : List Ev → Except Exn (List Ev)
  | [] => .error .error
  | .scalar v :: rest => .ok (.scalar v :: rest)
  | .mark :: rest => skipMarks rest
  | .bad :: _ => .error .pyValueError

/-- The value of an event. -/
def evValue : Ev → Except Exn PyStr
  | .scalar v => .ok v
  | .mark => .error .pyAttributeError
  | .bad => .error .pyValueError

/-- The keys read so far. -/
structure Head where
  name : Option PyStr
  desc : Option PyStr
  fid : Option Int

/-- The first part of the loop body: the key. Models: pepclibs/Tpmi.py:190-200. -/
def checkKey (h : Head) (key : PyStr) : Except Exn Unit :=
  if key = kName then (if h.name.isSome then .error .error else .ok ())
  else if key = kDesc then (if h.desc.isSome then .error .error else .ok ())
  else if key = kFid then (if h.fid.isSome then .error .error else .ok ())
  else .error .error

/-- The second part of the loop body: the value. Models: pepclibs/Tpmi.py:202-211. -/
def storeKey (h : Head) (key val : PyStr) : Except Exn Head :=
  if key = kName then .ok { h with name := some val }
  else if key = kDesc then .ok { h with desc := some val }
  else
    match Trivial.strToInt val with
    | .error e => .error e
    | .ok n => .ok { h with fid := some n }

/-- `len(sdict) < len(valid_keys)` is false: what was read. -/
def Head.complete? (h : Head) : Option (PyStr × PyStr × Int) :=
  match h.name, h.desc, h.fid with
  | some n, some d, some i => some (n, d, i)
  | _, _, _ => none

/-- The loop reading the three keys. Models: pepclibs/Tpmi.py:185-211. -/
def readKeys (evs : List Ev) (h : Head) : Except Exn (PyStr × PyStr × Int) :=
  match h.complete? with
  | some r => .ok r
  | none =>
    match evs with
    | [] => .error .error
    | [ev] =>
      match evValue ev with
      | .error e => .error e
      | .ok key =>
        match checkKey h key with
        | .error e => .error e
        | .ok () => .error .error
    | ev :: ev' :: rest =>
      match evValue ev with
      | .error e => .error e
      | .ok key =>
        match checkKey h key with
        | .error e => .error e
        | .ok () =>
          match evValue ev' with
          | .error e => .error e
          | .ok val =>
            match storeKey h key val with
            | .error e => .error e
            | .ok h => readKeys rest h
termination_by evs.length

/-- Models: pepclibs/Tpmi.py:143-217 `_load_sdict()`. -/
def loadSdict (dir : Nat) (f : SpecFile) : Except Exn SDict :=
  match f.events with
  | .error e => .error e
  | .ok evs =>
    match skipMarks evs with
    | .error e => .error e
    | .ok evs =>
      match readKeys evs ⟨none, none, none⟩ with
      | .error e => .error e
      | .ok (name, desc, fid) => .ok ⟨name, desc, fid, dir, f.name⟩

/-- `isinstance(err, Error)`. Models: pepclibs/helperlibs/Exceptions.py:19-140. -/
def isErr : Exn → Bool
  | .pyKeyError | .pyValueError | .pyIndexError | .pyTypeError | .pyOverflowError | .pyUnboundLocal
  | .pyAttributeError => false
  | _ => true

/-- `specname.endswith(".yml") or specname.endswith(".yaml")`. -/
def isYaml (name : PyStr) : Bool := ".yml".toList.isSuffixOf name || ".yaml".toList.isSuffixOf name

/-- The loop over the files of a spec directory, with its three counters. Models: pepclibs/Tpmi.py:403-431. -/
def scanFiles (dir : Nat) : List SpecFile → (specs nonYaml errs : Nat) → Dict PyStr SDict →
    Except Exn (Dict PyStr SDict)
  | [], _, _, _, sdicts => .ok sdicts
  | f :: rest, specs, nonYaml, errs, sdicts =>
    if !isYaml f.name then
      if nonYaml + 1 > 32 then .error .error else scanFiles dir rest specs (nonYaml + 1) errs sdicts
    else
      match loadSdict dir f with
      | .error e =>
        if isErr e then
          if errs + 1 > 4 then .error .error else scanFiles dir rest specs nonYaml (errs + 1) sdicts
        else .error e
      | .ok s =>
        if specs + 1 > 256 then .error .error
        else scanFiles dir rest (specs + 1) nonYaml errs (sdicts.set s.name s)

/-- The loop over the spec directories. Models: pepclibs/Tpmi.py:401-431. -/
def scanDirs : Nat → List (List SpecFile) → Dict PyStr SDict → Except Exn (Dict PyStr SDict)
  | _, [], sdicts => .ok sdicts
  | i, d :: rest, sdicts =>
    match scanFiles i d 0 0 0 sdicts with
    | .error e => .error e
    | .ok sdicts => scanDirs (i + 1) rest sdicts

/-- Models: pepclibs/Tpmi.py:398-436 `_build_sdicts()`. -/
def buildSdicts (dirs : List (List SpecFile)) : Except Exn (Dict PyStr SDict) :=
  match scanDirs 0 dirs [] with
  | .error e => .error e
  | .ok sdicts => if sdicts.isEmpty then .error .notSupported else .ok sdicts

/-- `_fid2fname`. Models: pepclibs/Tpmi.py:438-440. -/
def fid2fname (sdicts : Dict PyStr SDict) : Dict Int PyStr :=
  sdicts.foldl (fun d p => d.set p.2.fid p.1) []

/-- A definition of the file as a register. A negative offset is refused when the register is accessed, in the
same way as an offset which is not a multiple of 4, such as 1. -/
def SpecReg.reg (R : SpecReg) : Reg := ⟨if R.offset < 0 then 1 else R.offset.toNat, R.width, R.fields⟩

/-- Models: pepclibs/Tpmi.py:343-362 `_get_fdict()`. -/
def getFdict : List (List SpecFile) → PyStr → Except Exn (Dict PyStr Reg)
  | [], _ => .error .notSupported
  | d :: rest, fname =>
    match d.find? (fun f => f.name == fname ++ ".yml".toList) with
    | none => getFdict rest fname
    | some f =>
      match f.load with
      | .error e => .error e
      | .ok y =>
        match formatFdict y with
        | .error e => .error e
        | .ok fd => .ok (fd.map fun p => (p.1, p.2.reg))

/-! ### Devices -/

/-- The debugfs root directory: the sub-directories and their entries. -/
abbrev Root := List (PyStr × List PyStr)

/-- Models: pepclibs/Tpmi.py:375-396 `_get_debugfs_tpmi_dirs()`. Gives the device addresses and the entries. -/
def tpmiDirs (root : Root) : Except Exn Root :=
  match root.filterMap (fun d => (stripPrefix "tpmi-".toList d.1).map fun a => (a, d.2)) with
  | [] => .error .notSupported
  | l => .ok l

/-- `re.match(r"^tpmi-id-([0-9a-f]+)$", dirname)`: the number. Models: pepclibs/Tpmi.py:453-457. -/
def featureId (dirname : PyStr) : Option Nat :=
  match stripPrefix "tpmi-id-".toList dirname with
  | none => none
  | some s => if s ≠ [] ∧ s.all isHex = true then parse16 s else none

/-- The loop over the entries of a device. Models: pepclibs/Tpmi.py:452-468. An empty name is false. -/
def collectDirs (ids : Dict Int PyStr) (addr : PyStr) : List PyStr → Dict PyStr (List PyStr) → List Nat →
    Dict PyStr (List PyStr) × List Nat
  | [], f2a, unknown => (f2a, unknown)
  | dirname :: rest, f2a, unknown =>
    match featureId dirname with
    | none => collectDirs ids addr rest f2a unknown
    | some fid =>
      match ids.get? (fid : Int) with
      | none | some [] => collectDirs ids addr rest f2a (unknown ++ [fid])
      | some fname => collectDirs ids addr rest (f2a.set fname ((f2a.get? fname).getD [] ++ [addr])) unknown

/-- The loop over the devices. Models: pepclibs/Tpmi.py:451-468. -/
def collect (ids : Dict Int PyStr) : Root → Dict PyStr (List PyStr) → List Nat → Dict PyStr (List PyStr) × List Nat
  | [], f2a, unknown => (f2a, unknown)
  | (addr, ents) :: rest, f2a, unknown =>
    collect ids rest (collectDirs ids addr ents f2a unknown).1 (collectDirs ids addr ents f2a unknown).2

def kInfo : PyStr := "tpmi_info".toList

/-- The maps being built. -/
structure Maps where
  fmaps : Dict PyStr (Dict PyStr Nat)
  /-- The 'mdmap' values of the feature maps. -/
  mdmaps : Dict (PyStr × PyStr) Mdmap
  pkg2addrs : Dict Nat (List PyStr)

section
variable {W : Type} (K : Kernel W) (w : W) (dirs : List (List SpecFile)) (infoFid : Nat)

/-- What `_get_regdict()` and `_get_debugfs_feature_path()` use for 'tpmi_info'. -/
def infoEnv (fd : Dict PyStr Reg) : Env :=
  { fmaps := [], fid := fun _ => infoFid, fdict := fun _ => some fd, packages := [] }

/-- The package number of a device, and the map of its dump. Models: pepclibs/Tpmi.py:493-495. -/
def readPackage (addr : PyStr) : Except Exn (Mdmap × Nat) :=
  match buildMdmap (K.dump w (addr, infoFid)) with
  | .error e => .error e
  | .ok mdmap =>
    match getFdict dirs kInfo with
    | .error e => .error e
    | .ok fd =>
      match readReg K (infoEnv infoFid fd) w kInfo addr 0 "TPMI_BUS_INFO".toList (some "PACKAGE_ID".toList) with
      | .error e => .error e
      | .ok p => .ok (mdmap, p)

/-- The package of the device is found out if it is not known yet. Models: pepclibs/Tpmi.py:490-501. -/
def addInfo (addr : PyStr) (M : Maps) : Except Exn Maps :=
  match ((M.fmaps.get? kInfo).getD []).get? addr with
  | some _ => .ok M
  | none =>
    match readPackage K w dirs infoFid addr with
    | .error e => .error e
    | .ok (mdmap, package) =>
      .ok { fmaps := M.fmaps.set kInfo (((M.fmaps.get? kInfo).getD []).set addr package)
            mdmaps := M.mdmaps.set (kInfo, addr) mdmap
            pkg2addrs := M.pkg2addrs.set package
              (if addr ∈ (M.pkg2addrs.get? package).getD [] then (M.pkg2addrs.get? package).getD []
               else (M.pkg2addrs.get? package).getD [] ++ [addr]) }

/-- One device of a feature. Models: pepclibs/Tpmi.py:484-507. -/
def addAddr (fname addr : PyStr) (M : Maps) : Except Exn Maps :=
  match ((M.fmaps.get? fname).getD []).get? addr with
  | some _ => .ok M
  | none =>
    match addInfo K w dirs infoFid addr M with
    | .error e => .error e
    | .ok M =>
      if fname = kInfo then .ok M
      else
        match ((M.fmaps.get? kInfo).getD []).get? addr with
        | none => .error .pyKeyError
        | some package => .ok { M with fmaps := M.fmaps.set fname (((M.fmaps.get? fname).getD []).set addr package) }

/-- The loop over the devices of a feature. Models: pepclibs/Tpmi.py:484-507. -/
def addAddrs (fname : PyStr) : List PyStr → Maps → Except Exn Maps
  | [], M => .ok M
  | addr :: rest, M =>
    match addAddr K w dirs infoFid fname addr M with
    | .error e => .error e
    | .ok M => addAddrs fname rest M

/-- The loop over the features. Models: pepclibs/Tpmi.py:480-507. -/
def addFeatures : List (PyStr × List PyStr) → Maps → Except Exn Maps
  | [], M => .ok M
  | (fname, addrs) :: rest, M =>
    match addAddrs K w dirs infoFid fname addrs
        { M with fmaps := if (M.fmaps.get? fname).isSome then M.fmaps else M.fmaps.set fname [] } with
    | .error e => .error e
    | .ok M => addFeatures rest M

end

/-- What was found. -/
structure Found where
  sdicts : Dict PyStr SDict
  maps : Maps
  unknown : List Nat

/-- Models: pepclibs/Tpmi.py:442-510 `_build_fmaps()`. -/
def buildFmaps {W : Type} (K : Kernel W) (w : W) (dirs : List (List SpecFile)) (devs : Root) (sdicts : Dict PyStr SDict) :
    Except Exn Found :=
  let c := collect (fid2fname sdicts) devs [] []
  if c.1.isEmpty then .error .notSupported
  else if (c.1.get? kInfo).isNone then .error .error
  else
    match sdicts.get? kInfo with
    | none => .error .error
    | some s =>
      match addFeatures K w dirs s.fid.toNat c.1 ⟨[(kInfo, [])], [], []⟩ with
      | .error e => .error e
      | .ok M => .ok ⟨sdicts, M, c.2⟩

/-- Models: pepclibs/Tpmi.py:975-1020 `__init__()`; debugfs is mounted. -/
def discover {W : Type} (K : Kernel W) (w : W) (dirs : List (List SpecFile)) (root : Root) : Except Exn Found :=
  match tpmiDirs root with
  | .error e => .error e
  | .ok devs =>
    match buildSdicts dirs with
    | .error e => .error e
    | .ok sdicts => buildFmaps K w dirs devs sdicts

/-- What the other methods use. The class of the exception of `_get_fdict()` is dropped. -/
def Found.env (D : Found) (dirs : List (List SpecFile)) : Env where
  fmaps := D.maps.fmaps
  fid := fun f => match D.sdicts.get? f with
    | some s => s.fid.toNat
    | none => 0
  fdict := fun f => match getFdict dirs f with
    | .ok fd => some fd
    | .error _ => none
  packages := D.maps.pkg2addrs.keys

/-- Models: pepclibs/Tpmi.py:844-863 `get_known_features()`. -/
def knownFeatures (D : Found) : Except Exn (List SDict) :=
  D.maps.fmaps.keys.mapM fun f => match D.sdicts.get? f with
    | some s => .ok s
    | none => .error .pyKeyError

/-- Models: pepclibs/Tpmi.py:865-871 `get_unknown_features()`. -/
def unknownFeatures (D : Found) : List Nat := D.unknown

end Verif.Tpmi
