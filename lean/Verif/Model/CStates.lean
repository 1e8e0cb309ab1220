import Verif.Model.IdleGov
import Verif.Model.PCStateConfigCtl
import Verif.Model.PropsBase

/-!
Model of the properties of pepclibs/CStates.py, with pepclibs/msr/PowerCtl.py and the on/off features of
pepclibs/msr/PCStateConfigCtl.py.
-/

namespace Verif.CStates

open Verif.RegFile (Reg)
open Verif.FeaturedMSR (Feature Val)
open Verif.PropsBase (Gen Mech PropDesc PVInfo)
open Verif.CPUInfo (Info Scope Nums)
open Verif.PCStateConfigCtl (Limits limitFeature)

/-- The properties. Models: pepclibs/CStates.py:32-110 `PROPS`. -/
inductive Name where
  | limit | lock | limits | aliases
  | c1Demotion | c1Undemotion | c1e | prewake
  | driver | governor | governors
  deriving DecidableEq, Repr

/-- The scope of MSR 0xE2. Models: pepclibs/msr/PCStateConfigCtl.py:122-124, 287-292. -/
inductive Family where
  | silvermont | phi | other
  deriving DecidableEq, Repr

/-- The host: topology; whether the vendor is Intel; the package C-state limits of the CPU model, if known;
whether the CPU model supports C-state prewake; the CPU model family and whether it is a Cascade Lake AP;
how the two registers are shared and when writing them fails; when changing the idle governor fails.
Simplification: hosts where MSR 0xE2 or 0x1FC does not exist at all are other vendors. -/
structure Host where
  info : Info
  intel : Bool
  limits : Option Limits
  prewake : Bool
  family : Family
  clxAp : Bool
  ePcst : RegFile.Env
  ePctl : RegFile.Env
  wfail : PyStr → Option Exn

/-- MSR 0xE2, MSR 0x1FC and the files of the idle driver. The caches are not visible, see C04, C05, C08
and C81. -/
structure St where
  pcst : Reg
  pctl : Reg
  gov : IdleGov.Files

/-- A property value. -/
inductive PVal where
  | str (s : PyStr)
  | list (l : List PyStr)
  | map (d : Dict PyStr PyStr)
  deriving DecidableEq

/-- A one-bit on/off feature; `one` is the code of "on". -/
def flag (bit : Int) (one : Int) (writable : Bool) (supported : Bool) : Feature :=
  ⟨(bit, bit), [("on".toList, one), ("off".toList, 1 - one)], none, true, writable, fun _ => supported⟩

/-- The on/off feature of a property and whether it is in MSR 0xE2 (`true`) or in MSR 0x1FC.
Models: pepclibs/msr/PCStateConfigCtl.py:144-177, pepclibs/msr/PowerCtl.py:47-67. -/
def flagOf (H : Host) : Name → Option (Feature × Bool)
  | .lock => some (flag 15 1 false H.limits.isSome, true)
  | .c1Demotion => some (flag 26 1 true true, true)
  | .c1Undemotion => some (flag 28 1 true true, true)
  | .c1e => some (flag 1 1 true true, false)
  | .prewake => some (flag 30 0 true H.prewake, false)
  | _ => none

/-- The I/O scope of MSR 0xE2. Models: pepclibs/msr/PCStateConfigCtl.py:285-292. -/
def pcstScope (H : Host) : Scope :=
  match H.family with
  | .silvermont => .lvl .module
  | .phi => .lvl .package
  | .other => .lvl .core

/-- Models: pepclibs/msr/_FeaturedMSR.py:463-474 `_get_clx_ap_adjusted_msr_scope()`. -/
def clxScope (H : Host) : Scope := if H.clxAp then .lvl .die else .lvl .package

/-- The scope and the I/O scope of a property, `none` if it is not supported.
Models: pepclibs/CStates.py:275-293 `_set_sname()`, pepclibs/msr/PCStateConfigCtl.py:294-303,
pepclibs/msr/PowerCtl.py:91-98; the classes of the two registers refuse other vendors,
pepclibs/msr/_FeaturedMSR.py:514-516. This is the first `CStates` object of the process, see C83. -/
def scopes (H : Host) : Name → Option (Scope × Scope)
  | .limit | .lock => if H.intel then some (clxScope H, pcstScope H) else none
  | .c1Demotion | .c1Undemotion => if H.intel then some (pcstScope H, pcstScope H) else none
  | .c1e | .prewake => if H.intel then some (clxScope H, clxScope H) else none
  | .limits | .aliases | .driver | .governor | .governors => some (.global, .global)

/-- Models: pepclibs/CStates.py:32-110, the "mnames" keys. -/
def mech : Name → Mech
  | .limits | .aliases => .doc
  | .driver | .governor | .governors => .sysfs
  | _ => .msr

/-- Models: pepclibs/CStates.py:32-110, the "writable" keys. -/
def writable : Name → Bool
  | .limit | .c1Demotion | .c1Undemotion | .c1e | .prewake | .governor => true
  | _ => false

/-- Models: pepclibs/CStates.py:32-110 and pepclibs/_PropsClassBase.py:1265-1275. -/
def desc (H : Host) (p : Name) : PropDesc :=
  ⟨[mech p], (scopes H p).map Prod.fst, ((scopes H p).map Prod.snd).getD .global, writable p⟩

/-- Models: pepclibs/CStates.py:32-110, the properties of type "bool". -/
def isBool : Name → Bool
  | .lock | .c1Demotion | .c1Undemotion | .c1e | .prewake => true
  | _ => false

/-- The value conversion of `_normalize_inprop()`; in Python `1 in (True, False)` is true, and other
numbers have no `lower()` method. No property of this module has a unit.
Models: pepclibs/_PropsClassBase.py:210-228 `_normalize_bool_type_value()`, 984-988. -/
def norm (p : Name) (v : Val) : Except Exn Val :=
  if !isBool p then .ok v
  else match v with
    | .bool b => .ok (.bool b)
    | .int n => if n = 0 ∨ n = 1 then .ok (.int n) else .error .pyAttributeError
    | .str s =>
      let s := FeaturedMSR.lower s
      if s = "on".toList ∨ s = "enable".toList then .ok (.bool true)
      else if s = "off".toList ∨ s = "disable".toList then .ok (.bool false)
      else .error .error

/-- A value of a feature as a property value. The features of this module have names for all values. -/
def ofVal : Val → PVal
  | .str s => .str s
  | .bool _ => .str []
  | .int n => .str (PyStr.ofInt n)

/-- A generator which raises before the first result, or yields everything. -/
def gen {α : Type} (r : Except Exn (List (Nat × α))) (f : α → PVal) : Gen (Nat × Option PVal) :=
  match r with
  | .error e => ⟨[], some e⟩
  | .ok l => ⟨l.map fun p => (p.1, some (f p.2)), none⟩

/-- The features objects cannot be created for other vendors. -/
def needIntel (H : Host) (g : Gen (Nat × Option PVal)) : Gen (Nat × Option PVal) :=
  if H.intel then g else ⟨[], some .notSupported⟩

/-- The limit properties: `read_feature("pkg_cstate_limit")` gives three values, one of them is used.
Models: pepclibs/CStates.py:211-223, pepclibs/msr/PCStateConfigCtl.py:189-229. -/
def readLimits (H : Host) (f : Limits → PyStr → PVal) (cpus : List Nat) (s : St) : Gen (Nat × Option PVal) :=
  match H.limits with
  | none => ⟨[], some .notSupported⟩
  | some L => gen (PCStateConfigCtl.readLimit (limitFeature L fun _ => true) cpus s.pcst) (f L)

/-- Read the property of the idle driver once and yield it for every CPU.
Models: pepclibs/CStates.py:225-240 `_get_cpuidle_prop()`. -/
def readIdle {α : Type} (r : Except Exn α) (f : α → PVal) (cpus : List Nat) : Gen (Nat × Option PVal) :=
  match r with
  | .error e => ⟨[], some e⟩
  | .ok a => ⟨cpus.map fun c => (c, some (f a)), none⟩

/-- Models: pepclibs/CStates.py:198-209 `get_prop_from_msr()` and 219-220. -/
def readFlag (H : Host) (F : Feature) (isPcst : Bool) (cpus : List Nat) (s : St) : Gen (Nat × Option PVal) :=
  needIntel H (gen (FeaturedMSR.readFeature F cpus (if isPcst then s.pcst else s.pctl)) ofVal)

/-- Models: pepclibs/CStates.py:242-255 `_get_prop_cpus()`. -/
def getCpus (H : Host) (s : St) (p : Name) (m : Mech) (cpus : List Nat) : Gen (Nat × Option PVal) :=
  match p with
  | .limit => needIntel H (readLimits H (fun _ n => .str n) cpus s)
  | .limits => needIntel H (readLimits H (fun L _ => .list L.codes.keys) cpus s)
  | .aliases => needIntel H (readLimits H (fun L _ => .map L.aliases) cpus s)
  | .driver => readIdle (IdleGov.driverPlain s.gov) .str cpus
  | .governor => readIdle (IdleGov.currentPlain s.gov) .str cpus
  | .governors => readIdle (IdleGov.availPlain s.gov) .list cpus
  | p =>
    match flagOf H p with
    | none => ⟨[], some .error⟩
    | some (F, isPcst) =>
      if p = .lock ∨ m = .msr then readFlag H F isPcst cpus s else ⟨[], some .error⟩

/-- Write MSR 0xE2. -/
def onPcst (H : Host) (f : Reg → Reg × Except Exn Unit) (s : St) : St × Except Exn Unit :=
  if H.intel then match f s.pcst with | (R, r) => ({ s with pcst := R }, r)
  else (s, .error .notSupported)

/-- Write MSR 0x1FC. -/
def onPctl (H : Host) (f : Reg → Reg × Except Exn Unit) (s : St) : St × Except Exn Unit :=
  if H.intel then match f s.pctl with | (R, r) => ({ s with pctl := R }, r)
  else (s, .error .notSupported)

/-- Models: pepclibs/CStates.py:268-271, pepclibs/CPUIdle.py:476-499. A governor which is not a string is
not in the list. -/
def setGovernor (H : Host) (v : Val) (s : St) : St × Except Exn Unit :=
  match v with
  | .str g =>
    match IdleGov.setPlain H.wfail g s.gov with
    | (F, r) => ({ s with gov := F }, r)
  | _ =>
    match IdleGov.availPlain s.gov with
    | .error e => (s, .error e)
    | .ok l => (s, .error (if l.isEmpty then .notSupported else .error))

/-- Models: pepclibs/CStates.py:257-273 `_set_prop_cpus()`. -/
def setCpus (H : Host) (p : Name) (m : Mech) (v : Val) (cpus : List Nat) (s : St) : St × Except Exn Unit :=
  match p with
  | .governor => if m = .sysfs then setGovernor H v s else (s, .error .error)
  | .limit =>
    if m = .msr then
      match H.limits with
      | none => (s, .error .notSupported)
      | some L =>
        onPcst H (PCStateConfigCtl.writeLimit H.ePcst (limitFeature L fun _ => true) v cpus) s
    else (s, .error .error)
  | p =>
    match flagOf H p with
    | none => (s, .error .error)
    | some (F, isPcst) =>
      if m = .msr then
        if isPcst then onPcst H (FeaturedMSR.writeFeature H.ePcst F v cpus) s
        else onPctl H (FeaturedMSR.writeFeature H.ePctl F v cpus) s
      else (s, .error .error)

/-- `get_prop_cpus(pname, cpus, mnames)` of a `CStates` object. -/
def getProp (H : Host) (s : St) (p : Name) (cpus : Nums) (mnames : Option (List Mech)) :
    Gen (PVInfo Nat PVal) :=
  PropsBase.getPropCpus H.info (desc H p) (getCpus H s p) cpus mnames

/-- `set_prop_cpus(pname, val, cpus, mnames)` of a `CStates` object. -/
def setProp (H : Host) (p : Name) (v : Option Val) (cpus : Nums) (mnames : Option (List Mech)) (s : St) :
    St × Except Exn Mech :=
  PropsBase.setPropCpus H.info (desc H p) (norm p) (setCpus H p) v cpus mnames s

/-- One "set" call. -/
structure SetOp where
  pname : Name
  val : Option Val
  cpus : Nums
  mnames : Option (List Mech)

/-- A series of "set" calls, with the results. -/
def runSets (H : Host) : List SetOp → St → St × List (Except Exn Mech)
  | [], s => (s, [])
  | o :: os, s =>
    match setProp H o.pname o.val o.cpus o.mnames s with
    | (s, r) => match runSets H os s with | (s, l) => (s, r :: l)

end Verif.CStates
