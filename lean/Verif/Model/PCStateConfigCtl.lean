import Verif.Lib.PyList
import Verif.Model.FeaturedMSR

/-!
Model of pepclibs/msr/PCStateConfigCtl.py (MSR 0xE2, MSR_PKG_CST_CONFIG_CONTROL).
-/

namespace Verif.PCStateConfigCtl

open Verif.Bits (BitRange FieldVal setBits getBits)
open Verif.RegFile (Reg)
open Verif.FeaturedMSR (Feature Val rvals)

/-- A package C-state limits table: the codes, the aliases, the bits. -/
structure Limits where
  codes : Dict PyStr Int
  aliases : Dict PyStr PyStr
  bits : BitRange

/-- Models: pepclibs/msr/PCStateConfigCtl.py:38-40. -/
def icxLimits : Limits :=
  ⟨[("PC0".toList, 0), ("PC2".toList, 1), ("PC6".toList, 2), ("unlimited".toList, 7)],
   [("PC6N".toList, "PC6".toList)], (2, 0)⟩

/-- Models: pepclibs/msr/PCStateConfigCtl.py:43-45, 52-54. -/
def skxLimits : Limits :=
  ⟨[("PC0".toList, 0), ("PC2".toList, 1), ("PC6N".toList, 2), ("PC6R".toList, 3), ("unlimited".toList, 7)],
   [("PC6".toList, "PC6R".toList)], (2, 0)⟩

/-- Models: pepclibs/msr/PCStateConfigCtl.py:47. -/
def bdwdLimits : Limits :=
  ⟨[("PC0".toList, 0), ("PC2".toList, 1), ("PC3".toList, 2), ("PC6".toList, 3)], [], (3, 0)⟩

/-- Models: pepclibs/msr/PCStateConfigCtl.py:49-50. -/
def hsxLimits : Limits :=
  ⟨[("PC0".toList, 0), ("PC2".toList, 1), ("PC3".toList, 2), ("PC6".toList, 3), ("unlimited".toList, 7)],
   [], (2, 0)⟩

/-- Models: pepclibs/msr/PCStateConfigCtl.py:61. -/
def dnvLimits : Limits :=
  ⟨[("PC2".toList, 2), ("PC6".toList, 3), ("unlimited".toList, 0)], [], (3, 0)⟩

/-- Models: pepclibs/msr/PCStateConfigCtl.py:66. -/
def lnlLimits : Limits :=
  ⟨[("PC0".toList, 0), ("PC2".toList, 1), ("PC6".toList, 3), ("PC10".toList, 8)], [], (3, 0)⟩

/-- Models: pepclibs/msr/PCStateConfigCtl.py:67-69. -/
def pc10Limits : Limits :=
  ⟨[("PC0".toList, 0), ("PC2".toList, 1), ("PC3".toList, 2), ("PC6".toList, 3), ("PC7".toList, 4),
    ("PC7S".toList, 5), ("PC8".toList, 6), ("PC9".toList, 7), ("PC10".toList, 8)], [], (3, 0)⟩

/-- Models: pepclibs/msr/PCStateConfigCtl.py:70-71. -/
def pc7sLimits : Limits :=
  ⟨[("PC0".toList, 0), ("PC2".toList, 1), ("PC3".toList, 2), ("PC6".toList, 3), ("PC7".toList, 4),
    ("PC7S".toList, 5)], [], (3, 0)⟩

/-- All the tables. Models: pepclibs/msr/PCStateConfigCtl.py:74-121 `_PKG_CST_LIMITS`. -/
def allLimits : List Limits :=
  [icxLimits, skxLimits, bdwdLimits, hsxLimits, dnvLimits, lnlLimits, pc10Limits, pc7sLimits]

/-- The "pkg_cstate_limit" feature of a CPU model with table `L`.
Models: pepclibs/msr/PCStateConfigCtl.py:128-143, 254-269. -/
def limitFeature (L : Limits) (supported : Nat → Bool) : Feature :=
  ⟨L.bits, L.codes, some L.aliases, false, true, supported⟩

/-- The "pkg_cstate_limit_lock" bit. Models: pepclibs/msr/PCStateConfigCtl.py:144-157. -/
def lockBits : BitRange := (15, 15)

/-- The search for the closest lower known code. Models: pepclibs/msr/PCStateConfigCtl.py:213-216. -/
def closest (rv : Dict Int PyStr) (code : Int) : List Int → Option PyStr
  | [] => none
  | cde :: l =>
    match rv.get? cde with
    | none => closest rv code l
    | some name => if cde ≤ code ∧ name ≠ "unlimited".toList then some name else closest rv code l

/-- The limit name for a code. The branch without a value is not reachable: `cde` is a key of "rvals".
Models: pepclibs/msr/PCStateConfigCtl.py:206-224. -/
def decodeLimit (rv : Dict Int PyStr) (code : Int) : PyStr :=
  match rv.get? code with
  | some name => name
  | none =>
    match closest rv code (sortBy (fun a b => decide (b ≤ a)) rv.keys) with
    | some name => name
    | none => PyStr.ofInt code

/-- Models: pepclibs/msr/PCStateConfigCtl.py:189-229 `_get_pkg_cstate_limit()` called via
`read_feature()`; only the "pkg_cstate_limit" key of the result, the other two are constants. -/
def readLimit (F : Feature) (cpus : List Nat) (R : Reg) : Except Exn (List (Nat × PyStr)) :=
  match FeaturedMSR.validateSupported F cpus with
  | .error e => .error e
  | .ok () =>
    match RegFile.readBits F.bits R cpus with
    | .error e => .error e
    | .ok l => .ok (l.map fun p => (p.1, decodeLimit (rvals F) p.2))

/-- The check and modify loop. Models: pepclibs/msr/PCStateConfigCtl.py:237-249. -/
def modifyLimit (bits : BitRange) (limit : FieldVal) (R : Reg) :
    List Nat → Dict Int (List Nat) → Except Exn (Dict Int (List Nat))
  | [], d => .ok d
  | c :: cpus, d =>
    match getBits (R c) lockBits with
    | .error e => .error e
    | .ok v =>
      if v ≠ 0 then .error .error
      else match setBits (R c) bits limit with
        | .error e => .error e
        | .ok new =>
          if R c = new then modifyLimit bits limit R cpus d
          else modifyLimit bits limit R cpus (d.set new ((d.get? new).getD [] ++ [c]))

/-- Models: pepclibs/msr/PCStateConfigCtl.py:231-252 `_set_pkg_cstate_limit()`. -/
def setLimit (E : RegFile.Env) (bits : BitRange) (limit : FieldVal) (cpus : List Nat) (R : Reg) :
    Reg × Except Exn Unit :=
  match modifyLimit bits limit R cpus [] with
  | .error e => (R, .error e)
  | .ok d => RegFile.writeGroups E d R

/-- `write_feature("pkg_cstate_limit", val)`. Models: pepclibs/msr/_FeaturedMSR.py:280-315. -/
def writeLimit (E : RegFile.Env) (F : Feature) (val : Val) (cpus : List Nat) (R : Reg) :
    Reg × Except Exn Unit :=
  match FeaturedMSR.validateSupported F cpus with
  | .error e => (R, .error e)
  | .ok () =>
    match FeaturedMSR.normalizeValue F val with
    | .error e => (R, .error e)
    | .ok v =>
      if !F.writable then (R, .error .error)
      else setLimit E F.bits (FeaturedMSR.fieldVal v) cpus R

end Verif.PCStateConfigCtl
