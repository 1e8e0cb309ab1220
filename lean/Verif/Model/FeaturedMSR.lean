import Verif.Lib.PyStr
import Verif.Model.RegFile

/-!
Model of pepclibs/msr/_FeaturedMSR.py for the features which have no `_get_<name>()`/`_set_<name>()`
methods of their own.
-/

namespace Verif.FeaturedMSR

open Verif.Bits (BitRange FieldVal)
open Verif.RegFile (Reg)

/-- `s.lower()`. Simplification: only ASCII letters are changed. -/
def lower (s : PyStr) : PyStr := s.map Char.toLower

/-- A feature value as passed by the caller or returned to the caller. -/
inductive Val where
  | str (s : PyStr)
  | bool (b : Bool)
  | int (n : Int)
  deriving DecidableEq, Repr

/-- One entry of the features dictionary. `vals` is empty if the feature has no "vals" key, otherwise its
type is "bool" (`isBool`) or "dict". `aliases` is `none` if there is no "aliases" key.
Models: the `FEATURES` dictionaries in pepclibs/msr/*.py; not the values of pepclibs/msr/FSBFreq.py, which
are floating point numbers (that feature is read-only). -/
structure Feature where
  bits : BitRange
  vals : Dict PyStr Int
  aliases : Option (Dict PyStr PyStr)
  isBool : Bool
  writable : Bool
  supported : Nat → Bool

/-- Re-insert the entries one by one with the key changed by `f`. -/
def rekey {β : Type} (f : PyStr → PyStr) : Dict PyStr β → Dict PyStr β → Dict PyStr β
  | [], acc => acc
  | (k, v) :: d, acc => rekey f d (acc.set (f k) v)

/-- `finfo["vals_nocase"]`. Models: pepclibs/msr/_FeaturedMSR.py:424-431. -/
def valsNocase (F : Feature) : Dict PyStr Int := rekey lower F.vals []

/-- `finfo["aliases_nocase"]`. Models: pepclibs/msr/_FeaturedMSR.py:433-436. -/
def aliasesNocase (al : Dict PyStr PyStr) : Dict PyStr PyStr := rekey lower al []

/-- Models: pepclibs/msr/_FeaturedMSR.py:418-422, `finfo["rvals"][code] = name`. -/
def reverse : Dict PyStr Int → Dict Int PyStr → Dict Int PyStr
  | [], acc => acc
  | (n, c) :: d, acc => reverse d (acc.set c n)

/-- `finfo["rvals"]`. Models: pepclibs/msr/_FeaturedMSR.py:418-422. -/
def rvals (F : Feature) : Dict Int PyStr := reverse F.vals []

/-- Models: pepclibs/msr/_FeaturedMSR.py:72-105 `validate_feature_supported()` for a known feature. -/
def validateSupported (F : Feature) (cpus : List Nat) : Except Exn Unit :=
  if cpus.all F.supported then .ok () else .error .notSupported

/-- The alias replacement. Only strings have the 'lower()' method.
Models: pepclibs/msr/_FeaturedMSR.py:170-174. -/
def replaceAlias (F : Feature) (val : Val) : Except Exn Val :=
  match F.aliases with
  | none => .ok val
  | some al =>
    match val with
    | .str s =>
      match al.get? s with
      | some n => .ok (.str n)
      | none =>
        match (aliasesNocase al).get? (lower s) with
        | some n => .ok (.str n)
        | none => .ok (.str s)
    | _ => .error .pyAttributeError

/-- Models: pepclibs/msr/_FeaturedMSR.py:176-181. -/
def replaceBool (F : Feature) (val : Val) : Val :=
  match val with
  | .bool true => if F.isBool then .str "on".toList else val
  | .bool false => if F.isBool then .str "off".toList else val
  | val => val

/-- Models: pepclibs/msr/_FeaturedMSR.py:159-191 `_normalize_feature_value()`. -/
def normalizeValue (F : Feature) (val : Val) : Except Exn Val :=
  if F.vals.isEmpty then .ok val
  else
    match replaceAlias F val with
    | .error e => .error e
    | .ok val =>
      match replaceBool F val with
      | .str s =>
        match F.vals.get? s with
        | some code => .ok (.int code)
        | none =>
          match (valsNocase F).get? (lower s) with
          | some code => .ok (.int code)
          | none => .error .error
      | _ => .error .pyAttributeError

/-- The value handed over to `write_bits()`: `is_int(True)` is false. Simplification: strings holding a
number, which `set_bits()` accepts for features without named values, are not modelled.
Models: pepclibs/msr/MSR.py:457-462. -/
def fieldVal : Val → FieldVal
  | .int n => .num n
  | .bool _ => .notInt
  | .str _ => .notInt

/-- Models: pepclibs/msr/_FeaturedMSR.py:280-315 `write_feature()`. -/
def writeFeature (E : RegFile.Env) (F : Feature) (val : Val) (cpus : List Nat) (R : Reg) :
    Reg × Except Exn Unit :=
  match validateSupported F cpus with
  | .error e => (R, .error e)
  | .ok () =>
    match normalizeValue F val with
    | .error e => (R, .error e)
    | .ok v =>
      if !F.writable then (R, .error .error)
      else RegFile.writeBits E F.bits (fieldVal v) cpus R

/-- Models: pepclibs/msr/_FeaturedMSR.py:219-228, the values are looked up in "rvals". -/
def decodeAll (F : Feature) : List (Nat × Int) → Except Exn (List (Nat × Val))
  | [] => .ok []
  | (c, v) :: l =>
    if F.vals.isEmpty then (decodeAll F l).map ((c, .int v) :: ·)
    else match (rvals F).get? v with
      | none => .error .pyKeyError
      | some n => (decodeAll F l).map ((c, .str n) :: ·)

/-- Models: pepclibs/msr/_FeaturedMSR.py:193-228 `read_feature()`. -/
def readFeature (F : Feature) (cpus : List Nat) (R : Reg) : Except Exn (List (Nat × Val)) :=
  match validateSupported F cpus with
  | .error e => .error e
  | .ok () =>
    match RegFile.readBits F.bits R cpus with
    | .error e => .error e
    | .ok l => decodeAll F l

/-- Models: pepclibs/msr/_FeaturedMSR.py:245-263 `is_feature_enabled()`. -/
def isFeatureEnabled (F : Feature) (cpus : List Nat) (R : Reg) : Except Exn (List (Nat × Bool)) :=
  match validateSupported F cpus with
  | .error e => .error e
  | .ok () =>
    if !F.isBool then .error .error
    else (readFeature F cpus R).map (List.map fun p =>
      (p.1, decide (p.2 = .str "on".toList ∨ p.2 = .str "enabled".toList)))

/-- Models: pepclibs/msr/_FeaturedMSR.py:329-354 `enable_feature()`. In Python `1 == True` and
`0 == False`. -/
def enableFeature (E : RegFile.Env) (F : Feature) (enable : Val) (cpus : List Nat) (R : Reg) :
    Reg × Except Exn Unit :=
  match validateSupported F cpus with
  | .error e => (R, .error e)
  | .ok () =>
    if !F.isBool then (R, .error .error)
    else if enable = .bool true ∨ enable = .int 1 ∨ enable = .str "on".toList ∨
        enable = .str "enable".toList then
      writeFeature E F (.str "on".toList) cpus R
    else if enable = .bool false ∨ enable = .int 0 ∨ enable = .str "off".toList ∨
        enable = .str "disable".toList then
      writeFeature E F (.str "off".toList) cpus R
    else (R, .error .error)

end Verif.FeaturedMSR
