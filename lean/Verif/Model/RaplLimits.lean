import Verif.Model.MSR
import Verif.Model.FeaturedMSR
import Verif.Model.Power

/-!
Model of pepclibs/Power.py and pepclibs/msr/PackagePowerLimit.py on top of the `MSR` object, with its cache and
transactions. In `Verif.Model.Power` the limits are modelled on top of plain registers.
-/

namespace Verif.RaplLimits

open Verif.Bits (BitRange FieldVal getBits)
open Verif.MSR (Env St)

open CPUInfo (Scope Nums)

/-- MSR_PKG_POWER_LIMIT. Models: pepclibs/msr/PackagePowerLimit.py:19. -/
def regaddr : Nat := 0x610

/-- MSR_PKG_POWER_INFO. Models: pepclibs/msr/PackagePowerInfo.py:18. -/
def infoaddr : Nat := 0x614

/-- The scope and I/O scope of all the features. Models: "sname" and "iosname" in
pepclibs/msr/PackagePowerLimit.py:47-132 and pepclibs/msr/PackagePowerInfo.py:45-56. -/
def scope : Scope := .lvl .package

/-- The features with values "on" and "off". The argument of the constructors is `true` for limit #1 and `false` for limit
#2. -/
inductive Switch where
  | enable (first : Bool)
  | clamp (first : Bool)
  deriving DecidableEq

/-- Models: pepclibs/msr/PackagePowerLimit.py:60-79, 101-120. -/
def Switch.bits : Switch → BitRange
  | .enable true => (15, 15)
  | .clamp true => (16, 16)
  | .enable false => (47, 47)
  | .clamp false => (48, 48)

/-- Models: pepclibs/msr/PackagePowerLimit.py:48-58, 89-99. -/
def limitBits : Bool → BitRange
  | true => (14, 0)
  | false => (46, 32)

/-- Models: pepclibs/msr/PackagePowerLimit.py:80-88, 121-131. -/
def windowBits : Bool → BitRange
  | true => (23, 17)
  | false => (55, 49)

/-- The bits of "tdp". Models: pepclibs/msr/PackagePowerInfo.py:45-56. -/
def tdpBits : BitRange := (14, 0)

/-- Models: pepclibs/msr/PackagePowerLimit.py:60-79, 101-120. `supported` says which CPUs have a supported model. -/
def Switch.feature (supported : Nat → Bool) (s : Switch) : FeaturedMSR.Feature where
  bits := s.bits
  vals := [("on".toList, 1), ("off".toList, 0)]
  aliases := none
  isBool := true
  writable := true
  supported := supported

/-- The platform: the MSR access, the supported CPUs, power units of `1 / 2**units` Watts and time units of
`1 / 2**time` seconds. Simplification: the units are parameters, they are read from the first CPU (0x606) in the code.
Models: pepclibs/msr/RaplPowerUnit.py:95-122, pepclibs/msr/PackagePowerLimit.py:150-169. -/
structure Plat where
  msr : Env
  supported : Nat → Bool
  units : Nat
  time : Nat

/-- The check at the beginning of `read_feature()` and `write_feature()`: the CPUs are normalized and supported.
Models: pepclibs/msr/_FeaturedMSR.py:72-105. -/
def validateSupported (P : Plat) (cpus : Nums) : Except Exn Unit :=
  match P.msr.T.normCpus cpus with
  | .error e => .error e
  | .ok l => if l.all P.supported then .ok () else .error .notSupported

/-- Write with verification, in a transaction as well. Models: pepclibs/msr/PackagePowerLimit.py:211-227. -/
def writeVerified (P : Plat) (bits : BitRange) (val : FieldVal) (cpus : Nums) (st : St) : St × Except Exn Unit :=
  match MSR.flushTransaction P.msr st with
  | (st, .error e) => (st, .error e)
  | (st, .ok _) =>
    match MSR.writeBits P.msr st regaddr bits val cpus scope true with
    | (st, .error e) => (st, .error e)
    | (st, .ok ()) =>
      match MSR.flushTransaction P.msr st with
      | (st, .error e) => (st, .error e)
      | (st, .ok _) => (st, .ok ())

/-- Setting "ppl1_enable", "ppl1_clamp", "ppl2_enable" or "ppl2_clamp". Models: pepclibs/Power.py:183-210 and
pepclibs/msr/_FeaturedMSR.py:280-315, pepclibs/msr/PackagePowerLimit.py:201-227. -/
def setSwitch (P : Plat) (s : Switch) (val : FeaturedMSR.Val) (cpus : Nums) (st : St) : St × Except Exn Unit :=
  match validateSupported P cpus with
  | .error e => (st, .error e)
  | .ok () =>
    match FeaturedMSR.normalizeValue (s.feature P.supported) val with
    | .error e => (st, .error e)
    | .ok v => writeVerified P s.bits (FeaturedMSR.fieldVal v) cpus st

/-- Getting the same properties. Models: pepclibs/Power.py:132-146, pepclibs/msr/_FeaturedMSR.py:193-220,
pepclibs/msr/PackagePowerLimit.py:179-193. -/
def getSwitch (P : Plat) (s : Switch) (cpus : Nums) (st : St) : St × Except Exn (List (Nat × FeaturedMSR.Val)) :=
  match validateSupported P cpus with
  | .error e => (st, .error e)
  | .ok () =>
    match MSR.readBits P.msr st regaddr s.bits cpus scope with
    | (st, .error e) => (st, .error e)
    | (st, .ok l) => (st, FeaturedMSR.decodeAll (s.feature P.supported) l)

/-- The time window in seconds, `2**y * (1 + z / 4) * units`. Models: pepclibs/msr/PackagePowerLimit.py:171-177. -/
def window (P : Plat) (val : Int) : Except Exn Power.Float :=
  match getBits val (4, 0), getBits val (6, 5) with
  | .ok y, .ok z => .ok (.num (2 ^ y.toNat * (4 + z)) (2 + P.time))
  | .error e, _ => .error e
  | .ok _, .error e => .error e

/-- Apply a function to all the values. -/
def mapVals {α β : Type} (f : α → Except Exn β) : List (Nat × α) → Except Exn (List (Nat × β))
  | [] => .ok []
  | (c, v) :: l =>
    match f v with
    | .error e => .error e
    | .ok w => (mapVals f l).map ((c, w) :: ·)

/-- Getting "ppl1_window" or "ppl2_window". Models: pepclibs/Power.py:132-146,
pepclibs/msr/PackagePowerLimit.py:171-193. -/
def getWindow (P : Plat) (first : Bool) (cpus : Nums) (st : St) : St × Except Exn (List (Nat × Power.Float)) :=
  match validateSupported P cpus with
  | .error e => (st, .error e)
  | .ok () =>
    match MSR.readBits P.msr st regaddr (windowBits first) cpus scope with
    | (st, .error e) => (st, .error e)
    | (st, .ok l) => (st, mapVals (window P) l)

/-- Getting "ppl1" or "ppl2". Models: pepclibs/Power.py:132-146, pepclibs/msr/PackagePowerLimit.py:179-193. -/
def getLimit (P : Plat) (first : Bool) (cpus : Nums) (st : St) : St × Except Exn (List (Nat × Power.Float)) :=
  match validateSupported P cpus with
  | .error e => (st, .error e)
  | .ok () =>
    match MSR.readBits P.msr st regaddr (limitBits first) cpus scope with
    | (st, .error e) => (st, .error e)
    | (st, .ok l) => (st, .ok (l.map fun p => (p.1, .num p.2 P.units)))

/-- Models: pepclibs/Power.py:148-181 `_validate_ppl()`: the TDP and the other limit of a CPU are read, in this order,
through the cache. -/
def validateLoop (P : Plat) (first : Bool) (val : Power.Float) : List Nat → St → St × Except Exn Unit
  | [], st => (st, .ok ())
  | c :: cpus, st =>
    match MSR.readBitsLoop P.msr infoaddr tdpBits scope [c] st with
    | (st, .error e) => (st, .error e)
    | (st, .ok tdp) =>
      match MSR.readBitsLoop P.msr regaddr (limitBits (!first)) scope [c] st with
      | (st, .error e) => (st, .error e)
      | (st, .ok other) =>
        match tdp, other with
        | (_, tdp) :: _, (_, other) :: _ =>
          if first && val.gtFrac other (2 ^ P.units) then (st, .error .error)
          else if !first && val.ltFrac other (2 ^ P.units) then (st, .error .error)
          else
            let maxMul : Int := if first then 2 else 5
            if val.gtFrac (tdp * maxMul) (2 ^ P.units) || val.ltFrac tdp (8 * 2 ^ P.units) then (st, .error .error)
            else validateLoop P first val cpus st
        | _, _ => (st, .ok ())

/-- Setting "ppl1" or "ppl2": the limit is written without verification. Models: pepclibs/Power.py:183-190,
pepclibs/msr/_FeaturedMSR.py:280-315, pepclibs/msr/PackagePowerLimit.py:195-199, 228-229. -/
def setLimit (P : Plat) (first : Bool) (val : Power.Float) (cpus : Nums) (st : St) : St × Except Exn Unit :=
  match validateSupported P cpus with
  | .error e => (st, .error e)
  | .ok () =>
    match P.msr.T.normCpus cpus with
    | .error e => (st, .error e)
    | .ok l =>
      match validateLoop P first val l st with
      | (st, .error e) => (st, .error e)
      | (st, .ok ()) =>
        match Power.toUnits P.units val with
        | .error e => (st, .error e)
        | .ok n => MSR.writeBits P.msr st regaddr (limitBits first) (.num n) cpus scope false

/-- The operations on the power properties and the transactions. -/
inductive Op where
  | getSwitch (s : Switch) (cpus : Nums)
  | getWindow (first : Bool) (cpus : Nums)
  | getLimit (first : Bool) (cpus : Nums)
  | setSwitch (s : Switch) (val : FeaturedMSR.Val) (cpus : Nums)
  | setLimit (first : Bool) (val : Power.Float) (cpus : Nums)
  | start
  | flush
  | commit

/-- One operation. -/
def step (P : Plat) (st : St) : Op → St × Except Exn Unit
  | .getSwitch s cpus => ((getSwitch P s cpus st).1, (getSwitch P s cpus st).2.map fun _ => ())
  | .getWindow f cpus => ((getWindow P f cpus st).1, (getWindow P f cpus st).2.map fun _ => ())
  | .getLimit f cpus => ((getLimit P f cpus st).1, (getLimit P f cpus st).2.map fun _ => ())
  | .setSwitch s v cpus => setSwitch P s v cpus st
  | .setLimit f v cpus => setLimit P f v cpus st
  | .start => MSR.startTransaction st
  | .flush => ((MSR.flushTransaction P.msr st).1, (MSR.flushTransaction P.msr st).2.map fun _ => ())
  | .commit => MSR.commitTransaction P.msr st

/-- The operation sets a switch. -/
def Op.isSwitch : Op → Bool
  | .setSwitch _ _ _ => true
  | _ => false

/-- A sequence of operations: it goes on after an error (the caller catches the exception), but not after an error of
setting a switch in a transaction. -/
def run (P : Plat) : List Op → St → Option St
  | [], st => some st
  | o :: os, st =>
    match step P st o with
    | (st', .ok ()) => run P os st'
    | (st', .error _) => if st.inTransaction && o.isSwitch then none else run P os st'

end Verif.RaplLimits
