import Verif.Model.RegFile

/-!
Model of the RAPL package power limits: pepclibs/Power.py, pepclibs/msr/PackagePowerLimit.py,
pepclibs/msr/PackagePowerInfo.py and pepclibs/msr/RaplPowerUnit.py.

Power units are `1 / 2**u` Watts (RaplPowerUnit.py:95-107), so multiplying and dividing a floating point
number by them only changes its exponent and is exact. A floating point number is modelled as the fraction
`m / 2**k`, or infinity, or not a number. Simplification: the exponent is not limited.
-/

namespace Verif.Power

open Verif.Bits (BitRange FieldVal getBits)
open Verif.RegFile (Reg)

/-- A Python `float`: `num m k` is `m / 2**k`. -/
inductive Float where
  | num (m : Int) (k : Nat)
  | inf (neg : Bool)
  | nan
  deriving DecidableEq, Repr

/-- `x < a / b` for `b > 0`. -/
def Float.ltFrac (x : Float) (a b : Int) : Bool :=
  match x with
  | .num m k => decide (m * b < a * 2 ^ k)
  | .inf neg => neg
  | .nan => false

/-- `x > a / b` for `b > 0`. -/
def Float.gtFrac (x : Float) (a b : Int) : Bool :=
  match x with
  | .num m k => decide (m * b > a * 2 ^ k)
  | .inf neg => !neg
  | .nan => false

/-- `int(x / units)` for units of `1 / 2**u`, rounding towards zero.
Models: pepclibs/msr/PackagePowerLimit.py:198. -/
def toUnits (u : Nat) : Float → Except Exn Int
  | .num m k => .ok (Int.tdiv (m * 2 ^ u) (2 ^ k))
  | .inf _ => .error .pyOverflowError
  | .nan => .error .pyValueError

/-- The fields "limit1" (`true`) and "limit2" (`false`).
Models: pepclibs/msr/PackagePowerLimit.py:47-58, 89-100. -/
def limitBits (first : Bool) : BitRange := if first then (14, 0) else (46, 32)

/-- The platform: register sharing and write errors, the power units exponent, the raw TDP value of every
CPU. Models: pepclibs/msr/PackagePowerInfo.py:45-56, 88-98, pepclibs/msr/RaplPowerUnit.py:95-107. The power
units are read from the first CPU and are the same for all packages. -/
structure Env where
  regs : RegFile.Env
  units : Nat
  tdp : Nat → Int

/-- The value of a limit, `val * units`.
Models: pepclibs/msr/PackagePowerLimit.py:179-193 `_get_feature()`, pepclibs/Power.py:129-144. -/
def getLimit (E : Env) (first : Bool) (cpus : List Nat) (R : Reg) : Except Exn (List (Nat × Float)) :=
  match RegFile.readBits (limitBits first) R cpus with
  | .error e => .error e
  | .ok l => .ok (l.map fun p => (p.1, .num p.2 E.units))

/-- Models: pepclibs/Power.py:148-181 `_validate_ppl()`. -/
def validate (E : Env) (first : Bool) (val : Float) (R : Reg) : List Nat → Except Exn Unit
  | [] => .ok ()
  | c :: cpus =>
    match getBits (R c) (limitBits (!first)) with
    | .error e => .error e
    | .ok other =>
      if first && val.gtFrac other (2 ^ E.units) then .error .error
      else if !first && val.ltFrac other (2 ^ E.units) then .error .error
      else
        let maxMul : Int := if first then 2 else 5
        if val.gtFrac (E.tdp c * maxMul) (2 ^ E.units) || val.ltFrac (E.tdp c) (8 * 2 ^ E.units) then
          .error .error
        else validate E first val R cpus

/-- Models: pepclibs/msr/PackagePowerLimit.py:195-199 `_set_limit()`. -/
def writeLimit (E : Env) (first : Bool) (val : Float) (cpus : List Nat) (R : Reg) :
    Reg × Except Exn Unit :=
  match toUnits E.units val with
  | .error e => (R, .error e)
  | .ok n => RegFile.writeBits E.regs (limitBits first) (.num n) cpus R

/-- Setting "ppl1" or "ppl2". Models: pepclibs/Power.py:183-190 `_do_set_prop()`. -/
def setPpl (E : Env) (first : Bool) (val : Float) (cpus : List Nat) (R : Reg) : Reg × Except Exn Unit :=
  match validate E first val R cpus with
  | .error e => (R, .error e)
  | .ok () => writeLimit E first val cpus R

/-- One request. -/
structure Request where
  first : Bool
  val : Float
  cpus : List Nat

/-- A sequence of requests; a failed request does not stop the sequence. -/
def run (E : Env) : List Request → Reg → Reg
  | [], R => R
  | q :: qs, R => run E qs (setPpl E q.first q.val q.cpus R).1

end Verif.Power
