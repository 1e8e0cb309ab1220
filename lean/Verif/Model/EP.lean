import Verif.Model.HWP
import Verif.Model.Trivial

/-!
Model of pepclibs/_EPBase.py, pepclibs/EPP.py and pepclibs/EPB.py: energy-performance preference and bias.
-/

namespace Verif.EP

open Verif.Bits (BitRange FieldVal getBits)
open Verif.RegFile (Reg)

/-- The mechanisms. Models: pepclibs/_EPBase.py:20 `_MNAMES`. -/
inductive Mech where
  | sysfs
  | msr
  deriving DecidableEq, Repr

/-! ### Values -/

/-- `int(val)`: base 10 only. Models: the `int(val)` calls in pepclibs/EPP.py:72, pepclibs/EPB.py:54 and
pepclibs/msr/MSR.py:462. -/
def parse10 (val : PyStr) : Except Exn Int :=
  let r : Option Int := match PyStr.strip val with
    | '-' :: cs => (Trivial.parseDigits 10 0 false cs).map (fun n : Nat => -(n : Int))
    | '+' :: cs => (Trivial.parseDigits 10 0 false cs).map (fun n : Nat => (n : Int))
    | cs => (Trivial.parseDigits 10 0 false cs).map (fun n : Nat => (n : Int))
  match r with
  | some v => .ok v
  | none => .error .pyValueError

/-- `is_int(val)`: base 0 is tried first, then base 10. Models: pepclibs/helperlibs/Trivial.py:155-174. -/
def isInt (val : PyStr) : Bool := Except.isOk' (Trivial.strToInt val) || Except.isOk' (parse10 val)

/-- `_validate_value()`; the value is given as text, `hi` is the largest number. An empty list of policies
means that they are not available.
Models: pepclibs/EPP.py:52-84, pepclibs/EPB.py:46-60. -/
def validate (hi : Int) (policies : List PyStr) (val : PyStr) (policyOk : Bool) : Except Exn Unit :=
  if isInt val then
    match parse10 val with
    | .error e => .error e
    | .ok n => if n < 0 ∨ n > hi then .error .error else .ok ()
  else if !policyOk then .error .notSupported
  else if val ∈ policies then .ok ()
  else .error .notSupported

/-- The value `set_bits()` gets. Models: pepclibs/msr/MSR.py:457-462. -/
def fieldVal (val : PyStr) : Except Exn FieldVal :=
  if isInt val then
    match parse10 val with
    | .error e => .error e
    | .ok n => .ok (.num n)
  else .ok .notInt

/-! ### The base class -/

/-- What EPP and EPB provide. `σ` is the state, `ν` are the values read. A read returns `none` if the
mechanism does not work for the CPU. Models: pepclibs/_EPBase.py:76-107. -/
structure Ops (σ ν : Type) where
  validate : PyStr → Bool → Except Exn Unit
  read : Mech → Nat → σ → σ × Except Exn (Option ν)
  write : Mech → PyStr → Nat → σ → σ × Except Exn Unit

variable {σ ν : Type}

/-- How reading with one mechanism ended: all CPUs were read, a CPU had no value, an error was raised. -/
inductive ReadEnd where
  | all
  | noValue
  | failed (e : Exn)

/-- The inner loop of `_get_epp_or_epb()`: the values yielded so far are followed by how it ended.
Models: pepclibs/_EPBase.py:121-125. -/
def readLoop (O : Ops σ ν) (m : Mech) : List Nat → σ → σ × List (Nat × ν × Mech) × ReadEnd
  | [], s => (s, [], .all)
  | c :: cpus, s =>
    match O.read m c s with
    | (s, .error e) => (s, [], .failed e)
    | (s, .ok none) => (s, [], .noValue)
    | (s, .ok (some v)) =>
      match readLoop O m cpus s with
      | (s, l, r) => (s, (c, v, m) :: l, r)

/-- Everything `get_vals()` yields, and the exception it ends with. Without CPUs the variable `val` is not
bound; without mechanisms formatting the error message fails.
Models: pepclibs/_EPBase.py:109-133 `_get_epp_or_epb()`. -/
def getVals (O : Ops σ ν) (cpus : List Nat) : List Mech → σ → σ × List (Nat × ν × Mech) × Except Exn Unit
  | [], s => (s, [], .error .notSupported)
  | m :: ms, s =>
    match readLoop O m cpus s with
    | (s, l, .failed e) => (s, l, .error e)
    | (s, l, .all) => if cpus.isEmpty then (s, l, .error .pyUnboundLocal) else (s, l, .ok ())
    | (s, l, .noValue) =>
      match getVals O cpus ms s with
      | (s, l', r) => (s, l ++ l', r)

/-- The write loop, an error comes with the CPU it happened for. Models: pepclibs/_EPBase.py:162-163. -/
def writeLoop (O : Ops σ ν) (m : Mech) (val : PyStr) :
    List Nat → σ → σ × Option (Nat × Exn)
  | [], s => (s, none)
  | c :: cpus, s =>
    match O.write m val c s with
    | (s, .error e) => (s, some (c, e))
    | (s, .ok ()) => writeLoop O m val cpus s

/-- Whether the next mechanism is tried after an error for CPU `c` (`none`: `cpus[0]` does not exist).
Models: pepclibs/_EPBase.py:164-168. -/
def tryNext (cpus : List Nat) (c : Nat) (e : Exn) : Except Exn Bool :=
  if e.isNotSupported then
    match cpus with
    | [] => .error .pyIndexError
    | c0 :: _ => .ok (c == c0)
  else .ok false

/-- Models: pepclibs/_EPBase.py:135-174 `_set_epb_or_epb()`. Note, `cpu` is 0 if the validation fails. -/
def setVals (O : Ops σ ν) (val : PyStr) (cpus : List Nat) : List Mech → σ → σ × Except Exn Mech
  | [], s => (s, .error .notSupported)
  | m :: ms, s =>
    let (s, err) : σ × Option (Nat × Exn) :=
      match O.validate val (m == .sysfs) with
      | .error e => (s, some (0, e))
      | .ok () => writeLoop O m val cpus s
    match err with
    | none => (s, .ok m)
    | some (c, e) =>
      match tryNext cpus c e with
      | .error e => (s, .error e)
      | .ok true => setVals O val cpus ms s
      | .ok false => (s, .error e)

/-- `get_vals()` and `set_vals()` with the mechanisms given by the caller. Without any mechanism
`mnames[0]` fails. Models: pepclibs/_EPBase.py:41-72, 176-218. -/
def getValsApi (O : Ops σ ν) (cpus : List Nat) (mnames : List Mech) (s : σ) :
    σ × List (Nat × ν × Mech) × Except Exn Unit :=
  if mnames.isEmpty then (s, [], .error .pyIndexError)
  else getVals O cpus (Trivial.listDedup mnames) s

/-- See `getValsApi`. -/
def setValsApi (O : Ops σ ν) (val : PyStr) (cpus : List Nat) (mnames : List Mech) (s : σ) :
    σ × Except Exn Mech :=
  if mnames.isEmpty then (s, .error .pyIndexError)
  else setVals O val cpus (Trivial.listDedup mnames) s

/-! ### EPP -/

/-- The platform. `hwp`: the `HWPRequest` object can be created; `sup c`: CPU `c` supports EPP; `pkgSup c`:
CPU `c` supports package control; `wfail`: errors of MSR writes; `kern c cur val`: what the sysfs file of
CPU `c` reads after writing `val` to it while it reads `cur`, or the error of the write; `policies`: the
available policies; `cacheOn`: caching is enabled. Models: pepclibs/EPP.py:30-64, 167-187,
pepclibs/msr/HWPRequest.py:158-186. -/
structure EppEnv where
  hwp : Bool
  sup : Nat → Bool
  pkgSup : Nat → Bool
  wfail : Nat → Option Exn
  kern : Nat → PyStr → PyStr → Except Exn PyStr
  policies : List PyStr
  cacheOn : Bool

/-- The sysfs files, the cache (which also remembers missing files), `self._aliases`, MSR_HWP_REQUEST and
MSR_HWP_REQUEST_PKG as seen from every CPU. -/
structure EppSt where
  files : Nat → Option PyStr
  cache : Nat → Option (Option PyStr)
  aliases : Dict PyStr PyStr
  req : Reg
  pkg : Reg

/-- The "epp" field. Models: pepclibs/msr/HWPRequest.py:43-53, pepclibs/msr/HWPRequestPkg.py:41-51. -/
def eppBits : BitRange := (31, 24)

/-- The "epp_valid" field. Models: pepclibs/msr/HWPRequest.py:66-76. -/
def eppValidBits : BitRange := (60, 60)

/-- Values read: text from sysfs, a number from the MSR. -/
inductive RVal where
  | text (s : PyStr)
  | num (n : Int)
  deriving DecidableEq, Repr

/-- `f` with the value at `c` replaced. -/
def upd {α : Type} (f : Nat → α) (c : Nat) (v : α) : Nat → α := fun d => if d = c then v else f d

/-- Models: pepclibs/_PropsCache.py:86-135 `remove()`, `add()` with the "CPU" scope. -/
def cacheRemove {α : Type} (on : Bool) (cache : Nat → Option α) (c : Nat) : Nat → Option α :=
  if on then upd cache c none else cache

/-- See `cacheRemove`. -/
def cacheAdd {α : Type} (on : Bool) (cache : Nat → Option α) (c : Nat) (v : α) : Nat → Option α :=
  if on then upd cache c (some v) else cache

/-- Models: pepclibs/EPP.py:114-126 `_read_from_sysfs()`. -/
def eppReadSysfs (E : EppEnv) (c : Nat) (s : EppSt) : EppSt × Except Exn (Option RVal) :=
  match (if E.cacheOn then s.cache c else none) with
  | some v => (s, .ok (v.map .text))
  | none =>
    ({ s with cache := cacheAdd E.cacheOn s.cache c (s.files c) }, .ok ((s.files c).map .text))

/-- Models: pepclibs/msr/HWPRequest.py:111-131 `is_cpu_feature_pkg_controlled("epp")`. -/
def eppPkgControlled (E : EppEnv) (c : Nat) (s : EppSt) : Except Exn Bool :=
  if !E.pkgSup c then .ok false
  else match HWP.bitOn (s.req c) HWP.pkgControlBits with
    | .error e => .error e
    | .ok false => .ok false
    | .ok true =>
      if !E.sup c then .error .notSupported
      else match HWP.bitOn (s.req c) eppValidBits with
        | .error e => .error e
        | .ok valid => .ok (!valid)

/-- Models: pepclibs/EPP.py:86-101 `_read_from_msr()`. Simplification: the package register supports EPP if
the per-CPU register does. -/
def eppReadMsr (E : EppEnv) (c : Nat) (s : EppSt) : EppSt × Except Exn (Option RVal) :=
  if !E.hwp then (s, .ok none)
  else match eppPkgControlled E c s with
    | .error e => (s, .error e)
    | .ok ctl =>
      if !E.sup c then (s, .ok none)
      else match getBits (if ctl then s.pkg c else s.req c) eppBits with
        | .error e => (s, .error e)
        | .ok v => (s, .ok (some (.num v)))

/-- The per-CPU register file. -/
def eppRegEnv (E : EppEnv) : RegFile.Env := ⟨fun c d => c == d, E.wfail⟩

/-- Models: pepclibs/msr/HWPRequest.py:133-147 `disable_cpu_feature_pkg_control("epp")`. -/
def eppDisablePkg (E : EppEnv) (c : Nat) (s : EppSt) : EppSt × Except Exn Unit :=
  if !E.pkgSup c then (s, .ok ())
  else match HWP.bitOn (s.req c) HWP.pkgControlBits with
    | .error e => (s, .error e)
    | .ok false => (s, .ok ())
    | .ok true =>
      if !E.sup c then (s, .error .notSupported)
      else match RegFile.writeBits (eppRegEnv E) eppValidBits (.num 1) [c] s.req with
        | (req, r) => ({ s with req := req }, r)

/-- Models: pepclibs/EPP.py:103-112 `_write_to_msr()`. -/
def eppWriteMsr (E : EppEnv) (val : PyStr) (c : Nat) (s : EppSt) : EppSt × Except Exn Unit :=
  if !E.hwp then (s, .error .notSupported)
  else match eppDisablePkg E c s with
    | (s, .error e) => (s, .error e)
    | (s, .ok ()) =>
      if !E.sup c then (s, .error .notSupported)
      else match fieldVal val with
        | .error e => (s, .error e)
        | .ok v =>
          match RegFile.writeBits (eppRegEnv E) eppBits v [c] s.req with
          | (req, r) => ({ s with req := req }, r)

/-- `ErrorNotFound` becomes `ErrorNotSupported`. Models: pepclibs/EPP.py:157-163, pepclibs/EPB.py:102-105. -/
def mapNotFound (e : Exn) : Exn := if e = .notFound then .notSupported else e

/-- Models: pepclibs/EPP.py:128-165 `_write_to_sysfs()`. -/
def eppWriteSysfs (E : EppEnv) (val : PyStr) (c : Nat) (s : EppSt) : EppSt × Except Exn Unit :=
  let s := { s with cache := cacheRemove E.cacheOn s.cache c }
  match s.files c with
  | none => (s, .error .notSupported)
  | some cur =>
    match E.kern c cur val with
    | .error e =>
      if val ≠ cur then (s, .error (mapNotFound e))
      else ({ s with aliases := s.aliases.set val cur, cache := cacheAdd E.cacheOn s.cache c (some cur) },
            .ok ())
    | .ok new =>
      let s := { s with files := upd s.files c (some new) }
      match s.aliases.get? val with
      | some val1 => ({ s with cache := cacheAdd E.cacheOn s.cache c (some val1) }, .ok ())
      | none =>
        ({ s with aliases := s.aliases.set val new, cache := cacheAdd E.cacheOn s.cache c (some new) }, .ok ())

/-- EPP. Models: pepclibs/EPP.py:21-22 (range 0-255). -/
def eppOps (E : EppEnv) : Ops EppSt RVal where
  validate := validate 255 E.policies
  read m c s := match m with
    | .sysfs => eppReadSysfs E c s
    | .msr => eppReadMsr E c s
  write m val c s := match m with
    | .sysfs => eppWriteSysfs E val c s
    | .msr => eppWriteMsr E val c s

/-! ### EPB -/

/-- The platform. `same`: CPUs sharing EPB (register and sysfs file contents); `sup c`: CPU `c` supports
EPB; `kern cur val`: what the sysfs file reads after writing `val` to it while it reads `cur`.
Models: pepclibs/EPB.py:117-138, pepclibs/msr/EnergyPerfBias.py:18-75. -/
structure EpbEnv where
  same : Nat → Nat → Bool
  sup : Nat → Bool
  wfail : Nat → Option Exn
  kern : Nat → PyStr → PyStr → Except Exn PyStr
  cacheOn : Bool

/-- The sysfs files, the cache, `self._epb_policies` (without the `None` values), MSR_ENERGY_PERF_BIAS. -/
structure EpbSt where
  files : Nat → Option PyStr
  cache : Nat → Option (Option Int)
  policies : Dict PyStr Int
  reg : Reg

/-- Models: pepclibs/msr/EnergyPerfBias.py:27-38. -/
def epbBits : BitRange := (3, 0)

/-- Models: pepclibs/EPB.py:23-24. -/
def epbPolicies : List PyStr :=
  ["performance".toList, "balance-performance".toList, "normal".toList, "balance-power".toList,
   "power".toList]

/-- Models: pepclibs/EPB.py:80-92 `_read_from_sysfs()`. -/
def epbReadSysfs (E : EpbEnv) (c : Nat) (s : EpbSt) : EpbSt × Except Exn (Option Int) :=
  match (if E.cacheOn then s.cache c else none) with
  | some v => (s, .ok v)
  | none =>
    match s.files c with
    | none => ({ s with cache := cacheAdd E.cacheOn s.cache c none }, .ok none)
    | some t =>
      match parse10 t with
      | .error e => (s, .error e)
      | .ok n => ({ s with cache := cacheAdd E.cacheOn s.cache c (some n) }, .ok (some n))

/-- Models: pepclibs/EPB.py:62-68 `_read_from_msr()`. -/
def epbReadMsr (E : EpbEnv) (c : Nat) (s : EpbSt) : EpbSt × Except Exn (Option Int) :=
  if !E.sup c then (s, .ok none)
  else match getBits (s.reg c) epbBits with
    | .error e => (s, .error e)
    | .ok v => (s, .ok (some v))

/-- Models: pepclibs/EPB.py:70-78 `_write_to_msr()`. -/
def epbWriteMsr (E : EpbEnv) (val : PyStr) (c : Nat) (s : EpbSt) : EpbSt × Except Exn Unit :=
  if !E.sup c then (s, .error .notSupported)
  else match fieldVal val with
    | .error e => (s, .error e)
    | .ok v =>
      match RegFile.writeBits ⟨E.same, E.wfail⟩ epbBits v [c] s.reg with
      | (reg, r) => ({ s with reg := reg }, r)

/-- Models: pepclibs/EPB.py:94-115 `_write_to_sysfs()`. The `int(None)` of a file which has vanished
is a `TypeError`. -/
def epbWriteSysfs (E : EpbEnv) (val : PyStr) (c : Nat) (s : EpbSt) : EpbSt × Except Exn Unit :=
  let s := { s with cache := cacheRemove E.cacheOn s.cache c }
  match s.files c with
  | none => (s, .error .notSupported)
  | some cur =>
    match E.kern c cur val with
    | .error e => (s, .error (mapNotFound e))
    | .ok new =>
      let s := { s with files := fun d => if E.same c d then (s.files d).map (fun _ => new) else s.files d }
      if !isInt val then
        match s.policies.get? val with
        | some n =>
          if n ≠ 0 then ({ s with cache := cacheAdd E.cacheOn s.cache c (some n) }, .ok ())
          else
            match epbReadSysfs E c s with
            | (s, .error e) => (s, .error e)
            | (s, .ok none) => (s, .error .pyTypeError)
            | (s, .ok (some n)) =>
              ({ s with policies := s.policies.set val n,
                        cache := cacheAdd E.cacheOn s.cache c (some n) }, .ok ())
        | none =>
          match epbReadSysfs E c s with
          | (s, .error e) => (s, .error e)
          | (s, .ok none) => (s, .error .pyTypeError)
          | (s, .ok (some n)) =>
            ({ s with policies := s.policies.set val n,
                      cache := cacheAdd E.cacheOn s.cache c (some n) }, .ok ())
      else
        match parse10 val with
        | .error e => (s, .error e)
        | .ok n => ({ s with cache := cacheAdd E.cacheOn s.cache c (some n) }, .ok ())

/-- EPB. Models: pepclibs/EPB.py:26-27 (range 0-15). -/
def epbOps (E : EpbEnv) : Ops EpbSt Int where
  validate := validate 15 epbPolicies
  read m c s := match m with
    | .sysfs => epbReadSysfs E c s
    | .msr => epbReadMsr E c s
  write m val c s := match m with
    | .sysfs => epbWriteSysfs E val c s
    | .msr => epbWriteMsr E val c s

end Verif.EP
