import Verif.Lib.Float
import Verif.Lib.Exn
import Verif.Model.Trivial

/-!
Linux PM QoS latency limits. Models: pepclibs/_LinuxPMQoS.py.

Floating point numbers are rational numbers, `fl` is the rounding (see Verif/Lib/Float.lean). The files are
accessed without a transaction, and the cache of `SysfsIO` is not visible (C11 - C13).
-/

namespace Verif.PMQoS

/-- The contents of the existing per-CPU 'pm_qos_resume_latency_us' files. Models:
pepclibs/_LinuxPMQoS.py:28-31. -/
abbrev Files := Nat → Option PyStr

/-- What the kernel does with a write of a text to the file of a CPU: refuse it, or store a text. -/
abbrev Kernel := Nat → PyStr → Except Exn PyStr

/-- The value the file of the CPU holds, in seconds. Models: pepclibs/_LinuxPMQoS.py:42-48 with
pepclibs/_SysfsIO.py:263-283. Python divides integers with one rounding. -/
def getLimit (fl : Rat → Rat) (F : Files) (cpu : Nat) : Except Exn Rat :=
  match F cpu with
  | none => .error .notSupported
  | some text =>
    match Trivial.strToInt (PyStr.strip text) with
    | .error _ => .error .error
    | .ok us => .ok (fl (us / 1000000))

/-- Models: pepclibs/_LinuxPMQoS.py:50-69 `get_global_latency_limit()`, for the bytes read from the device
node, at most 4. -/
def globalLimit (fl : Rat → Rat) (bytes : List (Fin 256)) : Rat :=
  fl ((bytes.take 4).foldr (fun (b : Fin 256) (n : Nat) => b.val + 256 * n) 0 / 1000000)

/-- Models: pepclibs/_LinuxPMQoS.py:80. -/
def limitUs (fl : Rat → Rat) (limit : Rat) : Int := pyRound (fl (limit * 1000000))

/-- One write, verified or not. Models: pepclibs/_SysfsIO.py:301-311 `write_int()` and 339-371
`write_verify_int()`. -/
def writeInt (K : Kernel) (verify : Bool) (F : Files) (cpu : Nat) (us : Int) : Files × Except Exn Unit :=
  match F cpu with
  | none => (F, .error .notSupported)
  | some _ =>
    match K cpu (PyStr.ofInt us) with
    | .error e => (F, .error e)
    | .ok text =>
      (fun c => if c = cpu then some text else F c,
        if verify ∧ PyStr.strip text ≠ PyStr.ofInt us then .error .verifyFailed else .ok ())

/-- The loop of `set_latency_limit()`. Models: pepclibs/_LinuxPMQoS.py:82-94. -/
def setLoop (K : Kernel) (verify : Bool) (us : Int) : List Nat → Files → Files × Except Exn Unit
  | [], F => (F, .ok ())
  | c :: cs, F =>
    match writeInt K verify F c us with
    | (F, .error e) => (F, .error e)
    | (F, .ok ()) => setLoop K verify us cs F

/-- Models: pepclibs/_LinuxPMQoS.py:71-94 `set_latency_limit()`. -/
def setLimit (fl : Rat → Rat) (K : Kernel) (verify : Bool) (limit : Rat) (cpus : List Nat) (F : Files) :
    Files × Except Exn Unit :=
  setLoop K verify (limitUs fl limit) cpus F

end Verif.PMQoS
