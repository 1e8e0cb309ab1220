import Verif.Lib.Exn
import Verif.Model.Trivial

/-!
Sysfs files as the code on top of the `_SysfsIO.SysfsIO` class sees them: one string per path. This is
the behaviour of a `SysfsIO` object outside of (or at the end of) a transaction, see the theorem
C71 about pepclibs/_SysfsIO.py; the cache and the transaction buffer are not visible any more.
-/

namespace Verif.SysFiles

/-- The contents of the existing files, without the surrounding white space. `π` are the paths. -/
abbrev Files (π : Type) := π → Option PyStr

/-- `wfail p v` is the error the kernel refuses writing `v` to the existing file `p` with; the file is
not changed then. Otherwise the file holds what was written. -/
structure Env (π : Type) where
  wfail : π → PyStr → Option Exn

variable {π : Type}

/-- Models: pepclibs/_SysfsIO.py:234-261 `read()`. Read errors of existing files are not modelled. -/
def read (F : Files π) (p : π) : Except Exn PyStr :=
  match F p with
  | none => .error .notSupported
  | some v => .ok v

/-- Models: pepclibs/_SysfsIO.py:263-283 `read_int()`. -/
def readInt (F : Files π) (p : π) : Except Exn Int :=
  match read F p with
  | .error e => .error e
  | .ok v =>
    match Trivial.strToInt v with
    | .error _ => .error .error
    | .ok n => .ok n

/-- Models: pepclibs/_SysfsIO.py:285-299 `write()`. -/
def write [DecidableEq π] (E : Env π) (F : Files π) (p : π) (v : PyStr) : Files π × Except Exn Unit :=
  match F p with
  | none => (F, .error .notSupported)
  | some _ =>
    match E.wfail p v with
    | some e => (F, .error e)
    | none => ((fun q => if q = p then some v else F q), .ok ())

end Verif.SysFiles
