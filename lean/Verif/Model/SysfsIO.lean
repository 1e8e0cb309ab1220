import Verif.Lib.Dict
import Verif.Lib.Exn
import Verif.Lib.PyStr
import Verif.Model.Trivial

/-!
Model of pepclibs/_SysfsIO.py.
-/

namespace Verif.SysfsIO

abbrev Path := PyStr

/-- The outcome of opening a file and reading it or writing to it: opening failed, the I/O failed, or
success. -/
inductive IORes (α : Type) where
  | openErr (e : Exn)
  | ioErr (e : Exn)
  | ok (v : α)
  deriving DecidableEq

/-- The file system: an arbitrary state machine. `readF` opens a file for reading and reads it,
`writeF` opens a file for writing and writes to it (`ProcessManager.open()`, `read()`, `write()`). -/
structure World where
  σ : Type
  readF : σ → Path → σ × IORes PyStr
  writeF : σ → Path → PyStr → σ × IORes Unit

/-- Exceptions raised by the methods: `ErrorVerifyFailed` has the attributes "expected" and "actual".
Models: pepclibs/helperlibs/Exceptions.py:19-140, pepclibs/_SysfsIO.py:186-188. -/
inductive SErr where
  | exn (e : Exn)
  | verify (expected actual : PyStr)
  deriving DecidableEq

/-- An element of the transaction buffer. Models: pepclibs/_SysfsIO.py:114-118. -/
structure TInfo where
  val : PyStr
  what : PyStr
  verify : Bool
  retries : Int
  sleep : Nat
  deriving DecidableEq

/-- A `SysfsIO` object together with the file system. `log` is a ghost: the successful writes to files,
oldest first. Models: pepclibs/_SysfsIO.py:373-393. -/
structure St (W : World) where
  enabled : Bool
  cache : Dict Path PyStr
  buf : Dict Path TInfo
  inTransaction : Bool
  s : W.σ
  log : List (Path × PyStr)

variable {W : World}

/-- Models: pepclibs/_SysfsIO.py:47-62 `cache_get()`. -/
def cacheGet (st : St W) (p : Path) : Option PyStr := if st.enabled then st.cache.get? p else none

/-- Models: pepclibs/_SysfsIO.py:64-77 `cache_add()`. -/
def cacheAdd (st : St W) (p : Path) (v : PyStr) : St W :=
  if st.enabled then { st with cache := st.cache.set p v } else st

/-- Models: pepclibs/_SysfsIO.py:79-89 `cache_remove()`. -/
def cacheRemove (st : St W) (p : Path) : St W :=
  if st.enabled then { st with cache := st.cache.erase p } else st

/-- Models: pepclibs/_SysfsIO.py:91-118 `_add_for_transaction()`. -/
def addForTransaction (st : St W) (p : Path) (ti : TInfo) : St W × Except SErr Unit :=
  if !st.enabled then (st, .error (.exn .error))
  else
    match st.buf.get? p with
    | none => ({ st with buf := st.buf.set p ti }, .ok ())
    | some old =>
      if old.what ≠ ti.what ∨ old.verify ≠ ti.verify ∨ old.retries ≠ ti.retries ∨ old.sleep ≠ ti.sleep
      then (st, .error (.exn .error))
      else ({ st with buf := st.buf.set p ti }, .ok ())

/-- Models: pepclibs/_SysfsIO.py:139-164 `_write()`. -/
def rawWrite (st : St W) (p : Path) (v : PyStr) : St W × Except SErr Unit :=
  match W.writeF st.s p v with
  | (s, .ok ()) => ({ st with s := s, log := st.log ++ [(p, v)] }, .ok ())
  | (s, .openErr .notFound) => ({ st with s := s }, .error (.exn .notSupported))
  | (s, .openErr e) => ({ st with s := s }, .error (.exn e))
  | (s, .ioErr _) => ({ st with s := s }, .error (.exn .error))

/-- Models: pepclibs/_SysfsIO.py:234-261 `read()`. -/
def read (st : St W) (p : Path) : St W × Except SErr PyStr :=
  match cacheGet st p with
  | some v => (st, .ok v)
  | none =>
    match W.readF st.s p with
    | (s, .ok raw) => (cacheAdd { st with s := s } p (PyStr.strip raw), .ok (PyStr.strip raw))
    | (s, .openErr .notFound) => ({ st with s := s }, .error (.exn .notSupported))
    | (s, .openErr e) => ({ st with s := s }, .error (.exn e))
    | (s, .ioErr _) => ({ st with s := s }, .error (.exn .error))

/-- Models: pepclibs/_SysfsIO.py:263-283 `read_int()`. -/
def readInt (st : St W) (p : Path) : St W × Except SErr Int :=
  match read st p with
  | (st, .error e) => (st, .error e)
  | (st, .ok v) =>
    match Trivial.strToInt v with
    | .error _ => (st, .error (.exn .error))
    | .ok n => (st, .ok n)

/-- The verification loop; the last argument is the number of re-tries left.
Models: pepclibs/_SysfsIO.py:166-188 `_verify()`. -/
def verifyLoop (p : Path) (v : PyStr) : Nat → St W → St W × Except SErr Unit
  | n, st =>
    match read (cacheRemove st p) p with
    | (st, .error e) => (st, .error e)
    | (st, .ok new) =>
      if v = new then (st, .ok ())
      else match n with
        | 0 => (st, .error (.verify v new))
        | n + 1 => verifyLoop p v n st

/-- Models: pepclibs/_SysfsIO.py:166-188 `_verify()`: a negative number of re-tries is like zero. -/
def verify (st : St W) (p : Path) (v : PyStr) (retries : Int) : St W × Except SErr Unit :=
  verifyLoop p v retries.toNat st

/-- Models: pepclibs/_SysfsIO.py:285-299 `write()`. The transaction buffer element has the default
attributes of `_add_for_transaction()`: verified, no re-tries. -/
def write (st : St W) (p : Path) (v what : PyStr) : St W × Except SErr Unit :=
  let st := cacheRemove st p
  match (if st.inTransaction then addForTransaction st p ⟨v, what, true, 0, 0⟩ else rawWrite st p v) with
  | (st, .error e) => (st, .error e)
  | (st, .ok ()) => (cacheAdd st p v, .ok ())

/-- Models: pepclibs/_SysfsIO.py:313-337 `write_verify()`. -/
def writeVerify (st : St W) (p : Path) (v what : PyStr) (retries : Int) (sleep : Nat) :
    St W × Except SErr Unit :=
  let st := cacheRemove st p
  let r :=
    if st.inTransaction then addForTransaction st p ⟨v, what, true, retries, sleep⟩
    else
      match rawWrite st p v with
      | (st, .error e) => (st, .error e)
      | (st, .ok ()) => verify st p v retries
  match r with
  | (st, .error e) => (st, .error e)
  | (st, .ok ()) => (cacheAdd st p v, .ok ())

/-- Models: pepclibs/_SysfsIO.py:301-311 `write_int()` with an integer argument. -/
def writeInt (st : St W) (p : Path) (v : Int) (what : PyStr) : St W × Except SErr Unit :=
  write st p (PyStr.ofInt v) what

/-- Models: pepclibs/_SysfsIO.py:339-371 `write_verify_int()` with an integer argument. The conversion
of the "expected" and "actual" attributes of the exception to integers is dropped. -/
def writeVerifyInt (st : St W) (p : Path) (v : Int) (what : PyStr) (retries : Int) (sleep : Nat) :
    St W × Except SErr Unit :=
  writeVerify st p (PyStr.ofInt v) what retries sleep

/-- Models: pepclibs/_SysfsIO.py:120-137 `start_transaction()`. -/
def start (st : St W) : St W × Except SErr Unit :=
  if !st.enabled then (st, .ok ())
  else if st.inTransaction then (st, .error (.exn .error))
  else ({ st with inTransaction := true }, .ok ())

/-- Write one buffer element. Models: pepclibs/_SysfsIO.py:206-219. -/
def flushOne (st : St W) (p : Path) (ti : TInfo) : St W × Except SErr Unit :=
  match rawWrite (cacheRemove st p) p ti.val with
  | (st, .error e) => (st, .error e)
  | (st, .ok ()) =>
    match (if ti.verify then verify st p ti.val ti.retries else (st, .ok ())) with
    | (st, .error e) => (st, .error e)
    | (st, .ok ()) => (cacheAdd st p ti.val, .ok ())

/-- Models: pepclibs/_SysfsIO.py:206-219. -/
def flushLoop : Dict Path TInfo → St W → St W × Except SErr Unit
  | [], st => (st, .ok ())
  | (p, ti) :: rest, st =>
    match flushOne st p ti with
    | (st, .error e) => (st, .error e)
    | (st, .ok ()) => flushLoop rest st

/-- Models: pepclibs/_SysfsIO.py:190-221 `flush_transaction()`. -/
def flush (st : St W) : St W × Except SErr Unit :=
  if !st.enabled then (st, .ok ())
  else if !st.inTransaction then (st, .error (.exn .error))
  else
    match flushLoop st.buf st with
    | (st, .error e) => (st, .error e)
    | (st, .ok ()) => ({ st with buf := [] }, .ok ())

/-- Models: pepclibs/_SysfsIO.py:223-232 `commit_transaction()`. -/
def commit (st : St W) : St W × Except SErr Unit :=
  match flush st with
  | (st, .error e) => (st, .error e)
  | (st, .ok ()) => ({ st with inTransaction := false }, .ok ())

end Verif.SysfsIO
