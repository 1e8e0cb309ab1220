import Verif.Lib.Exn
import Verif.Lib.PyStr

/-!
Model of writing files with the file objects of the process managers: the wrapper which translates exceptions
(`ClassHelpers.WrapExceptions`), the `with` statement on it, and when the kernel gets what is written. The file objects are
those of Python (local host, emulation), which keep the data until a flush, a seek, or the end, and those of the SFTP module
(remote hosts), which do not keep data. Both are libraries, which are not part of the repository.
-/

namespace Verif.WrapFile

/-- An exception: based on `Error`, one of the exceptions of Python, or not based on `Exception` (like `KeyboardInterrupt`). -/
inductive PyErr where
  | project (e : Exn)
  | permission
  | fileNotFound
  | attribute
  | other
  | base
  deriving DecidableEq, Repr

/-- Models: pepclibs/helperlibs/ClassHelpers.py:90-109 `wrapper()`. -/
def translate : PyErr → PyErr
  | .project e => .project e
  | .permission => .project .permissionDenied
  | .fileNotFound => .project .notFound
  | .attribute => .project .error
  | .other => .project .error
  | .base => .base

/-- A call of an attribute of a wrapped object; `r` is what the call does without the wrapper.
Models: pepclibs/helperlibs/ClassHelpers.py:81-111 `__getattr__()`. -/
def call {α : Type} (name : PyStr) (r : Except PyErr α) : Except PyErr α :=
  if name.head? = some '_' then r
  else match r with
    | .ok a => .ok a
    | .error e => .error (translate e)

/-- One step of an iteration. Models: pepclibs/helperlibs/ClassHelpers.py:120-122 `__next__()`. -/
def next {α : Type} (r : Except PyErr α) : Except PyErr α := r

/-- `iterable` is whether the object has an `__iter__()` method. There is no `_target_exception` attribute, so getting it fails
in `__getattr__()`. Models: pepclibs/helperlibs/ClassHelpers.py:113-118 `__iter__()`. -/
def iter (iterable : Bool) : Except PyErr Unit := if iterable then .ok () else .error .attribute

/-- What is behind a file. `write` is what the kernel does with a text: the new state, and the error if it is refused. -/
structure Kernel (σ : Type) where
  write : σ → PyStr → σ × Option PyErr
  read : σ → PyStr

/-- An open file: the state of the kernel, what is kept, and which texts the kernel accepted and refused so far. -/
structure File (σ : Type) where
  s : σ
  pending : PyStr
  given : List PyStr
  refused : List PyStr

variable {σ : Type}

/-- Give a text to the kernel. A text which is refused is kept. -/
def push (K : Kernel σ) (f : File σ) (t : PyStr) : File σ × Except PyErr Unit :=
  match K.write f.s t with
  | (s, none) => ({ s := s, pending := [], given := f.given ++ [t], refused := f.refused }, .ok ())
  | (s, some e) => ({ s := s, pending := t, given := f.given, refused := f.refused ++ [t] }, .error e)

/-- `flush()`. -/
def sync (K : Kernel σ) (f : File σ) : File σ × Except PyErr Unit :=
  if f.pending = [] then (f, .ok ()) else push K f f.pending

/-- `write()`. Simplification: what is kept is shorter than the buffer (8192 bytes); on remote hosts a text which is refused is
not kept. -/
def write (K : Kernel σ) (buffered : Bool) (f : File σ) (v : PyStr) : File σ × Except PyErr Unit :=
  if buffered then ({ f with pending := f.pending ++ v }, .ok ())
  else match push K f v with
    | (f, .error e) => ({ f with pending := [] }, .error e)
    | r => r

/-- What is done with a file. -/
inductive Op where
  | write (v : PyStr)
  | flush
  | seek
  deriving DecidableEq

def Op.name : Op → PyStr
  | .write _ => "write".toList
  | .flush => "flush".toList
  | .seek => "seek".toList

/-- One method call on the wrapped file. A seek gives what is kept to the kernel. -/
def step (K : Kernel σ) (buffered : Bool) (f : File σ) : Op → File σ × Except PyErr Unit
  | .write v => let r := write K buffered f v; (r.1, call (Op.write v).name r.2)
  | .flush => let r := sync K f; (r.1, call Op.flush.name r.2)
  | .seek => let r := sync K f; (r.1, call Op.seek.name r.2)

/-- The calls one after another, up to the first exception. -/
def run (K : Kernel σ) (buffered : Bool) : List Op → File σ → File σ × Except PyErr Unit
  | [], f => (f, .ok ())
  | o :: l, f =>
    match step K buffered f o with
    | (f, .ok ()) => run K buffered l f
    | (f, .error e) => (f, .error e)

/-- The result of a `with` statement: the file, the warnings, and the exception. -/
structure Out (σ : Type) where
  file : File σ
  warnings : List PyErr
  res : Except PyErr Unit

/-- `with pman.open() as fobj:`, after the file is open. An exception of `close()` is printed as a warning, and an exception of
the body goes on. Simplification: `close()` gives to the kernel once what is kept (the library may try again).
Models: pepclibs/helperlibs/ClassHelpers.py:70-79 `__enter__()` and `__exit__()`. -/
def withFile (K : Kernel σ) (body : File σ → File σ × Except PyErr Unit) (s : σ) : Out σ :=
  let r := body ⟨s, [], [], []⟩
  let c := sync K r.1
  match call "close".toList c.2 with
  | .ok () => ⟨c.1, [], r.2⟩
  | .error .base => ⟨c.1, [], .error .base⟩
  | .error e => ⟨c.1, [e], r.2⟩

/-- One text. Models: pepclibs/_SysfsIO.py:148-150, pepclibs/CPUOnline.py:123-124, pepclibs/CPUIdle.py:243-244, 493-494,
pepclibs/EPB.py:100-101, pepclibs/ASPM.py:55-56, 148-149. -/
def sysfsOps (v : PyStr) : List Op := [.write v]

/-- The values of MSRs in a transaction; one value without a transaction.
Models: pepclibs/msr/MSR.py:118-125, 478-482. -/
def msrOps (vals : List PyStr) : List Op := vals.flatMap fun v => [.seek, .write v, .flush]

/-- The parts of a TPMI register. Models: pepclibs/Tpmi.py:735-746. -/
def tpmiOps (parts : List PyStr) : List Op := parts.flatMap fun v => [.write v, .seek]

/-- Writing the EPP: a value which is refused is fine if it is the current one. `known` is whether the value was written before,
so that there is an alias for it and the file is not read back. The aliases and the cache are not modelled here.
Models: pepclibs/EPP.py:134-155 `_write_to_sysfs()`. -/
def eppBody (K : Kernel σ) (buffered known : Bool) (v : PyStr) (f : File σ) : File σ × Except PyErr Unit :=
  match step K buffered f (.write v) with
  | (f, .error (.project e)) =>
    match step K buffered f .seek with
    | (f, .error e) => (f, .error e)
    | (f, .ok ()) => if v ≠ PyStr.strip (K.read f.s) then (f, .error (.project e)) else (f, .ok ())
  | (f, .error e) => (f, .error e)
  | (f, .ok ()) => if known then (f, .ok ()) else step K buffered f .seek

end Verif.WrapFile
