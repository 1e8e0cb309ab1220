import Verif.Model.WrapFile
import Verif.Model.SysfsIO

/-!
The files of a host as a `SysfsIO` object sees them through the file objects of `Model/WrapFile.lean`: an instance of the file
system which is a parameter of `Model/SysfsIO.lean`.
-/

namespace Verif.WrapFile

open Verif.SysfsIO (Path World IORes)

/-- A sysfs file: the kernel accepts a value, or refuses it and keeps the old one. `refuses` says which. -/
def sysfsFile (refuses : PyStr → Option PyErr) : Kernel PyStr :=
  { write := fun c v => match refuses v with
      | none => (v, none)
      | some e => (c, some e)
    read := fun c => c }

/-- The host. Files which do not exist cannot be opened.
Models: pepclibs/_SysfsIO.py:148-150, 249-251, pepclibs/helperlibs/LocalProcessManager.py:294-322 `open()`. -/
def hostWorld (buffered : Bool) (refuses : Path → PyStr → Option PyErr) : World :=
  { σ := Path → Option PyStr
    readF := fun s p => match s p with
      | none => (s, .openErr .notFound)
      | some c => (s, .ok c)
    writeF := fun s p v => match s p with
      | none => (s, .openErr .notFound)
      | some c =>
        let K := sysfsFile (refuses p)
        let o := withFile K (run K buffered (sysfsOps v)) c
        (fun q => if q = p then some o.file.s else s q, match o.res with
          | .ok () => .ok ()
          | .error (.project e) => .ioErr e
          | .error _ => .ioErr .error) }

end Verif.WrapFile
