import Verif.Lib.Dict
import Verif.Lib.PyStr

/-!
Model of the order in which 'pepc pstates config' changes the system. `set_props()` starts a transaction of the `SysfsIO`
object and one of the `MSR` object, sets the properties one by one in the order of the command line, and commits the MSR
transaction and then the sysfs one. EPP and EPB do not use the `SysfsIO` object: their files are written at once.
Sources: pepctool/_PepcSetter.py, pepclibs/_SysfsIO.py, pepclibs/msr/MSR.py, pepclibs/EPP.py, pepclibs/EPB.py.
-/

namespace Verif.SetOrder

/-- A change that setting a property asks for.
* `direct` - a file which is written at once: EPP and EPB with the "sysfs" mechanism. Models: pepclibs/EPP.py:128-136,
  pepclibs/EPB.py:94-101.
* `sysfs` - a file written through `SysfsIO`: frequency limits, governor, turbo, mode of 'intel_pstate'.
  Models: pepclibs/_CPUFreq.py:242-244, 409, 490, 504, 556.
* `msr` - a register. Setting a field of a register is a change of the whole register, with the other bits as they were
  (C06, C70). -/
inductive Op where
  | direct (path val : PyStr)
  | sysfs (path val : PyStr)
  | msr (cpu addr val : Nat)
  deriving DecidableEq

/-- The buffers of the two transactions. Models: pepclibs/_SysfsIO.py:387-388, pepclibs/msr/MSR.py:646-647. -/
structure Bufs where
  sysfs : Dict PyStr PyStr
  msr : Dict Nat (Dict Nat Nat)

variable {K : Type}

/-- What the kernel does with a write: `none` if it refuses. -/
abbrev Kernel (K : Type) := K → Op → Option K

/-- The writes one after the other, up to the first that is refused. The second component tells whether all were done. -/
def writes (kern : Kernel K) : List Op → K → K × Bool
  | [], k => (k, true)
  | o :: ops, k =>
    match kern k o with
    | none => (k, false)
    | some k' => writes kern ops k'

/-- The changes while the properties are set, in a transaction: an exception ends the command. Simplification: what
setting a property reads, and so which changes it asks for, is given. Models: pepctool/_PepcSetter.py:65-71,
pepclibs/_SysfsIO.py:90-118 `_add_for_transaction()`, 285-299 `write()`, 313-337 `write_verify()`; `write()` of `MSR` in
a transaction is the subject of C06. -/
def setting (kern : Kernel K) : List Op → Bufs → K → K × Option Bufs
  | [], b, k => (k, some b)
  | .direct p v :: ops, b, k =>
    match kern k (.direct p v) with
    | none => (k, none)
    | some k' => setting kern ops b k'
  | .sysfs p v :: ops, b, k => setting kern ops { b with sysfs := b.sysfs.set p v } k
  | .msr c a v :: ops, b, k => setting kern ops { b with msr := b.msr.set c (((b.msr.get? c).getD []).set a v) } k

/-- The writes of `flush_transaction()` of `MSR`. Models: pepclibs/msr/MSR.py:169-193, 225. -/
def msrWrites (b : Dict Nat (Dict Nat Nat)) : List Op := b.flatMap fun x => x.2.map fun y => .msr x.1 y.1 y.2

/-- The writes of `flush_transaction()` of `SysfsIO`. Models: pepclibs/_SysfsIO.py:190-221. -/
def sysfsWrites (b : Dict PyStr PyStr) : List Op := b.map fun x => .sysfs x.1 x.2

/-- Models: pepctool/_PepcSetter.py:65-76 `set_props()`. Not modelled: the verification and printing. -/
def setProps (kern : Kernel K) (ops : List Op) (k : K) : K × Bool :=
  match setting kern ops ⟨[], []⟩ k with
  | (k, none) => (k, false)
  | (k, some b) =>
    match writes kern (msrWrites b.msr) k with
    | (k, false) => (k, false)
    | (k, true) => writes kern (sysfsWrites b.sysfs) k

end Verif.SetOrder
