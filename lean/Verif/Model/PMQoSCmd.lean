import Verif.Model.Human
import Verif.Model.PMQoS
import Verif.Model.PropsCmd

/-!
The class of the PM QoS properties, as the 'pmqos' commands use it (pepctool/_PepcPMQoS.py, see Verif/Model/PropsCmd.lean):
pepclibs/PMQoS.py with pepclibs/_LinuxPMQoS.py and the transactions of pepclibs/_SysfsIO.py.

The cache of `SysfsIO` is not visible (C11 - C13): reading a file which is to be written at the end of the transaction
returns what is to be written.
-/

namespace Verif.PMQoSCmd

open CPUInfo (Scope)
open Human (Flt Num)
open HumanPrint (Val PropInfo Fmt)
open PropsBase (Mech PropDesc Gen)
open PMQoS (Files Kernel writeInt)

def latency : PyStr := "latency_limit".toList
def globalLatency : PyStr := "global_latency_limit".toList

/-- The environment. `fl` is the rounding of floating point numbers, `repr` is `str(x)` for a `float`, `K` is what the kernel
does with a text written to a file, and `cdev` is what '/dev/cpu_dma_latency' contains, `none` if it does not exist. -/
structure Env where
  fl : Rat → Rat
  repr : Flt → PyStr
  K : Kernel
  cdev : Option (List (Fin 256))

/-- The state: the files, the transaction buffer (microseconds to be written for a CPU), and a ghost: how many times the file
of a CPU was written. Models: pepclibs/_SysfsIO.py:373-393. -/
structure St where
  files : Files
  buf : Dict Nat Int
  writes : Nat → Nat

/-- Models: pepclibs/PMQoS.py:25-44, for printing. -/
def props : Dict PyStr PropInfo :=
  [(latency, ⟨"Linux per-CPU PM QoS latency limit".toList, .int, false, true⟩),
   (globalLatency, ⟨"Linux global PM QoS latency limit".toList, .int, true, false⟩)]

/-- Models: pepclibs/PMQoS.py:25-44, for reading and setting. The I/O scope is the scope
(pepclibs/_PropsClassBase.py:1273). -/
def desc (p : PyStr) : Option PropDesc :=
  if p = latency then some ⟨[.sysfs], some (.lvl .CPU), .lvl .CPU, true⟩
  else if p = globalLatency then some ⟨[.cdev], some .global, .global, false⟩
  else none

/-- `str(Trivial.str_to_num(text))`, `none` if there is an error. Models: pepclibs/helperlibs/Trivial.py:129-153. -/
def numText (E : Env) (text : PyStr) : Option PyStr :=
  match Trivial.strToInt text with
  | .ok n => some (PyStr.ofInt n)
  | .error _ => (Human.parseFloat E.fl text).map E.repr

/-- Models: pepclibs/_PropsClassBase.py:969-1005 `_normalize_inprop()` for the latency limit, which is a "float" with the
unit "s", and has no special values. Other properties are read-only or do not exist, see `cls`. -/
def norm (E : Env) : Val Flt → Except Exn (Val Flt)
  | .str text =>
    if Human.isNum E.fl text then
      match Human.parseFloat E.fl text with
      | none => .error .pyValueError
      | some x => .ok (.num x)
    else
      match Human.parseHuman E.fl text ['s'] none false with
      | .error e => .error e
      | .ok (.flt x) => .ok (.num x)
      | .ok (.int _) => .error .pyTypeError
  | v => .ok v

/-- `round(latency_limit * 1000000)`. Models: pepclibs/_LinuxPMQoS.py:80. -/
def toUs (fl : Rat → Rat) (x : Flt) : Except Exn Int :=
  match Human.mulNum fl (.flt x) (.int 1000000) with
  | .error e => .error e
  | .ok (.flt y) => Human.roundFlt y
  | .ok (.int n) => .ok n

/-- Add to the transaction buffer. Models: pepclibs/_LinuxPMQoS.py:82-91, pepclibs/_SysfsIO.py:356-361. -/
def addAll (us : Int) (cpus : List Nat) (b : Dict Nat Int) : Dict Nat Int :=
  cpus.foldl (fun b c => b.set c us) b

/-- Models: pepclibs/PMQoS.py:80-88 and pepclibs/_LinuxPMQoS.py:71-94, a transaction is going on. -/
def set (E : Env) (p : PyStr) (_ : Mech) (v : Val Flt) (cpus : List Nat) (s : St) : St × Except Exn Unit :=
  if p = latency then
    match v with
    | .num x =>
      match toUs E.fl x with
      | .error e => (s, .error e)
      | .ok us => ({ s with buf := addAll us cpus s.buf }, .ok ())
    | _ => (s, .error .pyTypeError)
  else (s, .error .error)

/-- An integer in microseconds, as seconds: `val / 1000000`. -/
def toSec (fl : Rat → Rat) (us : Int) : Except Exn (Option (Val Flt)) :=
  match Human.mkFlt fl (us / 1000000) with
  | .fin x => .ok (some (.num (.fin x)))
  | _ => .error .pyOverflowError

/-- What `SysfsIO.read()` returns for the file of a CPU. Models: pepclibs/_SysfsIO.py:234-261. -/
def text (s : St) (c : Nat) : Option PyStr :=
  match s.buf.get? c with
  | some us => some (PyStr.ofInt us)
  | none => (s.files c).map PyStr.strip

/-- What the latency limit is if the file has this text. Models: pepclibs/_LinuxPMQoS.py:42-48, pepclibs/_SysfsIO.py:263-283. -/
def readText (fl : Rat → Rat) : Option PyStr → Except Exn (Option (Val Flt))
  | none => .error .notSupported
  | some text =>
    match Trivial.strToInt text with
    | .error _ => .error .error
    | .ok us => toSec fl us

/-- Models: pepclibs/_LinuxPMQoS.py:50-69 `get_global_latency_limit()`. -/
def readGlobal (E : Env) : Except Exn (Option (Val Flt)) :=
  match E.cdev with
  | none => .error .notSupported
  | some bytes => .ok (some (.num (.fin (PMQoS.globalLimit E.fl bytes))))

/-- Reading for one CPU. Models: pepclibs/PMQoS.py:71-78. -/
def readCpu (E : Env) (p : PyStr) (x : Option PyStr) : Except Exn (Option (Val Flt)) :=
  if p = latency then readText E.fl x
  else if p = globalLatency then readGlobal E
  else .error .error

/-- Models: pepclibs/PMQoS.py:63-78 `_get_prop_cpus()`, pepclibs/_LinuxPMQoS.py:33-48. The device is read even if there are
no CPUs, but there always are. -/
def get (E : Env) (s : St) (p : PyStr) (m : Mech) : List Nat → Gen (Nat × Option (Val Flt))
  | [] => ⟨[], none⟩
  | c :: cs =>
    match readCpu E p (text s c) with
    | .error e => ⟨[], some e⟩
    | .ok v =>
      let g := get E s p m cs
      ⟨(c, v) :: g.yields, g.err⟩

/-- Writing one file, with verification. Models: pepclibs/_SysfsIO.py:206-219. -/
def flushOne (K : Kernel) (s : St) (c : Nat) (us : Int) : St × Except Exn Unit :=
  let r := writeInt K true s.files c us
  (⟨r.1, s.buf, match s.files c, K c (PyStr.ofInt us) with
    | some _, .ok _ => fun d => if d = c then s.writes d + 1 else s.writes d
    | _, _ => s.writes⟩, r.2)

/-- Models: pepclibs/_SysfsIO.py:206-219, the loop. -/
def flush (K : Kernel) : List (Nat × Int) → St → St × Except Exn Unit
  | [], s => (s, .ok ())
  | (c, us) :: l, s =>
    match flushOne K s c us with
    | (s, .error e) => (s, .error e)
    | (s, .ok ()) => flush K l s

/-- Models: pepclibs/_SysfsIO.py:190-232 `commit_transaction()`. -/
def commit (K : Kernel) (s : St) : St × Except Exn Unit :=
  match flush K s.buf s with
  | (s, .error e) => (s, .error e)
  | (s, .ok ()) => ({ s with buf := [] }, .ok ())

/-- The class. The default unit is set in pepctool/_PepcPMQoS.py:86-87. -/
def cls (E : Env) : PropsCmd.Cls St Flt where
  props := props
  desc := desc
  mechs := [.sysfs, .cdev]
  subprops := fun _ => []
  defUnit := fun p => if p = latency || p = globalLatency then some "us".toList else none
  numText := numText E
  norm := fun p => if p = latency then norm E else fun _ => .error .error
  set := set E
  get := get E
  start := fun s => (s, .ok ())
  commit := commit E.K
  freqs := false

/-- Models: pepctool/_PepcPrinter.py:142-152 `_format_unit()` for the unit "s" and a `float`. `Trivial.is_int()` is true for
every finite `float` (pepclibs/helperlibs/Trivial.py:155-174), so more than 100 seconds are printed without the fraction. -/
def fmtSec (fl : Rat → Rat) : Flt → PyStr
  | .fin x =>
    if 100 < x then PyStr.ofInt x.floor ++ ['s']
    else match Human.num2si fl x ['s'] 2 [] false with
      | .ok t => t
      | .error _ => []
  | _ => []

/-- Models: pepctool/_PepcPrinter.py:533-552 `PMQoSPrinter`. There are no lists among the properties. -/
def fmt (fl : Rat → Rat) : Fmt Flt where
  unit := fun _ => fmtSec fl
  unitInt := fun _ n => PyStr.ofInt n
  isZero := fun q => q = .fin 0
  pmqos := true

end Verif.PMQoSCmd
