import Verif.Model.Trivial
import Verif.Lib.Dict

/-!
Model of the emulated files in pepclibs/helperlibs/emul: the systems which the `-D` option runs the commands on. A file is a
list of bytes; `enc` is the encoding of texts.
-/

namespace Verif.Emul

abbrev Bytes := List Nat

/-- `fobj.truncate(n)`: a shorter file is filled up with zeros. -/
def truncate (n : Nat) (f : Bytes) : Bytes := f.take n ++ List.replicate (n - f.length) 0

/-- `fobj.seek(off)`, `fobj.write(data)`. -/
def writeAt (off : Nat) (data f : Bytes) : Bytes :=
  f.take off ++ List.replicate (off - f.length) 0 ++ data ++ f.drop (off + data.length)

/-- `fobj.seek(off)`, `fobj.read(n)`: less than `n` bytes at the end of the file. -/
def readAt (off n : Nat) (f : Bytes) : Bytes := (f.drop off).take n

/-! ### Sysfs files -/

/-- The special files. -/
inductive Kind where
  | aspm | epb | plain
deriving DecidableEq

/-- Models: pepclibs/helperlibs/emul/_RWFile.py:165-173. -/
def kindOf (path : PyStr) : Kind :=
  if "pcie_aspm/parameters/policy".toList.isSuffixOf path then .aspm
  else if "/energy_perf_bias".toList.isSuffixOf path then .epb
  else .plain

/-- Truncate, go to the start, write. Models: pepclibs/helperlibs/emul/_RWFile.py:144-154 `_truncate_write()`. -/
def plainWrite (enc : PyStr → Bytes) (f : Bytes) (data : PyStr) : Bytes :=
  writeAt 0 (enc data) (truncate data.length f)

/-- Models: pepclibs/helperlibs/emul/_RWFile.py:121-122. -/
def epbPolicies : List (PyStr × PyStr) :=
  [("performance".toList, "0\n".toList), ("balance-performance".toList, "4\n".toList), ("normal".toList, "6\n".toList),
   ("balance-power".toList, "8\n".toList), ("power".toList, "15\n".toList)]

/-- Models: pepclibs/helperlibs/emul/_RWFile.py:115-129 `_epb_write()`. -/
def epbWrite (enc : PyStr → Bytes) (f : Bytes) (data : PyStr) : Bytes :=
  plainWrite enc f ((epbPolicies.lookup (PyStr.strip data)).getD data)

/-- `s.replace(sub, new)` for a non-empty `sub`; `fuel` is the length of the text. -/
def replaceFuel (sub new : PyStr) : Nat → PyStr → PyStr
  | 0, s => s
  | _ + 1, [] => []
  | n + 1, c :: s =>
    if sub.isPrefixOf (c :: s) then new ++ replaceFuel sub new n ((c :: s).drop sub.length)
    else c :: replaceFuel sub new n s

def replace (sub new s : PyStr) : PyStr := replaceFuel sub new s.length s

/-- The text without brackets. Models: pepclibs/helperlibs/emul/_RWFile.py:166-167. -/
def policiesOf (text : PyStr) : PyStr := (PyStr.strip text).filter fun c => c ≠ '[' && c ≠ ']'

/-- `text` is the contents of the file when it was opened. Models: pepclibs/helperlibs/emul/_RWFile.py:131-142
`_aspm_write()`. -/
def aspmWrite (enc : PyStr → Bytes) (text : PyStr) (f : Bytes) (data : PyStr) : Bytes :=
  let line := replace data ('[' :: data ++ [']']) (policiesOf text)
  writeAt 0 (enc line) (truncate data.length f)

/-- Open with mode "r+", write. Models: pepclibs/helperlibs/emul/_RWFile.py:105-181 `RWSysinfoFile`. -/
def sysWrite (enc : PyStr → Bytes) (dec : Bytes → PyStr) (path : PyStr) (f : Bytes) (data : PyStr) : Bytes :=
  match kindOf path with
  | .aspm => aspmWrite enc (dec f) f data
  | .epb => epbWrite enc f data
  | .plain => plainWrite enc f data

/-- Files which are not below '/sys' are written without truncating. Models: pepclibs/helperlibs/emul/_RWFile.py:71-103
`RWFile`. -/
def procWrite (enc : PyStr → Bytes) (f : Bytes) (data : PyStr) : Bytes := writeAt 0 (enc data) f

/-- Calling a Python function: the number of arguments must be the number of parameters. -/
def call {α : Type} (params : List String) (args : Nat) (body : Except Exn α) : Except Exn α :=
  if params.length = args then body else .error .pyTypeError

/-- Writing to a read-only file: the function which should raise `Error` has one parameter. As it is bound to the object as a
method (`types.MethodType`), it is called with the object and the data.
Models: pepclibs/helperlibs/emul/_ROFile.py:18-30 `open_ro()`. -/
def roWrite (_data : PyStr) : Except Exn Unit := call ["data"] (1 + 1) (.error .error)

/-! ### The list of online CPUs -/

/-- `names` are the directories, `file` are the contents of their "online" files. The result are the online CPUs.
Simplification: `int()` of a number is the number which `is_int()` finds.
Models: pepclibs/helperlibs/emul/_ROFile.py:88-107. -/
def onlineCpus (file : PyStr → Option PyStr) : List PyStr → List Int
  | [] => []
  | name :: names =>
    if !"cpu".toList.isPrefixOf name then onlineCpus file names
    else match Trivial.strToInt (name.drop 3) with
      | .error _ => onlineCpus file names
      | .ok n =>
        match file name with
        | none => n :: onlineCpus file names
        | some data => if PyStr.strip data = "1".toList then n :: onlineCpus file names else onlineCpus file names

/-- Models: pepclibs/helperlibs/emul/_ROFile.py:74-109 `_online_read()`. -/
def onlineText (file : PyStr → Option PyStr) (names : List PyStr) : PyStr := Trivial.rangify (onlineCpus file names)

/-! ### MSR device nodes -/

/-- `int.from_bytes(…, byteorder="little")`. -/
def fromBytes : Bytes → Nat
  | [] => 0
  | b :: l => b + 256 * fromBytes l

/-- `v.to_bytes(n, byteorder="little")`. -/
def toBytes : Nat → Nat → Bytes
  | 0, _ => []
  | n + 1, v => v % 256 :: toBytes n (v / 256)

/-- `pairs` are the registers and values of a line. Models: pepclibs/helperlibs/EmulProcessManager.py:257-269. -/
def msrData (pairs : List (Nat × Nat)) : Dict Nat Bytes :=
  pairs.foldl (fun d p => d.set (p.1 * 8) (toBytes 8 p.2)) []

/-- Models: pepclibs/helperlibs/emul/_EmulDevMSR.py:16-28 `_populate_sparse_file()`. -/
def populate (data : Dict Nat Bytes) : Bytes := data.foldl (fun f x => writeAt x.1 x.2 f) []

/-- Models: pepclibs/msr/MSR.py:270-285 `_read_cpu_nocache()` with the `seek()` of
pepclibs/helperlibs/emul/_EmulDevMSR.py:39-44. -/
def readReg (f : Bytes) (addr : Nat) : Nat := fromBytes (readAt (addr * 8) 8 f)

/-- Models: pepclibs/msr/MSR.py:471-486 `_write_cpu_nocache()` with the `seek()` of
pepclibs/helperlibs/emul/_EmulDevMSR.py:39-44. -/
def writeReg (f : Bytes) (addr val : Nat) : Bytes := writeAt (addr * 8) (toBytes 8 val) f

end Verif.Emul
