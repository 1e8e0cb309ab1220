import Verif.Model.EP
import Verif.Model.Tpmi
import Verif.Model.TpmiText
import Verif.Model.FreqInfo
import Verif.Lib.Dict

/-!
Model of how the processor is identified. Sources: pepclibs/_CPUInfoBase.py, pepctool/_PepcCommon.py.

Simplifications: the output of 'lscpu' is a list of lines. The table of processor models is a parameter: the
codename of a model number. `lower()` is modelled for ASCII letters, which is enough to look for "genuine intel".
-/

namespace Verif.CPUIdent

/-- What `info` has for a key. -/
inductive Val where
  | num (n : Int)
  | text (s : PyStr)
  deriving DecidableEq

/-- The regular expressions: `^<label>\s*(.*)$`, and the one for the base frequency. -/
inductive Pat where
  | field (label : PyStr)
  | ghz

/-- Models: pepclibs/_CPUInfoBase.py:346-355. -/
def patterns : List (Pat × PyStr) :=
  [(.field "Architecture:".toList, "arch".toList),
   (.field "Byte Order:".toList, "byteorder".toList),
   (.field "Vendor ID:".toList, "vendor".toList),
   (.field "Socket(s):".toList, "packages".toList),
   (.field "CPU family:".toList, "family".toList),
   (.field "Model:".toList, "model".toList),
   (.field "Model name:".toList, "modelname".toList),
   (.ghz, "basefreq".toList),
   (.field "Stepping:".toList, "stepping".toList),
   (.field "Flags:".toList, "flags".toList)]

/-- What follows the last '@', if there is one: `.*@` is greedy. -/
def afterAt : PyStr → Option PyStr
  | [] => none
  | c :: s =>
    match afterAt s with
    | some t => some t
    | none => if c = '@' then some s else none

/-- The group of the match, if the line matches. Models: pepclibs/_CPUInfoBase.py:346-363. -/
def Pat.group : Pat → PyStr → Option PyStr
  | .field label, line => (Tpmi.stripPrefix label line).map (PyStr.lstripBy PyStr.isSpace)
  | .ghz, line =>
    match Tpmi.stripPrefix "Model name:".toList line with
    | none => none
    | some r =>
      match afterAt r with
      | none => none
      | some u =>
        let u := PyStr.lstripBy PyStr.isSpace u
        if "GHz".toList.isSuffixOf u then some (u.take (u.length - 3)) else none

/-- Models: pepclibs/_CPUInfoBase.py:363-367. -/
def conv (val : PyStr) : Except Exn Val :=
  if EP.isInt val then
    match EP.parse10 val with
    | .error e => .error e
    | .ok n => .ok (.num n)
  else .ok (.text val)

/-- The loop over the patterns. Models: pepclibs/_CPUInfoBase.py:358-367. -/
def patLoop (line : PyStr) : List (Pat × PyStr) → Dict PyStr Val → Except Exn (Dict PyStr Val)
  | [], info => .ok info
  | (p, key) :: rest, info =>
    match p.group line with
    | none => patLoop line rest info
    | some val =>
      match conv val with
      | .error e => .error e
      | .ok v => patLoop line rest (info.set key v)

/-- The loop over the lines. Models: pepclibs/_CPUInfoBase.py:357-367. -/
def lineLoop : List PyStr → Dict PyStr Val → Except Exn (Dict PyStr Val)
  | [], info => .ok info
  | line :: rest, info =>
    match patLoop (PyStr.strip line) patterns info with
    | .error e => .error e
    | .ok info => lineLoop rest info

/-- The CPU information: the texts and numbers, the flags of CPUs and whether the processor is hybrid. -/
structure Info where
  vals : Dict PyStr Val
  /-- `none`: the "flags" key was not replaced by a dictionary. -/
  flags : Option (Dict Nat (List PyStr))
  hybrid : Bool
  deriving DecidableEq

/-- `lscpu` are the lines of the output, `online` are the online CPUs, `atom`: /sys/devices/cpu_atom/cpus exists. An
integer has no `split()` method. Models: pepclibs/_CPUInfoBase.py:339-387 `_get_cpu_info()`. -/
def getCpuInfo (lscpu : List PyStr) (online : List Nat) (atom : Bool) : Except Exn Info :=
  match lineLoop lscpu [] with
  | .error e => .error e
  | .ok vals =>
    match vals.get? "flags".toList with
    | none | some (.text []) | some (.num 0) => .ok ⟨vals, none, atom⟩
    | some (.num _) => .error .pyAttributeError
    | some (.text t) =>
      .ok ⟨vals, some (online.map fun cpu => (cpu, FreqInfo.splitWs t)), atom⟩

/-- `lower()` of an ASCII letter. -/
def lowerC (c : Char) : Char := if 65 ≤ c.toNat ∧ c.toNat ≤ 90 then Char.ofNat (c.toNat + 32) else c

/-- `sub in s`. -/
def hasSub (sub : PyStr) : PyStr → Bool
  | [] => sub.isEmpty
  | c :: s => sub.isPrefixOf (c :: s) || hasSub sub s

/-- "%#x" of an integer. -/
def hexInt : Int → PyStr
  | .ofNat n => Tpmi.pyHex n
  | .negSucc n => '-' :: Tpmi.pyHex (n + 1)

/-- Models: pepclibs/_CPUInfoBase.py:389-404 `_get_cpu_description()`. `codename` looks the model up in
`CPUModels.MODELS`. -/
def cpuDescr (codename : Int → Option PyStr) (vals : Dict PyStr Val) : Except Exn PyStr :=
  match vals.get? "modelname".toList with
  | none => .error .pyKeyError
  | some (.num _) => .error .pyAttributeError
  | some (.text t) =>
    if hasSub "genuine intel".toList (t.map lowerC) then
      match vals.get? "model".toList with
      | none => .error .pyKeyError
      | some (.text _) => .error .pyValueError
      | some (.num n) =>
        .ok ("Intel processor model ".toList ++ hexInt n ++
          match codename n with
          | none => []
          | some c => " (codename: ".toList ++ c ++ ")".toList)
    else .ok t

/-- The part of the object which is used by the other code. -/
structure CPU where
  info : Info
  descr : PyStr
  deriving DecidableEq

/-- Models: pepclibs/_CPUInfoBase.py:481-482. -/
def identify (codename : Int → Option PyStr) (lscpu : List PyStr) (online : List Nat) (atom : Bool) : Except Exn CPU :=
  match getCpuInfo lscpu online atom with
  | .error e => .error e
  | .ok info =>
    match cpuDescr codename info.vals with
    | .error e => .error e
    | .ok descr => .ok ⟨info, descr⟩

/-- Models: pepctool/_PepcCommon.py:48-65 `override_cpu_model()`. -/
def overrideModel (model : PyStr) (cpu : CPU) : Except Exn CPU :=
  let r : Except Exn Int :=
    match EP.parse10 model with
    | .ok n => .ok n
    | .error _ =>
      match Tpmi.strToInt16 model with
      | .ok n => .ok n
      | .error _ => .error .error
  match r with
  | .error e => .error e
  | .ok n =>
    .ok ⟨{ cpu.info with vals := cpu.info.vals.set "model".toList (.num n) },
      cpu.descr ++ " overridden to ".toList ++ hexInt n⟩

end Verif.CPUIdent
