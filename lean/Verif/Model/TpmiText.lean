import Verif.Model.TpmiCmd
import Verif.Model.CPUIdle
import Verif.Model.PropsYaml

/-!
Model of the text printed by 'pepc tpmi ls' and 'pepc tpmi read'. Source: pepctool/_PepcTpmi.py.

Simplifications: every call of `_LOG.info()` is one message. The text of the "bits" key of a bit field is a
parameter, since the register definitions of the other models keep only the numbers which it means (C89). A
set is a list without repetitions, `Trivial.rangify()` sorts it.
-/

namespace Verif.Tpmi

/-! ### Numbers -/

/-- The digit of `n % 16`. -/
def hexDigit (n : Nat) : Char := if n % 16 < 10 then Char.ofNat (48 + n % 16) else Char.ofNat (87 + n % 16)

/-- The digits of `hex(n)`. -/
def hexDigits (n : Nat) : PyStr :=
  if n < 16 then [hexDigit n] else hexDigits (n / 16) ++ [hexDigit n]
termination_by n
decreasing_by omega

/-- `hex(n)` and "%#x". -/
def pyHex (n : Nat) : PyStr := '0' :: 'x' :: hexDigits n

/-- `" " * n`. -/
def spaces (n : Nat) : PyStr := List.replicate n ' '

/-! ### 'pepc tpmi ls' -/

/-- The dictionary of packages, addresses and instances. Models: pepctool/_PepcTpmi.py:27-33. -/
def lsInfo : List Triple → Dict Nat (Dict PyStr (List Nat)) → Dict Nat (Dict PyStr (List Nat))
  | [], info => info
  | (addr, package, inst) :: rest, info =>
    let devs := (info.get? package).getD []
    let is := (devs.get? addr).getD []
    lsInfo rest (info.set package (devs.set addr (if inst ∈ is then is else is ++ [inst])))

/-- The loop over the addresses of a package, with the two prefixes. Models: pepctool/_PepcTpmi.py:39-47. -/
def lsAddrs (package : Nat) (devs : Dict PyStr (List Nat)) : List PyStr → (pfx1 pfx2 : PyStr) → List PyStr
  | [], _, _ => []
  | addr :: rest, pfx1, pfx2 =>
    [pfx1 ++ "PCI address: ".toList ++ addr,
     pfx2 ++ spaces 2 ++ "Package: ".toList ++ PyStr.ofNat package,
     pfx2 ++ spaces 2 ++ "Instances: ".toList ++ PropsYaml.rangifyN ((devs.get? addr).getD [])] ++
    lsAddrs package devs rest (pfx2 ++ "- ".toList) (pfx2 ++ spaces 2)

/-- Models: pepctool/_PepcTpmi.py:20-47 `_ls_long()`, for what `iter_feature()` yields. -/
def lsLong (ts : List Triple) (pfx : PyStr) : List PyStr :=
  let info := lsInfo ts []
  (sortNat info.keys).flatMap fun package =>
    let devs := (info.get? package).getD []
    lsAddrs package devs (sortBy CPUIdle.strLe devs.keys) (pfx ++ "- ".toList) (pfx ++ spaces 2)

/-- `sep.join(l)` for ", ". -/
def commaJoin : List PyStr → PyStr
  | [] => []
  | [x] => x
  | x :: rest => x ++ ", ".toList ++ commaJoin rest

section
variable {W : Type} (K : Kernel W) (E : Env)

/-- The loop over the known features, given by name and description. Models: pepctool/_PepcTpmi.py:64-67. -/
def lsFeatures (long : Bool) : List (PyStr × PyStr) → St W → List PyStr → St W × List PyStr × Option Exn
  | [], s, out => (s, out, none)
  | (name, desc) :: rest, s, out =>
    let out := out ++ [" - ".toList ++ name ++ ": ".toList ++ PyStr.strip desc]
    if long then
      match iterFeature K E name none none none s with
      | (s, _, some e) => (s, out, some e)
      | (s, ts, none) => lsFeatures long rest s (out ++ lsLong ts (spaces 3))
    else lsFeatures long rest s out

/-- The messages and the exception. `known` are the names and descriptions given by `get_known_features()`, `unknown`
is what `get_unknown_features()` gives. Models: pepctool/_PepcTpmi.py:50-74 `tpmi_ls_command()`. -/
def lsCmd (long all : Bool) (known : List (PyStr × PyStr)) (unknown : List Nat) (hostmsg : PyStr) (s : St W) :
    St W × List PyStr × Option Exn :=
  let r :=
    if known = [] then (s, ["Not supported TPMI features found".toList], none)
    else lsFeatures K E long known s ["Supported TPMI features".toList]
  match r with
  | (s, out, some e) => (s, out, some e)
  | (s, out, none) =>
    if all = true ∧ unknown ≠ [] then
      (s, out ++ ["Unknown TPMI features (available".toList ++ hostmsg ++ ", but no spec file found)".toList,
        " - ".toList ++ commaJoin (unknown.map pyHex)], none)
    else (s, out, none)

end

/-! ### 'pepc tpmi read' -/

section
variable (bits : PyStr → PyStr → PyStr → PyStr)

/-- Models: pepctool/_PepcTpmi.py:102-106. -/
def printField (f r : PyStr) (b : PyStr × Nat) : PyStr :=
  spaces 8 ++ "- ".toList ++ b.1 ++ "[".toList ++ bits f r b.1 ++ "]: ".toList ++ PyStr.ofNat b.2

/-- Models: pepctool/_PepcTpmi.py:95-106. -/
def printReg (f : PyStr) (r : PyStr × RegInfo) : List PyStr :=
  (spaces 6 ++ "- ".toList ++ r.1 ++ ": ".toList ++ pyHex r.2.value) ::
    match r.2.fields with
    | none => []
    | some fs => fs.map (printField bits f r.1)

/-- Models: pepctool/_PepcTpmi.py:91-106. -/
def printInst (f : PyStr) (i : Nat × Dict PyStr RegInfo) : List PyStr :=
  (spaces 4 ++ "- ".toList ++ "Instance: ".toList ++ PyStr.ofNat i.1) :: i.2.flatMap (printReg bits f)

/-- Models: pepctool/_PepcTpmi.py:86-106. -/
def printDev (f : PyStr) (d : PyStr × DevInfo) : List PyStr :=
  (spaces 2 ++ "- ".toList ++ "PCI address: ".toList ++ d.1) ::
    (spaces 2 ++ spaces 2 ++ "Package: ".toList ++ PyStr.ofNat d.2.package) ::
    d.2.instances.flatMap (printInst bits f)

/-- Models: pepctool/_PepcTpmi.py:81-106. -/
def printFeature (f : PyStr × FeatInfo) : List PyStr :=
  (spaces 0 ++ "- ".toList ++ "TPMI feature: ".toList ++ f.1) :: f.2.flatMap (printDev bits f.1)

/-- Models: pepctool/_PepcTpmi.py:76-106 `_tpmi_read_command_print()`. -/
def printInfo (info : Dict PyStr FeatInfo) : List PyStr := info.flatMap (printFeature bits)

end

end Verif.Tpmi
