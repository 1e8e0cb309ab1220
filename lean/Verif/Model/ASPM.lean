import Verif.Model.Trivial
import Verif.Model.KernelVersion

/-!
PCI ASPM. Models: pepclibs/ASPM.py. The kernel is a parameter.
-/

namespace Verif.ASPM

/-- `c in "[]"`. -/
def isBracket (c : Char) : Bool := c == '[' || c == ']'

/-- The file: its contents, or the error reading it ends with. -/
abbrev File := Except Exn PyStr

/-- Models: pepclibs/ASPM.py:21-38 `_get_policies()`. -/
def policyList (f : File) (strip : Bool) : Except Exn (List PyStr) :=
  match f with
  | .error _ => .error .error
  | .ok text =>
    let policies := Trivial.splitCsvLine (PyStr.strip text) ' ' false
    .ok (if strip then policies.map (PyStr.stripBy isBracket) else policies)

/-- Models: pepclibs/ASPM.py:71-75 `get_policies()`. -/
def getPolicies (f : File) : Except Exn (List PyStr) := policyList f true

/-- Models: pepclibs/ASPM.py:63-69 `get_policy()`. -/
def getPolicy (f : File) : Except Exn PyStr :=
  match policyList f false with
  | .error e => .error e
  | .ok policies =>
    match policies.filter (fun p => p.head? == some '[' && p.getLast? == some ']') with
    | [] => .error .pyIndexError
    | p :: _ => .ok (PyStr.stripBy isBracket p)

/-- Models: pepclibs/ASPM.py:40-61 `set_policy()`. `K` is what the kernel does with the text written: the new
contents of the file, or an error (the file is not changed then). -/
def setPolicy (K : PyStr → Except Exn PyStr) (f : File) (policy : PyStr) : File × Except Exn Unit :=
  match policyList f true with
  | .error e => (f, .error e)
  | .ok policies =>
    if policies.contains policy then
      match K policy with
      | .ok text => (.ok text, .ok ())
      | .error .permissionDenied => (f, .error .permissionDenied)
      | .error _ => (f, .error .error)
    else (f, .error .error)

/-- A PCI device: whether it exists, and its 'l1_aspm' file, if there is one. -/
structure Dev where
  present : Bool
  l1 : Option PyStr

/-- The devices by their addresses. -/
abbrev Devs := PyStr → Dev

/-- `kver` is the result of `get_kver()`. Models: pepclibs/ASPM.py:77-109 `_l1_file_not_found()`. -/
def l1NotFound (kver : Except Exn PyStr) (d : Dev) : Exn :=
  if !d.present then .error
  else
    match kver with
    | .error _ => .notSupported
    | .ok [] => .notSupported
    | .ok kver =>
      match KernelVersion.kverLt kver "5.5".toList with
      | .error e => e
      | .ok _ => .notSupported

/-- Models: pepclibs/ASPM.py:111-132 `is_l1_enabled()`. Read errors of existing files are not modelled. -/
def isL1Enabled (kver : Except Exn PyStr) (D : Devs) (addr : PyStr) : Except Exn Bool :=
  match (D addr).l1 with
  | none => .error (l1NotFound kver (D addr))
  | some text =>
    match Trivial.strToInt text with
    | .error e => .error e
    | .ok v => .ok (decide (v ≠ 0))

/-- Models: pepclibs/ASPM.py:134-154 `toggle_l1_state()`. `K` is what the kernel does with the text written to
the file of the device. Opening a file that does not exist is assumed to fail with "not found". -/
def toggleL1 (K : PyStr → PyStr → Except Exn PyStr) (kver : Except Exn PyStr) (D : Devs) (addr : PyStr)
    (enable : Bool) : Devs × Except Exn Unit :=
  match (D addr).l1 with
  | none => (D, .error (l1NotFound kver (D addr)))
  | some _ =>
    match K addr (if enable then ['1'] else ['0']) with
    | .error _ => (D, .error .error)
    | .ok text => ((fun a => if a = addr then { D a with l1 := some text } else D a), .ok ())

end Verif.ASPM
