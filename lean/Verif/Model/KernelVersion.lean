import Verif.Lib.Exn
import Verif.Lib.PyStr

/-!
Kernel version strings. Models: pepclibs/helperlibs/KernelVersion.py.

Simplifications: `\d` matches ASCII digits only (Python's matches every Unicode decimal digit), and
numbers may have any number of digits (Python refuses to convert more than 4300).
-/

namespace Verif.KernelVersion

/-- `\d`. -/
def isDigit (c : Char) : Bool := 48 ≤ c.toNat && c.toNat ≤ 57

/-- `int(s)` for a string of digits. -/
def toNum (s : PyStr) : Nat := s.foldl (fun n c => 10 * n + (c.toNat - 48)) 0

/-- Greedy `(\d+)` at the beginning of the string: the digits and what follows. The code's patterns
never need a shorter match: what they require next is not a digit. -/
def digits (s : PyStr) : Option (PyStr × PyStr) :=
  if s.takeWhile isDigit = [] then none else some (s.takeWhile isDigit, s.dropWhile isDigit)

/-- Greedy `.*`: everything up to the end of the line. -/
def restOfLine (s : PyStr) : PyStr := s.takeWhile (· ≠ '\n')

/-- Models: pepclibs/helperlibs/KernelVersion.py:18-19 `SplitKver` with numerical components. -/
structure SplitKver where
  major : Nat
  minor : Nat
  stable : Nat
  rc : Option Nat
  localver : PyStr
  deriving DecidableEq, Repr

/-- `-rc(\d+)(.*)`. Models: pepclibs/helperlibs/KernelVersion.py:29-35 `_fetch_rc()`. -/
def fetchRc (localver : PyStr) : Option Nat × PyStr :=
  match localver with
  | '-' :: 'r' :: 'c' :: s =>
    match digits s with
    | some (n, rest) => (some (toNum n), restOfLine rest)
    | none => (none, localver)
  | _ => (none, localver)

/-- `(?:\.(\d+)){0,1}`: the stable number, 0 if there is none, and what follows.
Models: pepclibs/helperlibs/KernelVersion.py:37-43. -/
def fetchStable (s : PyStr) : Nat × PyStr :=
  match s with
  | '.' :: t =>
    match digits t with
    | some (n, rest) => (toNum n, rest)
    | none => (0, s)
  | _ => (0, s)

/-- `split_kver(kver, numerical=True)`. Models: pepclibs/helperlibs/KernelVersion.py:21-52. -/
def splitKver (kver : PyStr) : Except Exn SplitKver :=
  match digits kver with
  | some (major, '.' :: s) =>
    match digits s with
    | some (minor, s) =>
      let (stable, s) := fetchStable s
      let (rc, localver) := fetchRc (restOfLine s)
      .ok ⟨toNum major, toNum minor, stable, rc, localver⟩
    | none => .error .error
  | _ => .error .error

/-- `a < b` for strings. -/
def strLt : PyStr → PyStr → Bool
  | [], [] => false
  | [], _ :: _ => true
  | _ :: _, [] => false
  | a :: as, b :: bs => if a = b then strLt as bs else decide (a.toNat < b.toNat)

/-- Models: pepclibs/helperlibs/KernelVersion.py:60-65 `_lt()`. -/
def rcLt : Option Nat → Option Nat → Bool
  | none, _ => false
  | some _, none => true
  | some a, some b => decide (a < b)

/-- Models: pepclibs/helperlibs/KernelVersion.py:70-78. -/
def lt (a b : SplitKver) : Bool :=
  if a.major ≠ b.major then decide (a.major < b.major)
  else if a.minor ≠ b.minor then decide (a.minor < b.minor)
  else if a.stable ≠ b.stable then decide (a.stable < b.stable)
  else if a.rc ≠ b.rc then rcLt a.rc b.rc
  else strLt a.localver b.localver

/-- Models: pepclibs/helperlibs/KernelVersion.py:54-78 `kver_lt()`. -/
def kverLt (kver1 kver2 : PyStr) : Except Exn Bool :=
  match splitKver kver1 with
  | .error e => .error e
  | .ok a =>
    match splitKver kver2 with
    | .error e => .error e
    | .ok b => .ok (lt a b)

/-- Models: pepclibs/helperlibs/KernelVersion.py:80-86 `kver_ge()`. -/
def kverGe (kver1 kver2 : PyStr) : Except Exn Bool :=
  match kverLt kver1 kver2 with
  | .error e => .error e
  | .ok b => .ok (!b)

end Verif.KernelVersion
