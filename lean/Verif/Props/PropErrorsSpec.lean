import Verif.Model.PropsBase
import Verif.Props.PrinterTextSpec

/-!
Specification of the messages about properties which are not supported: how a person reads them. Only the syntax of lists of
numbers (`PrinterText.ints`) is shared with the code.
-/

namespace Verif.PropErrors.Spec

open PrinterText (ints)
open PropsBase

/-- CPUs or packages. -/
inductive Read where
  | cpus (l : List Nat)
  | packages (l : List Nat)
  deriving DecidableEq

/-- "CPU 3", "package 1", "the following CPUs: 0-3", "the following packages: 0,1". -/
def readNums (text : PyStr) : Option Read :=
  match PyStr.splitC ' ' text with
  | [a, b] =>
    if a = "CPU".toList then (ints b).map .cpus
    else if a = "package".toList then (ints b).map .packages
    else none
  | [a, b, c, d] =>
    if a = "the".toList ∧ b = "following".toList then
      if c = "CPUs:".toList then (ints d).map .cpus
      else if c = "packages:".toList then (ints d).map .packages
      else none
    else none
  | _ => none

/-- Without the comma at the end. -/
def dropComma (s : PyStr) : PyStr := if s.getLast? = some ',' then s.dropLast else s

/-- "package", number, "die" or "dies", numbers. -/
def readItems : List PyStr → Option (List (Nat × List Nat))
  | [] => some []
  | a :: b :: c :: d :: rest =>
    if a = "package".toList ∧ (c = "die".toList ∨ c = "dies".toList) then
      match ints b, ints (dropComma d), readItems rest with
      | some [p], some l, some r => some ((p, l) :: r)
      | _, _, _ => none
    else none
  | _ => none

/-- "package 0 dies 0-2, package 1 die 0, and package 2 dies 0,1". -/
def readDies (text : PyStr) : Option (List (Nat × List Nat)) :=
  readItems ((PyStr.splitC ' ' text).filter (· ≠ "and".toList))

/-- The same dies of the same packages; the numbers of a package may be in another order. -/
def SameDies : List (Nat × List Nat) → List (Nat × List Nat) → Prop
  | [], [] => True
  | (p, l) :: a, (q, m) :: b => p = q ∧ l.Perm m ∧ SameDies a b
  | _, _ => False

/-- Every second element. -/
def odds : List PyStr → List PyStr
  | _ :: b :: l => b :: odds l
  | _ => []

/-- The names in quotes. -/
def readQuoted (text : PyStr) : List PyStr := odds (PyStr.splitC '\'' text)

/-- The first word: up to the first space or hyphen. -/
def firstWord (s : PyStr) : PyStr := s.takeWhile fun c => c ≠ ' ' && c ≠ '-'

/-- The name starts with an ordinary word with a capital letter: not an abbreviation, not a single letter, no digits. -/
def Ordinary (s : PyStr) : Prop :=
  ∃ a b w, firstWord s = a :: b :: w ∧ a.isLower = false ∧ b.isUpper = false ∧ ∀ c ∈ a :: b :: w, c.isDigit = false

/-- `x` appears before `y` does. -/
def Earlier {α : Type} [DecidableEq α] (l : List α) (x y : α) : Prop := l.idxOf x < l.idxOf y

/-- The first character is made a capital letter. -/
def upperFirst : PyStr → PyStr
  | [] => []
  | c :: s => c.toUpper :: s

/-- A reason: its lines are moved to the right. -/
def reasonText (r : PyStr) : PyStr := '\n' :: PyStr.joinC '\n' ((PyStr.splitC '\n' (upperFirst r)).map ("  ".toList ++ ·))

/-- A mechanism answers for a CPU: with a value, with `None`, or it refuses. -/
structure Answers {V : Type} (get : Mech → List Nat → Gen (Nat × Option V)) (cpu : Nat) (ans : Mech → Except Exn (Option V)) : Prop where
  ok : ∀ m v, ans m = .ok v → get m [cpu] = ⟨[(cpu, v)], none⟩
  error : ∀ m e, ans m = .error e → get m [cpu] = ⟨[], some e⟩

/-- The first mechanism which does not say that it is not supported. -/
def firstAnswer {V : Type} (ans : Mech → Except Exn (Option V)) : List Mech → Except Exn (Option V)
  | [] => .ok none
  | m :: ms =>
    match ans m with
    | .ok v => .ok v
    | .error e => if e = .notSupported then firstAnswer ans ms else .error e

end Verif.PropErrors.Spec
