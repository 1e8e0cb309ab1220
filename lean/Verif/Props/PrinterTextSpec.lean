import Verif.Model.Trivial

/-!
Specification for C78: how a person reads the texts `pepc` prints. `packages` are the packages of the system, `dies p` the
dies of package `p`, `cpus` the online CPUs. Only the list of numbers syntax (`splitCsvLineInt`, C23 - C26) is shared with
the code.
-/

namespace Verif.PrinterText

/-- A list of ranges. -/
def ints (s : PyStr) : Option (List Nat) :=
  match Trivial.splitCsvLineInt s ',' false with
  | .error _ => none
  | .ok l => some (l.map Int.toNat)

/-- The CPUs a text is about. -/
def readCpus (cpus : List Nat) (text : PyStr) : Option (List Nat) :=
  match PyStr.splitC ' ' text with
  | [a, b] =>
    if a = "all".toList ∧ b = "CPUs".toList then some cpus
    else if a = "CPU".toList ∨ a = "CPUs".toList then ints b
    else none
  | [a, b, c, _] => if a = "CPUs".toList ∧ (c = "(package".toList ∨ c = "(packages".toList) then ints b else none
  | _ => none

/-- The packages in brackets. -/
def readRemark (text : PyStr) : Option (List Nat) :=
  match PyStr.splitC ' ' text with
  | [_, _, _, d] => if d.getLast? = some ')' then ints d.dropLast else none
  | _ => none

/-- The packages a text is about. -/
def readPackages (packages : List Nat) (text : PyStr) : Option (List Nat) :=
  match PyStr.splitC ' ' text with
  | [a, b] =>
    if a = "all".toList ∧ (b = "packages".toList ∨ (b = "CPUs".toList ∧ packages.length = 1)) then some packages
    else if a = "package".toList ∨ a = "packages".toList then ints b
    else none
  | _ => none

/-- A number that may be followed by a comma. -/
def readNum (s : PyStr) : Option Nat :=
  match ints (s.takeWhile (· != ',')) with
  | some [n] => some n
  | _ => none

/-- Items like "all dies in package 0, dies 0-2 in package 1". -/
def readItems (dies : Nat → List Nat) : List PyStr → Option (List (Nat × Nat))
  | [] => some []
  | a :: b :: c :: d :: e :: rest =>
    if c = "in".toList ∧ d = "package".toList then
      match readNum e, readItems dies rest with
      | some p, some r =>
        if a = "all".toList ∧ b = "dies".toList then some ((dies p).map (p, ·) ++ r)
        else if a = "die".toList ∨ a = "dies".toList then
          match ints b with
          | some l => some (l.map (p, ·) ++ r)
          | none => none
        else none
      | _, _ => none
    else none
  | _ => none

/-- The dies, and their packages, a text is about. -/
def readDies (packages : List Nat) (dies : Nat → List Nat) (text : PyStr) : Option (List (Nat × Nat)) :=
  let all := packages.flatMap fun p => (dies p).map (p, ·)
  match PyStr.splitC ' ' text with
  | [a, b] =>
    if a = "all".toList ∧ (b = "packages".toList ∨ (b = "CPUs".toList ∧ packages.length = 1)) then some all
    else if a = "package".toList ∨ a = "packages".toList then
      (ints b).map fun l => l.flatMap fun p => (dies p).map (p, ·)
    else none
  | ws =>
    if ws = ["all".toList, "dies".toList, "in".toList, "all".toList, "packages".toList] then some all
    else readItems dies ws

/-- The numbers from `first` up or down to `last`. -/
def progression (first last step : Int) : List Int :=
  (List.range ((last - first) / step + 1).toNat).map fun n : Nat => first + n * step

/-- A list of numbers: "1, 2, 5", "1 - 9 with step 2" or "1 - 9 with step 2, 10". `rd` reads one number. -/
def readList (rd : PyStr → Option Int) (text : PyStr) : Option (List Int) :=
  let ws := PyStr.splitC ' ' text
  if ws[1]? = some ['-'] then
    match ws with
    | [a, _, c, d, e, f] =>
      if d = "with".toList ∧ e = "step".toList then
        match rd a, rd c, rd f with
        | some first, some last, some step => some (progression first last step)
        | _, _, _ => none
      else none
    | [a, _, c, d, e, f, g] =>
      if d = "with".toList ∧ e = "step".toList then
        match rd a, rd c, rd (f.takeWhile (· != ',')), rd g with
        | some first, some last, some step, some tar => some (progression first last step ++ [tar])
        | _, _, _, _ => none
      else none
    | _ => none
  else ws.mapM fun w => rd (w.takeWhile (· != ','))

end Verif.PrinterText
