import Verif.Model.PropsYaml
import Verif.Model.CPUInfo

/-!
Model of the texts `pepc` prints for people: which CPUs, dies or packages a value is for, and lists of numbers
(pepctool/_PepcPrinter.py). A text is written as its words, which are separated by single spaces: `f"CPU {n}"` is
`words ["CPU", n]`.
-/

namespace Verif.PrinterText

open CPUInfo
open PropsYaml (rangifyN SName Where)

/-- The words of a text joined by spaces. -/
def words (l : List PyStr) : PyStr := PyStr.joinC ' ' l

/-- `", ".join(parts)`. -/
def joinComma : List PyStr → PyStr
  | [] => []
  | [a] => a
  | a :: b :: l => a ++ ',' :: ' ' :: joinComma (b :: l)

/-- `set(a) == set(b)`. -/
def sameSet (a b : List Nat) : Bool := a.all (b.contains ·) && b.all (a.contains ·)

/-- Models: pepctool/_PepcPrinter.py:34-55 `_fmt_cpus()`. -/
def fmtCpus (i : Info) (cpus : List Nat) : Except Exn PyStr :=
  if cpus.length = 1 then .ok (words ["CPU".toList, rangifyN cpus])
  else match getCpus i .CPU with
    | .error e => .error e
    | .ok allcpus =>
      if sameSet cpus allcpus then .ok (words ["all".toList, "CPUs".toList])
      else match cpusDivPackages i (.nums cpus) .all with
        | .error e => .error e
        | .ok (pkgs, rem) =>
          if !pkgs.isEmpty && rem.isEmpty then
            if pkgs.length = 1 then
              .ok (words ["CPUs".toList, rangifyN cpus, "(package".toList, rangifyN pkgs ++ [')']])
            else .ok (words ["CPUs".toList, rangifyN cpus, "(packages".toList, rangifyN pkgs ++ [')']])
          else .ok (words ["CPUs".toList, rangifyN cpus])

/-- Models: pepctool/_PepcPrinter.py:57-69 `_fmt_packages()`. -/
def fmtPackages (i : Info) (packages : List Nat) : Except Exn PyStr :=
  match getPackages i with
  | .error e => .error e
  | .ok allpkgs =>
    if sameSet packages allpkgs then
      if allpkgs.length = 1 then .ok (words ["all".toList, "CPUs".toList])
      else .ok (words ["all".toList, "packages".toList])
    else if packages.length = 1 then .ok (words ["package".toList, rangifyN packages])
    else .ok (words ["packages".toList, rangifyN packages])

/-- Models: pepclibs/CPUInfo.py:588-600 `get_dies_count()` and 322-340 `get_dies()` with the default arguments. -/
def getDiesCount (i : Info) (pkg : Nat) : Except Exn Nat :=
  match getLevelNums i .die .package (.nums [pkg]) .die with
  | .error e => .error e
  | .ok dies => .ok dies.length

/-- The loop at the beginning: whether all dies of the packages are there.
Models: pepctool/_PepcPrinter.py:76-79. -/
def allDies (i : Info) : Dict Nat (List Nat) → Bool → Except Exn Bool
  | [], all => .ok all
  | (pkg, dies) :: d, all =>
    match getDiesCount i pkg with
    | .error e => .error e
    | .ok n => allDies i d (if dies.length ≠ n then false else all)

/-- The dies of one package. Models: pepctool/_PepcPrinter.py:92-102. -/
def dieItem (pkg : Nat) (dies : List Nat) (count : Nat) : List PyStr :=
  if dies.length = count then ["all".toList, "dies".toList, "in".toList, "package".toList, PyStr.ofNat pkg]
  else
    [if dies.length = 1 then "die".toList else "dies".toList, rangifyN dies, "in".toList, "package".toList, PyStr.ofNat pkg]

/-- Models: pepctool/_PepcPrinter.py:90-102. -/
def dieItems (i : Info) : Dict Nat (List Nat) → Except Exn (List (List PyStr))
  | [] => .ok []
  | (pkg, dies) :: d =>
    match getDiesCount i pkg with
    | .error e => .error e
    | .ok n =>
      match dieItems i d with
      | .error e => .error e
      | .ok r => .ok (dieItem pkg dies n :: r)

/-- Models: pepctool/_PepcPrinter.py:71-104 `_fmt_dies()`. -/
def fmtDies (i : Info) (d : Dict Nat (List Nat)) : Except Exn PyStr :=
  match allDies i d true with
  | .error e => .error e
  | .ok all =>
    match getPackages i with
    | .error e => .error e
    | .ok pkgs =>
      if all && d.length == pkgs.length then
        if pkgs.length = 1 then .ok (words ["all".toList, "CPUs".toList])
        else .ok (words ["all".toList, "dies".toList, "in".toList, "all".toList, "packages".toList])
      else match dieItems i d with
        | .error e => .error e
        | .ok items => .ok (joinComma (items.map words))

/-- Models: pepctool/_PepcPrinter.py:106-122 `_fmt_nums()`. The numbers are of the kind belonging to the scope name (C76). -/
def fmtNums (i : Info) (sname : SName) (nums : Where) : Except Exn PyStr :=
  match sname, nums with
  | .CPU, .nums l => fmtCpus i l
  | .package, .nums l => fmtPackages i l
  | .die, .dies d =>
    match getDiesCount i 0 with
    | .error e => .error e
    | .ok n => if n = 1 then fmtPackages i d.keys else fmtDies i d
  | _, _ => .error .error

/-! ### Lists of numbers -/

/-- The loop. Models: pepctool/_PepcPrinter.py:137-139. -/
def sameStep (step : Int) : List Int → Bool
  | a :: b :: l => if b - a ≠ step then false else sameStep step (b :: l)
  | _ => true

/-- Models: pepctool/_PepcPrinter.py:127-140 `_detect_progression()`. -/
def detectProgression (vals : List Int) (minLen : Nat) : Option Int :=
  if vals.length < minLen then none
  else match vals with
    | a :: b :: _ => if sameStep (b - a) vals then some (b - a) else none
    | _ => none

/-- `not step`: `None` or zero. -/
def noStep : Option Int → Bool
  | none => true
  | some n => n == 0

/-- The text of a list of numbers, `fmt` is `_format_unit()` for the unit of the property. Numbers are integers: fractions
would need rounding errors of the differences. The empty list is left out: it is printed as "()".
Models: pepctool/_PepcPrinter.py:166-196. -/
def fmtList (fmt : Int → PyStr) (val : List Int) : PyStr :=
  let step := detectProgression val 4
  if val.length = 1 then fmt (val.headD 0)
  else if noStep step then
    let step2 := detectProgression val.dropLast 3
    if noStep step2 then joinComma (val.map fmt)
    else
      words [fmt (val.headD 0), "-".toList, fmt (val.dropLast.getLastD 0), "with".toList, "step".toList,
        fmt (step2.getD 0) ++ [','], fmt (val.getLastD 0)]
  else
    words [fmt (val.headD 0), "-".toList, fmt (val.getLastD 0), "with".toList, "step".toList, fmt (step.getD 0)]

end Verif.PrinterText
