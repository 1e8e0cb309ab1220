import Verif.Model.HumanPrint
import Verif.Props.PrinterTextSpec
import Verif.Props.PropsYamlSpec
import Verif.Lemmas.CPUInfo
import Mathlib.Data.List.Forall2

/-!
Specification for C93: what the printed lines tell. Texts for CPUs, dies, packages and lists of numbers are read with the
readers of C78.
-/

namespace Verif.HumanPrint

open PropsYaml (Cell SName PV Loc)
open PrinterText (readCpus readPackages readDies readList)

/-- Cut a text at the last " for ". -/
def cutFor : PyStr → Option (PyStr × PyStr)
  | [] => none
  | c :: s =>
    match cutFor s with
    | some (a, b) => some (c :: a, b)
    | none => if " for ".toList.isPrefixOf (c :: s) then some ([], s.drop 4) else none

/-- What the reader knows about the system. -/
structure Sys where
  online : List Nat
  packages : List Nat
  dies : Nat → List Nat

/-- The reader knows the system. Packages have the same number of dies, or at least package 0 has more than one: see
`C78_one_die_counterexample`. -/
structure Sys.Of (S : Sys) (i : CPUInfo.Info) : Prop where
  wf : CPUInfo.WF i
  online : S.online = i.online
  packages : CPUInfo.getPackages i = .ok S.packages
  dies : ∀ p ∈ S.packages, CPUInfo.packageToDies i p = .ok (S.dies p)
  zero : 0 ∈ S.packages
  sym : (S.dies 0).length = 1 → ∀ p ∈ S.packages, (S.dies p).length = 1

/-- What the text after " for " is about. -/
def readNums (S : Sys) : SName → PyStr → Option (List Cell)
  | .CPU, t => (readCpus S.online t).map (·.map fun n : Nat => (.CPU, 0, (n : Int)))
  | .package, t => (readPackages S.packages t).map (·.map fun n : Nat => (.package, 0, (n : Int)))
  | .die, t => (readDies S.packages S.dies t).map (·.map fun x : Nat × Nat => (.die, (x.1 : Int), (x.2 : Int)))

/-- What is read exists: the CPU is online, the package and the die are there. -/
def Sys.Has (S : Sys) : Loc → Prop
  | .cpu n => n ∈ S.online
  | .package n => n ∈ S.packages
  | .die p n => p ∈ S.packages ∧ n ∈ S.dies p

variable {Q : Type}

/-- The value is of the type of the property. -/
def Fits : PType → Option (Val Q) → Prop
  | _, none => True
  | .str, some (.str _) => True
  | .bool, some (.str _) => True
  | .int, some (.num _) => True
  | .listStr, some (.strs _) => True
  | .listInt, some (.nums _) => True
  | .dict, some (.dict _) => True
  | _, _ => False

/-- Values there is no line for: empty lists of strings, and empty dictionaries. -/
def Blank : Option (Val Q) → Bool
  | some (.strs l) => l == [] || l == [[]]
  | some (.dict l) => l == []
  | _ => false

/-- Numbers are printed as one word, and `rd` reads them: for all numbers of a list and their differences. -/
def Readable (fmt : Int → PyStr) (rd : PyStr → Option Int) (l : List Int) : Prop :=
  rd ['-'] = none ∧ ∀ v, (v ∈ l ∨ ∃ a ∈ l, ∃ b ∈ l, v = b - a) → rd (fmt v) = some v ∧ ' ' ∉ fmt v ∧ ',' ∉ fmt v

/-- The text is for the value. Per-CPU latency limits of zero are not limits, and a global limit of zero is the lowest limit:
this is remarked. -/
def Text (F : Fmt Q) (pname : PyStr) : Option (Val Q) → PyStr → Prop
  | none, t => t = "not supported".toList
  | some (.str s), t => t = s
  | some (.num q), t =>
    (F.pmqos = true ∧ F.isZero q = true ∧ pname = "latency_limit".toList → t = "0 (no limit)".toList) ∧
    (F.pmqos = true ∧ F.isZero q = true ∧ pname = "global_latency_limit".toList → t = "0 (absolute minimum)".toList) ∧
    ((F.pmqos = false ∨ F.isZero q = false ∨ (pname ≠ "latency_limit".toList ∧ pname ≠ "global_latency_limit".toList)) →
      t = F.unit pname q)
  | some (.strs l), t => t = List.intercalate ", ".toList l
  | some (.nums l), t =>
    (l = [] → t = "()".toList) ∧ (l ≠ [] → ∀ rd, Readable (F.unitInt pname) rd l → readList rd t = some l)
  | some (.dict l), t => t = List.intercalate ", ".toList (l.map fun x => x.1 ++ "=".toList ++ x.2)

/-- The text for the value, in quotes unless it is a number, or there is no value. -/
def Quoted (F : Fmt Q) (pname : PyStr) (p : PropInfo) (v : Option (Val Q)) (t : PyStr) : Prop :=
  if v.isSome ∧ p.type ≠ .int ∧ p.type ≠ .listInt then ∃ s, t = "'".toList ++ s ++ "'".toList ∧ Text F pname v s
  else Text F pname v t

/-- A value of a property, read with a mechanism, and what it is for. -/
structure Told (Q : Type) where
  mname : PyStr
  pname : PyStr
  val : Option (Val Q)
  scope : SName
  cells : List Cell

/-- What a line is about: the source of the values in the lines after it, or a value. -/
inductive Entry (Q : Type) where
  | source (mname : PyStr)
  | value (t : Told Q)

/-- The items told. -/
def Entry.items : Entry Q → List (PyStr × PyStr × Cell × Option (Val Q))
  | .source _ => []
  | .value t => t.cells.map fun c => (t.mname, t.pname, c, t.val)

/-- The line tells that the value is for exactly the cells: the value comes before the last " for ", what it is for comes
after it. Lines about global properties only tell the value. -/
def Tells (S : Sys) (F : Fmt Q) (props : Dict PyStr PropInfo) (descr : PyStr → PyStr) (group : Bool)
    (action : Option PyStr) (line : PyStr) : Entry Q → Prop
  | .source m => line = "Source: ".toList ++ descr m
  | .value t => ∃ p body, props.get? t.pname = some p ∧
      line = (if group then " - ".toList else []) ++ p.name ++ ": ".toList ++
        (match action with
          | some a => a ++ " ".toList
          | none => []) ++ body ∧
      if p.isGlobal then Text F t.pname t.val body
      else ∃ v w l, cutFor body = some (v, w) ∧ Quoted F t.pname p t.val v ∧ readNums S t.scope w = some l ∧
        ∀ c, c ∈ l ↔ c ∈ t.cells

/-- The value is from the source named in the closest source line before it. -/
def Follows : Option PyStr → List (Entry Q) → Prop
  | _, [] => True
  | _, .source m :: l => Follows (some m) l
  | cur, .value t :: l => cur = some t.mname ∧ Follows cur l

/-- What should be told about a property value. -/
def shown (skipUnsupported : Bool) (pname : PyStr) (pv : PV (Val Q)) : Option (PyStr × PyStr × Cell × Option (Val Q)) :=
  if (skipUnsupported && pv.val.isNone) || Blank pv.val then none else some (pv.mname, pname, pv.loc.cell, pv.val)

/-- The names stand for these properties of the table: only those that can be changed with `skipRo`. -/
def Named (props : Dict PyStr PropInfo) (skipRo : Bool) (pnames : Option (List PyStr)) (names : List PyStr) : Prop :=
  ∃ l, (∀ l', pnames = some l' → l = l' ∧ ∀ n ∈ l', ∃ p, props.get? n = some p) ∧ (pnames = none → l = props.map (·.1)) ∧
    names = l.filter fun n => !skipRo || (props.get? n).any (·.writable)

end Verif.HumanPrint
