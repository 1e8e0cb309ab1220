import Verif.Model.FreqInfo
import Verif.Model.TopoPrint
import Verif.Props.TopoSpec

/-!
What the printed topology table (C85) should be.
-/

namespace Verif.TopoPrint

open CPUInfo (Level)
open TopoBuild (Machine Row St Host Reach Covers lexLe)
open FreqInfo (splitWs)

/-- What a line of the table is about: an online CPU, or a die without CPUs. -/
inductive Thing where
  | cpu (c : Nat)
  | io (p d : Int)

/-- The numbers of a CPU or an I/O die. Not existing numbers are larger than all the others. -/
def Thing.num (m : Machine) : Thing → Level → Int
  | .cpu c, l => (m.num l c : Int)
  | .io _ d, .die => d
  | .io p _, .package => p
  | .io _ _, _ => 0xFFFFFFFF

/-- The text of the numbers: not existing numbers are shown as "-". -/
def Thing.text (m : Machine) : Thing → Level → PyStr
  | .cpu c, l => PyStr.ofNat (m.num l c)
  | .io _ d, .die => PyStr.ofInt d
  | .io p _, .package => PyStr.ofInt p
  | .io _ _, _ => ['-']

/-- What the "hybrid" column shows; it exists on hybrid systems, `hyb` being their P-core CPUs. -/
def Thing.kind (pcore : List Int) : Thing → PyStr
  | .cpu c => if (c : Int) ∈ pcore then "P-core".toList else "E-core".toList
  | .io _ _ => "E-core".toList

/-- The words of the line. -/
def Thing.words (m : Machine) (hyb : Option (List Int)) (cols : List Level) (t : Thing) : List PyStr :=
  cols.map (t.text m) ++ (hyb.map fun pcore => t.kind pcore).toList

/-- The words of the line of an offline CPU: only its number is known. -/
def offWords (hyb : Option (List Int)) (cols : List Level) (c : Int) : List PyStr :=
  cols.map (fun l => if l = .CPU then PyStr.ofInt c else ['?']) ++ (hyb.map fun _ => ['?']).toList

/-- The column titles. -/
def title : Level → PyStr
  | .CPU => "CPU".toList | .core => "Core".toList | .module => "Module".toList | .die => "Die".toList
  | .node => "Node".toList | .package => "Package".toList

/-- The words of the first line. -/
def titles (hyb : Option (List Int)) (cols : List Level) : List PyStr :=
  cols.map title ++ (hyb.map fun _ => "Hybrid".toList).toList

/-- What the lines are sorted by. -/
def sortLevels : Level → List Level
  | .CPU => [.CPU] | .core => [.package, .core, .CPU] | .module => [.module, .CPU] | .die => [.package, .die, .CPU]
  | .node => [.node, .CPU] | .package => [.package, .CPU]

/-- The place in the table. -/
def Thing.place (m : Machine) (order : Level) (t : Thing) : List Int := (sortLevels order).map (t.num m)

/-- The online CPUs and I/O dies the user asked for. I/O dies are only shown if there is a column for dies. -/
def Thing.Asked (m : Machine) (on : List Nat) (cols : List Level) (target : Target) : Thing → Prop
  | .cpu c => c ∈ on ∧ (c : Int) ∈ target.cpus
  | .io p d => .die ∈ cols ∧ m.IsIo p d ∧ ∃ l, target.dies.get? p = some l ∧ d ∈ l

/-- Two online CPUs of one module are on different cores. -/
def HasModules (m : Machine) (on : List Nat) : Prop :=
  ∃ c ∈ on, ∃ d ∈ on, m.num .module c = m.num .module d ∧
    (m.num .core c ≠ m.num .core d ∨ m.num .package c ≠ m.num .package d)

/-- There is a package with two dies. -/
def HasDies (m : Machine) (on : List Nat) : Prop :=
  ∃ p d d' : Int, d ≠ d' ∧
    ((∃ c ∈ on, (m.num .package c : Int) = p ∧ (m.num .die c : Int) = d) ∨ m.IsIo p d) ∧
    ((∃ c ∈ on, (m.num .package c : Int) = p ∧ (m.num .die c : Int) = d') ∨ m.IsIo p d')

/-- The default columns. -/
def DefaultCols (m : Machine) (on : List Nat) (cols : List Level) : Prop :=
  ∃ bm bd : Bool, (bm = true ↔ HasModules m on) ∧ (bd = true ↔ HasDies m on) ∧
    cols = [.CPU, .core] ++ (if bm then [.module] else []) ++ (if bd then [.die] else []) ++ [.node, .package]

/-- A column list given by the user; level names may be in any letter case. The last argument tells whether the
"hybrid" column is in the list. -/
inductive Picks : List PyStr → List Level → Bool → Prop
  | nil : Picks [] [] false
  | level (n : PyStr) (l : Level) (ns : List PyStr) (cols : List Level) (hyb : Bool) :
      FeaturedMSR.lower n = FeaturedMSR.lower (levelName l) → Picks ns cols hyb → Picks (n :: ns) (l :: cols) hyb
  | hybrid (ns : List PyStr) (cols : List Level) (hyb : Bool) :
      Picks ns cols hyb → Picks ("hybrid".toList :: ns) cols true

/-- The columns for the given options. -/
def Cols (m : Machine) (on : List Nat) (columns : Option PyStr) (cols : List Level) (hyb : Bool) : Prop :=
  match columns with
  | none => DefaultCols m on cols ∧ hyb = false
  | some text => Picks (Trivial.splitCsvLine text ',' false) cols hyb

/-- The CPUs and dies the user asks for are `target`; finding this out may use the topology. -/
def Targets (m : Machine) (on : List Nat) (h : Host) (optar : St → Except Exn (St × Target)) (target : Target) : Prop :=
  ∀ asked st, Reach m (Covers m) asked on h st →
    ∃ st' asked', optar st = .ok (st', target) ∧ Reach m (Covers m) asked' on h st'

/-- The printed table: titles, one line for every kind of line (in words) there is among the CPUs and dies the user asks
for, at the place of the first one of that kind, and then lines for the offline CPUs `cs`. No line is there twice. -/
def IsTable (m : Machine) (on : List Nat) (hyb : Option (List Int)) (cols : List Level) (order : Level) (target : Target)
    (cs : List Int) (out : List PyStr) : Prop :=
  ∃ (things : List Thing) (offs : List Int),
    out.map splitWs = titles hyb cols :: (things.map (Thing.words m hyb cols) ++ offs.map (offWords hyb cols)) ∧
    (things.map (Thing.words m hyb cols) ++ offs.map (offWords hyb cols)).Nodup ∧
    things.Pairwise (fun s t => lexLe (s.place m order) (t.place m order) = true) ∧
    (∀ t ∈ things, t.Asked m on cols target) ∧
    (∀ t : Thing, t.Asked m on cols target → ∃ t' ∈ things, t'.words m hyb cols = t.words m hyb cols ∧
      lexLe (t'.place m order) (t.place m order) = true) ∧
    offs.Sublist cs ∧
    ∀ c ∈ cs, offWords hyb cols c ∈ things.map (Thing.words m hyb cols) ++ offs.map (offWords hyb cols)

end Verif.TopoPrint
