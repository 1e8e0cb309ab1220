import Verif.Model.PropsYaml

/-!
Specification of saving and restoring properties (C76).
-/

namespace Verif.PropsYaml

/-- Something a property has a value for: a CPU or a package with its number (and zero), a die with the numbers of the
package and of the die. -/
abbrev Cell := SName × Int × Int

/-- What a value is for. -/
def Loc.cell : Loc → Cell
  | .cpu n => (.CPU, 0, n)
  | .package n => (.package, 0, n)
  | .die p n => (.die, p, n)

/-- The property, what it has the value for, and the value. -/
abbrev Item (V : Type) := PyStr × Cell × Option V

/-- What a call is about. -/
def Target.cells : Target → List Cell
  | .cpus l => l.map fun n => (.CPU, 0, n)
  | .packages l => l.map fun n => (.package, 0, n)
  | .dies d => d.flatMap fun p => p.2.map fun n => (.die, (p.1 : Int), n)

/-- What a call sets. -/
def SetCall.items {V : Type} (c : SetCall V) : List (Item V) := c.target.cells.map fun x => (c.pname, x, c.val)

/-- What a property value dictionary is about, unless the property is not supported. -/
def PV.item {V : Type} (pname : PyStr) (pv : PV V) : Option (Item V) :=
  pv.val.map fun v => (pname, pv.loc.cell, some v)

/-- What is read for a property: per CPU if the values differ within a package or a die. -/
def finalRead {V : Type} (read : PyStr → Bool → Except Exn (List (PV V))) (pname : PyStr) : Except Exn (List (PV V)) :=
  match read pname false with
  | .error .usePerCPU => read pname true
  | r => r

/-- The values of the properties. -/
abbrev Store (V : Type) := PyStr → Cell → Option V

/-- What the calls do, in order: a call sets the property for everything it is about. -/
def applyCalls {V : Type} : List (SetCall V) → Store V → Store V
  | [], st => st
  | c :: cs, st => applyCalls cs fun p x => if p = c.pname ∧ x ∈ c.target.cells then c.val else st p x

/-- What is read: for all writable properties, each CPU, die or package at most once, and all with one scope name. -/
structure Readings {V : Type} (pnames : List PyStr) (read : PyStr → Bool → Except Exn (List (PV V)))
    (R : PyStr → List (PV V)) : Prop where
  read : ∀ p ∈ pnames, finalRead read p = .ok (R p)
  once : ∀ p ∈ pnames, ((R p).map (·.loc)).Nodup
  scope : ∀ p ∈ pnames, ∃ s, ∀ pv ∈ R p, pv.loc.sname = s

end Verif.PropsYaml
