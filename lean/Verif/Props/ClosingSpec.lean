import Verif.Model.Closing

/-! Specification for closing objects: what a class has to do for its objects to be closed properly. -/

namespace Verif.Closing.Spec

/-- The attributes which `close()` closes. -/
def closeList (cls : Cls) : List PyStr := cls.stages.flatMap fun st => st.1

/-- The attributes which `close()` only sets to `None`. -/
def unrefList (cls : Cls) : List PyStr := cls.stages.flatMap fun st => st.2

/-- Every attribute for which the class creates objects is closed, with the flag if the object may also come from the
caller; what always comes from the caller is not closed; names do not clash. -/
def wellFormed (cls : Cls) : Bool :=
  cls.slots.all (fun s => cls.slots.all fun t => decide (s.1 = t.1 → s.2 = t.2) && decide (flagName s.1 ≠ t.1)) &&
    cls.slots.all (fun s => cls.slots.all fun t => decide (flagName s.1 = flagName t.1 → s.1 = t.1)) &&
    cls.slots.all (fun s =>
      match s.2 with
      | .arg => decide (s.1 ∈ closeList cls)
      | .own => decide (s.1 ∈ closeList cls)
      | .borrowed => decide (s.1 ∉ closeList cls)
      | .leaky => false) &&
    (closeList cls).all (fun a => decide (a ∈ cls.slots.map Prod.fst)) &&
    (unrefList cls).all (fun a => decide (a ∈ cls.slots.map Prod.fst) && decide (a ∉ closeList cls))

/-- The class of the object which the operation creates. -/
def opCls : Op → Option Cls
  | .new cls _ => some cls
  | .make _ _ cls _ => some cls
  | .close _ => none

end Verif.Closing.Spec
