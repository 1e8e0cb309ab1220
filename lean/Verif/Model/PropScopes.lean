import Verif.Model.CStates

/-!
Model of how `CStates` objects of one process learn the scopes of properties: every object has its own copy
of the properties dictionary, but all of them write the scope into the dictionary of the module, from which
the copies of later objects are made.
-/

namespace Verif.PropScopes

open Verif.CStates (Name Host scopes mech writable)
open Verif.PropsBase (PropDesc)
open Verif.CPUInfo (Scope)

/-- The "sname" keys. -/
abbrev Scopes := Name → Option Scope

/-- `PROPS` when the module is imported. Models: pepclibs/CStates.py:32-110, the "sname" keys. -/
def initial : Scopes
  | .limits | .aliases | .driver | .governor | .governors => some .global
  | _ => none

/-- A `CStates` object: the host and the "sname" and "iosname" keys of `_props`. -/
structure Obj where
  host : Host
  sname : Scopes
  iosname : Scopes

/-- Models: pepclibs/_PropsClassBase.py:1263-1273 `_init_props_dict()` with `PROPS`. -/
def create (H : Host) (props : Scopes) : Obj := ⟨H, props, props⟩

/-- Change one key. -/
def put (f : Scopes) (p : Name) (v : Option Scope) : Scopes := fun q => if q = p then v else f q

/-- Models: pepclibs/CStates.py:275-293 `_set_sname()`. The result is the object, `PROPS` and whether the
property is supported. -/
def setSname (p : Name) (o : Obj) (props : Scopes) : Obj × Scopes × Bool :=
  if (o.sname p).isSome then (o, props, true)
  else match scopes o.host p with
    | none => (o, props, false)
    | some (sn, ios) =>
      ({ o with sname := put o.sname p (some sn), iosname := put o.iosname p (some ios) },
        put props p (some sn), true)

/-- The description of a property which the methods use. -/
def descOf (o : Obj) (p : Name) : PropDesc :=
  ⟨[mech p], o.sname p, (o.iosname p).getD .global, writable p⟩

/-- The process: `PROPS` of the module and the objects in the order of creation. -/
structure Proc where
  props : Scopes
  objs : List Obj

/-- What happens in the process: an object is created; a method of object number `k` which needs the scope
of property `p` is called, for example `get_sname()` or `set_prop_packages()`. -/
inductive Op where
  | new (H : Host)
  | call (k : Nat) (p : Name)

/-- One event and the description which the method uses. -/
def step (P : Proc) : Op → Proc × Option PropDesc
  | .new H => ({ P with objs := P.objs ++ [create H P.props] }, none)
  | .call k p =>
    match P.objs[k]? with
    | none => (P, none)
    | some o =>
      match setSname p o P.props with
      | (o, props, _) => (⟨props, P.objs.set k o⟩, some (descOf o p))

/-- A series of events. -/
def run (P : Proc) : List Op → Proc × List (Option PropDesc)
  | [] => (P, [])
  | op :: ops =>
    match step P op with
    | (P, r) => match run P ops with | (P, l) => (P, r :: l)

/-- `set_prop_packages()` of an object with the description `P`. -/
def setPackages (H : Host) (P : PropDesc) (p : Name) (v : Option FeaturedMSR.Val) (packages : List Nat)
    (mnames : Option (List PropsBase.Mech)) (s : CStates.St) : CStates.St × Except Exn PropsBase.Mech :=
  PropsBase.setPropPackages H.info P (CStates.norm p) (CStates.setCpus H p) v packages mnames s

end Verif.PropScopes
