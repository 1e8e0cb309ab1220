import Verif.Lib.Dict
import Verif.Model.Trivial

/-!
Model of saving properties to a file and restoring them: pepctool/_PepcPrinter.py and pepctool/_PepcSetter.py. The YAML
library is not modelled: what is loaded is what was dumped.
-/

namespace Verif.PropsYaml

/-- The scope names used for accessing properties. -/
inductive SName where
  | CPU
  | die
  | package
  deriving DecidableEq, Repr

/-- What a value is for. -/
inductive Loc where
  | cpu (n : Nat)
  | die (package n : Nat)
  | package (n : Nat)
  deriving DecidableEq, Repr

/-- Models: pepctool/_PepcPrinter.py:330-343 `_get_pvinfo_num()`, the scope name. -/
def Loc.sname : Loc → SName
  | .cpu _ => .CPU
  | .die _ _ => .die
  | .package _ => .package

/-- A property value dictionary, `val` is `none` if the property is not supported. Simplification: `V` stands for values of
any kind (lists and dictionaries are turned to tuples, see lines 362-367, and back, see lines 312-315). -/
structure PV (V : Type) where
  loc : Loc
  val : Option V
  mname : PyStr
  deriving DecidableEq, Repr

/-- A list of CPU or package numbers, or die numbers by package. -/
inductive Where where
  | nums (l : List Nat)
  | dies (d : Dict Nat (List Nat))
  deriving DecidableEq, Repr

/-- The information about one property: `{"sname": sname, "vals": vals}`. -/
structure PInfo (V : Type) where
  sname : SName
  vals : Dict (Option V) Where
  deriving DecidableEq, Repr

/-- Add a number to `pinfo["vals"][val]`. `none`: the types do not match, which cannot happen with one scope name.
Models: pepctool/_PepcPrinter.py:381-392. -/
def addNum : Option Where → Loc → Option Where
  | none, .cpu n => some (.nums [n])
  | none, .package n => some (.nums [n])
  | none, .die p n => some (.dies [(p, [n])])
  | some (.nums l), .cpu n => some (.nums (l ++ [n]))
  | some (.nums l), .package n => some (.nums (l ++ [n]))
  | some (.dies d), .die p n => some (.dies (d.set p ((d.get? p).getD [] ++ [n])))
  | some (.nums _), .die _ _ => none
  | some (.dies _), _ => none

variable {V : Type} [DecidableEq V]

/-- The loop over the property value dictionaries; the result has the mechanism names and the information of this property.
The scope name is checked here before adding the number, and not after that; in both cases an exception is raised.
Models: pepctool/_PepcPrinter.py:345-398 `_build_aggr_pinfo_pname()`. -/
def buildPname (skipUnsupported : Bool) : List (PV V) → Dict PyStr (PInfo V) → Except Exn (Dict PyStr (PInfo V))
  | [], apinfo => .ok apinfo
  | pv :: pvs, apinfo =>
    if skipUnsupported && pv.val.isNone then buildPname skipUnsupported pvs apinfo
    else
      let pinfo := (apinfo.get? pv.mname).getD ⟨pv.loc.sname, []⟩
      if pv.loc.sname ≠ pinfo.sname then .error .error
      else match addNum (pinfo.vals.get? pv.val) pv.loc with
        | none => .error .error
        | some w =>
          buildPname skipUnsupported pvs (apinfo.set pv.mname { pinfo with vals := pinfo.vals.set pv.val w })

/-- The aggregate properties dictionary: by mechanism name and property name. -/
abbrev Aggr (V : Type) := Dict PyStr (Dict PyStr (PInfo V))

/-- Merge `apinfo` to `aggr_pinfo`. Models: pepctool/_PepcPrinter.py:458-462. -/
def merge (pname : PyStr) : Dict PyStr (PInfo V) → Aggr V → Aggr V
  | [], aggr => aggr
  | (mname, info) :: apinfo, aggr =>
    merge pname apinfo (aggr.set mname (((aggr.get? mname).getD []).set pname info))

/-- `read pname false` is what `get_prop_sname()` yields for the property, or the exception; `read pname true` with the
scope name "CPU". Models: pepctool/_PepcPrinter.py:443-464 `_build_aggr_pinfo()`. -/
def buildAggr (read : PyStr → Bool → Except Exn (List (PV V))) (skipUnsupported : Bool) :
    List PyStr → Aggr V → Except Exn (Aggr V)
  | [], aggr => .ok aggr
  | pname :: pnames, aggr =>
    let build (override : Bool) : Except Exn (Dict PyStr (PInfo V)) :=
      match read pname override with
      | .error e => .error e
      | .ok pvs => buildPname skipUnsupported pvs []
    let apinfo := match build false with
      | .error .usePerCPU => build true
      | r => r
    match apinfo with
    | .error e => .error e
    | .ok apinfo => buildAggr read skipUnsupported pnames (merge pname apinfo aggr)

/-- The numbers in the file. -/
inductive TNums where
  | text (s : PyStr)
  | dies (d : Dict Nat PyStr)
  deriving DecidableEq, Repr

/-- `{"value": value, sname: nums}`; "not supported" is `none`. -/
structure Entry (V : Type) where
  value : Option V
  sname : SName
  nums : TNums
  deriving DecidableEq, Repr

/-- `rangify()` of natural numbers. -/
def rangifyN (l : List Nat) : PyStr := Trivial.rangify (l.map Int.ofNat)

/-- Models: pepctool/_PepcPrinter.py:317-322. -/
def rangifyWhere : Where → TNums
  | .nums l => .text (rangifyN l)
  | .dies d => .dies (d.map fun p => (p.1, rangifyN p.2))

/-- The file: `yaml_pinfo`. -/
abbrev File (V : Type) := Dict PyStr (List (Entry V))

/-- The loop over the values of a property. Models: pepctool/_PepcPrinter.py:304-324. -/
def addVals (pname : PyStr) (sname : SName) : Dict (Option V) Where → File V → File V
  | [], f => f
  | (val, nums) :: vals, f =>
    addVals pname sname vals (f.set pname ((f.get? pname).getD [] ++ [⟨val, sname, rangifyWhere nums⟩]))

/-- The loop over the properties. Models: pepctool/_PepcPrinter.py:302-324. -/
def addPinfos : Dict PyStr (PInfo V) → File V → File V
  | [], f => f
  | (pname, pinfo) :: pinfos, f => addPinfos pinfos (addVals pname pinfo.sname pinfo.vals f)

/-- Models: pepctool/_PepcPrinter.py:296-327 `_print_aggr_pinfo_yaml()`. -/
def toYaml : Aggr V → File V → File V
  | [], f => f
  | (_, pinfos) :: aggr, f => toYaml aggr (addPinfos pinfos f)

/-- Saving the writable properties. Models: pepctool/_PepcPrinter.py:466-506 `print_props()` with "all",
`skip_ro=True` and `skip_unsupported=True`, pepctool/_PepcPStates.py:164. -/
def save (props : List PyStr) (writable : PyStr → Bool) (read : PyStr → Bool → Except Exn (List (PV V))) :
    Except Exn (File V) :=
  match buildAggr read true (props.filter writable) [] with
  | .error e => .error e
  | .ok aggr => .ok (toYaml aggr [])

/-! ### Restoring -/

/-- The CPUs, dies or packages passed to the method setting a property. -/
inductive Target where
  | cpus (l : List Int)
  | packages (l : List Int)
  | dies (d : Dict Nat (List Int))
  deriving DecidableEq, Repr

/-- A call of `set_prop_cpus()`, `set_prop_dies()` or `set_prop_packages()`. -/
structure SetCall (V : Type) where
  pname : PyStr
  val : Option V
  target : Target
  deriving DecidableEq, Repr

/-- Models: pepctool/_PepcSetter.py:159-161. -/
def parseDies : Dict Nat PyStr → Except Exn (Dict Nat (List Int))
  | [] => .ok []
  | (pkg, dies) :: d =>
    match Trivial.parseIntList [dies] ',' true with
    | .error e => .error e
    | .ok l =>
      match parseDies d with
      | .error e => .error e
      | .ok r => .ok ((pkg, l) :: r)

/-- The call made for an entry. Models: pepctool/_PepcSetter.py:148-163, 122-136. -/
def entryCall (pname : PyStr) (e : Entry V) : Except Exn (SetCall V) :=
  match e.nums with
  | .text s =>
    match Trivial.parseIntList [s] ',' true with
    | .error err => .error err
    | .ok l =>
      match e.sname with
      | .CPU => .ok ⟨pname, e.value, .cpus l⟩
      | .package => .ok ⟨pname, e.value, .packages l⟩
      | .die => .error .pyAttributeError
  | .dies d =>
    match parseDies d with
    | .error err => .error err
    | .ok r =>
      match e.sname with
      | .die => .ok ⟨pname, e.value, .dies r⟩
      | _ => .error .error

/-- The calls made for the entries of a property and the exception. -/
def entryCalls (pname : PyStr) : List (Entry V) → List (SetCall V) × Except Exn Unit
  | [] => ([], .ok ())
  | e :: es =>
    match entryCall pname e with
    | .error err => ([], .error err)
    | .ok c =>
      let r := entryCalls pname es
      (c :: r.1, r.2)

/-- The calls made. Models: pepctool/_PepcSetter.py:138-174 `_restore_props()`. Simplification: the calls succeed (the
transactions around them are C06, C12), and printing the result is left out. -/
def restoreCalls : File V → List (SetCall V) × Except Exn Unit
  | [] => ([], .ok ())
  | (pname, es) :: f =>
    match entryCalls pname es with
    | (cs, .error err) => (cs, .error err)
    | (cs, .ok ()) =>
      let r := restoreCalls f
      (cs ++ r.1, r.2)

/-- Models: pepctool/_PepcSetter.py:176-190 `restore()` with 84-120 `_validate_loaded_data()`, of which only the
check of the names is left for saved files. -/
def restore (props : List PyStr) (f : File V) : List (SetCall V) × Except Exn Unit :=
  if f.keys.all (props.contains ·) then restoreCalls f else ([], .error .error)

end Verif.PropsYaml
