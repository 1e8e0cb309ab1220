import Verif.Model.PropsCmd
import Verif.Model.PropsYaml

/-!
Model of the 'save' and 'restore' commands for properties: pepctool/_PepcPStates.py, pepctool/_PepcPower.py,
pepctool/_PepcPMQoS.py, which are the same apart from the class of the properties, and the part of
pepctool/_PepcSetter.py which restores properties from a loaded file. How a class reads and writes a property is a
parameter, see `PropsCmd.Cls`. The YAML library is not modelled: what is loaded from the file is a parameter.
-/

namespace Verif.RestoreCmd

open CPUInfo (Info)
open PropsBase (Mech PropDesc setPropCpus setPropDies setPropPackages)
open PropsTarget (Where)
open PropsYaml (SName TNums Entry File Target SetCall entryCall)
open HumanPrint (Val)
open CStatesCmd (Step target)
open PropsCmd (Cls Host printStep readProp)

/-! ### Validation of what is loaded -/

/-- An item of the list of a property: `dict value scopes` is a dictionary, where `value` is what it has for the key "value"
(`none`: there is no such key), and `scopes` is what it has for the keys "CPU", "die" and "package". Other keys do not matter.
Simplification: the numbers are texts, or a dictionary of texts (`parse_int_list()` accepts integers too). -/
inductive YItem (V : Type) where
  | notDict
  | dict (value : Option (Option V)) (scopes : List (SName × TNums))

/-- What is loaded for a key. -/
inductive YVals (V : Type) where
  | notList
  | list (l : List (YItem V))

/-- What is loaded. -/
inductive Loaded (V : Type) where
  | notDict
  | dict (d : Dict PyStr (YVals V))

variable {V : Type}

/-- Models: pepctool/_PepcSetter.py:101-120. -/
def checkItem : YItem V → Except Exn (Entry V)
  | .notDict => .error .error
  | .dict none _ => .error .error
  | .dict (some v) [(sn, nums)] => .ok ⟨v, sn, nums⟩
  | .dict (some _) _ => .error .error

/-- Models: pepctool/_PepcSetter.py:101-120, the loop. -/
def checkItems : List (YItem V) → Except Exn (List (Entry V))
  | [] => .ok []
  | x :: l =>
    match checkItem x with
    | .error e => .error e
    | .ok y =>
      match checkItems l with
      | .error e => .error e
      | .ok r => .ok (y :: r)

/-- Models: pepctool/_PepcSetter.py:91-120, the loop. -/
def checkKeys (known : List PyStr) : Dict PyStr (YVals V) → Except Exn (File V)
  | [] => .ok []
  | (_, .notList) :: _ => .error .error
  | (p, .list l) :: d =>
    if !known.contains p then .error .error
    else match checkItems l with
      | .error e => .error e
      | .ok es =>
        match checkKeys known d with
        | .error e => .error e
        | .ok r => .ok ((p, es) :: r)

/-- The result is what was checked. Models: pepctool/_PepcSetter.py:84-120 `_validate_loaded_data()`. -/
def validate (known : List PyStr) : Loaded V → Except Exn (File V)
  | .notDict => .error .error
  | .dict d => checkKeys known d

/-! ### Restoring -/

/-- Numbers from a file as numbers of CPUs, dies or packages. A negative number does not exist, which is an error
(pepclibs/CPUInfo.py:1006-1047). -/
def natNums : List Int → Except Exn (List Nat)
  | [] => .ok []
  | n :: l =>
    if n < 0 then .error .error
    else match natNums l with
      | .error e => .error e
      | .ok r => .ok (n.toNat :: r)

/-- The same for dies. -/
def natDies : Dict Nat (List Int) → Except Exn (Dict Nat (List Nat))
  | [] => .ok []
  | (p, l) :: d =>
    match natNums l with
    | .error e => .error e
    | .ok l =>
      match natDies d with
      | .error e => .error e
      | .ok r => .ok ((p, l) :: r)

/-- What a call is for. -/
def toWhere : Target → Except Exn Where
  | .cpus l => (natNums l).map .cpus
  | .packages l => (natNums l).map .packages
  | .dies d => (natDies d).map .dies

variable {σ Q : Type}

/-- Models: pepctool/_PepcSetter.py:122-131 `_set_prop()`. -/
def setWhere (i : Info) (K : Cls σ Q) (pname : PyStr) (v : Option (Val Q)) (w : Where) (s : σ) : σ × Except Exn Unit :=
  match K.desc pname with
  | none => (s, .error .error)
  | some P =>
    let r := match w with
      | .cpus l => setPropCpus i P (K.norm pname) (K.set pname) v (.nums l) none s
      | .dies d => setPropDies i P (K.norm pname) (K.set pname) v d none s
      | .packages l => setPropPackages i P (K.norm pname) (K.set pname) v l none s
    (r.1, r.2.map fun _ => ())

/-- The property to set first, and what to set it to. Models: pepctool/_PepcSetter.py:278-291. -/
def partner (pname : PyStr) : Option (PyStr × PyStr) :=
  if pname = "min_freq".toList then some ("max_freq".toList, "max".toList)
  else if pname = "max_freq".toList then some ("min_freq".toList, "min".toList)
  else if pname = "min_uncore_freq".toList then some ("max_uncore_freq".toList, "max".toList)
  else if pname = "max_uncore_freq".toList then some ("min_uncore_freq".toList, "min".toList)
  else none

/-- Models: pepctool/_PepcSetter.py:133-136 and 268-291 `_restore_prop()`. -/
def restoreOne (i : Info) (K : Cls σ Q) (pname : PyStr) (v : Option (Val Q)) (w : Where) (s : σ) : σ × Except Exn Unit :=
  match setWhere i K pname v w s with
  | (s, .ok ()) => (s, .ok ())
  | (s, .error e) =>
    if !K.freqs || e ≠ .freqOrder then (s, .error e)
    else match partner pname with
      | none => (s, .error e)
      | some (other, word) =>
        match setWhere i K other (some (.str word)) w s with
        | (s, .error e) => (s, .error e)
        | (s, .ok ()) => setWhere i K pname v w s

/-- The arguments of `OpTarget()`. Models: pepctool/_PepcSetter.py:166-167. -/
def optarArgs : Where → OpTarget.Args
  | .cpus l => { cpus := some (.nums l) }
  | .dies d => { dies := .dict d }
  | .packages l => { packages := some (.nums l) }

variable [DecidableEq Q]

/-- Models: pepctool/_PepcSetter.py:165-169. -/
def printRestored (H : Host Q) (K : Cls σ Q) (pname : PyStr) (w : Where) : Step σ :=
  match OpTarget.init H.i (optarArgs w) with
  | .error e => Step.fail e
  | .ok t => printStep (H.env t) K none true false false (some "restored to".toList) (some [pname])

/-- Models: pepctool/_PepcSetter.py:146-169, the body of the loop. -/
def restoreEntry (H : Host Q) (K : Cls σ Q) (x : PyStr × Entry (Val Q)) : Step σ :=
  match entryCall x.1 x.2 with
  | .error e => Step.fail e
  | .ok c =>
    match toWhere c.target with
    | .error e => Step.fail e
    | .ok w =>
      Step.andThen (fun s => let r := restoreOne H.i K x.1 x.2.value w s; (r.1, [], r.2)) (printRestored H K x.1 w)

/-- The entries of a file with the names of the properties. -/
def items (f : File V) : List (PyStr × Entry V) := f.flatMap fun x => x.2.map fun e => (x.1, e)

/-- Models: pepctool/_PepcSetter.py:145-169, the loops. -/
def restoreEntries (H : Host Q) (K : Cls σ Q) : List (PyStr × Entry (Val Q)) → Step σ
  | [] => Step.skip
  | x :: l => Step.andThen (restoreEntry H K x) (restoreEntries H K l)

/-- Models: pepctool/_PepcSetter.py:138-174 `_restore_props()`. -/
def restoreProps (H : Host Q) (K : Cls σ Q) (f : File (Val Q)) : Step σ :=
  Step.andThen (fun s => let r := K.start s; (r.1, [], r.2))
    (Step.andThen (restoreEntries H K (items f)) (fun s => let r := K.commit s; (r.1, [], r.2)))

/-- The 'restore' command; `loaded` is the result of `YAML.load()`, `none` if there is no '--from' option.
Models: pepctool/_PepcSetter.py:176-190 `restore()`, pepctool/_PepcPStates.py:166-197 `pstates_restore_command()`,
pepctool/_PepcPower.py:163-191 `power_restore_command()`, pepctool/_PepcPMQoS.py:163-191 `pmqos_restore_command()`. -/
def restoreCmd (H : Host Q) (K : Cls σ Q) (loaded : Option (Except Exn (Loaded (Val Q)))) : Step σ :=
  match loaded with
  | none => Step.fail .error
  | some (.error e) => Step.fail e
  | some (.ok l) =>
    match validate K.props.keys l with
    | .error e => Step.fail e
    | .ok f => restoreProps H K f

/-! ### Saving -/

/-- Whether a property is writable. -/
def writable (K : Cls σ Q) (p : PyStr) : Bool :=
  match K.props.get? p with
  | some pi => pi.writable
  | none => false

/-- The 'save' command: what is written to the file. Models: pepctool/_PepcPStates.py:129-163 `pstates_save_command()`,
pepctool/_PepcPower.py:126-161 `power_save_command()`, pepctool/_PepcPMQoS.py:126-161 `pmqos_save_command()`. -/
def saveCmd (H : Host Q) (K : Cls σ Q) (tgt : HotplugCmd.Opts) (s : σ) : Except Exn (File (Val Q)) :=
  match target H.i tgt with
  | .error e => .error e
  | .ok t => PropsYaml.save K.props.keys (writable K) (readProp (H.env t) K none s)

/-- What is loaded from a file with these contents. -/
def dumped (f : File V) : Loaded V :=
  .dict (f.map fun x => (x.1, .list (x.2.map fun e => .dict (some e.value) [(e.sname, e.nums)])))

end Verif.RestoreCmd
