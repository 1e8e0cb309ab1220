import Verif.Model.CStatesCmd
import Verif.Model.HumanPrint
import Verif.Model.PropsTarget

/-!
Model of the 'info' and 'config' commands for properties: pepctool/_PepcPStates.py, pepctool/_PepcPower.py,
pepctool/_PepcPMQoS.py, which are the same apart from the class of the properties, and `set_props()` of
pepctool/_PepcSetter.py. How a class reads and writes a property is a parameter.
-/

namespace Verif.PropsCmd

open CPUInfo (Info Scope)
open OpTarget (Tgt Cache)
open PropsBase (Mech PropDesc Gen)
open PropsTarget (Item getPropSname setPropSname)
open PropsYaml (PV Loc)
open HumanPrint (PropInfo Fmt Val printProps)
open CStatesCmd (Step mechsOpt target expandSubprops)

/-- The names of the mechanisms. Models: pepclibs/_PropsClassBase.py:44-70, the keys. -/
def mechName : Mech → PyStr
  | .sysfs => "sysfs".toList
  | .cdev => "cdev".toList
  | .msr => "msr".toList
  | .cppc => "cppc".toList
  | .doc => "doc".toList

/-- An access to the target: for reading a property (per CPU or not), or for setting it. -/
inductive Access where
  | get (pname : PyStr) (perCpu : Bool)
  | set (pname : PyStr)
  deriving DecidableEq

/-- A class of properties, with the state `σ` of the object and of the system. -/
structure Cls (σ Q : Type) where
  /-- The `props` dictionary, as far as it is used for printing. -/
  props : Dict PyStr PropInfo
  /-- The `props` dictionary, as far as it is used for reading and setting. -/
  desc : PyStr → Option PropDesc
  /-- The mechanisms of the class. -/
  mechs : List Mech
  /-- The sub-properties of a property. -/
  subprops : PyStr → List PyStr
  /-- The default unit of a property, for values without a unit. -/
  defUnit : PyStr → Option PyStr
  /-- `str(Trivial.str_to_num(text))`, `none` if it is not a number. -/
  numText : PyStr → Option PyStr
  /-- `_normalize_inprop()` for a property that can be written. -/
  norm : PyStr → Val Q → Except Exn (Val Q)
  /-- `_set_prop_cpus()`. -/
  set : PyStr → Mech → Val Q → List Nat → σ → σ × Except Exn Unit
  /-- `_get_prop_cpus()`. -/
  get : σ → PyStr → Mech → List Nat → Gen (Nat × Option (Val Q))
  /-- Start the transactions. -/
  start : σ → σ × Except Exn Unit
  /-- Commit the transactions. -/
  commit : σ → σ × Except Exn Unit
  /-- `PStatesSetter`, which handles `ErrorFreqOrder`. -/
  freqs : Bool

/-- What is common to a command: the system, how values are printed, the target, the mechanisms allowed. `later` is the cache
of the target object when it is accessed; it depends on what was called before. -/
structure Env (Q : Type) where
  i : Info
  F : Fmt Q
  descr : PyStr → PyStr
  t : Tgt
  later : Access → Cache

variable {σ Q : Type} [DecidableEq Q]

/-- Models: pepctool/_PepcPrinter.py:330-343 `_get_pvinfo_num()`. -/
def toPV {V : Type} : Item V → PV V
  | .cpu pv => ⟨.cpu pv.num, pv.val, mechName pv.mname⟩
  | .die pv => ⟨.die pv.num.1 pv.num.2, pv.val, mechName pv.mname⟩
  | .package pv => ⟨.package pv.num, pv.val, mechName pv.mname⟩

/-- The result of a generator consumed to the end. -/
def results {V : Type} (g : Gen (Item V)) : Except Exn (List (PV V)) :=
  match g.err with
  | some e => .error e
  | none => .ok (g.yields.map toPV)

/-- What `get_prop_sname()` returns for the target. Simplification: reading does not change the state.
Models: pepctool/_PepcPrinter.py:350-352. -/
def readProp (E : Env Q) (K : Cls σ Q) (mnames : Option (List Mech)) (s : σ) (pname : PyStr) (perCpu : Bool) :
    Except Exn (List (PV (Val Q))) :=
  match K.desc pname with
  | none => .error .error
  | some P =>
    results (getPropSname E.i P (K.get s pname) E.t mnames (if perCpu then some (.lvl .CPU) else none)
      (E.later (.get pname perCpu))).1

/-- `print_props()`: the lines, and the count of what was printed. -/
def printOut (E : Env Q) (K : Cls σ Q) (mnames : Option (List Mech)) (skipRo skipUnsupported group : Bool)
    (action : Option PyStr) (pnames : Option (List PyStr)) (s : σ) : List PyStr × Except Exn Nat :=
  printProps E.i E.F K.props E.descr (readProp E K mnames s) skipRo skipUnsupported group action pnames

/-- `print_props()` when the count is not used. -/
def printStep (E : Env Q) (K : Cls σ Q) (mnames : Option (List Mech)) (skipRo skipUnsupported group : Bool)
    (action : Option PyStr) (pnames : Option (List PyStr)) : Step σ := fun s =>
  let r := printOut E K mnames skipRo skipUnsupported group action pnames s
  (s, r.1, r.2.map fun _ => ())

/-- `set_props()` while it is setting properties: the values still to be set, and the mechanisms used. -/
structure Prog (σ Q : Type) where
  s : σ
  left : Dict PyStr (Val Q)
  used : Dict PyStr Mech

/-- Models: pepctool/_PepcSetter.py:24-33 `_PropsSetter._set_prop_sname()`. A property not known to the class is not set:
`get_sname()` fails. -/
def setBase (E : Env Q) (K : Cls σ Q) (mnames : Option (List Mech)) (pname : PyStr) (g : Prog σ Q) :
    Prog σ Q × Except Exn Unit :=
  match g.left.get? pname with
  | none => (g, .ok ())
  | some v =>
    match K.desc pname with
    | none => (g, .error .error)
    | some P =>
      match (setPropSname E.i P (K.norm pname) (K.set pname) E.t (some v) mnames (E.later (.set pname)) g.s).1 with
      | (s, .error e) => ({ g with s := s }, .error e)
      | (s, .ok m) => (⟨s, g.left.erase pname, g.used.set pname m⟩, .ok ())

/-- The property to set first. For a maximum frequency the code looks for a property with a misspelled name.
Models: pepctool/_PepcSetter.py:226-227, 249-257. -/
def otherName (pname : PyStr) : Option PyStr :=
  if pname = "min_freq".toList then some "max_freq".toList
  else if pname = "min_uncore_freq".toList then some "max_uncore_freq".toList
  else if pname = "max_freq".toList then some "mim_freq".toList
  else if pname = "max_uncore_freq".toList then some "mim_uncore_freq".toList
  else none

/-- Models: pepctool/_PepcSetter.py:219-266 `PStatesSetter._set_prop_sname()`. -/
def setOne (E : Env Q) (K : Cls σ Q) (mnames : Option (List Mech)) (pname : PyStr) (g : Prog σ Q) :
    Prog σ Q × Except Exn Unit :=
  match setBase E K mnames pname g with
  | (g, .ok ()) => (g, .ok ())
  | (g, .error e) =>
    if !K.freqs || e ≠ .freqOrder then (g, .error e)
    else match otherName pname with
      | none => (g, .error e)
      | some other =>
        if (g.left.get? other).isNone then (g, .error e)
        else match setBase E K mnames other g with
          | (g, .error e) => (g, .error e)
          | (g, .ok ()) => setBase E K mnames pname g

/-- Models: pepctool/_PepcSetter.py:71-72. -/
def setAll (E : Env Q) (K : Cls σ Q) (mnames : Option (List Mech)) : List PyStr → Prog σ Q → Prog σ Q × Except Exn Unit
  | [], g => (g, .ok ())
  | p :: ps, g =>
    match setOne E K mnames p g with
    | (g, .error e) => (g, .error e)
    | (g, .ok ()) => setAll E K mnames ps g

/-- The value with the default unit. Models: pepctool/_PepcSetter.py:51-64. -/
def withUnit (K : Cls σ Q) (pname text : PyStr) : PyStr :=
  match K.defUnit pname with
  | none => text
  | some unit =>
    match K.numText text with
    | none => text
    | some num => num ++ unit

/-- Printing the property with the mechanism it was set with. Models: pepctool/_PepcSetter.py:80-82. -/
def printUsed (E : Env Q) (K : Cls σ Q) (used : Dict PyStr Mech) (p : PyStr) : Step σ :=
  match used.get? p with
  | none => Step.fail .pyKeyError
  | some m => printStep E K (some [m]) true false false (some "set to".toList) (some [p])

/-- Printing what was set. Models: pepctool/_PepcSetter.py:78-82. -/
def printSet (E : Env Q) (K : Cls σ Q) (used : Dict PyStr Mech) : List PyStr → Step σ
  | [] => Step.skip
  | p :: ps => Step.andThen (printUsed E K used p) (printSet E K used ps)

/-- Models: pepctool/_PepcSetter.py:35-82 `set_props()`. The transactions of the "msr" object are committed before those of
the "sysfs_io" object. When an exception ends the command, what is not committed is not written. -/
def setProps (E : Env Q) (K : Cls σ Q) (mnames : Option (List Mech)) (opts : List (PyStr × PyStr)) : Step σ := fun s =>
  let todo : Dict PyStr (Val Q) := opts.map fun x => (x.1, Val.str (withUnit K x.1 x.2))
  match K.start s with
  | (s, .error e) => (s, [], .error e)
  | (s, .ok ()) =>
    match setAll E K mnames (opts.map (·.1)) ⟨s, todo, []⟩ with
    | (g, .error e) => (g.s, [], .error e)
    | (g, .ok ()) =>
      match K.commit g.s with
      | (s, .error e) => (s, [], .error e)
      | (s, .ok ()) => printSet E K g.used (opts.map (·.1)) s

/-- The options without a value. Models: pepctool/_PepcPStates.py:79-82. -/
def printOpts (oargs : Dict PyStr (Option PyStr)) : List PyStr :=
  oargs.filterMap fun x => if x.2.isNone then some x.1 else none

/-- The options with a value. Models: pepctool/_PepcPStates.py:83-84. -/
def setOpts (oargs : Dict PyStr (Option PyStr)) : List (PyStr × PyStr) :=
  oargs.filterMap fun x => x.2.map fun v => (x.1, v)

/-- The mechanisms allowed by the user. Models: pepctool/_PepcPStates.py:102-104. -/
def allowed (K : Cls σ Q) (text : Option PyStr) : Except Exn (Option (List Mech)) :=
  match mechsOpt (K.mechs.map mechName) text with
  | .error e => .error e
  | .ok none => .ok none
  | .ok (some l) => .ok (some (l.filterMap fun n => K.mechs.find? fun m => mechName m = n))

/-- The arguments of the command; `oargs` are the options with values in the order of the command line, `none` if there
are no such options. -/
structure Args where
  oargs : Option (Dict PyStr (Option PyStr)) := none
  mechanisms : Option PyStr := none
  tgt : HotplugCmd.Opts := {}

/-- What the commands work with apart from the arguments, see `Env`. -/
structure Host (Q : Type) where
  i : Info
  F : Fmt Q
  descr : PyStr → PyStr
  later : Tgt → Cache → Access → Cache
  /-- "No P-states properties supported on …". -/
  nothing : PyStr

/-- The target is known. -/
def Host.env (H : Host Q) (t : Tgt × Cache) : Env Q := ⟨H.i, H.F, H.descr, t.1, H.later t.1 t.2⟩

/-- Models: pepctool/_PepcPStates.py:66-127 `pstates_config_command()`, pepctool/_PepcPower.py:67-124
`power_config_command()`, pepctool/_PepcPMQoS.py:65-124 `pmqos_config_command()`. Not modelled: overriding the CPU model, and
the warning about the 'tuned' service at the end. -/
def configCmd (H : Host Q) (K : Cls σ Q) (args : Args) : Step σ :=
  match args.oargs with
  | none => Step.fail .error
  | some oargs =>
    match allowed K args.mechanisms with
    | .error e => Step.fail e
    | .ok mnames =>
      match target H.i args.tgt with
      | .error e => Step.fail e
      | .ok t =>
        Step.andThen
          (if (printOpts oargs).isEmpty then Step.skip
            else printStep (H.env t) K mnames false false false none (some (printOpts oargs)))
          (if (setOpts oargs).isEmpty then Step.skip else setProps (H.env t) K mnames (setOpts oargs))

/-- Say that nothing was printed. Models: pepctool/_PepcPStates.py:62-63. -/
def noteNothing (H : Host Q) (r : List PyStr × Except Exn Nat) : List PyStr × Except Exn Unit :=
  match r with
  | (lines, .error e) => (lines, .error e)
  | (lines, .ok n) => (if n = 0 then lines ++ [H.nothing] else lines, .ok ())

/-- Models: pepctool/_PepcPStates.py:22-63 `pstates_info_command()`, pepctool/_PepcPower.py:22-65 `power_info_command()`,
pepctool/_PepcPMQoS.py:21-62 `pmqos_info_command()` in the "human" format. Not modelled: overriding the CPU model. -/
def infoCmd (H : Host Q) (K : Cls σ Q) (args : Args) : Step σ := fun s =>
  match allowed K args.mechanisms with
  | .error e => (s, [], .error e)
  | .ok mnames =>
    match target H.i args.tgt with
    | .error e => (s, [], .error e)
    | .ok t =>
      match args.oargs with
      | none => (s, noteNothing H (printOut (H.env t) K mnames false true true none none s))
      | some oargs =>
        (s, noteNothing H (printOut (H.env t) K mnames false false false none
          (some (expandSubprops K.subprops (oargs.map (·.1)))) s))

end Verif.PropsCmd
