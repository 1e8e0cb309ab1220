import Verif.Model.HumanCStates
import Verif.Model.HotplugCmd

/-!
Model of the 'cstates info' and 'cstates config' commands: pepctool/_PepcCStates.py. Reading, printing and changing
properties (as opposed to requestable C-states) are parameters.
-/

namespace Verif.CStatesCmd

open CPUInfo (Info)
open CPUIdle (Names St Env toggleCStates)
open CStatesYaml (namesOfStr)
open HumanCStates (printCStates)

/-- The parts of the commands which are about properties: what they do to the rest of the system, the lines they print, and
the outcome. The mechanisms are those given by the user.
Models: the calls of `print_props()` and `set_props()` in pepctool/_PepcCStates.py:60, 75, 144, 158. -/
structure PropsPart (W : Type) where
  /-- `print_props("all", …, skip_unsupported=True, group=True)`. -/
  printAll : Option (List PyStr) → W → W × (List PyStr × Except Exn Nat)
  /-- `print_props(pnames, …, skip_unsupported=False)`. -/
  print : Option (List PyStr) → List PyStr → W → W × (List PyStr × Except Exn Nat)
  /-- `set_props(set_opts, …)`. -/
  set : Option (List PyStr) → List (PyStr × PyStr) → W → W × (List PyStr × Except Exn Unit)

/-- Models: pepctool/_PepcCommon.py:94-109 `parse_mechanisms()`; `known` are the mechanisms of the class. -/
def parseMechs (known : List PyStr) (text : PyStr) : Except Exn (List PyStr) :=
  let mnames := Trivial.splitCsvLine text ',' true
  if mnames.all known.contains then .ok mnames else .error .notSupported

/-- Models: pepctool/_PepcCStates.py:44-46, 121-123. -/
def mechsOpt (known : List PyStr) : Option PyStr → Except Exn (Option (List PyStr))
  | none => .ok none
  | some text =>
    if text.isEmpty then .ok none
    else match parseMechs known text with
      | .error e => .error e
      | .ok l => .ok (some l)

/-- Creating the target. Models: pepctool/_PepcCStates.py:48-52, 128-132. -/
def target (i : Info) (o : HotplugCmd.Opts) : Except Exn (OpTarget.Tgt × OpTarget.Cache) :=
  match HotplugCmd.toArgs o with
  | .error e => .error e
  | .ok a => OpTarget.init i a

/-- `optar.get_cpus()`. Simplification: calling it again returns the same CPUs from the cache of the object (C52), here they
are found again. -/
def targetCpus (i : Info) (t : OpTarget.Tgt × OpTarget.Cache) : Except Exn (List Nat) := (OpTarget.getCpus i t.1 t.2).1

/-- A part of a command: what it does to the state, the lines it prints, and the outcome. -/
abbrev Step (σ : Type) := σ → σ × (List PyStr × Except Exn Unit)

/-- One part after another; an exception ends the command. -/
def Step.andThen {σ : Type} (a b : Step σ) : Step σ := fun s =>
  match a s with
  | (s, lines, .error e) => (s, lines, .error e)
  | (s, lines, .ok ()) =>
    let r := b s
    (r.1, lines ++ r.2.1, r.2.2)

def Step.skip {σ : Type} : Step σ := fun s => (s, [], .ok ())

def Step.fail {σ : Type} (e : Exn) : Step σ := fun s => (s, [], .error e)

variable {W : Type}

/-- `csprint.print_cstates(csnames=…, cpus=optar.get_cpus(), …)`. -/
def printStep (i : Info) (descr : PyStr) (E : Env) (names : Names) (cpus : Except Exn (List Nat)) (skipRo group : Bool)
    (action : Option PyStr) : Step (St × W) := fun s =>
  match cpus with
  | .error e => (s, [], .error e)
  | .ok cpus =>
    let r := printCStates i descr E names cpus skipRo group action s.1
    ((r.1, s.2), r.2.1, r.2.2.map fun _ => ())

/-- Models: pepctool/_PepcSetter.py:300-317 `set_cstates()`: the mechanisms given by the user do not matter. -/
def setStep (i : Info) (descr : PyStr) (E : Env) (names : Names) (cpus : Except Exn (List Nat)) (enable : Bool) :
    Step (St × W) := fun s =>
  match cpus with
  | .error e => (s, [], .error e)
  | .ok l =>
    match toggleCStates E names l enable s.1 with
    | (s', .error e) => ((s', s.2), [], .error e)
    | (s', .ok _) => printStep i descr E names cpus true false (some "set to".toList) (s', s.2)

/-- Properties are about the rest of the system. -/
def onProps {α : Type} (f : W → W × (List PyStr × Except Exn α)) : Step (St × W) := fun s =>
  let r := f s.2
  ((s.1, r.1), r.2.1, r.2.2.map fun _ => ())

/-- The '--enable' and '--disable' options, with or without an argument, in the order of the command line.
Models: pepctool/_PepcCStates.py:98-102. -/
def enableOpts (oargs : Dict PyStr (Option PyStr)) : List (Bool × Option PyStr) :=
  oargs.filterMap fun x =>
    if x.1 = "enable".toList then some (true, x.2) else if x.1 = "disable".toList then some (false, x.2) else none

/-- Models: pepctool/_PepcCStates.py:103-104. -/
def printOpts (oargs : Dict PyStr (Option PyStr)) : List PyStr :=
  oargs.filterMap fun x =>
    if x.1 = "enable".toList ∨ x.1 = "disable".toList then none
    else match x.2 with
      | none => some x.1
      | some _ => none

/-- Models: pepctool/_PepcCStates.py:105-106. -/
def setOpts (oargs : Dict PyStr (Option PyStr)) : List (PyStr × PyStr) :=
  oargs.filterMap fun x =>
    if x.1 = "enable".toList ∨ x.1 = "disable".toList then none
    else x.2.map fun v => (x.1, v)

/-- Options with an argument: an empty text counts as no argument. -/
def given (l : List (Bool × Option PyStr)) : List (Bool × PyStr) :=
  l.filterMap fun x =>
    match x.2 with
    | none => none
    | some t => if t.isEmpty then none else some (x.1, t)

/-- Models: pepctool/_PepcCStates.py:150-154. -/
def setSteps (i : Info) (descr : PyStr) (E : Env) (cpus : Except Exn (List Nat)) : List (Bool × PyStr) → Step (St × W)
  | [] => Step.skip
  | (enable, text) :: l => Step.andThen (setStep i descr E (namesOfStr text) cpus enable) (setSteps i descr E cpus l)

/-- The arguments of the command; `oargs` are the options with values in the order of the command line, `none` if there
are no such options. -/
structure Args where
  oargs : Option (Dict PyStr (Option PyStr)) := none
  mechanisms : Option PyStr := none
  csnames : Option PyStr := some "default".toList
  tgt : HotplugCmd.Opts := {}

/-- Models: pepctool/_PepcCStates.py:80-161 `cstates_config_command()`. Not modelled: overriding the CPU model, and the
warning about the 'tuned' service at the end. `descr` is the description of the "sysfs" mechanism. -/
def configCmd (i : Info) (descr : PyStr) (E : Env) (known : List PyStr) (P : PropsPart W) (args : Args) :
    Step (St × W) :=
  match args.oargs with
  | none => Step.fail .error
  | some oargs =>
    match mechsOpt known args.mechanisms with
    | .error e => Step.fail e
    | .ok mnames =>
      match target i args.tgt with
      | .error e => Step.fail e
      | .ok t =>
        let cpus := targetCpus i t
        let opts := enableOpts oargs
        let noArg := opts.any fun x => (x.2.getD []).isEmpty
        Step.andThen (if noArg then printStep i descr E .all cpus false false none else Step.skip)
          (Step.andThen (if (printOpts oargs).isEmpty then Step.skip else onProps (P.print mnames (printOpts oargs)))
            (Step.andThen (setSteps i descr E cpus (given opts))
              (if (setOpts oargs).isEmpty then Step.skip else onProps (P.set mnames (setOpts oargs)))))

/-- Models: pepctool/_PepcCommon.py:67-92 `expand_subprops()`; `subprops` are the sub-properties of a property. -/
def expandSubprops (subprops : PyStr → List PyStr) (pnames : List PyStr) : List PyStr :=
  pnames.flatMap fun p => p :: subprops p

/-- The C-states to print. Models: pepctool/_PepcCStates.py:62-69 and the "csnames" argument of `print_cstates()`. -/
def askedNames : Option PyStr → Names
  | none => .all
  | some text => namesOfStr text

/-- Models: pepctool/_PepcCStates.py:23-78 `cstates_info_command()` in the "human" format. Not modelled: overriding the CPU
model, and the message when nothing is supported. `csnames` is "default" without '--cstates', and `none` for '--cstates'
without an argument. -/
def infoCmd (i : Info) (descr : PyStr) (E : Env) (known : List PyStr) (subprops : PyStr → List PyStr) (P : PropsPart W)
    (args : Args) : Step (St × W) :=
  match mechsOpt known args.mechanisms with
  | .error e => Step.fail e
  | .ok mnames =>
    match target i args.tgt with
    | .error e => Step.fail e
    | .ok t =>
      let cpus := targetCpus i t
      if args.oargs.isNone ∧ args.csnames = some "default".toList then
        Step.andThen (printStep i descr E .all cpus false true none) (onProps (P.printAll mnames))
      else
        let pnames := expandSubprops subprops ((args.oargs.getD []).map (·.1))
        Step.andThen
          (if args.csnames = some "default".toList then Step.skip
            else printStep i descr E (askedNames args.csnames) cpus false false none)
          (if pnames.isEmpty then Step.skip else onProps (P.print mnames pnames))

end Verif.CStatesCmd
