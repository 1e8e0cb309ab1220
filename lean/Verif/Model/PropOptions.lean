import Verif.Lib.Exn
import Verif.Lib.Dict
import Verif.Lib.PyStr
import Verif.Model.CmdLine
import Verif.Model.Dispatch

/-!
Model of the options of the `info` and `config` sub-commands: how pepctool/_Pepc.py makes options of the properties, and what
the parser of a sub-command makes of the arguments. The parser is the `argparse` module of Python (version 3.7 and newer),
which is not part of the repository: `destOf`, `kind` and `parse` say what this module does.
-/

namespace Verif.PropOptions

/-- How many arguments an option takes: none, one, or at most one (`nargs="?"`). -/
inductive Nargs where
  | zero
  | one
  | maybe
  deriving DecidableEq, Repr

/-- An option. `ordered` is whether the action is `OrderedArg`. An option with a short and a long name is two of these. -/
structure Opt where
  name : PyStr
  dest : PyStr
  nargs : Nargs
  ordered : Bool
  deriving DecidableEq, Repr

/-- The name of the option of a property. Models: pepctool/_Pepc.py:239, 269. -/
def optName (pname : PyStr) : PyStr := "--".toList ++ pname.map fun c => if c = '_' then '-' else c

/-- The attribute for the value of an option without a `dest`: the name without the leading dashes, and with underscores in
place of the other dashes. The library. -/
def destOf (name : PyStr) : PyStr := (PyStr.lstripBy (· == '-') name).map fun c => if c = '-' then '_' else c

/-- `subs` are the sub-properties of all the properties, `props` are the names of the properties.
Models: pepctool/_Pepc.py:219-240 `_add_info_subcommand_options()`. -/
def infoOptions (subs props : List PyStr) : List Opt :=
  (props.filter fun p => p ∉ subs).map fun p => ⟨optName p, destOf (optName p), .zero, true⟩

/-- Models: pepctool/_Pepc.py:253-270 `_add_config_subcommand_options()`. -/
def configOptions (props : List Dispatch.Prop') : List Opt :=
  (props.filter fun p => p.writable).map fun p => ⟨optName p.name, destOf (optName p.name), .maybe, true⟩

/-- The sub-properties. Models: pepclibs/CStates.py:32-112 (no other class has any). -/
def subprops : Dispatch.Cls → List PyStr
  | .cstates => ["pkg_cstate_limit_lock".toList, "pkg_cstate_limits".toList, "pkg_cstate_limit_aliases".toList]
  | _ => []

def plainOpt (name dest : String) (nargs : Nargs) : Opt := ⟨name.toList, dest.toList, nargs, false⟩

/-- The options which all the parsers have, and those for mechanisms and the CPU model. Simplification: `-h`, which prints the
help and ends the program, is one more option without an argument.
Models: pepclibs/helperlibs/ArgParse.py:186-191, pepctool/_Pepc.py:50-83. -/
def commonOpts : List Opt :=
  [plainOpt "-h" "help" .zero, plainOpt "-q" "quiet" .zero, plainOpt "-d" "debug" .zero,
   plainOpt "--override-cpu-model" "override_cpu_model" .one, plainOpt "-m" "mechanisms" .one,
   plainOpt "--mechanisms" "mechanisms" .one, plainOpt "--list-mechanisms" "list_mechanisms" .zero]

/-- `coreSiblings` is whether `--core-siblings` is not excluded.
Models: pepctool/_Pepc.py:147-206 `_add_target_cpus_arguments()`. -/
def targetOpts (coreSiblings : Bool) : List Opt :=
  [plainOpt "--cpus" "cpus" .one, plainOpt "--cores" "cores" .one, plainOpt "--modules" "modules" .one,
   plainOpt "--dies" "dies" .one, plainOpt "--packages" "packages" .one]
  ++ (if coreSiblings then [plainOpt "--core-siblings" "core_siblings" .one] else [])
  ++ [plainOpt "--module-siblings" "module_siblings" .one]

/-- The options of the `config` sub-command which are not properties.
Models: pepctool/_Pepc.py:372-385, 456-461, 533-538, 611-616. -/
def configOthers : Dispatch.Cls → List Opt
  | .cstates => commonOpts ++ targetOpts true ++ [⟨"--enable".toList, "enable".toList, .maybe, true⟩,
      ⟨"--disable".toList, "disable".toList, .maybe, true⟩]
  | .power => commonOpts ++ targetOpts false
  | _ => commonOpts ++ targetOpts true

/-- The options of the `info` sub-command which are not properties.
Models: pepctool/_Pepc.py:346-358, 436-444, 512-520, 588-597. -/
def infoOthers : Dispatch.Cls → List Opt
  | .cstates => commonOpts ++ targetOpts true ++ [plainOpt "--yaml" "yaml" .zero, plainOpt "--cstates" "csnames" .maybe]
  | .power => commonOpts ++ targetOpts false ++ [plainOpt "--yaml" "yaml" .zero]
  | _ => commonOpts ++ targetOpts true ++ [plainOpt "--yaml" "yaml" .zero]

/-- What an argument is. -/
inductive Kind where
  | value
  | opt (o : Opt)
  | ambiguous
  | unknown
  deriving DecidableEq, Repr

/-- The regular expression `^-\d+$|^-\d*\.\d+$`; `r` is the text after the dash. Simplification: the digits are ASCII.
The library. -/
def negNumber (r : PyStr) : Bool :=
  let a := r.takeWhile (·.isDigit)
  match r.dropWhile (·.isDigit) with
  | [] => a ≠ []
  | c :: d => c == '.' && d ≠ [] && d.all (·.isDigit)

/-- `_parse_optional()` of the library. Simplifications: an option and its value in one argument (`--opt=value`, `-mvalue`),
and the argument `--`, are not modelled. -/
def kind (opts : List Opt) (t : PyStr) : Kind :=
  match t with
  | [] => .value
  | c :: r =>
    if c ≠ '-' then .value
    else match opts.find? fun o => o.name == c :: r with
      | some o => .opt o
      | none =>
        if r = [] then .value
        else match opts.filter fun o => (c :: r).isPrefixOf o.name with
          | [o] => .opt o
          | _ :: _ :: _ => .ambiguous
          | [] => if negNumber r then .value else if ' ' ∈ r then .value else .unknown

/-- The results: the calls of the `OrderedArg` action, the attributes which are set otherwise, and the arguments which are not
known, all in their order. -/
structure Res where
  ordered : List (PyStr × Option PyStr)
  plain : List (PyStr × Option PyStr)
  uargs : List PyStr
  deriving DecidableEq, Repr

/-- An option with its value; `none` is no value (the empty list for an option without arguments, `None` otherwise). -/
def Res.put (o : Opt) (v : Option PyStr) (r : Res) : Res :=
  if o.ordered then { r with ordered := (o.dest, v) :: r.ordered } else { r with plain := (o.dest, v) :: r.plain }

def Res.unknown (t : PyStr) (r : Res) : Res := { r with uargs := t :: r.uargs }

/-- `parse_known_args()` of the library, for a parser without positional arguments. -/
def parse (opts : List Opt) : List PyStr → Except Exn Res
  | [] => .ok ⟨[], [], []⟩
  | t :: rest =>
    match kind opts t with
    | .ambiguous => .error .error
    | .unknown => (parse opts rest).map (Res.unknown t)
    | .value => (parse opts rest).map (Res.unknown t)
    | .opt o =>
      match o.nargs with
      | .zero => (parse opts rest).map (Res.put o none)
      | .one =>
        match rest with
        | [] => .error .error
        | v :: rest' => if kind opts v = .value then (parse opts rest').map (Res.put o (some v)) else .error .error
      | .maybe =>
        match rest with
        | [] => .ok (Res.put o none ⟨[], [], []⟩)
        | v :: rest' => if kind opts v = .value then (parse opts rest').map (Res.put o (some v))
          else (parse opts (v :: rest')).map (Res.put o none)

/-- The arguments of a sub-command: the `oargs` attribute, the other attributes of the sub-command in the order in which they
were set, and the values of the options which are known to all the commands. `ns` are the latter before the sub-command.
Models: pepctool/_Pepc.py:129-145 `parse_args()`, pepclibs/helperlibs/ArgParse.py:123-141 `OrderedArg`. -/
def subcommand (opts : List Opt) (ns : CmdLine.Namespace) (args : List PyStr) :
    Except Exn (Dict PyStr (Option PyStr) × List (PyStr × Option PyStr) × CmdLine.Namespace) :=
  match parse opts args with
  | .error e => .error e
  | .ok r =>
    match CmdLine.parseArgs ns r.uargs with
    | .error e => .error e
    | .ok ns => .ok (CmdLine.orderedArgs r.ordered, r.plain, ns)

end Verif.PropOptions
