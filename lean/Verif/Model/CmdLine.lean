import Verif.Lib.Exn
import Verif.Lib.Dict
import Verif.Lib.PyStr
import Verif.Model.ClosestMatch

/-!
Model of the handling of the command line in pepctool/_Pepc.py and pepclibs/helperlibs/ArgParse.py which is not done by the
`argparse` module. What `argparse` does is a parameter: the values of the known options, and the arguments it does not know,
in their order.
-/

namespace Verif.CmdLine

/-- An option which is described by a dictionary. -/
structure Opt where
  short : PyStr
  long : PyStr
  dest : PyStr
deriving DecidableEq

/-- Models: pepclibs/helperlibs/ArgParse.py:65-105 `SSH_OPTIONS`. -/
def sshOptions : List Opt :=
  [⟨"-H".toList, "--host".toList, "hostname".toList⟩, ⟨"-U".toList, "--username".toList, "username".toList⟩,
   ⟨"-K".toList, "--priv-key".toList, "privkey".toList⟩, ⟨"-T".toList, "--timeout".toList, "timeout".toList⟩]

/-- Models: pepctool/_Pepc.py:38-48 `_DATASET_OPTION`. -/
def datasetOption : Opt := ⟨"-D".toList, "--dataset".toList, "dataset".toList⟩

/-- The attributes of the namespace. Simplification: all the values are texts or `None` (the default timeout is a number). -/
abbrev Namespace := Dict PyStr (Option PyStr)

/-- The values without any options. Models: pepclibs/helperlibs/ArgParse.py:65-105, pepctool/_Pepc.py:38-48. -/
def defaults : Namespace :=
  [("hostname".toList, some "localhost".toList), ("username".toList, some "root".toList), ("privkey".toList, none),
   ("timeout".toList, some "8".toList), ("dataset".toList, none)]

/-- Models: pepctool/_Pepc.py:106-127 `_check_unknown_args()`. -/
def checkUnknown : List Opt → Namespace → List PyStr → Except Exn (Namespace × List PyStr)
  | [], ns, uargs => .ok (ns, uargs)
  | o :: os, ns, uargs =>
    let name : Option PyStr := if o.short ∈ uargs then some o.short else if o.long ∈ uargs then some o.long else none
    match name with
    | none => checkUnknown os ns uargs
    | some name =>
      match uargs[uargs.idxOf name + 1]? with
      | none => .error .error
      | some v =>
        if v.head? = some '-' then .error .error
        else checkUnknown os (ns.set o.dest (some v)) ((uargs.erase v).erase name)

/-- Whether an attribute has a non-empty text. -/
def given (ns : Namespace) (dest : PyStr) : Bool :=
  match ns.get? dest with
  | some (some v) => v ≠ []
  | _ => false

/-- `ns` and `uargs` are the results of `parse_known_args()`. Models: pepctool/_Pepc.py:129-145 `parse_args()`. -/
def parseArgs (ns : Namespace) (uargs : List PyStr) : Except Exn Namespace :=
  if uargs = [] then .ok ns
  else match checkUnknown sshOptions ns uargs with
    | .error e => .error e
    | .ok (ns, uargs) =>
      match checkUnknown [datasetOption] ns uargs with
      | .error e => .error e
      | .ok (ns, uargs) =>
        if uargs ≠ [] then .error .error
        else if given ns "dataset".toList ∧ ns.get? "hostname".toList ≠ some (some "localhost".toList) then .error .error
        else .ok ns

/-- Where a command runs. -/
inductive Place where
  | emulated (dataset : PyStr)
  | host (name : PyStr) (username privkey timeout : Option PyStr)
deriving DecidableEq

/-- What `main()` does after parsing. -/
inductive Plan where
  | noCommand
  | mechanisms (lines : List PyStr)
  | run (place : Place)
deriving DecidableEq

/-- `set` of the mechanisms of the properties. Models: pepctool/_Pepc.py:1093-1098. -/
def mechNames (props : List (List PyStr)) : List PyStr := props.flatten

/-- `mechs` is `MECHANISMS` with the descriptions. Models: pepctool/_Pepc.py:1100-1106. -/
def mechLines (mechs : Dict PyStr PyStr) (mnames : List PyStr) : List PyStr :=
  (mechs.filter fun m => m.1 ∈ mnames).map fun m => m.1 ++ " - ".toList ++ m.2

/-- The classes which have properties. -/
structure Classes where
  pstates : List (List PyStr)
  cstates : List (List PyStr)
  power : List (List PyStr)
  mechs : Dict PyStr PyStr

/-- Models: pepctool/_Pepc.py:1079-1106 `_list_mechanisms()`. -/
def listMechanisms (K : Classes) (fname : PyStr) : Except Exn (List PyStr) :=
  if "_pstates_".toList.isPrefixOf fname then .ok (mechLines K.mechs (mechNames K.pstates))
  else if "_cstates_".toList.isPrefixOf fname then .ok (mechLines K.mechs (mechNames K.cstates))
  else if "_power_".toList.isPrefixOf fname then .ok (mechLines K.mechs (mechNames K.power))
  else .error .error

/-- An attribute, `None` if there is no such attribute. -/
def attr (ns : Namespace) (dest : PyStr) : Option PyStr := (ns.get? dest).getD none

/-- Up to the call of the function of the command. `func` is the name of this function, if there is a command.
Models: pepctool/_Pepc.py:1108-1140 `main()`. -/
def plan (K : Classes) (ns : Namespace) (func : Option PyStr) (listMech : Bool) : Except Exn Plan :=
  match func with
  | none => .ok .noCommand
  | some fname =>
    let host := (attr ns "hostname".toList).getD []
    let here : Bool := host = "localhost".toList
    if listMech then
      match listMechanisms K fname with
      | .error e => .error e
      | .ok lines => .ok (.mechanisms lines)
    else if given ns "dataset".toList then .ok (.run (.emulated ((attr ns "dataset".toList).getD [])))
    else .ok (.run (.host host (if here then none else attr ns "username".toList)
      (if here then none else attr ns "privkey".toList) (if here then none else attr ns "timeout".toList)))

/-! ### Ordered options -/

variable {V : Type}

/-- The `oargs` attribute after the actions for the options in the order of the command line.
Models: pepclibs/helperlibs/ArgParse.py:123-141 `OrderedArg`. -/
def orderedArgs (l : List (PyStr × V)) : Dict PyStr V := l.foldl (fun d x => d.set x.1 x.2) []

/-! ### Options before and after the sub-command, as in the tools for developers -/

/-- The loop; `take` is whether the next argument is the value of an SSH option.
Models: pepclibs/helperlibs/ArgParse.py:268-281. -/
def splitSsh (opts : List PyStr) : Bool → List PyStr → List PyStr × List PyStr
  | _, [] => ([], [])
  | take, a :: l =>
    if a ∈ opts then let r := splitSsh opts true l; (r.1, a :: r.2)
    else if take then let r := splitSsh opts false l; (r.1, a :: r.2)
    else let r := splitSsh opts false l; (a :: r.1, r.2)

/-- Models: pepclibs/helperlibs/ArgParse.py:248-284 `SSHOptsAwareArgsParser.parse_args()`. -/
def reorder (args : List PyStr) : List PyStr :=
  let r := splitSsh (sshOptions.flatMap fun o => [o.short, o.long]) false args
  r.1 ++ r.2

/-! ### Suggestions -/

/-- The text up to the first occurrence of `sep`, and the text after it. -/
def cut (sep : PyStr) : PyStr → Option (PyStr × PyStr)
  | [] => if sep = [] then some ([], []) else none
  | c :: s => if sep.isPrefixOf (c :: s) then some ([], (c :: s).drop sep.length)
    else (cut sep s).map fun r => (c :: r.1, r.2)

/-- `s.split(sep)` for a separator of more than one character; `fuel` is the length of the text. -/
def splitSeqFuel (sep : PyStr) : Nat → PyStr → List PyStr
  | 0, s => [s]
  | n + 1, s =>
    match cut sep s with
    | none => [s]
    | some (a, b) => a :: splitSeqFuel sep n b

def splitSeq (sep s : PyStr) : List PyStr := splitSeqFuel sep s.length s

/-- Whether the text has the separator: `sep in s`. -/
def hasSeq (sep s : PyStr) : Bool := (cut sep s).isSome

/-- The message which is printed. `lower` is `str.lower()`, `prog` is the name of the program.
Models: pepclibs/helperlibs/ArgParse.py:216-237 `ArgsParser.error()`. -/
def errorMessage (lower : PyStr → PyStr) (prog message : PyStr) : Except Exn PyStr :=
  if !hasSeq "invalid choice: ".toList message then .ok (message ++ "\nUse -h for help.".toList)
  else match splitSeq " (choose from ".toList message with
    | [offending, opts] =>
      match (splitSeq "invalid choice: ".toList offending)[1]? with
      | none => .error .pyIndexError
      | some o =>
        let o := PyStr.stripBy (· = '\'') o
        let opts := (splitSeq ", ".toList opts).map (PyStr.stripBy fun c => c = ')' || c = '\'')
        match ClosestMatch.closestMatch lower o opts 2 false with
        | .error e => .error e
        | .ok none => .ok message
        | .ok (some s) => .ok ("bad argument '".toList ++ o ++ "', use '".toList ++ prog ++
            " -h'.\n\nThe most similar argument is\n        ".toList ++ s)
    | _ => .error .pyValueError

end Verif.CmdLine
