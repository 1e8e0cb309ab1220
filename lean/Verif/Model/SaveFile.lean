import Verif.Lib.Dict
import Verif.Lib.Exn
import Verif.Lib.PyStr

/-!
Model of where the 'save' commands put the settings and where the 'restore' commands take them from:
pepctool/_PepcCStates.py, _PepcPStates.py, _PepcPMQoS.py, _PepcPower.py, pepctool/_PepcPrinter.py (`_yaml_dump()`),
pepclibs/helperlibs/YAML.py. What is read from the host and what is done with the loaded dictionary is in the models of
C76, C77, C99 and C100; here both are parameters.
-/

namespace Verif.SaveFile

/-- The commands with the sub-commands 'save' and 'restore'. -/
inductive Kind where
  | cstates
  | pstates
  | pmqos
  | power
  deriving DecidableEq, Repr

/-- A part of a YAML text: a top-level key with its value in the block style, or a line with `{}`. -/
inductive Item (V : Type) where
  | entry (key : PyStr) (val : V)
  | braces
  deriving DecidableEq, Repr

variable {V : Type}

def Item.isBraces : Item V → Bool
  | .entry _ _ => false
  | .braces => true

/-- What `yaml.dump()` adds to the file: block style entries, an empty dictionary is written as `{}` also in block style.
Simplification: a value is loaded as it was dumped.
Models: pepclibs/helperlibs/YAML.py:20-72 `dump()` (without 'float_format' and 'skip_none', which are not used here),
pepctool/_PepcPrinter.py:287-294 `_yaml_dump()`. -/
def dumpText (d : Dict PyStr V) : List (Item V) :=
  if d.isEmpty then [.braces] else d.map fun p => .entry p.1 p.2

/-- The dictionary of a text with block style entries only: the last value of every key.
Models: pepclibs/helperlibs/YAML.py:86-102 `dict_constructor()`; simplification: no key begins with "include", which holds
for the names of properties. -/
def pairs : List (Item V) → Dict PyStr V → Dict PyStr V
  | [], d => d
  | .entry k v :: t, d => pairs t (d.set k v)
  | .braces :: t, d => pairs t d

/-- Loading a text. The empty text and `{}` give an empty dictionary. A line with `{}` before or after something else is a
syntax error of YAML (`yaml.YAMLError`), which becomes `Error`.
Models: pepclibs/helperlibs/YAML.py:121-137 in `_load()`. -/
def loadText : List (Item V) → Except Exn (Dict PyStr V)
  | [] => .ok []
  | [.braces] => .ok []
  | t => if t.any Item.isBraces then .error .error else .ok (pairs t [])

/-- The files by name: the contents of the file, `none` if there is no such file. -/
abbrev Files (V : Type) := PyStr → Option (List (Item V))

def Files.put (fs : Files V) (f : PyStr) (t : List (Item V)) : Files V := fun g => if g = f then some t else fs g

/-- One run of a 'save' command. -/
structure Save (V : Type) where
  kind : Kind
  /-- The argument of '-o', `none` if the option is not given. -/
  outfile : Option PyStr
  /-- Creating the 'CPUInfo' and the properties object. -/
  start : Except Exn Unit
  /-- Whether the file can be opened for writing. -/
  canOpen : PyStr → Bool
  /-- Creating the 'OpTarget' object: checking '--cpus' and the other target options. -/
  target : Except Exn Unit
  /-- Reading the C-states ('cstates' only); `none` if C-states are not supported (a warning is printed). -/
  cstates : Except Exn (Option (Dict PyStr V))
  /-- Reading the properties. -/
  props : Except Exn (Dict PyStr V)

/-- `args.outfile`: the default is `None` for C-states and "-" for the others.
Models: pepctool/_Pepc.py:401-402, 476-477, 551-552, 633-634. -/
def argOutfile (k : Kind) (o : Option PyStr) : Option PyStr :=
  match k with
  | .cstates => o
  | _ => some (o.getD ['-'])

/-- The file that is opened, `none` if the settings go to the standard output.
Models: pepctool/_PepcCStates.py:174-175 `if args.outfile:`, pepctool/_PepcPStates.py:143-144, _PepcPMQoS.py:140-141,
_PepcPower.py:140-141 `if args.outfile != "-":`. -/
def fileName (k : Kind) (o : Option PyStr) : Option PyStr :=
  match k, argOutfile k o with
  | _, none => none
  | .cstates, some f => if f.isEmpty then none else some f
  | _, some f => if f = ['-'] then none else some f

/-- The text that is written after the file was opened, the outcome, and how many names were printed. What was written
before an exception stays there: the file is closed by the exit stack.
Models: pepctool/_PepcCStates.py:188-198, pepctool/_PepcPStates.py:157-163, _PepcPMQoS.py:154-160, _PepcPower.py:154-160;
pepctool/_PepcPrinter.py:777-795 `print_cstates()`, 504-506 and 724 `print_props()`. Simplification: writing does not
fail. -/
def content (r : Save V) : List (Item V) × Except Exn Nat :=
  match r.target with
  | .error e => ([], .error e)
  | .ok _ =>
    let first : Except Exn (List (Item V) × Nat) :=
      match r.kind with
      | .cstates =>
        match r.cstates with
        | .error e => .error e
        | .ok none => .ok ([], 0)
        | .ok (some d) => .ok (dumpText d, d.length)
      | _ => .ok ([], 0)
    match first with
    | .error e => ([], .error e)
    | .ok (t, n) =>
      match r.props with
      | .error e => (t, .error e)
      | .ok d => (t ++ dumpText d, .ok (n + d.length))

/-- What is there after a 'save' command: the files, the text on the standard output, whether the message "No writable
... properties supported" was printed, and the outcome. -/
structure Res (V : Type) where
  files : Files V
  stdout : List (Item V)
  note : Bool
  out : Except Exn Unit

def isZero : Except Exn Nat → Bool
  | .ok 0 => true
  | _ => false

def toUnit : Except Exn Nat → Except Exn Unit
  | .ok _ => .ok ()
  | .error e => .error e

/-- A 'save' command. `open("")` always fails.
Models: pepctool/_PepcCStates.py:160-201 `cstates_save_command()`, pepctool/_PepcPStates.py:129-163
`pstates_save_command()`, pepctool/_PepcPMQoS.py:126-160 `pmqos_save_command()`, pepctool/_PepcPower.py:126-160
`power_save_command()`. -/
def save (r : Save V) (fs : Files V) : Res V :=
  match r.start with
  | .error e => ⟨fs, [], false, .error e⟩
  | .ok _ =>
    match fileName r.kind r.outfile with
    | none => ⟨fs, (content r).1, isZero (content r).2, toUnit (content r).2⟩
    | some f =>
      if !f.isEmpty && r.canOpen f then
        ⟨fs.put f (content r).1, [], isZero (content r).2, toUnit (content r).2⟩
      else ⟨fs, [], false, .error .error⟩

/-- Several 'save' commands, one after the other. -/
def saves : List (Save V) → Files V → Files V
  | [], fs => fs
  | r :: rs, fs => saves rs (save r fs).files

/-- The dictionary a 'restore' command loads, with the argument of '--from', the standard input and the files.
Models: pepctool/_PepcSetter.py:182-185 and 353-356 in `restore()`, the check of `args.infile` in
pepctool/_PepcCStates.py:208-210, pepctool/_PepcPStates.py:173-175, _PepcPMQoS.py:170-172, _PepcPower.py:170-172,
pepclibs/helperlibs/YAML.py:110-137 in `_load()`. -/
def restoreLoad (infile : Option PyStr) (stdin : List (Item V)) (fs : Files V) : Except Exn (Dict PyStr V) :=
  match infile with
  | none => .error .error
  | some f =>
    if f.isEmpty then .error .error
    else if f = ['-'] then loadText stdin
    else match fs f with
      | none => .error .error
      | some t => loadText t

end Verif.SaveFile
