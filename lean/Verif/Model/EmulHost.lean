import Verif.Model.Emul
import Verif.Model.FileOps
import Verif.Model.FreqInfo
import Verif.Model.EP
import Verif.Model.Tpmi

/-!
Model of the process manager of emulated systems (the '-D' option): loading a dataset, commands, and files.
Source: pepclibs/helperlibs/EmulProcessManager.py. What the emulated files do when they are written is in
`Verif.Model.Emul`.

Simplifications: the YAML configuration of a module is a structure, with the contents of the text files it refers to; paths
are strings as `Path` has them; directories on the way to a file are created when it is; the list of online CPUs (a
read-only file which ends with "cpu/online") is in `Verif.Model.Emul`; messages are dropped.
-/

namespace Verif.EmulHost

open PyStr (strip lstripBy stripBy)

/-- `s.lstrip("/")`. -/
def relative (p : PyStr) : PyStr := lstripBy (fun c => decide (c = '/')) p

/-! ### Datasets -/

/-- An entry of "inlinefiles": is it read-only, the separator, the text. -/
structure Inline where
  ro : Bool
  sep : Char
  text : PyStr

/-- The "msrs" entry: the separators and the text. -/
structure Msrs where
  sep1 : Char
  sep2 : Char
  text : PyStr

/-- The configuration of a module. `cmds` are commands with their output and error output; `files` and `copied` are files
(read-only or not, path, contents); `dirs` are directories (including those of "recursive_copy"), `inlineDirs` are texts
with a directory per line. -/
structure Config where
  inlineDirs : List PyStr := []
  cmds : List (PyStr × PyStr × PyStr) := []
  inl : List Inline := []
  msrs : Option Msrs := none
  files : List (Bool × PyStr × PyStr) := []
  dirs : List PyStr := []

/-- The object for an emulated file. -/
inductive EmulFile where
  | ro (data : PyStr)
  | rw
  | msr
  deriving DecidableEq

/-- The contents of a file of the base directory. -/
inductive Content where
  | text (t : PyStr)
  | bytes (b : Emul.Bytes)
  deriving DecidableEq

/-- The attributes of the object, and the base directory. -/
structure Sys where
  emuls : Dict PyStr EmulFile := []
  files : Dict PyStr Content := []
  dirs : List PyStr := []
  cmds : Dict PyStr (PyStr × PyStr) := []
  modules : List PyStr := []
  common : Bool := false
  deriving DecidableEq

/-- Models: pepclibs/helperlibs/emul/_EmulFile.py:14-40 with the constructors of
pepclibs/helperlibs/emul/_ROFile.py:40-62 and pepclibs/helperlibs/emul/_RWFile.py:78-104. -/
def addFile (ro : Bool) (path data : PyStr) (s : Sys) : Sys :=
  if ro then { s with emuls := s.emuls.set path (.ro data) }
  else { s with files := s.files.set (relative path) (.text data), emuls := s.emuls.set path .rw }

/-- Models: pepclibs/helperlibs/EmulProcessManager.py:197-209. -/
def inlineLines (ro : Bool) (sep : Char) : List PyStr → Sys → Except Exn Sys
  | [], s => .ok s
  | line :: ls, s =>
    match PyStr.splitC sep line with
    | [path, data] => inlineLines ro sep ls (addFile ro path data s)
    | _ => .error .error

/-- Models: pepclibs/helperlibs/EmulProcessManager.py:185-209 `_init_inline_files()`. -/
def initInline : List Inline → Sys → Except Exn Sys
  | [], s => .ok s
  | i :: is, s => do initInline is (← inlineLines i.ro i.sep (Tpmi.lines i.text) s)

/-- Models: pepclibs/helperlibs/EmulProcessManager.py:211-226 `_init_inline_dirs()`. -/
def initInlineDirs (texts : List PyStr) (s : Sys) : Sys :=
  { s with dirs := s.dirs ++ (texts.flatMap Tpmi.lines).map fun l => relative (strip l) }

/-- Models: pepclibs/helperlibs/EmulProcessManager.py:169-183 `_init_commands()`. -/
def initCmds (cmds : List (PyStr × PyStr × PyStr)) (s : Sys) : Sys :=
  { s with cmds := cmds.foldl (fun d c => d.set c.1 c.2) s.cmds }

/-- `regaddr, regval = reg_val_pair.split(sep2)` and the conversions. The length which is checked after that is the length of
another list. Models: pepclibs/helperlibs/EmulProcessManager.py:258-269. -/
def parsePair (sep2 : Char) (w : PyStr) : Except Exn (Nat × Nat) :=
  match PyStr.splitC sep2 w with
  | [a, v] =>
    match EP.parse10 a, Tpmi.strToInt16 v with
    | .error _, _ => .error .pyValueError
    | .ok _, .error _ => .error .pyValueError
    | .ok a, .ok v =>
      if v < 0 ∨ 2 ^ 64 ≤ v then .error .pyOverflowError
      else if a < 0 then .error .error
      else .ok (a.toNat, v.toNat)
  | _ => .error .pyValueError

/-- All the pairs of a line. -/
def parsePairs (sep2 : Char) : List PyStr → Except Exn (List (Nat × Nat))
  | [] => .ok []
  | w :: ws =>
    match parsePair sep2 w with
    | .error e => .error e
    | .ok p =>
      match parsePairs sep2 ws with
      | .error e => .error e
      | .ok l => .ok (p :: l)

/-- Models: pepclibs/helperlibs/EmulProcessManager.py:247-274. -/
def msrLines (sep1 sep2 : Char) : List PyStr → Sys → Except Exn Sys
  | [], s => .ok s
  | line :: ls, s =>
    match PyStr.splitC sep1 line with
    | [p, r] =>
      match parsePairs sep2 (FreqInfo.splitWs r) with
      | .error e => .error e
      | .ok pairs =>
        msrLines sep1 sep2 ls { s with
          files := s.files.set (relative (strip p)) (.bytes (Emul.populate (Emul.msrData pairs))),
          emuls := s.emuls.set (strip p) .msr }
    | _ => .error .error

/-- Models: pepclibs/helperlibs/EmulProcessManager.py:228-274 `_init_msrs()`. -/
def initMsrs : Option Msrs → Sys → Except Exn Sys
  | none, s => .ok s
  | some m, s => msrLines m.sep1 m.sep2 (Tpmi.lines m.text) s

/-- Models: pepclibs/helperlibs/EmulProcessManager.py:276-281, 290-298 `_init_files()`, `_init_copied_dirs()`. -/
def initFiles (files : List (Bool × PyStr × PyStr)) (s : Sys) : Sys :=
  files.foldl (fun s f => addFile f.1 f.2.1 f.2.2 s) s

/-- Models: pepclibs/helperlibs/EmulProcessManager.py:283-288 `_init_empty_dirs()`. -/
def initDirs (dirs : List PyStr) (s : Sys) : Sys := { s with dirs := s.dirs ++ dirs.map relative }

/-- Everything of a module. Models: pepclibs/helperlibs/EmulProcessManager.py:309-337. -/
def loadOne (data : PyStr → Option Config) (m : PyStr) (s : Sys) : Except Exn Sys :=
  match data m with
  | none => .error .notSupported
  | some c =>
    match initInline c.inl (initCmds c.cmds (initInlineDirs c.inlineDirs s)) with
    | .error e => .error e
    | .ok s =>
      match initMsrs c.msrs s with
      | .error e => .error e
      | .ok s =>
        let s := initDirs c.dirs (initFiles c.files s)
        .ok { s with modules := if m ∈ s.modules then s.modules else m :: s.modules }

/-- Models: pepclibs/helperlibs/EmulProcessManager.py:300-337 `_init_module()`. -/
def loadModule (data : PyStr → Option Config) (m : PyStr) (s : Sys) : Except Exn Sys :=
  if m = "CPUInfo".toList then
    match loadOne data "CPUOnline".toList s with
    | .error e => .error e
    | .ok s => loadOne data m s
  else loadOne data m s

/-- Models: pepclibs/helperlibs/EmulProcessManager.py:339-363 `init_module()`. -/
def initModule (commonData data : PyStr → Option Config) (m : PyStr) (s : Sys) : Except Exn Sys :=
  if m ∈ s.modules then .ok s
  else if s.common then loadModule data m s
  else
    match loadModule commonData "common".toList s with
    | .error e => .error e
    | .ok s => loadModule data m { s with common := true }

/-! ### Files -/

/-- Open a file for reading and read it. Models: pepclibs/helperlibs/EmulProcessManager.py:154-167 `open()`. -/
def readFile (s : Sys) (path : PyStr) : Option PyStr :=
  match s.emuls.get? path with
  | some (.ro d) => some d
  | _ =>
    match s.files.get? (relative path) with
    | some (.text t) => some t
    | _ => none

/-- `is_file()` of a file: is it in the base directory? The dictionary of read-only files is always empty.
Models: pepclibs/helperlibs/EmulProcessManager.py:404-413. -/
def isFile (s : Sys) (path : PyStr) : Bool := (s.files.get? (relative path)).isSome

/-- Read a register of a device node. Models: pepclibs/helperlibs/emul/_EmulDevMSR.py:34-58. -/
def readMsr (s : Sys) (path : PyStr) (addr : Nat) : Option Nat :=
  match s.emuls.get? path, s.files.get? (relative path) with
  | some .msr, some (.bytes b) => some (Emul.readReg b addr)
  | _, _ => none

/-- Write a sysfs file, see `Emul.C103_files`. -/
def writeFile (s : Sys) (path data : PyStr) : Sys := { s with files := s.files.set (relative path) (.text data) }

/-- `self._get_basepath() / str(path).lstrip("/")`. Models: pepclibs/helperlibs/EmulProcessManager.py:375, 389, 401, 412, 423, 435, 446. -/
def emulPath (base p : PyStr) : PyStr := if relative p = [] then base else base ++ '/' :: relative p

variable {σ : Type}

/-- A call of a file operation: some of the methods are not overridden, and are those of the local host. The dictionary of
read-only files is always empty. Models: pepclibs/helperlibs/EmulProcessManager.py:365-447. -/
def emulOp (K : FileOps.Kernel σ) (base : PyStr) (s : σ) : FileOps.Op → σ × Except FileOps.Err FileOps.Val
  | .pathExists p => FileOps.localOp K s (.pathExists (emulPath base p))
  | .isFile p => FileOps.localOp K s (.isFile (emulPath base p))
  | .isDir p => FileOps.localOp K s (.isDir (emulPath base p))
  | .isExe p => FileOps.localOp K s (.isExe (emulPath base p))
  | .isSocket p => FileOps.localOp K s (.isSocket (emulPath base p))
  | .mkdir p ok => FileOps.localOp K s (.mkdir (emulPath base p) ok)
  | .lsdir p must =>
    (s, (FileOps.localLsdir K s (emulPath base p) must).map fun l =>
      .entries (l.map fun x => (x.1, x.2.1.drop (base.length + 1), x.2.2)))
  | .mtime p => FileOps.localOp K s (.mtime p)
  | .mkfifo p ok => FileOps.localOp K s (.mkfifo p ok)
  | .unlink p => FileOps.localOp K s (.unlink p)
  | .rmtree p => FileOps.localOp K s (.rmtree p)

/-! ### Commands -/

/-- Where files are: on the host which runs the emulation, and below the base directory. -/
structure Where where
  real : PyStr → Bool
  emul : PyStr → Bool

/-- `Path(basepath / w).exists()`. -/
def there (W : Where) (w : PyStr) : Bool := if w.head? = some '/' then W.real w else W.emul w

/-- `w.strip(chars)`. -/
def stripChars (chars : List Char) (w : PyStr) : PyStr := stripBy (fun c => decide (c ∈ chars)) w

/-- Models: pepclibs/helperlibs/EmulProcessManager.py:70-85 `_extract_path()`. -/
def extractPath (W : Where) : List PyStr → Option PyStr
  | [] => none
  | w :: ws =>
    if there W w then some w
    else if there W (stripChars ['\'', '/'] w) then some (stripChars ['\'', '/'] w)
    else if there W (stripChars ['"', '/'] w) then some (stripChars ['"', '/'] w)
    else extractPath W ws

/-- Models: pepclibs/helperlibs/EmulProcessManager.py:87-102 `_rebase_cmd()`. -/
def rebaseCmd (W : Where) (base cmd : PyStr) : Option PyStr :=
  if FileOps.hasSub base cmd then some cmd
  else
    match extractPath W (FreqInfo.splitWs cmd) with
    | none => none
    | some [] => none
    | some (c :: t) => some (Emul.replace (c :: t) (base ++ '/' :: relative (c :: t)) cmd)

/-- What running a command is: recorded output with an exit code, a command which is really run, or `ErrorNotSupported`. -/
inductive Run where
  | recorded (stdout stderr : PyStr) (code : Nat)
  | real (cmd : PyStr)
  | notSupported
  deriving DecidableEq

/-- Models: pepclibs/helperlibs/EmulProcessManager.py:48-59, 128-152 `run()`. -/
def run (W : Where) (base : PyStr) (s : Sys) (cmd : PyStr) : Run :=
  match s.cmds.get? cmd with
  | some (out, err) => .recorded out err 0
  | none =>
    match rebaseCmd W base cmd with
    | none => .notSupported
    | some [] => .notSupported
    | some (c :: t) => .real (c :: t)

end Verif.EmulHost
