import Verif.Model.Trivial
import Verif.Model.MSRRemote

/-!
Model of the file operations of the process managers: on the local host they are system calls, on a remote host they are
shell commands. Sources: pepclibs/helperlibs/LocalProcessManager.py, pepclibs/helperlibs/SSHProcessManager.py,
pepclibs/helperlibs/_ProcessManagerBase.py.

The kernel is a parameter. The shell, the programs `test`, `mkdir`, `mkfifo`, `unlink`, `rm` and the small Python scripts
are modelled down to the text of the command: quotes, words, arguments, output, exit code.

Simplifications: paths are strings as `str(Path(path))` has them; times are whole numbers (in Python they are floating
point numbers, which are printed and parsed back without a change); creating parent directories is left out; messages are
dropped; `test` is built in the shell; a command which is not modelled fails.
-/

namespace Verif.FileOps

open PyStr (ofNat strip)

/-- Error numbers. -/
inductive Errno where
  | noent
  | notdir
  | loop
  | exist
  | isdir
  | acces
  | other
  deriving DecidableEq

/-- File types. -/
inductive Kind where
  | file
  | dir
  | fifo
  | socket
  | link
  | other
  deriving DecidableEq

/-- What `stat()` returns. -/
structure Stat where
  kind : Kind
  mode : Nat
  ctime : Nat
  mtime : Nat
  deriving DecidableEq

/-- The system calls; `stat` and `access` (for executing) follow symbolic links, `tree` removes a directory and everything
in it. -/
structure Kernel (σ : Type) where
  stat : σ → PyStr → Except Errno Stat
  lstat : σ → PyStr → Except Errno Stat
  access : σ → PyStr → Bool
  listdir : σ → PyStr → Except Errno (List PyStr)
  mkdir : σ → PyStr → Except Errno σ
  mkfifo : σ → PyStr → Except Errno σ
  unlink : σ → PyStr → Except Errno σ
  tree : σ → PyStr → Except Errno σ

/-- The exceptions: `Error`, `ErrorNotFound`, `ErrorExists`. -/
inductive Err where
  | error
  | notFound
  | exists'
  deriving DecidableEq

/-- What the methods return. Directory entries are the name, the path and the mode. -/
inductive Val where
  | unit
  | bool (b : Bool)
  | time (n : Nat)
  | entries (l : List (PyStr × PyStr × Nat))
  deriving DecidableEq

/-- The methods. The boolean of `mkdir` and `mkfifo` is `exist_ok`, that of `lsdir` is `must_exist`. -/
inductive Op where
  | pathExists (p : PyStr)
  | isFile (p : PyStr)
  | isDir (p : PyStr)
  | isExe (p : PyStr)
  | isSocket (p : PyStr)
  | mtime (p : PyStr)
  | mkdir (p : PyStr) (ok : Bool)
  | mkfifo (p : PyStr) (ok : Bool)
  | unlink (p : PyStr)
  | rmtree (p : PyStr)
  | lsdir (p : PyStr) (must : Bool)
  deriving DecidableEq

/-- `os.path.join(path, entry)`, `path / entry`. -/
def joinPath (p e : PyStr) : PyStr := if p.getLast? = some '/' then p ++ e else p ++ '/' :: e

/-- A directory entry with its mode and time. -/
structure Entry where
  name : PyStr
  mode : Nat
  ctime : Nat
  deriving DecidableEq

/-- Insert an element before the first one which is not newer. -/
def insertEntry (e : Entry) : List Entry → List Entry
  | [] => [e]
  | x :: l => if x.ctime ≤ e.ctime then e :: x :: l else x :: insertEntry e l

/-- `sorted(entries.values(), key=itemgetter("ctime"), reverse=True)` (elements with the same key keep their order), and
what is yielded. Models: pepclibs/helperlibs/LocalProcessManager.py:394, 395,
pepclibs/helperlibs/SSHProcessManager.py:901-902. -/
def sortEntries (p : PyStr) (l : List Entry) : List (PyStr × PyStr × Nat) :=
  (l.foldr insertEntry []).map fun e => (e.name, joinPath p e.name, e.mode)

variable {σ : Type}

/-! ### The local host -/

/-- `Path(path).exists()`, `is_file()` and so on: some errors mean "no", the others are exceptions.
Models: pepclibs/helperlibs/LocalProcessManager.py:397-449 with the Python library. -/
def pathTest (K : Kernel σ) (s : σ) (p : PyStr) (f : Stat → Bool) : Except Err Bool :=
  match K.stat s p with
  | .ok st => .ok (f st)
  | .error .noent => .ok false
  | .error .notdir => .ok false
  | .error .loop => .ok false
  | .error _ => .error .error

/-- Models: pepclibs/helperlibs/LocalProcessManager.py:429-438 `is_exe()`. -/
def localIsExe (K : Kernel σ) (s : σ) (p : PyStr) : Except Err Bool :=
  match pathTest K s p fun st => decide (st.kind = .file) with
  | .error e => .error e
  | .ok b => .ok (b && K.access s p)

/-- Models: pepclibs/helperlibs/LocalProcessManager.py:451-461 `get_mtime()`. -/
def localMtime (K : Kernel σ) (s : σ) (p : PyStr) : Except Err Nat :=
  match K.stat s p with
  | .ok st => .ok st.mtime
  | .error .noent => .error .notFound
  | .error _ => .error .error

/-- `mkdir()` with `parents=False`: `Path.mkdir()` ignores an error if `exist_ok` and it is a directory.
Models: pepclibs/helperlibs/LocalProcessManager.py:333-347. -/
def localMkdir (K : Kernel σ) (s : σ) (p : PyStr) (ok : Bool) : σ × Except Err Unit :=
  match K.mkdir s p with
  | .ok s' => (s', .ok ())
  | .error .noent => (s, .error .error)
  | .error e =>
    if ok && (match pathTest K s p fun st => decide (st.kind = .dir) with
      | .ok b => b
      | .error _ => false) then (s, .ok ())
    else if e = .exist then (s, if ok then .ok () else .error .exists')
    else (s, .error .error)

/-- Models: pepclibs/helperlibs/LocalProcessManager.py:349-363 `mkfifo()`. -/
def localMkfifo (K : Kernel σ) (s : σ) (p : PyStr) (ok : Bool) : σ × Except Err Unit :=
  match K.mkfifo s p with
  | .ok s' => (s', .ok ())
  | .error .exist => (s, if ok then .ok () else .error .exists')
  | .error _ => (s, .error .error)

/-- Models: pepclibs/helperlibs/LocalProcessManager.py:463-471 `unlink()`. -/
def localUnlink (K : Kernel σ) (s : σ) (p : PyStr) : σ × Except Err Unit :=
  match K.unlink s p with
  | .ok s' => (s', .ok ())
  | .error _ => (s, .error .error)

/-- `shutil.rmtree()`: it refuses symbolic links. -/
def shutilRmtree (K : Kernel σ) (s : σ) (p : PyStr) : Except Errno σ :=
  match K.lstat s p with
  | .error e => .error e
  | .ok st => if st.kind = .link then .error .other else K.tree s p

/-- `rmtree()`; an error is tried four times, with the same result. Models:
pepclibs/helperlibs/LocalProcessManager.py:473-499. -/
def localRmtree (K : Kernel σ) (s : σ) (p : PyStr) : σ × Except Err Unit :=
  match pathTest K s p fun st => decide (st.kind = .dir) with
  | .error e => (s, .error e)
  | .ok b =>
    match if b then shutilRmtree K s p else K.unlink s p with
    | .ok s' => (s', .ok ())
    | .error .noent => (s, .ok ())
    | .error _ => (s, .error .error)

/-- `lstat()` of the entries. Models: pepclibs/helperlibs/LocalProcessManager.py:384-392. -/
def statEntries (K : Kernel σ) (s : σ) (p : PyStr) : List PyStr → Option (List Entry)
  | [] => some []
  | e :: es =>
    match K.lstat s (joinPath p e) with
    | .error _ => none
    | .ok st => (statEntries K s p es).map fun l => ⟨e, st.mode, st.ctime⟩ :: l

/-- Models: pepclibs/helperlibs/LocalProcessManager.py:364-395 `lsdir()`, all of what it yields. Names in a directory are
different. -/
def localLsdir (K : Kernel σ) (s : σ) (p : PyStr) (must : Bool) : Except Err (List (PyStr × PyStr × Nat)) :=
  let list : Except Err (List (PyStr × PyStr × Nat)) :=
    match K.listdir s p with
    | .error _ => .error .error
    | .ok es =>
      match statEntries K s p es with
      | none => .error .error
      | some l => .ok (sortEntries p l)
  if must then list
  else
    match pathTest K s p fun _ => true with
    | .error e => .error e
    | .ok false => .ok []
    | .ok true => list

/-- A call of a method of the local process manager. -/
def localOp (K : Kernel σ) (s : σ) : Op → σ × Except Err Val
  | .pathExists p => (s, (pathTest K s p fun _ => true).map .bool)
  | .isFile p => (s, (pathTest K s p fun st => decide (st.kind = .file)).map .bool)
  | .isDir p => (s, (pathTest K s p fun st => decide (st.kind = .dir)).map .bool)
  | .isExe p => (s, (localIsExe K s p).map .bool)
  | .isSocket p => (s, (pathTest K s p fun st => decide (st.kind = .socket)).map .bool)
  | .mtime p => (s, (localMtime K s p).map .time)
  | .mkdir p ok => let r := localMkdir K s p ok; (r.1, r.2.map fun _ => .unit)
  | .mkfifo p ok => let r := localMkfifo K s p ok; (r.1, r.2.map fun _ => .unit)
  | .unlink p => let r := localUnlink K s p; (r.1, r.2.map fun _ => .unit)
  | .rmtree p => let r := localRmtree K s p; (r.1, r.2.map fun _ => .unit)
  | .lsdir p must => (s, (localLsdir K s p must).map .entries)

/-! ### The shell of the remote host -/

/-- Within quotes or not. -/
inductive Quote where
  | plain
  | single
  | double
  deriving DecidableEq

/-- Characters which mean something to the shell outside of quotes, besides quotes and spaces. -/
def special (c : Char) : Bool :=
  decide (c ∈ ['$', '`', '\\', ';', '&', '|', '<', '>', '(', ')', '*', '?', '[', ']', '#', '~', '{', '}', '\n', '\t', '!'])

/-- The words of a command: `none` if a quote is missing, or for what is not modelled. `cur` is the current word,
reversed. -/
def wordsAux : Quote → Option PyStr → PyStr → Option (List PyStr)
  | .plain, none, [] => some []
  | .plain, some w, [] => some [w.reverse]
  | .single, _, [] => none
  | .double, _, [] => none
  | .plain, cur, c :: s =>
    if c = ' ' then
      match cur with
      | none => wordsAux .plain none s
      | some w => (wordsAux .plain none s).map fun l => w.reverse :: l
    else if c = '\'' then wordsAux .single (some (cur.getD [])) s
    else if c = '"' then wordsAux .double (some (cur.getD [])) s
    else if special c then none
    else wordsAux .plain (some (c :: cur.getD [])) s
  | .single, cur, c :: s =>
    if c = '\'' then wordsAux .plain (some (cur.getD [])) s else wordsAux .single (some (c :: cur.getD [])) s
  | .double, cur, c :: s =>
    if c = '"' then wordsAux .plain (some (cur.getD [])) s
    else if c = '$' ∨ c = '`' ∨ c = '\\' then none
    else wordsAux .double (some (c :: cur.getD [])) s

/-- The words of a command. -/
def words (cmd : PyStr) : Option (List PyStr) := wordsAux .plain none cmd

/-- What a command does and prints: the new state, the output, the error output, and the exit code. -/
structure Out (σ : Type) where
  st : σ
  stdout : PyStr
  stderr : PyStr
  code : Nat

/-- The `test` command. -/
def testCmd (K : Kernel σ) (s : σ) (opt p : PyStr) : Out σ :=
  let b : Bool := match K.stat s p with
    | .error _ => false
    | .ok st =>
      if opt = "-e".toList then true
      else if opt = "-f".toList then decide (st.kind = .file)
      else if opt = "-d".toList then decide (st.kind = .dir)
      else if opt = "-S".toList then decide (st.kind = .socket)
      else if opt = "-x".toList then K.access s p
      else false
  ⟨s, [], [], if b then 0 else 1⟩

/-- A command which changes something, or fails with an error message. -/
def change (s : σ) : Except Errno σ → Out σ
  | .ok s' => ⟨s', [], [], 0⟩
  | .error _ => ⟨s, [], "error\n".toList, 1⟩

/-- `rm -rf --`: missing files are not errors, symbolic links are removed, and not what they point to. -/
def rmCmd (K : Kernel σ) (s : σ) (p : PyStr) : Out σ :=
  match K.lstat s p with
  | .error .noent => ⟨s, [], [], 0⟩
  | .error .notdir => ⟨s, [], [], 0⟩
  | .error _ => ⟨s, [], "error\n".toList, 1⟩
  | .ok st => change s (if st.kind = .dir then K.tree s p else K.unlink s p)

/-- The text before the string in the script of `lsdir()`. Models: pepclibs/helperlibs/SSHProcessManager.py:885, 886. -/
def lsPre : PyStr := "import os\npath = \"".toList

/-- The rest of the script. Models: pepclibs/helperlibs/SSHProcessManager.py:886-889. -/
def lsPost : PyStr :=
  "\nfor entry in os.listdir(path):\n    stinfo = os.lstat(os.path.join(path, entry))\n    print(entry, stinfo.st_mode, stinfo.st_ctime)".toList

/-- The script of `get_mtime()`. Models: pepclibs/helperlibs/SSHProcessManager.py:928. -/
def mtPre : PyStr := "import os; print(os.stat(\"".toList

/-- The rest of the script. -/
def mtPost : PyStr := ").st_mtime)".toList

/-- The text after a prefix. -/
def dropPre : PyStr → PyStr → Option PyStr
  | [], s => some s
  | _ :: _, [] => none
  | a :: p, b :: s => if a = b then dropPre p s else none

/-- A Python string until the closing quote, and what follows; strings with backslashes are not modelled, a string does
not end at another line. -/
def pyString : PyStr → Option (PyStr × PyStr)
  | [] => none
  | c :: s =>
    if c = '"' then some ([], s)
    else if c = '\\' ∨ c = '\n' then none
    else (pyString s).map fun r => (c :: r.1, r.2)

/-- A line of the script: `print(entry, stinfo.st_mode, stinfo.st_ctime)`. -/
def entryLine (e : Entry) : PyStr := e.name ++ ' ' :: (ofNat e.mode ++ ' ' :: (ofNat e.ctime ++ ['\n']))

/-- An uncaught exception. -/
def traceback (s : σ) (name : PyStr) : Out σ := ⟨s, [], name, 1⟩

/-- The name of the Python exception. -/
def excName : Errno → PyStr
  | .noent => "FileNotFoundError".toList
  | .notdir => "NotADirectoryError".toList
  | .acces => "PermissionError".toList
  | .exist => "FileExistsError".toList
  | .isdir => "IsADirectoryError".toList
  | _ => "OSError".toList

/-- `python -c script`. -/
def pyCmd (K : Kernel σ) (s : σ) (script : PyStr) : Out σ :=
  match dropPre lsPre script, dropPre mtPre script with
  | some rest, _ =>
    match pyString rest with
    | none => traceback s "SyntaxError".toList
    | some (p, post) =>
      if post ≠ lsPost then traceback s "SyntaxError".toList
      else
        match K.listdir s p with
        | .error e => traceback s (excName e)
        | .ok es =>
          match statEntries K s p es with
          | none => traceback s "OSError".toList
          | some l => ⟨s, l.flatMap entryLine, [], 0⟩
  | none, some rest =>
    match pyString rest with
    | none => traceback s "SyntaxError".toList
    | some (p, post) =>
      if post ≠ mtPost then traceback s "SyntaxError".toList
      else
        match K.stat s p with
        | .error e => traceback s (excName e)
        | .ok st => ⟨s, ofNat st.mtime ++ ['\n'], [], 0⟩
  | none, none => traceback s "SyntaxError".toList

/-- The paths of the Python interpreter which are tried. Models: pepclibs/helperlibs/_ProcessManagerBase.py:722. -/
def pythons : List PyStr :=
  ["/usr/bin/python".toList, "/usr/bin/python3".toList, "python".toList, "python3".toList]

/-- The remote host: the kernel and the Python interpreters which are installed. -/
structure Host (σ : Type) where
  K : Kernel σ
  has : PyStr → Bool

/-- A program with arguments. -/
def execWords (H : Host σ) (s : σ) (ws : List PyStr) : Out σ :=
  match ws with
  | [c, o, p] =>
    if c = "test".toList then testCmd H.K s o p
    else if c = "mkdir".toList ∧ o = "--".toList then change s (H.K.mkdir s p)
    else if c = "mkfifo".toList ∧ o = "--".toList then change s (H.K.mkfifo s p)
    else if c = "unlink".toList ∧ o = "--".toList then change s (H.K.unlink s p)
    else if c ∈ pythons ∧ H.has c = true ∧ o = "-c".toList then pyCmd H.K s p
    else ⟨s, [], "not found\n".toList, 127⟩
  | [c, o, d, p] =>
    if c = "rm".toList ∧ o = "-rf".toList ∧ d = "--".toList then rmCmd H.K s p
    else ⟨s, [], "not found\n".toList, 127⟩
  | [c, o] =>
    if c ∈ pythons ∧ H.has c = true ∧ o = "--version".toList then ⟨s, "Python 3\n".toList, [], 0⟩
    else ⟨s, [], "not found\n".toList, 127⟩
  | _ => ⟨s, [], "not found\n".toList, 127⟩

/-- A command, which may be `sh -c 'another command'`. -/
def exec (H : Host σ) (s : σ) (cmd : PyStr) : Out σ :=
  match words cmd with
  | none => ⟨s, [], "syntax error\n".toList, 2⟩
  | some ws =>
    if ws.take 2 = ["sh".toList, "-c".toList] ∧ ws.length = 3 then
      match words (ws.getD 2 []) with
      | none => ⟨s, [], "syntax error\n".toList, 2⟩
      | some ws => execWords H s ws
    else execWords H s ws

/-! ### The process manager of the remote host -/

/-- Models: pepclibs/helperlibs/_ProcessManagerBase.py:736-756 `shell_test()`; the second command is for hosts where
`test` is not found. -/
def shellTest (H : Host σ) (s : σ) (p : PyStr) (opt : String) : Except Err Bool :=
  let r := exec H s ("sh -c 'test ".toList ++ (opt.toList ++ (" \"".toList ++ (p ++ "\"'".toList))))
  if r.stdout ≠ [] ∨ r.stderr ≠ [] ∨ ¬ (r.code = 0 ∨ r.code = 1) then .error .error else .ok (decide (r.code = 0))

/-- `run_verify()` for a command whose output is not used. Models: pepclibs/helperlibs/SSHProcessManager.py:629-643. -/
def runVerify (H : Host σ) (s : σ) (cmd : PyStr) : σ × Except Err Unit :=
  let r := exec H s cmd
  (r.st, if r.code ≠ 0 then .error .error else .ok ())

/-- Models: pepclibs/helperlibs/_ProcessManagerBase.py:712-734 `get_python_path()`, where the result is remembered; the
host stays the same. -/
def pythonPath (H : Host σ) (s : σ) : Except Err PyStr :=
  match pythons.find? fun p => decide ((exec H s (p ++ " --version".toList)).code = 0) with
  | some p => .ok p
  | none => .error .notFound

/-- The word is a part of the text: `w in s`. -/
def hasSub (w : PyStr) : PyStr → Bool
  | [] => w.isEmpty
  | c :: s => w.isPrefixOf (c :: s) || hasSub w s

/-- `int(s)` and `float(s)` for digits. -/
def number (s : PyStr) : Option Nat := Trivial.parseDigits 10 0 false s

/-- The command of `get_mtime()`. Models: pepclibs/helperlibs/SSHProcessManager.py:928. -/
def mtimeCmd (py p : PyStr) : PyStr := py ++ (" -c '".toList ++ (mtPre ++ (p ++ ('"' :: (mtPost ++ ['\'']))))) 

/-- Models: pepclibs/helperlibs/SSHProcessManager.py:924-939 `get_mtime()`. The message has the command and the error
output. -/
def remoteMtime (H : Host σ) (s : σ) (p : PyStr) : Except Err Nat :=
  match pythonPath H s with
  | .error e => .error e
  | .ok py =>
    let r := exec H s (mtimeCmd py p)
    if r.code ≠ 0 then
      if hasSub "FileNotFoundError".toList (mtimeCmd py p) || hasSub "FileNotFoundError".toList r.stderr then
        .error .notFound
      else .error .error
    else
      match number (strip r.stdout) with
      | none => .error .error
      | some n => .ok n

/-- `mkdir()` (with `parents=False`) and `mkfifo()`. Models: pepclibs/helperlibs/SSHProcessManager.py:826-863. -/
def remoteCreate (H : Host σ) (s : σ) (cmd : String) (p : PyStr) (ok : Bool) : σ × Except Err Unit :=
  match shellTest H s p "-e" with
  | .error e => (s, .error e)
  | .ok true => (s, if ok then .ok () else .error .exists')
  | .ok false => runVerify H s (cmd.toList ++ (" -- '".toList ++ (p ++ ['\''])))

/-- Models: pepclibs/helperlibs/SSHProcessManager.py:941-944 `unlink()`. -/
def remoteUnlink (H : Host σ) (s : σ) (p : PyStr) : σ × Except Err Unit :=
  runVerify H s ("unlink -- '".toList ++ (p ++ ['\'']))

/-- Models: pepclibs/helperlibs/SSHProcessManager.py:946-952 `rmtree()`. -/
def remoteRmtree (H : Host σ) (s : σ) (p : PyStr) : σ × Except Err Unit :=
  runVerify H s ("rm -rf -- '".toList ++ (p ++ ['\'']))

/-- A line of the output. Models: pepclibs/helperlibs/SSHProcessManager.py:894-899. -/
def parseLine (line : PyStr) : Option Entry :=
  match Trivial.splitCsvLine (strip line) ' ' false with
  | [e, m, t] =>
    match number m, number t with
    | some m, some t => some ⟨e, m, t⟩
    | _, _ => none
  | _ => none

/-- All the lines. -/
def parseLines : List PyStr → Option (List Entry)
  | [] => some []
  | l :: ls =>
    match parseLine l with
    | none => none
    | some e => (parseLines ls).map fun es => e :: es

/-- Models: pepclibs/helperlibs/SSHProcessManager.py:865-902 `lsdir()`. Names in a directory are different. -/
def remoteLsdir (H : Host σ) (s : σ) (p : PyStr) (must : Bool) : Except Err (List (PyStr × PyStr × Nat)) :=
  let list : Except Err (List (PyStr × PyStr × Nat)) :=
    match pythonPath H s with
    | .error e => .error e
    | .ok py =>
      let r := exec H s (py ++ (" -c '".toList ++ (lsPre ++ (p ++ ('"' :: (lsPost ++ ['\'']))))))
      if r.code ≠ 0 then .error .error
      else
        match parseLines (MSR.splitLines r.stdout) with
        | none => .error .error
        | some l => .ok (sortEntries p l)
  if must then list
  else
    match shellTest H s p "-e" with
    | .error e => .error e
    | .ok false => .ok []
    | .ok true => list

/-- A call of a method of the process manager of a remote host. Models also:
pepclibs/helperlibs/SSHProcessManager.py:904-922. -/
def remoteOp (H : Host σ) (s : σ) : Op → σ × Except Err Val
  | .pathExists p => (s, (shellTest H s p "-e").map .bool)
  | .isFile p => (s, (shellTest H s p "-f").map .bool)
  | .isDir p => (s, (shellTest H s p "-d").map .bool)
  | .isExe p => (s, (shellTest H s p "-x").map .bool)
  | .isSocket p => (s, (shellTest H s p "-S").map .bool)
  | .mtime p => (s, (remoteMtime H s p).map .time)
  | .mkdir p ok => let r := remoteCreate H s "mkdir" p ok; (r.1, r.2.map fun _ => .unit)
  | .mkfifo p ok => let r := remoteCreate H s "mkfifo" p ok; (r.1, r.2.map fun _ => .unit)
  | .unlink p => let r := remoteUnlink H s p; (r.1, r.2.map fun _ => .unit)
  | .rmtree p => let r := remoteRmtree H s p; (r.1, r.2.map fun _ => .unit)
  | .lsdir p must => (s, (remoteLsdir H s p must).map .entries)

/-- A sequence of calls: the state afterwards, and what they return. -/
def runOps (f : σ → Op → σ × Except Err Val) : σ → List Op → σ × List (Except Err Val)
  | s, [] => (s, [])
  | s, op :: ops =>
    let r := f s op
    let q := runOps f r.1 ops
    (q.1, r.2 :: q.2)

end Verif.FileOps
