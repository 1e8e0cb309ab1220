import Verif.Model.ToolChecker

/-!
Specification for the suggestions about programs which are not installed: what an os-release file says, and which
package has a program.
-/

namespace Verif.ToolChecker.Spec

/-- What a line of an os-release file is about. -/
inductive Entry where
  | blank
  | comment (text : PyStr)
  | plain (key value : PyStr)
  | quoted (key value : PyStr)

/-- A line, with the white space around (which includes the end of the line). -/
structure Line where
  pre : PyStr
  entry : Entry
  post : PyStr

/-- The text of an entry. -/
def Entry.text : Entry → PyStr
  | .blank => []
  | .comment t => '#' :: t
  | .plain k v => k ++ '=' :: v
  | .quoted k v => k ++ '=' :: '"' :: (v ++ ['"'])

/-- The text of a line. -/
def Line.text (l : Line) : PyStr := l.pre ++ l.entry.text ++ l.post

/-- White space only. -/
def Blank (s : PyStr) : Prop := ∀ c ∈ s, PyStr.isSpace c = true

/-- A name: not empty, no white space, no '=' and no '#'. -/
def Key (k : PyStr) : Prop := k ≠ [] ∧ ∀ c ∈ k, PyStr.isSpace c = false ∧ c ≠ '=' ∧ c ≠ '#'

/-- A value: no '=' and no double quote. -/
def Value (v : PyStr) : Prop := ∀ c ∈ v, c ≠ '=' ∧ c ≠ '"'

/-- The entries which the files of the distributions have. A value which is not quoted has no white space. -/
def Entry.Good : Entry → Prop
  | .blank => True
  | .comment _ => True
  | .plain k v => Key k ∧ Value v ∧ ∀ c ∈ v, PyStr.isSpace c = false
  | .quoted k v => Key k ∧ Value v

/-- The lines which the files of the distributions have. -/
def Line.Good (l : Line) : Prop := Blank l.pre ∧ Blank l.post ∧ l.entry.Good

/-- The value which a line gives to a name. -/
def Line.gives (key : PyStr) (l : Line) : Option PyStr :=
  match l.entry with
  | .plain k v => if k = key then some v else none
  | .quoted k v => if k = key then some v else none
  | _ => none

/-- The value of a name: the last one given. -/
def valueOf (key : PyStr) (ls : List Line) : Option PyStr := ls.reverse.findSome? (Line.gives key)

/-- Some name has a value. -/
def Says (ls : List Line) : Prop := ∃ key v, valueOf key ls = some v

/-- The programs, and their packages on Fedora (also CentOS and RHEL), Ubuntu and Debian. -/
def table : List (String × String × String × String) :=
  [("bpftool", "bpftool", "linux-tools-common", "bpftool"), ("cat", "coreutils", "coreutils", "coreutils"),
    ("cc", "gcc", "gcc", "gcc"), ("clang", "clang", "clang", "clang"), ("depmod", "kmod", "kmod", "kmod"),
    ("dmesg", "util-linux", "util-linux", "util-linux"), ("find", "findutils", "findutils", "findutils"),
    ("gcc", "gcc", "gcc", "gcc"), ("libbpf", "libbpf-devel", "libbpf-dev", "libbpf-dev"),
    ("libelf", "elfutils-libelf-devel", "elfutils-libelf-devel", "elfutils-libelf-devel"),
    ("lscpu", "util-linux", "util-linux", "util-linux"), ("lspci", "pciutils", "pciutils", "pciutils"),
    ("make", "make", "make", "make"), ("modprobe", "kmod", "kmod", "kmod"),
    ("phc2sys", "linuxptp", "linuxptp", "linuxptp"), ("rmmod", "kmod", "kmod", "kmod"),
    ("rsync", "rsync", "rsync", "rsync"), ("sch_etf.ko", "kernel-modules-extra", "linux-modules", "linux-modules"),
    ("sync", "coreutils", "coreutils", "coreutils"), ("systemctl", "systemd", "systemd", "systemd"),
    ("tc", "iproute-tc", "iproute2", "iproute2"), ("xargs", "findutils", "findutils", "findutils")]

/-- The column of an operating system. -/
def column (os : PyStr) : Option (String × String × String → String) :=
  if os = "fedora".toList ∨ os = "centos".toList ∨ os = "rhel".toList then some (·.1)
  else if os = "ubuntu".toList then some (·.2.1)
  else if os = "debian".toList then some (·.2.2)
  else none

/-- The package of a program on an operating system. -/
def package (os tool : PyStr) : Option PyStr :=
  match column os, table.find? (fun row => decide (row.1.toList = tool)) with
  | some col, some row => some (col row.2).toList
  | _, _ => none

/-- What is suggested. -/
def suggestion (os : Option PyStr) (tool : PyStr) : PyStr :=
  match os.bind (package · tool) with
  | some pkg => "'".toList ++ pkg ++ "' OS package".toList
  | none => "'".toList ++ tool ++ "' program".toList

/-- The file has the lines, and is read without an exception. -/
def File (h : Host) (path : String) (ls : List Line) : Prop :=
  h.read path.toList = (ls.map Line.text, none) ∧ ∀ l ∈ ls, l.Good

/-- There is no such file, or it cannot be opened: `Error` or a class derived from it. -/
def NoFile (h : Host) (path : String) : Prop :=
  ∃ e, h.read path.toList = ([], some e) ∧
    e ∈ [Exn.error, .notFound, .notSupported, .permissionDenied, .badFormat, .verifyFailed]

/-- The file says nothing. -/
def Silent (h : Host) (path : String) : Prop :=
  NoFile h path ∨ ∃ ls, File h path ls ∧ ¬ Says ls

/-- The host has the OS information: that of /usr/lib/os-release, or, if there is none, that of /etc/os-release. -/
def Os (h : Host) (ls : List Line) : Prop :=
  (File h "/usr/lib/os-release" ls ∧ Says ls) ∨
    (Silent h "/usr/lib/os-release" ∧ File h "/etc/os-release" ls ∧ Says ls)

/-- The host has no OS information. -/
def NoOs (h : Host) : Prop := Silent h "/usr/lib/os-release" ∧ Silent h "/etc/os-release"

/-- The first letter is upper case, the others are lower case. -/
def title (s : PyStr) : PyStr := (s.take 1).map Char.toUpper ++ (s.drop 1).map Char.toLower

/-- The name of the OS. -/
def nameOf (ls : List Line) : PyStr :=
  (valueOf "NAME".toList ls).getD (((valueOf "ID".toList ls).map title).getD "<unknown_OS_NAME>".toList)

/-- The message of the exception. `error` is the lines after the command. -/
def message (host cmd error what : PyStr) : PyStr :=
  "cannot execute the following command".toList ++ host ++ ":\n  ".toList ++ cmd ++ "\n".toList ++ error ++
    "\nTry to install the ".toList ++ what ++ host

/-- The lines of a text with two spaces before. -/
def indented (t : PyStr) : PyStr := PyStr.joinC '\n' ((PyStr.splitC '\n' t).map ("  ".toList ++ ·))

/-- A command: white space, the path of the program, and the rest. -/
structure Command where
  pre : PyStr
  dir : PyStr
  tool : PyStr
  rest : PyStr

/-- The text of a command. -/
def Command.text (c : Command) : PyStr := c.pre ++ (c.dir ++ c.tool) ++ c.rest

/-- The directory is empty or ends with a slash, the name has no slash, and the path has no white space. -/
def Command.Good (c : Command) : Prop :=
  Blank c.pre ∧ (c.dir = [] ∨ c.dir.getLast? = some '/') ∧ '/' ∉ c.tool ∧ c.tool ≠ [] ∧
    (∀ x ∈ c.dir ++ c.tool, PyStr.isSpace x = false) ∧ ∀ x, c.rest.head? = some x → PyStr.isSpace x = true

/-- The calls of the object. -/
inductive Op where
  | osname
  | osid
  | pkg (tool : PyStr) (osid : Option PyStr)
  | check (tool : PyStr)

/-- What a call ends with. -/
inductive Res where
  | text (r : Except Exn PyStr)
  | pkg (r : Except Exn (Option PyStr))
  | check (r : Check)

/-- One call. -/
def step (h : Host) (o : Dict PyStr PyStr) : Op → Dict PyStr PyStr × Res
  | .osname => ((getOsname h o).1, .text (getOsname h o).2)
  | .osid => ((getOsid h o).1, .text (getOsid h o).2)
  | .pkg tool osid => ((toolToPkg h o tool osid).1, .pkg (toolToPkg h o tool osid).2)
  | .check tool => ((checkTool h o tool).1, .check (checkTool h o tool).2)

/-- The results of the calls, one after another. -/
def run (h : Host) : Dict PyStr PyStr → List Op → List Res
  | _, [] => []
  | o, op :: ops => (step h o op).2 :: run h (step h o op).1 ops

end Verif.ToolChecker.Spec
