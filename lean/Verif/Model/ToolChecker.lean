import Verif.Lib.Exn
import Verif.Lib.PyStr
import Verif.Lib.Dict
import Verif.Model.FreqInfo

/-!
Model of what is suggested to the user when a program is not installed. Sources: pepclibs/helperlibs/ToolChecker.py,
pepclibs/helperlibs/_ProcessManagerBase.py.

Simplifications: upper and lower case are those of ASCII letters; debug messages are dropped, the warnings are the lines
they are about; which program paths exist is a function of the name (`which()` does not fail).
-/

namespace Verif.ToolChecker

/-- What the process manager tells: the lines of a file which are read before the end, or before the exception;
`which()`; and the text which messages have about the host. -/
structure Host where
  read : PyStr → List PyStr × Option Exn
  which : PyStr → Option PyStr
  hostmsg : PyStr

/-- `isinstance(err, Error)`. -/
def isError : Exn → Bool
  | .pyKeyError | .pyValueError | .pyIndexError | .pyTypeError | .pyOverflowError | .pyUnboundLocal
  | .pyAttributeError => false
  | _ => true

/-- The common table. Models: pepclibs/helperlibs/ToolChecker.py:27-46. -/
def commonPkgs : Dict PyStr PyStr :=
  [("cat".toList, "coreutils".toList), ("cc".toList, "gcc".toList), ("clang".toList, "clang".toList),
    ("find".toList, "findutils".toList), ("depmod".toList, "kmod".toList), ("dmesg".toList, "util-linux".toList),
    ("gcc".toList, "gcc".toList), ("libelf".toList, "elfutils-libelf-devel".toList),
    ("lscpu".toList, "util-linux".toList), ("lspci".toList, "pciutils".toList), ("make".toList, "make".toList),
    ("modprobe".toList, "kmod".toList), ("phc2sys".toList, "linuxptp".toList), ("rmmod".toList, "kmod".toList),
    ("rsync".toList, "rsync".toList), ("sync".toList, "coreutils".toList), ("systemctl".toList, "systemd".toList),
    ("xargs".toList, "findutils".toList)]

/-- Models: pepclibs/helperlibs/ToolChecker.py:49-54. -/
def fedoraOwn : Dict PyStr PyStr :=
  [("tc".toList, "iproute-tc".toList), ("bpftool".toList, "bpftool".toList), ("libbpf".toList, "libbpf-devel".toList),
    ("sch_etf.ko".toList, "kernel-modules-extra".toList)]

/-- Models: pepclibs/helperlibs/ToolChecker.py:57-62. -/
def ubuntuOwn : Dict PyStr PyStr :=
  [("tc".toList, "iproute2".toList), ("bpftool".toList, "linux-tools-common".toList),
    ("libbpf".toList, "libbpf-dev".toList), ("sch_etf.ko".toList, "linux-modules".toList)]

/-- Models: pepclibs/helperlibs/ToolChecker.py:65-70. -/
def debianOwn : Dict PyStr PyStr :=
  [("tc".toList, "iproute2".toList), ("bpftool".toList, "bpftool".toList), ("libbpf".toList, "libbpf-dev".toList),
    ("sch_etf.ko".toList, "linux-modules".toList)]

/-- `dict.update()`. Models: pepclibs/helperlibs/ToolChecker.py:72-74. -/
def update (d e : Dict PyStr PyStr) : Dict PyStr PyStr := e.foldl (fun d p => d.set p.1 p.2) d

/-- `_PKGINFO`. Models: pepclibs/helperlibs/ToolChecker.py:72-82. -/
def pkgInfo : Dict PyStr (Dict PyStr PyStr) :=
  [("fedora".toList, update fedoraOwn commonPkgs), ("centos".toList, update fedoraOwn commonPkgs),
    ("rhel".toList, update fedoraOwn commonPkgs), ("ubuntu".toList, update ubuntuOwn commonPkgs),
    ("debian".toList, update debianOwn commonPkgs)]

/-- The loop over the lines of a file; the second component is the lines warned about.
Models: pepclibs/helperlibs/ToolChecker.py:102-115. -/
def parseLines : List PyStr → Dict PyStr PyStr → Dict PyStr PyStr × List PyStr
  | [], d => (d, [])
  | line :: lines, d =>
    let line := PyStr.strip line
    if line = [] then parseLines lines d
    else if line.head? = some '#' then parseLines lines d
    else
      match PyStr.splitC '=' line with
      | [k, v] => parseLines lines (d.set k (PyStr.stripBy (· == '"') v))
      | _ => ((parseLines lines d).1, line :: (parseLines lines d).2)

/-- The loop over the files. Models: pepclibs/helperlibs/ToolChecker.py:99-117. -/
def fileLoop (h : Host) : List PyStr → Dict PyStr PyStr → Except Exn (Dict PyStr PyStr)
  | [], d => .ok d
  | path :: paths, d =>
    let (d, _) := parseLines (h.read path).1 d
    match (h.read path).2 with
    | some e =>
      if isError e then (if d ≠ [] then .ok d else fileLoop h paths d) else .error e
    | none => if d ≠ [] then .ok d else fileLoop h paths d

/-- `_read_os_release()`. Models: pepclibs/helperlibs/ToolChecker.py:90-124. -/
def readOsRelease (h : Host) : Except Exn (Dict PyStr PyStr) :=
  match fileLoop h ["/usr/lib/os-release".toList, "/etc/os-release".toList] [] with
  | .error e => .error e
  | .ok [] => .error .notFound
  | .ok d => .ok d

/-- `_get_osinfo()`; `o` is `self._osinfo`. Models: pepclibs/helperlibs/ToolChecker.py:126-131. -/
def getOsinfo (h : Host) (o : Dict PyStr PyStr) : Dict PyStr PyStr × Except Exn (Dict PyStr PyStr) :=
  if o = [] then
    match readOsRelease h with
    | .error e => (o, .error e)
    | .ok d => (d, .ok d)
  else (o, .ok o)

/-- `str.capitalize()`. -/
def capitalize : PyStr → PyStr
  | [] => []
  | c :: s => c.toUpper :: s.map Char.toLower

/-- `get_osname()`. Models: pepclibs/helperlibs/ToolChecker.py:133-149. -/
def getOsname (h : Host) (o : Dict PyStr PyStr) : Dict PyStr PyStr × Except Exn PyStr :=
  match getOsinfo h o with
  | (o, .error e) => (o, if e = .notFound then .ok "<unknown_OS_NAME>".toList else .error e)
  | (o, .ok d) =>
    (o, .ok (match d.get? "NAME".toList with
      | some n => n
      | none =>
        match d.get? "ID".toList with
        | some i => capitalize i
        | none => "<unknown_OS_NAME>".toList))

/-- `get_osid()`. Models: pepclibs/helperlibs/ToolChecker.py:151-166. -/
def getOsid (h : Host) (o : Dict PyStr PyStr) : Dict PyStr PyStr × Except Exn PyStr :=
  match getOsinfo h o with
  | (o, .error e) => (o, if e = .notFound then .ok "<unknown_OS_ID>".toList else .error e)
  | (o, .ok d) =>
    (o, .ok (match d.get? "ID".toList with
      | some i => i
      | none => "<unknown_OS_ID>".toList))

/-- The lookup of `tool_to_pkg()`. Models: pepclibs/helperlibs/ToolChecker.py:181-184. -/
def lookup (osid tool : PyStr) : Option PyStr :=
  match pkgInfo.get? osid with
  | none => none
  | some t => t.get? tool

/-- `tool_to_pkg()`. Models: pepclibs/helperlibs/ToolChecker.py:168-184. -/
def toolToPkg (h : Host) (o : Dict PyStr PyStr) (tool : PyStr) (osid : Option PyStr) :
    Dict PyStr PyStr × Except Exn (Option PyStr) :=
  match osid with
  | some (c :: s) => (o, .ok (lookup (c :: s) tool))
  | _ =>
    match getOsid h o with
    | (o, .error e) => (o, .error e)
    | (o, .ok id) => (o, .ok (lookup id tool))

/-- The last component of a path: `text.split("/")[-1]`. -/
def lastPart (s : PyStr) : PyStr := ((PyStr.splitC '/' s).getLast?).getD []

/-- What `check_tool()` ends with: the path of the tool, or `ErrorNotFound` with the OS name and the package of the
suggestion, or another exception. -/
inductive Check where
  | path (p : PyStr)
  | missing (suggestion : Option (PyStr × PyStr))
  | fails (e : Exn)
  deriving DecidableEq

/-- `check_tool()`. `tool is self._cache` is never true: the name is not the cache. `Path(tool).name` is the last
component (for a name which does not end with a slash or with '/.'). Models: pepclibs/helperlibs/ToolChecker.py:186-210. -/
def checkTool (h : Host) (o : Dict PyStr PyStr) (tool : PyStr) : Dict PyStr PyStr × Check :=
  match h.which tool with
  | some (c :: p) => (o, .path (c :: p))
  | _ =>
    match getOsid h o with
    | (o, .error e) => (o, .fails e)
    | (o, .ok osid) =>
      match toolToPkg h o (lastPart tool) (some osid) with
      | (o, .error e) => (o, .fails e)
      | (o, .ok none) => (o, .missing none)
      | (o, .ok (some [])) => (o, .missing none)
      | (o, .ok (some (c :: pkg))) =>
        match getOsname h o with
        | (o, .error e) => (o, .fails e)
        | (o, .ok name) => (o, .missing (some (name, c :: pkg)))

/-- Every new line is followed by the prefix. -/
def prefixLines : PyStr → PyStr
  | [] => []
  | c :: s => if c = '\n' then c :: ' ' :: ' ' :: prefixLines s else c :: prefixLines s

/-- `re.sub(r"^(\s*)(\S)", …)`: the first character which is not white space is capitalised. -/
def capFirst : PyStr → PyStr
  | [] => []
  | c :: s => if PyStr.isSpace c then c :: capFirst s else c.toUpper :: s

/-- `Error(msg).indent(2)`. Models: pepclibs/helperlibs/Exceptions.py:43-80. -/
def indent2 (msg : PyStr) : PyStr := capFirst (' ' :: ' ' :: prefixLines msg)

/-- The package name of the suggestion; all exceptions are caught.
Models: pepclibs/helperlibs/_ProcessManagerBase.py:607, 612-617. -/
def suggestPkg (h : Host) (tool : PyStr) : Option PyStr :=
  match (toolToPkg h [] tool none).2 with
  | .error _ => none
  | .ok p => p

/-- What should be installed. Models: pepclibs/helperlibs/_ProcessManagerBase.py:619-622. -/
def whatText (pkg : Option PyStr) (tool : PyStr) : PyStr :=
  match pkg with
  | some (c :: pkg) => "'".toList ++ (c :: pkg) ++ "' OS package".toList
  | _ => "'".toList ++ tool ++ "' program".toList

/-- The lines about the error. Models: pepclibs/helperlibs/_ProcessManagerBase.py:625-628. -/
def errText (errmsg : Option PyStr) : PyStr :=
  match errmsg with
  | some (c :: m) => "The error is:\n".toList ++ indent2 (c :: m) ++ "\n".toList
  | _ => "Command not found\n".toList

/-- `_command_not_found()`: the message of the `ErrorNotFound` it returns, or the exception it raises.
Models: pepclibs/helperlibs/_ProcessManagerBase.py:600-633. -/
def commandNotFound (h : Host) (cmd : PyStr) (errmsg toolname : Option PyStr) : Except Exn PyStr :=
  let name : Except Exn PyStr :=
    match toolname with
    | some (c :: t) => .ok (c :: t)
    | _ =>
      match FreqInfo.splitWs cmd with
      | [] => .error .pyIndexError
      | w :: _ => .ok (lastPart w)
  match name with
  | .error e => .error e
  | .ok tool =>
    .ok ("cannot execute the following command".toList ++ h.hostmsg ++ ":\n  ".toList ++ cmd ++ "\n".toList ++
      errText errmsg ++ "Try to install the ".toList ++ whatText (suggestPkg h tool) tool ++ h.hostmsg)

end Verif.ToolChecker
