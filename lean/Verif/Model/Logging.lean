import Verif.Lib.Dict
import Verif.Lib.PyStr

/-!
Model of the messages of the tool: levels, prefixes, colors, streams, log files, and the exit status.
Sources: pepclibs/helperlibs/Logging.py, pepctool/_Pepc.py.

Simplifications: there is one logger; the loggers of modules are its children, which have no level and no handlers, so that
their messages are handled by it. A message is a string, already formatted with its arguments. Prefixes have no percent
signs. Initial contents of log files is left out. Streams and files can be written.
-/

namespace Verif.Logging

/-- Log levels. Models: pepclibs/helperlibs/Logging.py:33-39. -/
def DEBUG : Nat := 10
def INFO : Nat := 20
def NOTICE : Nat := 21
def WARNING : Nat := 30
def ERROR : Nat := 40
def ERRINFO : Nat := 41
def CRITICAL : Nat := 50

/-- A log record: the level, the message, and what debugging messages begin with. -/
structure Record where
  level : Nat
  msg : PyStr
  created : PyStr := []
  time : PyStr := []
  modName : PyStr := []
  line : PyStr := []
  deriving DecidableEq

/-- A piece of a format string. -/
inductive Piece where
  | lit (s : PyStr)
  | field (f : Record → PyStr)

/-- `fmt % values`. -/
def render (fmt : List Piece) (r : Record) : PyStr :=
  fmt.flatMap fun
    | .lit s => s
    | .field f => f r

/-- `s.replace(c, new)` in a format string; names of fields do not have brackets. -/
def replaceC (c : Char) (new : PyStr) : Piece → Piece
  | .lit s => .lit (s.flatMap fun x => if x = c then new else [x])
  | .field f => .field f

/-- Escape sequences of `colorama`. -/
def esc (s : String) : PyStr := Char.ofNat 27 :: '[' :: (s.toList ++ ['m'])

/-- `colorama.Style.RESET_ALL`. -/
def reset : PyStr := esc "0"

/-- Models: pepclibs/helperlibs/Logging.py:230-237 `_init_colors()`. -/
def initColors (d : Dict Nat PyStr) : Dict Nat PyStr :=
  ((((d.set DEBUG (esc "32")).set WARNING (esc "33" ++ esc "1")).set NOTICE (esc "36" ++ esc "1")).set CRITICAL
    (esc "31" ++ esc "1")).set ERROR (esc "31" ++ esc "1")

/-- `s.title()`. -/
def titleAux : Bool → PyStr → PyStr
  | _, [] => []
  | up, c :: s =>
    (if up ∧ 97 ≤ c.toNat ∧ c.toNat ≤ 122 then Char.ofNat (c.toNat - 32) else c) ::
      titleAux (decide (¬ (97 ≤ c.toNat ∧ c.toNat ≤ 122))) s

/-- `_MyFormatter`: the colors and the format of every level. -/
structure Formatter where
  colors : Dict Nat PyStr
  fmts : Dict Nat (List Piece)

/-- Models: pepclibs/helperlibs/Logging.py:92-102 `_start()`. -/
def start (colors : Dict Nat PyStr) (lvl : Nat) : PyStr := (colors.get? lvl).getD []

/-- Models: pepclibs/helperlibs/Logging.py:104-117 `_end()`. -/
def stop (colors : Dict Nat PyStr) (lvl : Nat) : PyStr := if (colors.get? lvl).isSome then reset else []

/-- Models: pepclibs/helperlibs/Logging.py:45 `_DEFAULT_DBG_PREFIX` with ": %(message)s". -/
def debugFmt : List Piece :=
  [.lit ['['], .field Record.created, .lit "] [".toList, .field Record.time, .lit "] [".toList, .field Record.modName,
   .lit [','], .field Record.line, .lit "]: ".toList, .field Record.msg]

/-- The format of a message with a prefix. Models: pepclibs/helperlibs/Logging.py:126-130. -/
def prefixFmt (colors : Dict Nat PyStr) (pre : PyStr) (lvl : Nat) (name : PyStr) : List Piece :=
  [.lit (start colors lvl ++ (pre ++ ((if pre = [] then titleAux true name else name) ++ (stop colors lvl ++ ": ".toList)))),
   .field Record.msg]

/-- Models: pepclibs/helperlibs/Logging.py:82-148 `set_prefix()`. -/
def Formatter.setPrefix (f : Formatter) (pre : PyStr) : Formatter :=
  let p := if pre = [] then [] else pre ++ ": ".toList
  let d := f.fmts.set WARNING (prefixFmt f.colors p WARNING "warning".toList)
  let d := d.set ERROR (prefixFmt f.colors p ERROR "error".toList)
  let d := d.set CRITICAL (prefixFmt f.colors p CRITICAL "critical error".toList)
  let d := d.set NOTICE (prefixFmt f.colors p NOTICE "notice".toList)
  let d := d.set DEBUG ((debugFmt.map (replaceC '[' ('[' :: start f.colors DEBUG))).map
    (replaceC ']' (stop f.colors DEBUG ++ [']'])))
  { f with fmts := (d.set INFO [.field Record.msg]).set ERRINFO [.field Record.msg] }

/-- Models: pepclibs/helperlibs/Logging.py:53-80 `_MyFormatter.__init__()`. -/
def mkFormatter (pre : PyStr) (colors : Dict Nat PyStr) : Formatter := Formatter.setPrefix ⟨colors, []⟩ pre

/-- Where messages go. -/
inductive Dest where
  | stdout
  | stderr
  | file (path : PyStr)
  deriving DecidableEq

/-- A handler: where it writes, the levels it lets go, the number of its formatter. -/
structure Handler where
  dest : Dest
  letGo : List Nat
  fmt : Nat

/-- The logger. -/
structure Logger where
  pre : PyStr := []
  level : Nat := 0
  colored : Bool := true
  colors : Dict Nat PyStr := []
  seen : List PyStr := []
  formatters : List Formatter := []
  handlers : List Handler := []

/-- The log level. Models: pepclibs/helperlibs/Logging.py:268-275. -/
def pickLevel (argv : List PyStr) : Option Nat → Nat
  | some (n + 1) => n + 1
  | _ => if "-q".toList ∈ argv then WARNING else if "-d".toList ∈ argv then DEBUG else INFO

/-- Are messages colored? `have` is whether `colorama` is installed, `tty` whether both streams are terminals.
Models: pepclibs/helperlibs/Logging.py:279-288. -/
def pickColored (argv : List PyStr) (have' tty : Bool) (colored : Option Bool) : Bool :=
  if have' then
    match colored with
    | some c => c
    | none => if "--force-color".toList ∈ argv then true else tty
  else false

/-- Models: pepclibs/helperlibs/Logging.py:239-310 `configure()`. -/
def configure (argv : List PyStr) (have' tty : Bool) (pre : PyStr) (level : Option Nat) (colored : Option Bool)
    (lg : Logger) : Logger :=
  let c := pickColored argv have' tty colored
  let colors := if c then initColors lg.colors else lg.colors
  { lg with
    pre := pre, level := pickLevel argv level, colored := c, colors := colors,
    formatters := [mkFormatter pre colors],
    handlers := [⟨.stdout, [INFO], 0⟩, ⟨.stderr, [DEBUG, WARNING, NOTICE, ERROR, ERRINFO, CRITICAL], 0⟩] }

/-- Models: pepclibs/helperlibs/Logging.py:312-347 `configure_log_file()`. -/
def logFile (path : PyStr) (lg : Logger) : Logger :=
  { lg with
    formatters := lg.formatters ++ [mkFormatter lg.pre (if lg.colored then lg.colors else [])],
    handlers := lg.handlers ++ [⟨.file path, [DEBUG, WARNING, NOTICE, ERROR, ERRINFO, CRITICAL], lg.formatters.length⟩,
      ⟨.file path, [INFO], lg.formatters.length⟩] }

/-- Models: pepclibs/helperlibs/Logging.py:349-360 `set_prefix()`. -/
def setPrefix (pre : PyStr) (lg : Logger) : Logger :=
  { lg with pre := pre, formatters := lg.formatters.map fun f => f.setPrefix pre }

/-- One handler. Models: pepclibs/helperlibs/Logging.py:150-163, 180-193 with the Python library. -/
def handle (lg : Logger) (r : Record) (h : Handler) : Option (Dest × PyStr) :=
  if r.level ∈ h.letGo then
    match lg.formatters[h.fmt]? with
    | none => none
    | some f =>
      match f.fmts.get? r.level with
      | none => none
      | some fmt => some (h.dest, render fmt r ++ ['\n'])
  else none

/-- `log()` of the Python library: what is written, in order. -/
def log (lg : Logger) (r : Record) : List (Dest × PyStr) :=
  if r.level < lg.level then [] else lg.handlers.filterMap (handle lg r)

/-- `site` is the file and the line of the caller. Models: pepclibs/helperlibs/Logging.py:444-464 `warn_once()`. -/
def warnOnce (lg : Logger) (site : PyStr) (r : Record) : Logger × List (Dest × PyStr) :=
  if site ∈ lg.seen then (lg, []) else ({ lg with seen := site :: lg.seen }, log lg { r with level := WARNING })

/-- Calls. -/
inductive Op where
  | log (r : Record)
  | warnOnce (site : PyStr) (r : Record)
  | setPrefix (pre : PyStr)
  | logFile (path : PyStr)

/-- A call. -/
def step (lg : Logger) : Op → Logger × List (Dest × PyStr)
  | .log r => (lg, log lg r)
  | .warnOnce site r => warnOnce lg site r
  | .setPrefix p => (setPrefix p lg, [])
  | .logFile path => (logFile path lg, [])

/-- Calls one after another. -/
def run (lg : Logger) : List Op → Logger × List (Dest × PyStr)
  | [] => (lg, [])
  | op :: ops => ((run (step lg op).1 ops).1, (step lg op).2 ++ (run (step lg op).1 ops).2)

/-! ### Errors and the exit status -/

/-- How many lines of the traceback are kept. Models: pepclibs/helperlibs/Logging.py:377-384. -/
def keepLines : List PyStr → Nat → Nat → Nat
  | [], _, last => last
  | [l], idx, last => if "  File \"".toList.isPrefixOf l then idx + 2 else last
  | l :: l' :: ls, idx, last =>
    if "  File \"".toList.isPrefixOf l then keepLines ls (idx + 2) (idx + 2) else keepLines (l' :: ls) (idx + 1) last

/-- Models: pepclibs/helperlibs/Logging.py:362-397 `_print_traceback()`. -/
def printTraceback (have' : Bool) (lg : Logger) (level : Nat) (lines : List PyStr) : List (Dest × PyStr) :=
  let tback := lines.take (keepLines lines 0 (lines.length - 1))
  if tback = [] then []
  else
    let dim := if have' then reset ++ esc "2" else []
    let undim := if have' then reset else []
    log lg { level := level, msg := "--- Debug trace starts here ---".toList } ++
    (log lg { level := level, msg := dim ++ ("An error occurred, here is the traceback:\n".toList ++
      (PyStr.joinC '\n' tback ++ undim)) } ++
    log lg { level := level, msg := "--- Debug trace ends here ---\n".toList })

/-- The exit status is 1. Models: pepclibs/helperlibs/Logging.py:399-425 `error_out()`. -/
def errorOut (have' : Bool) (lg : Logger) (tb : Bool) (lines : List PyStr) (msg : PyStr) : List (Dest × PyStr) × Int :=
  ((if tb || decide (lg.level = DEBUG) then printTraceback have' lg ERRINFO lines else []) ++
    log lg { level := ERROR, msg := msg }, 1)

/-- How a part of the program ends: the exception of the project with its message and the traceback; an interrupt; or
another exception. -/
inductive Res where
  | ok
  | error (msg : PyStr) (lines : List PyStr)
  | interrupted
  | other
  deriving DecidableEq

/-- The first part which does not succeed. -/
def first : List Res → Res
  | [] => .ok
  | .ok :: rs => first rs
  | r :: _ => r

/-- `parts` are parsing of the command line and, if there is a subcommand, running it, for every dataset. The result is what
is written besides the messages of the parts, and the exit status (none is for the exceptions nothing catches).
Models: pepctool/_Pepc.py:1114-1149 `main()`. -/
def main (have' : Bool) (lg : Logger) (parse : Res) (func : Bool) (parts : List Res) : List (Dest × PyStr) × Option Int :=
  match first (parse :: if func then parts else []) with
  | .ok => if func then ([], some 0)
    else (log lg { level := ERROR, msg := "please, run 'pepc -h' for help".toList }, some (-1))
  | .error msg lines => ((errorOut have' lg false lines msg).1, some (errorOut have' lg false lines msg).2)
  | .interrupted => (log lg { level := INFO, msg := "\nInterrupted, exiting".toList }, some (-1))
  | .other => ([], none)

end Verif.Logging
