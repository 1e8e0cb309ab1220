import Verif.Lib.PyStr

/-!
Model of the texts the process managers give to a shell in order to run a command. Sources:
pepclibs/helperlibs/SSHProcessManager.py and LocalProcessManager.py.
-/

namespace Verif.ShellCmd

/-- Characters which need no quotes: what `re` with `re.ASCII` calls a word character, and some others. -/
def safeChar (c : Char) : Bool :=
  ('a' ≤ c && c ≤ 'z') || ('A' ≤ c && c ≤ 'Z') || ('0' ≤ c && c ≤ '9') || "_@%+=:,./-".toList.contains c

/-- `shlex.quote()` of the Python library (Python 3.6 to 3.13). -/
def quote (s : PyStr) : PyStr :=
  if s = [] then ['\'', '\'']
  else if s.all safeChar then s
  else '\'' :: (s.flatMap fun c => if c = '\'' then ['\'', '"', '\'', '"', '\''] else [c]) ++ ['\'']

/-- The statement that prints the process ID. Models: pepclibs/helperlibs/SSHProcessManager.py:427. -/
def pidPrefix : PyStr := "printf \"%s\\n\" \"$$\";".toList

/-- Models: pepclibs/helperlibs/SSHProcessManager.py:417-430 `_format_cmd_for_pid()`. `cwd` is `None` or a path, which is not
empty. -/
def formatCmdForPid (cmd : PyStr) (cwd : Option PyStr) : PyStr :=
  pidPrefix ++ (match cwd with
    | none => []
    | some d => " cd \"".toList ++ (d ++ "\" &&".toList)) ++ (" exec ".toList ++ cmd)

/-- The text of `_run_in_new_session()`. Models: pepclibs/helperlibs/SSHProcessManager.py:431-438. -/
def sessionText (cmd : PyStr) (cwd : Option PyStr) (shell : Bool) : PyStr :=
  if shell then formatCmdForPid cmd cwd else cmd

/-- The text `_run_in_intsh()` sends to the interactive shell. Models: pepclibs/helperlibs/SSHProcessManager.py:461-480. -/
def intshText (cmd : PyStr) (cwd : Option PyStr) (marker : PyStr) : PyStr :=
  "sh -c ".toList ++ (quote (formatCmdForPid cmd cwd) ++ ('\n' :: ("printf \"%s, %d ---\" \"".toList ++
    (marker ++ "\" \"$?\"\n".toList))))

/-- The text for the shell of the local host. Models: pepclibs/helperlibs/LocalProcessManager.py:158-160. -/
def localText (cmd : PyStr) : PyStr := "exec ".toList ++ cmd

/-- The marker, `hex` is `f"{randbits:064x}"`. Models: pepclibs/helperlibs/SSHProcessManager.py:351-357. -/
def marker (hex : PyStr) : PyStr := "--- ".toList ++ hex

end Verif.ShellCmd
