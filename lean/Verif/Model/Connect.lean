import Verif.Lib.PyStr
import Verif.Lib.Exn

/-!
Model of choosing the process manager for a host and of what is given to Paramiko for the connection. Sources:
pepclibs/helperlibs/ProcessManager.py and SSHProcessManager.py. Not modelled: `port` and `password`, which `get_pman()`
never gives (they are 22 and the empty string), messages, and SSH configuration files which cannot be parsed.
-/

namespace Verif.Connect

/-- The computer the program runs on.
* `defaults` - those of "/etc/ssh/ssh_config" and "~/.ssh/config" which exist.
* `look f opt` - the value `lookup()` of Paramiko gives for an option of the host in file `f` (the first one if there are
  several, as for "identityfile").
* `glob` - the files matching a pattern.
* `depth` - how many calls Python allows.
* `login` - the name of the user, from the password database.
* `stat` - whether it is a regular file, and the permission bits; `none` if there is no such file.
* `toFloat` - `float()`. -/
structure World where
  defaults : List PyStr
  look : PyStr → PyStr → Option PyStr
  glob : PyStr → List PyStr
  depth : Nat
  login : PyStr
  stat : PyStr → Option (Bool × Nat)
  toFloat : PyStr → Option Rat

/-- Exceptions which are not `Error`. -/
inductive Crash where
  | recursion
  | typeError
  | valueError
  deriving DecidableEq

/-- How creating a process manager ends. -/
inductive Out (α : Type) where
  | ok (a : α)
  | error
  | crash (c : Crash)
  deriving DecidableEq

/-- What is given to `SSHClient.connect()`. Models: pepclibs/helperlibs/SSHProcessManager.py:1196-1198. -/
structure Conn where
  host : PyStr
  user : PyStr
  key : Option PyStr
  lookForKeys : Bool
  timeout : Rat
  deriving DecidableEq

/-- The order of strings: by the numbers of the characters. -/
def strLe : PyStr → PyStr → Bool
  | [], _ => true
  | _ :: _, [] => false
  | a :: s, b :: t => if a = b then strLe s t else a.toNat < b.toNat

/-- Helper of `sortStr`. -/
def insertStr (x : PyStr) : List PyStr → List PyStr
  | [] => [x]
  | y :: l => if strLe x y then x :: y :: l else y :: insertStr x l

/-- `sorted()`. -/
def sortStr (l : List PyStr) : List PyStr := l.foldr insertStr []

/-- The loop over the configuration files. `again` is the recursive call. A file which has neither the option nor an
"include" is passed over, an "include" ends the loop. Models: pepclibs/helperlibs/SSHProcessManager.py:1072-1081. -/
def scan (W : World) (opt : PyStr) (again : List PyStr → Except Crash (Option PyStr)) :
    List PyStr → Except Crash (Option PyStr)
  | [] => .ok none
  | f :: fs =>
    match W.look f opt with
    | some v => .ok (some v)
    | none =>
      match W.look f "include".toList with
      | some p => again (W.glob p)
      | none => scan W opt again fs

/-- Models: pepclibs/helperlibs/SSHProcessManager.py:1053-1085 `_cfg_lookup()` without `$USER`; the first argument is how
many further calls are possible. -/
def cfgFiles (W : World) (opt : PyStr) : Nat → List PyStr → Except Crash (Option PyStr)
  | 0, _ => .error .recursion
  | n + 1, files => scan W opt (cfgFiles W opt n) (sortStr (if files = [] then W.defaults else files))

/-- `env` is `$USER`. In the recursive calls it is set, so that only the first call matters. The first component is
`$USER` afterwards: assigning `None` to it raises `TypeError`. Models: pepclibs/helperlibs/SSHProcessManager.py:1053-1085
`_cfg_lookup()`. -/
def cfgLookup (W : World) (opt user : PyStr) (env : Option PyStr) : Option PyStr × Except Crash (Option PyStr) :=
  match env with
  | none => (some user, .error .typeError)
  | some u => (some u, cfgFiles W opt W.depth [])

/-- An argument which is neither `None` nor empty. -/
def given : Option PyStr → Option PyStr
  | some [] => none
  | x => x

/-- Models: pepclibs/helperlibs/SSHProcessManager.py:1126-1128. A number is given by its text here (the number 0, which the
command line cannot give, is not modelled). -/
def timeoutOf (W : World) (t : Option PyStr) : Option Rat :=
  match given t with
  | none => some 60
  | some s => W.toFloat s

/-- Models: pepclibs/helperlibs/SSHProcessManager.py:1148-1151. -/
def userOf (W : World) (username env : Option PyStr) : PyStr := (given username).getD ((given env).getD W.login)

/-- Models: pepclibs/helperlibs/SSHProcessManager.py:1153-1161. -/
def hostOf (W : World) (hostname : PyStr) (ipaddr : Option PyStr) (user : PyStr) (env : Option PyStr) :
    Option PyStr × Except Crash PyStr :=
  match given ipaddr with
  | some ip => (env, .ok ip)
  | none =>
    match cfgLookup W "hostname".toList user env with
    | (e, .error c) => (e, .error c)
    | (e, .ok h) => (e, .ok ((given h).getD hostname))

/-- The private key and whether Paramiko looks for keys. Exceptions of the look-up are suppressed.
Models: pepclibs/helperlibs/SSHProcessManager.py:1087-1096, 1163-1172. -/
def keyOf (W : World) (privkey : Option PyStr) (user : PyStr) (env : Option PyStr) :
    Option PyStr × Option PyStr × Bool :=
  match given privkey with
  | some k => (env, some k, false)
  | none =>
    match cfgLookup W "identityfile".toList user env with
    | (e, .error _) => (e, none, true)
    | (e, .ok k) => (e, given k, true)

/-- The checks of the private key; 7 are the permissions of "others".
Models: pepclibs/helperlibs/SSHProcessManager.py:1172-1186. -/
def keyGood (W : World) : Option PyStr → Bool
  | none => true
  | some k =>
    match W.stat k with
    | none => false
    | some (reg, mode) => reg && (mode &&& 7) == 0

/-- Up to the call of `connect()`, which can fail with `ErrorConnect`. The first component is `$USER` afterwards.
Models: pepclibs/helperlibs/SSHProcessManager.py:1098-1198 `SSHProcessManager.__init__()`. -/
def sshInit (W : World) (env : Option PyStr) (hostname : PyStr) (ipaddr username privkey timeout : Option PyStr) :
    Option PyStr × Out Conn :=
  match timeoutOf W timeout with
  | none => (env, .crash .valueError)
  | some t =>
    let user := userOf W username env
    match hostOf W hostname ipaddr user env with
    | (e, .error c) => (e, .crash c)
    | (e, .ok host) =>
      let (e, key, look) := keyOf W privkey user e
      if keyGood W key then (e, .ok ⟨host, user, key, look, t⟩) else (e, .error)

/-- The process managers. -/
inductive Pman where
  | local
  | emul (host : PyStr)
  | ssh (c : Conn)
  deriving DecidableEq

/-- Models: pepclibs/helperlibs/ProcessManager.py:31-38 `_check_for_none()`, 40-92 `get_pman()`. -/
def getPman (W : World) (env : Option PyStr) (hostname : PyStr) (username privkey timeout : Option PyStr) :
    Option PyStr × Out Pman :=
  if hostname = "localhost".toList ∧ username = none then
    (env, if privkey = none ∧ timeout = none then .ok .local else .error)
  else if "emulation".toList.isPrefixOf hostname then (env, .ok (.emul hostname))
  else
    match sshInit W env hostname none username privkey timeout with
    | (e, .ok c) => (e, .ok (.ssh c))
    | (e, .error) => (e, .error)
    | (e, .crash c) => (e, .crash c)

end Verif.Connect
