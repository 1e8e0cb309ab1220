import Verif.Lib.PyStr
import Verif.Lib.Dict

/-!
Specification for C102: the options which every command has. Independent of the model.
-/

namespace Verif.CmdLine

/-- The options which may be given before or after the sub-command. -/
inductive Glob where
  | host | user | key | timeout | dataset
deriving DecidableEq

/-- How an option is written: the short name and the long name. -/
def Glob.written : Glob → Bool → PyStr
  | .host, false => "-H".toList
  | .host, true => "--host".toList
  | .user, false => "-U".toList
  | .user, true => "--username".toList
  | .key, false => "-K".toList
  | .key, true => "--priv-key".toList
  | .timeout, false => "-T".toList
  | .timeout, true => "--timeout".toList
  | .dataset, false => "-D".toList
  | .dataset, true => "--dataset".toList

/-- The attribute which has the value. -/
def Glob.attribute : Glob → PyStr
  | .host => "hostname".toList
  | .user => "username".toList
  | .key => "privkey".toList
  | .timeout => "timeout".toList
  | .dataset => "dataset".toList

/-- The value if the option is not given. -/
def Glob.default : Glob → Option PyStr
  | .host => some "localhost".toList
  | .user => some "root".toList
  | .key => none
  | .timeout => some "8".toList
  | .dataset => none

/-- One option with its value on the command line. -/
structure Use where
  opt : Glob
  long : Bool
  value : PyStr
deriving DecidableEq

/-- The two arguments. -/
def Use.args (u : Use) : List PyStr := [u.opt.written u.long, u.value]

/-- The value which an option has after the uses in this order: the last one, or the default. -/
def valueOf (g : Glob) (uses : List Use) : Option PyStr :=
  uses.foldl (fun x u => if u.opt = g then some u.value else x) g.default

/-- A value does not look like an option. -/
def Use.Plain (u : Use) : Prop := u.value.head? ≠ some '-'

/-- A dataset can only be used on the local host. -/
def Conflict (uses : List Use) : Prop :=
  valueOf .dataset uses ≠ none ∧ valueOf .dataset uses ≠ some [] ∧ valueOf .host uses ≠ some "localhost".toList

instance (uses : List Use) : Decidable (Conflict uses) := inferInstanceAs (Decidable (_ ∧ _ ∧ _))

/-- The attributes have the values of these uses. -/
def Reads (ns : Dict PyStr (Option PyStr)) (uses : List Use) : Prop :=
  ∀ g : Glob, ns.get? g.attribute = some (valueOf g uses)

/-- The value which an ordered option has after the occurrences: the last one. -/
def lastValue {V : Type} (k : PyStr) : List (PyStr × V) → Option V
  | [] => none
  | x :: l => match lastValue k l with
    | some v => some v
    | none => if x.1 = k then some x.2 else none

/-- An item of a command line of the tools for developers: an SSH option with its value, or another argument. -/
inductive Item where
  | ssh (u : Use)
  | other (a : PyStr)

def Item.args : Item → List PyStr
  | .ssh u => u.args
  | .other a => [a]

/-- Only the SSH options. -/
def Item.sshArgs : Item → List PyStr
  | .ssh u => u.args
  | .other _ => []

def Item.otherArgs : Item → List PyStr
  | .ssh _ => []
  | .other a => [a]

/-- The name of an SSH option. -/
def SshName (a : PyStr) : Prop := ∃ g : Glob, g ≠ .dataset ∧ ∃ l, a = g.written l

def Item.Proper : Item → Prop
  | .ssh u => u.opt ≠ .dataset ∧ ¬ SshName u.value
  | .other a => ¬ SshName a

end Verif.CmdLine
