import Verif.Model.EmulHost
import Verif.Props.EmulSpec
import Verif.Model.TpmiText

/-! Specification for C115: what a dataset describes, and the root directory of an emulated system. -/

namespace Verif.EmulHost.Spec

/-- An absolute path of a file: one slash at the start, none at the end. -/
def Abs (p : PyStr) : Prop := ∃ q, p = '/' :: q ∧ q ≠ [] ∧ q.head? ≠ some '/' ∧ q.getLast? ≠ some '/'

/-- The text for a table of paths and values. -/
def inlineText (sep : Char) (T : List (PyStr × PyStr)) : PyStr := T.flatMap fun x => x.1 ++ sep :: (x.2 ++ ['\n'])

/-- The last value of a key. -/
def lastOf {β : Type} (T : List (PyStr × β)) (p : PyStr) : Option β :=
  ((T.filter fun x => decide (x.1 = p)).getLast?).map fun x => x.2

/-- The text for a table of device nodes, with pairs of register addresses and values. -/
def msrText (sep1 sep2 : Char) (T : List (PyStr × List (Nat × Nat))) : PyStr :=
  T.flatMap fun x => x.1 ++ sep1 :: ((x.2.flatMap fun y => PyStr.ofNat y.1 ++ sep2 :: (Tpmi.hexDigits y.2 ++ [' '])) ++ ['\n'])

/-- The dataset of a module is about the file. -/
def Mentions (c : Config) (p : PyStr) : Prop :=
  (∃ i ∈ c.inl, ∃ line ∈ Tpmi.lines i.text, ∃ q, (PyStr.splitC i.sep line).head? = some q ∧ relative q = relative p) ∨
  (∃ m, c.msrs = some m ∧ ∃ line ∈ Tpmi.lines m.text, ∃ q, (PyStr.splitC m.sep1 line).head? = some q ∧
    relative (PyStr.strip q) = relative p) ∨
  ∃ f ∈ c.files, relative f.2.1 = relative p

/-- The path in the base directory. -/
def inside (base p : PyStr) : PyStr := if p = ['/'] then base else base ++ p

/-- The root directory. -/
def Root (p : PyStr) : Prop := p = ['/']

/-- The kernel as a process sees it which has the directory as its root directory. -/
def reroot {σ : Type} (K : FileOps.Kernel σ) (base : PyStr) : FileOps.Kernel σ where
  stat s p := K.stat s (inside base p)
  lstat s p := K.lstat s (inside base p)
  access s p := K.access s (inside base p)
  listdir s p := K.listdir s (inside base p)
  mkdir s p := K.mkdir s (inside base p)
  mkfifo s p := K.mkfifo s (inside base p)
  unlink s p := K.unlink s (inside base p)
  tree s p := K.tree s (inside base p)

/-- The operations which are redirected, and their path. -/
def redirected : FileOps.Op → Option PyStr
  | .pathExists p => some p
  | .isFile p => some p
  | .isDir p => some p
  | .isExe p => some p
  | .isSocket p => some p
  | .mkdir p _ => some p
  | .lsdir p _ => some p
  | _ => none

/-- Paths of directory entries are without the slash at the start. -/
def noSlash : FileOps.Val → FileOps.Val
  | .entries l => .entries (l.map fun x => (x.1, x.2.1.drop 1, x.2.2))
  | v => v

/-- A word of a command means something on the emulated system, or seems to. -/
def Names (W : Where) (w : PyStr) : Prop :=
  there W w = true ∨ there W (stripChars ['\'', '/'] w) = true ∨ there W (stripChars ['"', '/'] w) = true

/-- How a path can be quoted. -/
def Quoted (q w : PyStr) : Prop :=
  w = '/' :: q ∨ w = '\'' :: '/' :: (q ++ ['\'']) ∨ w = '"' :: '/' :: (q ++ ['"'])

end Verif.EmulHost.Spec
