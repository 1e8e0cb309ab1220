import Verif.Model.Which

/-! Specification for C126: where a program is. -/

namespace Verif.Which

/-- The program the shell runs: a name with a slash is a path; other names are looked up in the directories of `PATH`, an
empty one is the current directory (POSIX, "Command Search and Execution" and `PATH`). -/
def shellFinds (exe : PyStr → Bool) (path : List PyStr) (p : PyStr) : Option PyStr :=
  if '/' ∈ p then (if exe p then some p else none)
  else (path.map fun d => if d = [] then p else d ++ '/' :: p).find? exe

/-- A remote host: where its programs are, the aliases `which` knows (as it prints them), whether the programs `which` and
`command` are installed, and the exit code of `command -v` for a name it does not know (1 with `bash`, 127 with
`dash`). -/
structure Host where
  path : PyStr → Option PyStr
  nick : PyStr → Option PyStr
  which : Bool
  command : Bool
  unknown : Nat

/-- What the host answers. `which` prints the alias and the path (with a tab in front of it then). The program
`command` has no aliases. -/
def Host.ask (h : Host) : Tool → PyStr → Reply
  | .which, p =>
    if h.which then
      match h.path p, h.nick p with
      | some f, none => ⟨[f ++ ['\n']], [], 0⟩
      | some f, some a => ⟨[a ++ ['\n'], '\t' :: f ++ ['\n']], [], 0⟩
      | none, _ => ⟨[], ["which: no such program\n".toList], 1⟩
    else ⟨[], ["sh: which: command not found\n".toList], 127⟩
  | .command, p =>
    if h.command then
      match h.path p with
      | some f => ⟨[f ++ ['\n']], [], 0⟩
      | none => ⟨[], [], h.unknown⟩
    else ⟨[], ["sh: exec: command: not found\n".toList], 127⟩

/-- The names of the programs are ordinary: absolute, no line ends, no white space at the end; and aliases are printed as
such, in one line (they end with a quote). -/
structure Host.Sane (h : Host) : Prop where
  slash : ∀ p f, h.path p = some f → f.head? = some '/'
  line : ∀ p f, h.path p = some f → ∀ c ∈ f, MSR.isLineEnd c = false
  last : ∀ p f c, h.path p = some f → f.getLast? = some c → PyStr.isSpace c = false
  nick : ∀ p a, h.nick p = some a → "alias".toList.isPrefixOf a = true
  aliasLast : ∀ p a c, h.nick p = some a → a.getLast? = some c → PyStr.isSpace c = false
  aliasLine : ∀ p a, h.nick p = some a → ∀ c ∈ a, MSR.isLineEnd c = false

/-- What a caller is to get. -/
def wanted (found : Option PyStr) (mustFind : Bool) : Except Exn (Option PyStr) :=
  match found with
  | some f => .ok (some f)
  | none => if mustFind then .error .notFound else .ok none

end Verif.Which
