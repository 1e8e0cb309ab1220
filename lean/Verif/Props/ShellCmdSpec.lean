import Verif.Model.ShellCmd

/-!
Specification for C127: what a shell does with a text (POSIX, "Shell Command Language"), as far as quotes, words, and
lists of simple commands go.
-/

namespace Verif.ShellCmd

/-- A character of a word, after the expansions: a character, the process ID of the shell (`$$`), or the exit code of the
last command (`$?`). -/
inductive Ch where
  | lit (c : Char) | pid | code
  deriving DecidableEq

abbrev Word := List Ch

/-- A word without expansions. -/
def lit (s : PyStr) : Word := s.map .lit

/-- What separates commands: the end of a line, `;`, `&&`. -/
inductive Sep where
  | line | semi | and
  deriving DecidableEq

inductive Tok where
  | word (w : Word) | sep (s : Sep)
  deriving DecidableEq

/-- Within quotes or not. -/
inductive Quote where
  | plain | single | double
  deriving DecidableEq

/-- Characters which mean something to the shell outside of quotes, besides quotes, spaces, and separators. -/
def special (c : Char) : Bool := "|&()<>$`\\*?[]#~{}!".toList.contains c

/-- The word read so far, if there is one. -/
def flush : Option Word → List Tok
  | none => []
  | some w => [.word w]

/-- One more character. -/
def more (cur : Option Word) (c : Ch) : Option Word := some (cur.getD [] ++ [c])

/-- The tokens of a text, `cur` is the word read so far. `none` if a quote is missing, or for what is not described
here. -/
def lexAux : Quote → Option Word → PyStr → Option (List Tok)
  | .plain, cur, [] => some (flush cur)
  | _, _, [] => none
  | .plain, cur, '\'' :: s => lexAux .single (some (cur.getD [])) s
  | .plain, cur, '"' :: s => lexAux .double (some (cur.getD [])) s
  | .plain, cur, ' ' :: s => (lexAux .plain none s).map (flush cur ++ ·)
  | .plain, cur, '\t' :: s => (lexAux .plain none s).map (flush cur ++ ·)
  | .plain, cur, '\n' :: s => (lexAux .plain none s).map (flush cur ++ .sep .line :: ·)
  | .plain, cur, ';' :: s => (lexAux .plain none s).map (flush cur ++ .sep .semi :: ·)
  | .plain, cur, '&' :: '&' :: s => (lexAux .plain none s).map (flush cur ++ .sep .and :: ·)
  | .plain, cur, c :: s => if special c then none else lexAux .plain (more cur (.lit c)) s
  | .single, cur, '\'' :: s => lexAux .plain cur s
  | .single, cur, c :: s => lexAux .single (more cur (.lit c)) s
  | .double, cur, '"' :: s => lexAux .plain cur s
  | .double, cur, '$' :: '$' :: s => lexAux .double (more cur .pid) s
  | .double, cur, '$' :: '?' :: s => lexAux .double (more cur .code) s
  | .double, cur, '\\' :: 'n' :: s => lexAux .double (more (more cur (.lit '\\')) (.lit 'n')) s
  | .double, cur, c :: s => if c = '$' ∨ c = '`' ∨ c = '\\' then none else lexAux .double (more cur (.lit c)) s

/-- The tokens of a text. -/
def lex (s : PyStr) : Option (List Tok) := lexAux .plain none s

/-- What a shell does, in order: a command which is run by a child, or the shell becomes the command (and keeps its process
ID). -/
inductive Act where
  | child (ws : List Word) | become (ws : List Word)
  deriving DecidableEq

/-- The commands with what follows them. -/
def commands : List Tok → List (List Word × Sep)
  | [] => [([], .line)]
  | .sep s :: ts => ([], s) :: commands ts
  | .word w :: ts =>
    match commands ts with
    | [] => []
    | (ws, s) :: cs => (w :: ws, s) :: cs

/-- The commands one after the other. `ok` tells whether a command succeeds (`cd` and `printf` are treated like others); a
command after `&&` is left out if the one before it has failed. After `exec` with a command there is no shell any more.
`go` tells whether the next command is to be run. -/
def acts (ok : List Word → Bool) : Bool → List (List Word × Sep) → List Act
  | _, [] => []
  | false, (_, s) :: cs => acts ok (s ≠ .and) cs
  | true, ([], _) :: cs => acts ok true cs
  | true, (w :: args, s) :: cs =>
    if w = lit "exec".toList ∧ args ≠ [] then [.become args]
    else .child (w :: args) :: acts ok (s ≠ .and || ok (w :: args)) cs

/-- What a shell does with a text, if it is described here. -/
def shell (ok : List Word → Bool) (text : PyStr) : Option (List Act) := (lex text).map fun ts => acts ok true (commands ts)

end Verif.ShellCmd
