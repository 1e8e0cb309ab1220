import Verif.Model.RunCmd

/-!
Specification for C121: what a caller of `run()` and `run_verify()` expects.
-/

namespace Verif.RunCmd

open Verif.ProcOut (Stream)

/-- The lines the command printed to a stream. -/
def Own (s : Stream) (b : Beh) : List PyStr := (b.lines.filter (fun p => p.1 = s)).map (·.2)

/-- All lines the command printed, in order. -/
def All (b : Beh) : List PyStr := b.lines.map (·.2)

/-- How a shell reports that there is no such program: exit code 127, one line on stderr and nothing else. -/
def ShellMissing (b : Beh) : Prop := b.code = some 127 ∧ ∃ l, b.lines = [(.err, l)]

/-- `t` appears in `m`. -/
def Shows (m t : PyStr) : Prop := ∃ a z, m = a ++ t ++ z

/-- The line a failure message starts with. -/
def Head : Remote → Nat → PyStr
  | none, c => "The following command failed with exit code ".toList ++ PyStr.ofNat c ++ ":\n  ".toList
  | some h, c => "Ran the following command on host '".toList ++ h ++ "', but it failed with exit code ".toList ++
      PyStr.ofNat c ++ ":\n  ".toList

end Verif.RunCmd
