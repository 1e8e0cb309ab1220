import Verif.Model.Connect

/-!
Specification for C122: which host a command runs on.
-/

namespace Verif.Connect

/-- `f` is the file the option is taken from: it has the option, and it comes first among the files which have it. -/
def TakenFrom (W : World) (opt : PyStr) (files : List PyStr) (f v : PyStr) : Prop :=
  f ∈ files ∧ W.look f opt = some v ∧ ∀ g ∈ files, W.look g opt ≠ none → strLe f g = true

/-- There are no "include" lines in the files. -/
def NoInclude (W : World) (files : List PyStr) : Prop := ∀ f ∈ files, W.look f "include".toList = none

/-- A private key which only its owner and group can use. -/
def KeyFile (W : World) (k : PyStr) : Prop := ∃ mode, W.stat k = some (true, mode) ∧ mode % 8 = 0

end Verif.Connect
