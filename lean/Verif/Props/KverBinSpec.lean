import Verif.Lib.PyStr

/-!
Specification for C131: where the version is in what `file` prints. Nothing here uses the model.
-/

namespace Verif.KverBin.Spec

/-- The text `w`, a word, follows " version " in the line `s` after `a`, and something follows the word. -/
def Occurs (s a w : PyStr) : Prop :=
  '\n' ∉ a ∧ w ≠ [] ∧ ' ' ∉ w ∧ ∃ b, s = a ++ (" version ".toList ++ (w ++ ' ' :: b))

/-- `w` is the last such word. -/
def Last (s w : PyStr) : Prop := ∃ a, Occurs s a w ∧ ∀ a' w', Occurs s a' w' → a'.length ≤ a.length

/-- The line says that the file is a Linux kernel which can be executed. -/
def Kernel (s : PyStr) : Prop :=
  ∃ a b c, '\n' ∉ a ∧ '\n' ∉ b ∧ s = a ++ (" Linux kernel".toList ++ (b ++ (" executable ".toList ++ c)))

end Verif.KverBin.Spec
