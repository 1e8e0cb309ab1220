import Verif.Model.WrapFile

/-!
What it means that a write is reported properly, in terms of what is asked for and what the kernel got.
-/

namespace Verif.WrapFile.Spec

/-- The text which is to be written. -/
def asked : List Op → PyStr
  | [] => []
  | .write v :: l => v ++ asked l
  | _ :: l => asked l

/-- Every write is followed by a flush or a seek. -/
def Flushed : List Op → Prop
  | [] => True
  | .write _ :: l => (.flush ∈ l ∨ .seek ∈ l) ∧ Flushed l
  | _ :: l => Flushed l

/-- The kernel got and accepted all the text, in order, and refused nothing. -/
def AllWritten {σ : Type} (text : PyStr) (o : Out σ) : Prop := o.file.given.flatten = text ∧ o.file.refused = []

end Verif.WrapFile.Spec
