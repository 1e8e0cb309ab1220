import Verif.Lib.PyStr

/-!
Specification for C103: emulated files. Independent of the model.
-/

namespace Verif.Emul

/-- An encoding of texts: what is encoded can be decoded, and a character needs at least one byte. -/
structure Encoding (enc : PyStr → List Nat) (dec : List Nat → PyStr) : Prop where
  back : ∀ s, dec (enc s) = s
  size : ∀ s, s.length ≤ (enc s).length

/-- One access to a register. -/
inductive Access where
  | read (addr : Nat)
  | write (addr val : Nat)

/-- Registers: the values which the reads return. -/
def registers : List Access → (Nat → Nat) → List Nat
  | [], _ => []
  | .read a :: l, r => r a :: registers l r
  | .write a v :: l, r => registers l fun b => if b = a then v else r b

/-- The last value of a register in a list, or 0. -/
def initial (l : List (Nat × Nat)) (b : Nat) : Nat :=
  match (l.filter fun p => p.1 = b).getLast? with
  | some p => p.2
  | none => 0

/-- What the kernel makes of the names of EPB policies. -/
def epbNumber : List (PyStr × Int) :=
  [("performance".toList, 0), ("balance-performance".toList, 4), ("normal".toList, 6), ("balance-power".toList, 8),
   ("power".toList, 15)]

end Verif.Emul
