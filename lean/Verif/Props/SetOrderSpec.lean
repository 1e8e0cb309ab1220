import Verif.Model.SetOrder

/-!
Specification for C123: the order of the command line.
-/

namespace Verif.SetOrder

variable {K : Type}

/-- What the user expects: every change is made when its turn comes, and the command ends at the first one that is
refused. -/
inductive InOrder (kern : Kernel K) : List Op → K → K → Bool → Prop where
  | done (k) : InOrder kern [] k k true
  | step {o ops k k' r b} (h : kern k o = some k') (t : InOrder kern ops k' r b) : InOrder kern (o :: ops) k r b
  | refused {o ops k} (h : kern k o = none) : InOrder kern (o :: ops) k k false

/-- The thing a change is about. -/
inductive Loc where
  | file (path : PyStr)
  | reg (cpu addr : Nat)
  deriving DecidableEq

def Op.loc : Op → Loc
  | .direct p _ => .file p
  | .sysfs p _ => .file p
  | .msr c a _ => .reg c a

/-- The new value: text of a file or contents of a register. -/
def Op.val : Op → PyStr ⊕ Nat
  | .direct _ v => .inl v
  | .sysfs _ v => .inl v
  | .msr _ _ v => .inr v

/-- A kernel for which files and registers are independent: every write is accepted and changes just its target. -/
def plain : Kernel (Loc → PyStr ⊕ Nat) := fun k o => some fun l => if l = o.loc then o.val else k l

/-- The value of the last change of `l`, or the original value. -/
def lastOf (l : Loc) (dflt : PyStr ⊕ Nat) : List Op → PyStr ⊕ Nat
  | [] => dflt
  | o :: ops => lastOf l (if l = o.loc then o.val else dflt) ops

def Op.isDirect : Op → Bool
  | .direct .. => true
  | _ => false

def Op.isSysfs : Op → Bool
  | .sysfs .. => true
  | _ => false

/-- No file is changed both at once and through the buffer: EPP and EPB have files of their own. -/
def Apart (ops : List Op) : Prop := ∀ a ∈ ops, ∀ b ∈ ops, a.isDirect = true → b.isSysfs = true → a.loc ≠ b.loc

end Verif.SetOrder
