import Verif.Model.MSRFeatures
import Verif.Lemmas.RegFile
import Verif.Lemmas.HWP

/-!
C104: the features of the model-specific registers. Specification.
-/

namespace Verif.MSRFeatures

open Verif.Bits (BitRange)

/-- The processor has the feature on CPU `c`: the documentation tables list the model, if they name models at all, and the CPU has
all the flags the feature needs. -/
def Has (H : Host) (f : Finfo) (c : Nat) : Prop :=
  c ∈ H.cpus ∧ (∀ l, f.cpumodels = some l → H.model ∈ l) ∧ ∀ l, f.cpuflags = some l → ∀ x ∈ l, x ∈ H.flags c

/-- Hardware power management is switched on in the package of CPU `c`: the first CPU of the package has the flag and the bit 0 of
its `MSR_PM_ENABLE` is set. -/
def HwpOn (H : Host) (c : Nat) : Prop :=
  ∃ first rest, first :: rest ∈ H.packages ∧ c ∈ first :: rest ∧ "hwp".toList ∈ H.flags first ∧
    ∃ v, H.pmEnable first = .ok v ∧ v.testBit 0 = true

/-- The registers which exist only if hardware power management is on. -/
def NeedsHwp (m : Module) : Prop := m = .hwpCapabilities ∨ m = .hwpRequestPkg ∨ m = .hwpRequest

/-- Every CPU belongs to exactly one package, and there are no packages without CPUs. -/
structure Partition (H : Host) : Prop where
  nonempty : [] ∉ H.packages
  cover : ∀ c ∈ H.cpus, ∃ p ∈ H.packages, c ∈ p
  unique : ∀ p ∈ H.packages, ∀ q ∈ H.packages, ∀ c, c ∈ p → c ∈ q → p = q

/-- The bits are a part of a 64-bit register. -/
def Proper (b : BitRange) : Prop := 0 ≤ b.2 ∧ b.2 ≤ b.1 ∧ b.1 ≤ 63

/-- The bits do not overlap. -/
def Apart (a b : BitRange) : Prop := a.1 < b.2 ∨ b.1 < a.2

/-- The CPUs which share a register see the same value of it, and the values are 64-bit. -/
structure Machine (E : Nat → RegFile.Env) (S : Regs) : Prop where
  env : ∀ a, RegFile.EnvWF (E a)
  uniform : ∀ a, RegFile.Uniform (E a) (S a)
  reg64 : ∀ a c, RegFile.Reg64 (S a c)

end Verif.MSRFeatures
