import Verif.Model.FreqList
import Verif.Props.FreqInfoSpec

/-!
Specification of the acceptable frequencies and of the bus clock (C80).
-/

namespace Verif.FreqList

open Verif.FreqInfo (Host Regs)

/-- The list contains exactly the frequencies from `lo` to `hi` in steps of `b`, in increasing order. -/
structure Steps (lo hi b : Int) (l : List Int) : Prop where
  mem : ∀ f, f ∈ l ↔ lo ≤ f ∧ f ≤ hi ∧ b ∣ f - lo
  sorted : l.Pairwise (· < ·)

/-- The CPUs use the `intel_pstate` driver and have these frequency settings. -/
structure Settings (Q : Props) (cpus : List Nat) (lo hi : Nat → Int) : Prop where
  driver : Q.driver cpus = ⟨cpus.map fun c => (c, "intel_pstate".toList), none⟩
  minFreq : Q.minFreq cpus = ⟨cpus.map fun c => (c, lo c), none⟩
  maxFreq : Q.maxFreq cpus = ⟨cpus.map fun c => (c, hi c), none⟩

end Verif.FreqList
