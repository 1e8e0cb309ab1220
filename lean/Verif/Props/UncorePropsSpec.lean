import Verif.Model.UncoreProps
import Verif.Props.UncoreSpec

/-!
What the uncore frequency commands (C101) are about. The driver is in Verif/Props/UncoreSpec.lean.
-/

namespace Verif.UncoreProps

open Verif.UncoreFreq
open Verif.PStates (FVal)

/-- The limits of a die are within those of its package, and in order. -/
def Covers (m : Machine) : Prop :=
  ∀ x ∈ m.dies, m.limit x.1 .min ≤ m.dieLimit x .min ∧ m.dieLimit x .min ≤ m.dieLimit x .max ∧
    m.dieLimit x .max ≤ m.limit x.1 .max

/-- An Intel platform without `MSR_FSB_FREQ`: the bus clock is 100 MHz. -/
def Modern (ck : Clock) : Prop := ck.fsb = .error .notSupported ∧ ck.intel = true

/-- The frequency (Hz) a value means for a die. The middle is the multiple of 100 MHz which is the nearest one to
the middle of the limits, see C36. -/
def wanted (m : Machine) (x : Die) : FVal → Option Int
  | .min => some (m.dieLimit x .min * 1000)
  | .max => some (m.dieLimit x .max * 1000)
  | .num f => some f
  | .other n =>
    if n = "mdl" then some (PStates.mdl 100000000 (m.dieLimit x .min * 1000) (m.dieLimit x .max * 1000)) else none

/-- All dies of the dictionary exist. -/
def Exist (m : Machine) (dies : Dict Int (List Int)) : Prop :=
  ∀ p ds d, (p, ds) ∈ dies → d ∈ ds → (p, d) ∈ m.dies

/-- The die is in the dictionary. -/
def Among (dies : Dict Int (List Int)) (x : Die) : Prop := ∃ ds, (x.1, ds) ∈ dies ∧ x.2 ∈ ds

/-- The frequency (Hz) cannot be the min. or max. frequency of the die. -/
def Violates (m : Machine) (s : KState) (isMin : Bool) (x : Die) (f : Int) : Prop :=
  f < m.dieLimit x .min * 1000 ∨ m.dieLimit x .max * 1000 < f ∨
    (if isMin then s.val x .max * 1000 < f else f < s.val x .min * 1000)

/-- Min. and max. frequency of every die are in order, and within the limits of the package. -/
def InOrder (m : Machine) (s : KState) : Prop :=
  ∀ x ∈ m.dies, m.limit x.1 .min ≤ s.val x .min ∧ s.val x .min ≤ s.val x .max ∧
    s.val x .max ≤ m.limit x.1 .max

/-- Min. and max. frequency of the die are in order, and within its limits. -/
def Sane (m : Machine) (s : KState) (x : Die) : Prop :=
  m.dieLimit x .min ≤ s.val x .min ∧ s.val x .min ≤ s.val x .max ∧ s.val x .max ≤ m.dieLimit x .max

/-- A saved property: groups of dies with the same value. `f x` is the saved frequency of die `x` in kHz. -/
structure Saved (infos : List (FVal × Dict Int (List Int))) (K : Die → Prop) (f : Die → Int) : Prop where
  val : ∀ e ∈ infos, ∃ g, e.1 = .num g ∧ ∀ x, Among e.2 x → f x * 1000 = g
  cover : ∀ x, K x ↔ ∃ e ∈ infos, Among e.2 x

end Verif.UncoreProps
