import Verif.Model.PMQoSRestore
import Verif.Props.PMQoSCmdSpec
import Verif.Props.RestoreCmdSpec

/-!
Specification for C100: what the 'pmqos save' and 'pmqos restore' commands are about.
-/

namespace Verif.PMQoSRestore

open PyStr
open Human (Flt)
open HumanPrint (Val)
open PropsYaml (Entry)
open PMQoS (Files)

/-- The file of CPU `c` has the number `n`. -/
def Holds (F : Files) (c n : Nat) : Prop := ∃ t, F c = some t ∧ strip t = ofNat n

/-- A value in a saved file stands for `n` microseconds: it is a floating point number, `n` microseconds in seconds, or it is
a text with a unit (without a unit it would be seconds). -/
inductive Says (fl : Rat → Rat) : Val Flt → Nat → Prop
  | num (n : Nat) : Says fl (.num (.fin (fl (n / 1000000)))) n
  | text (t : PyStr) (n : Nat) : PMQoSCmd.Stands t n → (∃ c ∈ t, c ∈ "hHmMs".toList) → Says fl (.str t) n

/-- The entry is for CPU `c`. -/
def For (e : Entry (Val Flt)) (c : Nat) : Prop :=
  e.sname = .CPU ∧ ∃ t l, e.nums = .text t ∧ HotplugCmd.Lists t l ∧ c ∈ l

/-- An entry for CPUs which can be understood. -/
def ForCpus (e : Entry (Val Flt)) : Prop := e.sname = .CPU ∧ ∃ t l, e.nums = .text t ∧ HotplugCmd.Lists t l

end Verif.PMQoSRestore
