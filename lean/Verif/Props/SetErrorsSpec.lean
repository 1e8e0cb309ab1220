import Verif.Model.SetErrors

/-! What C106 says about failed changes. -/

namespace Verif.SetErrors

/-- The exception is not one of the project, it is one of Python itself. -/
def IsPython (e : Exn) : Prop :=
  e = .pyKeyError ∨ e = .pyValueError ∨ e = .pyIndexError ∨ e = .pyTypeError ∨ e = .pyOverflowError ∨ e = .pyUnboundLocal ∨
  e = .pyAttributeError

/-- The first `n` texts which are read are different from `val`. -/
def WrongFor (reads : Nat → Except Exn PyStr) (val : PyStr) (n : Nat) : Prop := ∀ j, j < n → ∃ t, reads j = .ok t ∧ t ≠ val

/-- How many times the file of a CPU is read. -/
def tries (hwp : Bool) : Nat := if hwp then 3 else 1

/-- The CPU takes the frequency `freq` (in Hz; the file has kHz): the file can be written, and one of the texts read afterwards is what
was written. -/
def Takes (H : Host) (freq : Int) (cpu : Nat) : Prop :=
  H.write cpu (PyStr.ofInt (freq / 1000)) = .ok () ∧
  ∃ i, i < tries (H.hwp cpu) ∧ WrongFor (H.reads cpu) (PyStr.ofInt (freq / 1000)) i ∧
    H.reads cpu i = .ok (PyStr.ofInt (freq / 1000))

/-- The file cannot be written. -/
def WriteFails (H : Host) (freq : Int) (cpu : Nat) (e : Exn) : Prop := H.write cpu (PyStr.ofInt (freq / 1000)) = .error e

/-- The file cannot be read. -/
def ReadFails (H : Host) (freq : Int) (cpu : Nat) (e : Exn) : Prop :=
  H.write cpu (PyStr.ofInt (freq / 1000)) = .ok () ∧
  ∃ i, i < tries (H.hwp cpu) ∧ WrongFor (H.reads cpu) (PyStr.ofInt (freq / 1000)) i ∧ H.reads cpu i = .error e

/-- The file has something else, `t` is the last text. -/
def Refuses (H : Host) (freq : Int) (cpu : Nat) (t : PyStr) : Prop :=
  H.write cpu (PyStr.ofInt (freq / 1000)) = .ok () ∧
  WrongFor (H.reads cpu) (PyStr.ofInt (freq / 1000)) (tries (H.hwp cpu)) ∧ H.reads cpu (tries (H.hwp cpu) - 1) = .ok t

/-- The kernel forbids changing EPP of the CPU. -/
def EppForbidden (H : EppHost) (cpu : Nat) : Prop :=
  H.driver cpu = .ok "intel_pstate".toList ∧ H.mode cpu = .ok "active".toList ∧ H.governor cpu = .ok "performance".toList

end Verif.SetErrors
