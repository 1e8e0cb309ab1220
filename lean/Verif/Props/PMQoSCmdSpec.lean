import Verif.Model.PMQoSCmd
import Verif.Props.HumanSpec
import Verif.Props.PropsCmdSpec

/-!
Specification for C98: what values of the '--latency-limit' option mean, and what is to be shown.
-/

namespace Verif.PMQoSCmd

open PyStr
open Human (Flt Blank decText decVal Prefix Piece timeVal)
open HumanPrint (Val)

/-- The text stands for `n` microseconds: a plain number, a decimal number of seconds with an SI prefix ("1.5ms"), or a
duration ("1h 30m", the units in order, and the last one not being days). -/
inductive Stands : PyStr → Nat → Prop
  | plain (x y : PyStr) (n : Nat) : Blank x → Blank y → Stands (x ++ ofNat n ++ y) n
  | unit (x y : PyStr) (i : Nat) (ds : List (Fin 10)) (p : Prefix) (n : Nat) : Blank x → Blank y → ds.length ≤ 20 →
    decVal i ds * p.val = n / 1000000 → Stands (x ++ decText i ds ++ y ++ (p.text ++ ['s'])) n
  | time (ps : List Piece) (x y tail : PyStr) (i : Nat) (ds : List (Fin 10)) (c : Char) (n : Nat) :
    (∀ p ∈ ps, Blank p.pre ∧ Blank p.post) → Blank x → Blank y → Blank tail →
    (ps.map (·.unit) ++ [c]).Sublist ['d', 'D', 'h', 'H', 'm', 'M', 's'] → c ≠ 'd' → c ≠ 'D' → ds.length ≤ 20 →
    ((ps.map Piece.secs).sum : Nat) + decVal i ds * timeVal c = n / 1000000 →
    Stands (ps.flatMap Piece.text ++ (x ++ decText i ds ++ y) ++ [c] ++ tail) n

/-- What is to be shown when the files are `F`: the number of microseconds in the file of the CPU, in seconds. -/
def Shown (E : Env) (F : PMQoS.Files) (p : PyStr) (c : Nat) (v : Option (Val Flt)) : Prop :=
  (p = "latency_limit".toList ∧ (F c = none → v = none) ∧
    ∀ t, F c = some t → ∃ us, Trivial.strToInt t = .ok us ∧ v = some (.num (.fin (E.fl (us / 1000000))))) ∨
  (p = "global_latency_limit".toList ∧ (E.cdev = none → v = none) ∧
    ∀ b, E.cdev = some b → v = some (.num (.fin (PMQoS.globalLimit E.fl b))))

/-- And the mechanism. -/
def mechOf (p : PyStr) : PyStr := if p = "latency_limit".toList then "sysfs".toList else "cdev".toList

/-- The system the commands run on: it is described by `S`, has an online CPU, and PM QoS values are printed. -/
structure On (S : HumanPrint.Sys) (H : PropsCmd.Host Flt) (E : Env) : Prop where
  sys : S.Of H.i
  online : H.i.online ≠ []
  fmt : H.F = fmt E.fl
  later : PropsCmd.Later H

/-- All of the CPUs have a file, or none of them has one. -/
def Uniform (T : Nat → Prop) (F : PMQoS.Files) : Prop := ∀ c d, T c → T d → F c = none → F d = none

/-- Before the command: nothing is to be written, and nothing was. -/
def init (F : PMQoS.Files) : St := ⟨F, [], fun _ => 0⟩

end Verif.PMQoSCmd
