import Verif.Model.ASPMCmd
import Verif.Props.ASPM

/-!
Specification for C96: what the options of the 'aspm' commands mean, what is done and what is printed.
-/

namespace Verif.ASPMCmd

open ASPM (File Devs shown Name)

/-- The policy file is that of a kernel with the given policies, which may or may not obey what is written. -/
structure Kernel (E : Env) (names : List PyStr) : Prop where
  good : ∀ n ∈ names, Name n
  shows : ∀ n ∈ names, ∀ text, E.Kp n = .ok text → ∃ k, k < names.length ∧ text = shown names k

/-- What the argument of '--l1-aspm' means, in any letter case. -/
def MeansState (text : PyStr) (enable : Bool) : Prop :=
  text.map Char.toLower ∈ (if enable then ["true".toList, "on".toList, "enable".toList]
    else ["false".toList, "off".toList, "disable".toList])

/-- What '--policy' does: the file afterwards, and the line. -/
inductive PolicyDone (host : PyStr) (names : List PyStr) (a : Nat) : Option (Option PyStr) → File → List PyStr → Prop
  | notGiven : PolicyDone host names a none (.ok (shown names a)) []
  | print {opt : Option PyStr} {cur : PyStr} (hopt : opt = none ∨ opt = some []) (hcur : names[a]? = some cur) :
    PolicyDone host names a (some opt) (.ok (shown names a)) ["ASPM policy: '".toList ++ cur ++ "'".toList ++ host]
  | change {n cur : PyStr} {k : Nat} (hn : n ≠ []) (hcur : names[a]? = some cur) (hne : n ≠ cur) (hk : names[k]? = some n) :
    PolicyDone host names a (some (some n)) (.ok (shown names k))
      ["Changed ASPM policy from '".toList ++ cur ++ "' to '".toList ++ n ++ "'".toList ++ host]
  | again {n : PyStr} {k : Nat} (hn : n ≠ []) (hcur : names[a]? = some n) (hk : names[k]? = some n) :
    PolicyDone host names a (some (some n)) (.ok (shown names k))
      ["ASPM policy was '".toList ++ n ++ "', set it to '".toList ++ n ++ "' again".toList ++ host]

/-- The line about the current L1 state: the contents of the file is a number, zero means "disabled". -/
def TellsL1 (D : Devs) (d : PyStr) (lines : List PyStr) : Prop :=
  ∃ t, (D d).l1 = some t ∧
    ((PyStr.strip t = ['0'] → lines = ["L1 ASPM: disabled for device '".toList ++ d ++ "'".toList]) ∧
      (PyStr.strip t = ['1'] → lines = ["L1 ASPM: enabled for device '".toList ++ d ++ "'".toList]))

/-- What '--l1-aspm' does: the devices afterwards, and the line. -/
inductive L1Done (host : PyStr) (D : Devs) : Option PyStr → Option (Option PyStr) → Devs → List PyStr → Prop
  | notGiven {device : Option PyStr} : L1Done host D device none D []
  | print {d : PyStr} {opt : Option PyStr} {lines : List PyStr} (hd : d ≠ []) (hopt : opt = none ∨ opt = some [])
    (hl : TellsL1 D d lines) : L1Done host D (some d) (some opt) D lines
  | change {d t new : PyStr} {enable : Bool} {D' : Devs} (hd : d ≠ []) (ht : MeansState t enable)
    (hdev : D' d = { D d with l1 := some new }) (hnew : PyStr.strip new = if enable then ['1'] else ['0'])
    (hother : ∀ a, a ≠ d → D' a = D a) :
    L1Done host D (some d) (some (some t)) D' ["Changed L1 ASPM to '".toList ++ t.map Char.toLower ++ "'".toList ++ host ++
      " for device '".toList ++ d ++ "'".toList]

/-- No device is given. -/
def NoDevice (device : Option PyStr) : Prop := device = none ∨ device = some []

end Verif.ASPMCmd
