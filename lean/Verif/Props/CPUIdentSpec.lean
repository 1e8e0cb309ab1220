import Verif.Model.CPUIdent

/-! Specification for C109: what 'lscpu' says. -/

namespace Verif.CPUIdent

/-- The value of a "label value" line; spaces around the line and before the value do not matter. -/
def valueAfter (label line : PyStr) : Option PyStr :=
  let s := PyStr.strip line
  if label.isPrefixOf s then some ((s.drop label.length).dropWhile PyStr.isSpace) else none

/-- What the output says for the label: the value of the last line with it. -/
def told (lscpu : List PyStr) (label : PyStr) : Option PyStr := (lscpu.filterMap (valueAfter label)).getLast?

/-- The labels 'lscpu' uses, and the names of the values in the code. -/
def labels : List (PyStr × PyStr) :=
  [("Architecture:".toList, "arch".toList), ("Byte Order:".toList, "byteorder".toList),
   ("Vendor ID:".toList, "vendor".toList), ("Socket(s):".toList, "packages".toList),
   ("CPU family:".toList, "family".toList), ("Model:".toList, "model".toList),
   ("Model name:".toList, "modelname".toList), ("Stepping:".toList, "stepping".toList),
   ("Flags:".toList, "flags".toList)]

/-- A decimal number is a number, what Python does not accept as a number in any base is a text. -/
def Means (v : PyStr) (x : Val) : Prop :=
  (∃ n : Nat, v = PyStr.ofNat n ∧ x = .num n) ∨ (EP.isInt v = false ∧ x = .text v)

/-- The base frequency a model name ends with: "... @ 2.10GHz". -/
def GHz (v f : PyStr) : Prop := ∃ pre sp, v = pre ++ '@' :: sp ++ f ++ "GHz".toList ∧ '@' ∉ f ∧
  (∀ c ∈ sp, PyStr.isSpace c = true) ∧ ∀ c, f.head? = some c → PyStr.isSpace c = false

/-- A character which is in no decimal or hexadecimal number. -/
def NotHex (c : Char) : Prop :=
  ¬('0' ≤ c ∧ c ≤ '9') ∧ ¬('a' ≤ c ∧ c ≤ 'f') ∧ ¬('A' ≤ c ∧ c ≤ 'F') ∧ c ∉ ['+', '-', '_', 'x', 'X'] ∧
    PyStr.isSpace c = false

end Verif.CPUIdent
