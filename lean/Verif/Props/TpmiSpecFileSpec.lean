import Verif.Model.TpmiSpecFile

/-!
Specification for C89: what a TPMI spec file says, as a relation between the loaded YAML and a list of
register definitions.
-/

namespace Verif.Tpmi

/-- The lists have the same length, and the relation holds between elements at the same positions. -/
def Each {α β : Type} (R : α → β → Prop) : List α → List β → Prop
  | [], [] => True
  | a :: as, b :: bs => R a b ∧ Each R as bs
  | _, _ => False

/-- A bit field: name, highest and lowest bit. -/
structure FieldDef where
  name : PyStr
  hi : Nat
  lo : Nat
  deriving DecidableEq

/-- A register: name, offset, width and bit fields. -/
structure RegDef where
  name : PyStr
  offset : Int
  width : Nat
  fields : List FieldDef
  deriving DecidableEq

/-- Upper case: a capital letter and no small ones. -/
def Upper (s : PyStr) : Prop :=
  (∃ c ∈ s, 'A' ≤ c ∧ c ≤ 'Z') ∧ ∀ c ∈ s, ¬('a' ≤ c ∧ c ≤ 'z')

/-- The text between colons, empty pieces dropped, is two integers, the second one not larger. -/
def BitsText (s : PyStr) (hi lo : Nat) : Prop :=
  ∃ a b, (PyStr.splitC ':' s).filter (fun p => p ≠ []) = [a, b] ∧
    Trivial.strToInt a = .ok (hi : Int) ∧ Trivial.strToInt b = .ok (lo : Int) ∧ lo ≤ hi

/-- The dictionary has these keys and no others. -/
def HasKeys (d : Dict PyStr Yaml) (keys : List PyStr) : Prop := ∀ k, k ∈ d.keys ↔ k ∈ keys

/-- A description: a string without line breaks. (A dictionary passes too, unless a line break is a key.) -/
def DescOK : Yaml → Prop
  | .str s => '\n' ∉ s
  | .dict d => ['\n'] ∉ Dict.keys d
  | _ => False

/-- The entry of the "fields" dictionary is this bit field. -/
def SaysField (e : PyStr × Yaml) (F : FieldDef) : Prop :=
  e.1 = F.name ∧ Upper F.name ∧ ∃ (d : Dict PyStr Yaml) (s : Yaml) (t : PyStr), e.2 = .dict d ∧ HasKeys d ["bits".toList, "desc".toList] ∧
    d.get? "desc".toList = some s ∧ DescOK s ∧ d.get? "bits".toList = some (.str t) ∧ BitsText t F.hi F.lo

/-- The entry of the "registers" dictionary is this register. -/
def SaysReg (e : PyStr × Yaml) (R : RegDef) : Prop :=
  e.1 = R.name ∧ Upper R.name ∧ ∃ (d fl : Dict PyStr Yaml), e.2 = .dict d ∧
    HasKeys d ["fields".toList, "offset".toList, "width".toList] ∧
    d.get? "offset".toList = some (.int R.offset) ∧ R.offset % 4 = 0 ∧
    d.get? "width".toList = some (.int R.width) ∧ (R.width = 32 ∨ R.width = 64) ∧
    d.get? "fields".toList = some (.dict fl) ∧ Each SaysField fl R.fields

/-- The file defines these registers. -/
def Says (y : Yaml) (regs : List RegDef) : Prop :=
  ∃ (d rl : Dict PyStr Yaml), y = .dict d ∧
    HasKeys d ["name".toList, "desc".toList, "feature-id".toList, "registers".toList] ∧
    d.get? "registers".toList = some (.dict rl) ∧ Each SaysReg rl regs

/-- A loaded bit field extracts the bits of the definition, and replaces just them. -/
def FieldMeans (F : FieldDef) (e : PyStr × Field) : Prop :=
  e.1 = F.name ∧
  (∀ v k, (getBitfield e.2 v).testBit k = (decide (F.lo + k ≤ F.hi) && v.testBit (F.lo + k))) ∧
  ∀ v x, x < 2 ^ (F.hi - F.lo + 1) → ∀ k, (setBitfield e.2 v x).testBit k =
    if F.lo ≤ k ∧ k ≤ F.hi then x.testBit (k - F.lo) else v.testBit k

/-- A loaded register has the offset, the width and the bit fields of the definition. -/
def RegMeans (R : RegDef) (e : PyStr × SpecReg) : Prop :=
  e.1 = R.name ∧ e.2.offset = R.offset ∧ e.2.width = R.width ∧ Each FieldMeans R.fields e.2.fields

end Verif.Tpmi
