import Verif.Model.CacheInfo

/-!
Specification for C130: what the user of `get_cache_info()` expects of the table which `lscpu` printed. Nothing here uses the
functions of the model.
-/

namespace Verif.CacheInfo.Spec

/-- Letters which are no digits of hexadecimal numbers and no part of the prefixes "0x", "0o", "0b". -/
def letters : PyStr := "ghijklmnpqrstuvwyzGHIJKLMNPQRSTUVWYZ".toList

/-- What a printed value means: the decimal text of a number is that number; a text with a letter (like "L1d", "Unified") is
itself; numbers and `null` are themselves. -/
inductive Means : Val → Val → Prop where
  | number (n : Nat) : Means (.text (PyStr.ofNat n)) (.num n)
  | word (s : PyStr) (c : Char) (h : c ∈ s) (hc : c ∈ letters) : Means (.text s) (.text s)
  | num (n : Int) : Means (.num n) (.num n)
  | null : Means .null .null

/-- The same attributes in the same order, with the meaning of the values. -/
def Same : Attrs → Attrs → Prop
  | [], [] => True
  | (k, v) :: r, (k', w) :: r' => k = k' ∧ Means v w ∧ Same r r'
  | _, _ => False

/-- One item per cache, in the order of `lscpu`, under the name of the cache and with its attributes. -/
def Listed : List Attrs → Table → Prop
  | [], [] => True
  | i :: r, (n, a) :: t => i.lookup "name".toList = some n ∧ Same i a ∧ Listed r t
  | _, _ => False

/-- Every value is a decimal number, a text with a letter, or `null`. -/
def Plain (i : Attrs) : Prop := ∀ p ∈ i, ∃ w, Means p.2 w

/-- Every cache has a name. -/
def Named (infos : List Attrs) (names : List Val) : Prop :=
  infos.map (List.lookup "name".toList) = names.map some

end Verif.CacheInfo.Spec
