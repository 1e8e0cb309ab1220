import Verif.Model.YamlLoad

/-! What C107 says about include statements: the text of the included file is inserted in place of the statement. -/

namespace Verif.YamlLoad

/-- The pairs of a file. -/
def pairsOf : Doc → Option (List (PyStr × Val))
  | .falsy => some []
  | .map l => some l
  | .other => none

/-- The directory which relative paths start from. -/
inductive Resolves : Option YPath → YPath → YPath → Prop
  | abs (dir : Option YPath) (p : YPath) : p.abs = true → Resolves dir p p
  | rel (dir p : YPath) : p.abs = false → Resolves (some dir) p ⟨dir.abs, dir.parts ++ p.parts⟩

/-- `Expand fs dir pairs out inc`: with the text of the included files in place of the include statements the pairs are `out`; the files
`inc` were included. -/
inductive Expand (fs : YPath → Except Exn Doc) : Option YPath → List (PyStr × Val) → List (PyStr × Val) → List YPath → Prop
  | nil (dir : Option YPath) : Expand fs dir [] [] []
  | plain {dir k v l out inc} : k ≠ "include".toList → ¬ "include_".toList <+: k → Expand fs dir l out inc →
      Expand fs dir ((k, v) :: l) ((k, v) :: out) inc
  | skip {dir v l out inc} : kind v = .ignored → Expand fs dir l out inc → Expand fs dir (("include".toList, v) :: l) out inc
  | file {dir v l out inc p q d pairs out1 inc1} : kind v = .path p → Resolves dir p q → fs q = .ok d → pairsOf d = some pairs →
      Expand fs (some q.parent) pairs out1 inc1 → Expand fs dir l out inc →
      Expand fs dir (("include".toList, v) :: l) (out1 ++ out) (q :: (inc1 ++ inc))

/-- No key is there twice, except for "include". -/
def Clean (pairs : List (PyStr × Val)) : Prop := ((pairs.map Prod.fst).filter (· ≠ "include".toList)).Nodup

/-- The same for all files. -/
def CleanFiles (fs : YPath → Except Exn Doc) : Prop := ∀ p l, fs p = .ok (.map l) → Clean l

/-- The dictionary of pairs: the keys are in the order of their first occurrences, the last value of a key counts. -/
def IsDictOf (d : Dict PyStr Val) (pairs : List (PyStr × Val)) : Prop :=
  Dict.keys d = (pairs.map Prod.fst).eraseDups ∧ ∀ k, Dict.get? d k = (pairs.reverse.find? fun kv => kv.1 = k).map Prod.snd

/-- The pairs of a file in the directory `dir` include files in `S` only. -/
def Closed (S : List YPath) (dir : Option YPath) (pairs : List (PyStr × Val)) : Prop :=
  ∀ v p q, ("include".toList, v) ∈ pairs → kind v = .path p → Resolves dir p q → q ∈ S

/-- The files in `S` include files in `S` only. -/
def ClosedFiles (fs : YPath → Except Exn Doc) (S : List YPath) : Prop :=
  ∀ q l, q ∈ S → fs q = .ok (.map l) → Closed S (some q.parent) l

end Verif.YamlLoad
