import Verif.Lib.Exn
import Verif.Lib.Dict
import Verif.Lib.PyStr

/-!
Model of loading YAML files with include statements (pepclibs/helperlibs/YAML.py). The YAML parser itself is not modelled: a file is
given by what it holds at the top level.
-/

namespace Verif.YamlLoad

/-- A 'pathlib.Path': whether it is absolute, and its components. ".." stays, as in 'pathlib'. -/
structure YPath where
  abs : Bool
  parts : List PyStr
deriving DecidableEq, Repr

/-- `Path(s)`: empty components and "." are dropped. The special root "//" is not modelled. -/
def parsePath (s : PyStr) : YPath :=
  ⟨s.head? == some '/', (PyStr.splitC '/' s).filter fun c => c ≠ [] ∧ c ≠ ".".toList⟩

/-- `path.parent`. -/
def YPath.parent (p : YPath) : YPath := ⟨p.abs, p.parts.dropLast⟩

/-- `dir / p` of a relative path `p`. -/
def YPath.join (dir p : YPath) : YPath := ⟨dir.abs, dir.parts ++ p.parts⟩

/-- The value of a key. Lists and mappings are not looked into: they are empty or not, and have a name. -/
inductive Val where
  | null
  | bool (b : Bool)
  | int (n : Int)
  | text (s : PyStr)
  | coll (empty : Bool) (name : Nat)
deriving DecidableEq, Repr

/-- What a file holds at the top level: nothing (or something else which is false), a mapping, something else. -/
inductive Doc where
  | falsy
  | map (pairs : List (PyStr × Val))
  | other
deriving DecidableEq, Repr

/-- What the value of an include key is good for: it is ignored, it is a path, `Path()` raises 'TypeError'.
Models: pepclibs/helperlibs/YAML.py:145-150. -/
inductive Kind where
  | ignored
  | path (p : YPath)
  | bad
deriving DecidableEq, Repr

def kind : Val → Kind
  | .null => .ignored
  | .bool b => if b then .bad else .ignored
  | .int n => if n = 0 then .ignored else .bad
  | .text s => if s = [] then .ignored else .path (parsePath s)
  | .coll e _ => if e then .ignored else .bad

/-- `str.startswith("include_")`. -/
def reserved (k : PyStr) : Bool := "include_".toList.isPrefixOf k

/-- The pairs of a mapping with the include keys numbered.
Models: pepclibs/helperlibs/YAML.py:91-102. It is called for nested mappings, too. Keys are texts. -/
def rename : Nat → List (PyStr × Val) → Except Exn (List (PyStr × Val))
  | _, [] => .ok []
  | n, (k, v) :: l =>
    if k = "include".toList then
      match rename (n + 1) l with
      | .error e => .error e
      | .ok r => .ok (("include_".toList ++ PyStr.ofNat n, v) :: r)
    else if reserved k then .error .error
    else match rename n l with
      | .error e => .error e
      | .ok r => .ok ((k, v) :: r)

/-- `d.update(l)`. -/
def update (d : Dict PyStr Val) (l : List (PyStr × Val)) : Dict PyStr Val := l.foldl (fun d kv => Dict.set d kv.1 kv.2) d

/-- The constructor of mappings. Models: pepclibs/helperlibs/YAML.py:86-103 `dict_constructor()`. -/
def construct (pairs : List (PyStr × Val)) : Except Exn (Dict PyStr Val) :=
  match rename 0 pairs with
  | .error e => .error e
  | .ok l => .ok (update [] l)

/-- The result of loading: the dictionary and the paths which were included so far; `none` if the limit of the depth was reached. -/
abbrev Res := Option (Except Exn (Dict PyStr Val × List YPath))

/-- The path to include: relative ones need the directory of the including file, which is there only if that file was given as a 'Path'
object. Models: pepclibs/helperlibs/YAML.py:152-153. -/
def resolve (dir : Option YPath) (p : YPath) : Option YPath := if p.abs then some p else dir.map (·.join p)

/-- The loop over the keys. `rec` loads a file. Models: pepclibs/helperlibs/YAML.py:141-160. -/
def entries (rec : YPath → List YPath → Res) (dir : Option YPath) : List (PyStr × Val) → Dict PyStr Val → List YPath → Res
  | [], res, inc => some (.ok (res, inc))
  | (k, v) :: l, res, inc =>
    if !reserved k then entries rec dir l (Dict.set res k v) inc
    else match kind v with
      | .ignored => entries rec dir l res inc
      | .bad => some (.error .error)
      | .path p =>
        match resolve dir p with
        | none => some (.error .pyAttributeError)
        | some q =>
          if q ∈ inc then some (.error .error)
          else match rec q (inc ++ [q]) with
            | none => none
            | some (.error e) => some (.error e)
            | some (.ok (d, inc)) => entries rec dir l (update res d) inc

/-- Models: pepclibs/helperlibs/YAML.py:74-163 `_load()` after the file was opened. -/
def doc (rec : YPath → List YPath → Res) (dir : Option YPath) (contents : Except Exn Doc) (inc : List YPath) : Res :=
  match contents with
  | .error e => some (.error e)
  | .ok .falsy => some (.ok ([], inc))
  | .ok .other => some (.error .pyAttributeError)
  | .ok (.map pairs) =>
    match construct pairs with
    | .error e => some (.error e)
    | .ok d => entries rec dir d [] inc

/-- `_load()` of an included file. `fs` are the files; the exceptions of opening and of parsing are in it. The first argument limits the
depth. Models: pepclibs/helperlibs/YAML.py:74-163 `_load()`. -/
def load (fs : YPath → Except Exn Doc) : Nat → YPath → List YPath → Res
  | 0, _, _ => none
  | n + 1, p, inc => doc (load fs n) (some p.parent) (fs p) inc

/-- What is given to `load()`: a 'Path', a text with a path (the '--from' option of the 'restore' commands), or a file object (standard
input). -/
inductive Src where
  | path (p : YPath)
  | text (s : PyStr)
  | stream (d : Except Exn Doc)

/-- The contents. -/
def Src.contents (fs : YPath → Except Exn Doc) : Src → Except Exn Doc
  | .path p => fs p
  | .text s => fs (parsePath s)
  | .stream d => d

/-- `path.parent`, which only 'Path' objects have. -/
def Src.dir : Src → Option YPath
  | .path p => some p.parent
  | .text _ => none
  | .stream _ => none

/-- Models: pepclibs/helperlibs/YAML.py:166-189 `load()` without rendering. -/
def loadTop (fs : YPath → Except Exn Doc) (n : Nat) (s : Src) : Option (Except Exn (Dict PyStr Val)) :=
  match doc (load fs n) s.dir (s.contents fs) [] with
  | none => none
  | some (.error e) => some (.error e)
  | some (.ok (d, _)) => some (.ok d)

end Verif.YamlLoad
