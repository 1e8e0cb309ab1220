import Verif.Model.TpmiDiscover
import Verif.Props.TpmiSpecFileSpec
import Verif.Lemmas.TpmiDump

/-!
Specification for C90: which spec files and which devices there are.
-/

namespace Verif.Tpmi

/-- The file begins with the three keys in some order: after non-scalars, three pairs of key and value. -/
def HeadSays (evs : List Ev) (name desc : PyStr) (fid : Int) : Prop :=
  ∃ (n : Nat) (pairs : List (PyStr × PyStr)) (t : PyStr) (rest : List Ev),
    evs = List.replicate n .mark ++ pairs.flatMap (fun p => [.scalar p.1, .scalar p.2]) ++ rest ∧ pairs.length = 3 ∧
    ("name".toList, name) ∈ pairs ∧ ("desc".toList, desc) ∈ pairs ∧ ("feature-id".toList, t) ∈ pairs ∧
    Trivial.strToInt t = .ok fid

/-- The file with the number of its directory describes this feature. -/
def Describes (x : Nat × SpecFile) (s : SDict) : Prop :=
  (".yml".toList <:+ x.2.name ∨ ".yaml".toList <:+ x.2.name) ∧
  ∃ evs, x.2.events = .ok evs ∧ HeadSays evs s.name s.desc s.fid ∧ s.dir = x.1 ∧ s.file = x.2.name

/-- All files in the order they are found; `i` is the number of the first directory. -/
def allFiles : Nat → List (List SpecFile) → List (Nat × SpecFile)
  | _, [] => []
  | i, d :: rest => d.map (fun f => (i, f)) ++ allFiles (i + 1) rest

/-- The last file with the feature name is the one of `s`. -/
def LastNamed (files : List (Nat × SpecFile)) (f : PyStr) (s : SDict) : Prop :=
  ∃ pre x post, files = pre ++ x :: post ∧ Describes x s ∧ s.name = f ∧ ∀ y ∈ post, ∀ t, Describes y t → t.name ≠ f

/-- The debugfs directory of the device at the address has the directory of the feature. -/
def HasDir (root : Root) (addr : PyStr) (fid : Int) : Prop :=
  ∃ ents s, ("tpmi-".toList ++ addr, ents) ∈ root ∧ "tpmi-id-".toList ++ s ∈ ents ∧ Hex s ∧ (hexVal s : Int) = fid

/-- The package of the device in the map of the feature. -/
def Found.package? (D : Found) (f a : PyStr) : Option Nat := (D.maps.fmaps.get? f).bind (·.get? a)

/-- Features have names, and different features have different IDs. -/
def Found.Distinct (D : Found) : Prop :=
  (∀ f s, D.sdicts.get? f = some s → f ≠ []) ∧
  ∀ f g s t, D.sdicts.get? f = some s → D.sdicts.get? g = some t → s.fid = t.fid → f = g

/-- The first of the directories which has the file; what the file contains. -/
def FirstFile (dirs : List (List SpecFile)) (name : PyStr) (y : Yaml) : Prop :=
  ∃ pre d post f, dirs = pre ++ d :: post ∧ (∀ d' ∈ pre, ∀ g ∈ d', g.name ≠ name) ∧ f ∈ d ∧ f.name = name ∧ f.load = .ok y

/-- The YAML parser can read the beginning of the file: it yields six scalars, such as three keys with values. The
alternative is an error like a missing permission. -/
def Parses (f : SpecFile) : Prop :=
  f.events = .error .error ∨
  ∃ n vals rest, f.events = .ok (List.replicate n .mark ++ vals.map .scalar ++ rest) ∧ 6 ≤ List.length vals

/-- How many files of the directory satisfy the predicate, as a bound. -/
def AtMost (n : Nat) (P : SpecFile → Prop) (d : List SpecFile) : Prop :=
  ∀ l : List SpecFile, l.Sublist d → (∀ f ∈ l, P f) → l.length ≤ n

/-- The directory is within the limits of the scan. -/
def Scannable (i : Nat) (d : List SpecFile) : Prop :=
  AtMost 32 (fun f => ¬(".yml".toList <:+ f.name ∨ ".yaml".toList <:+ f.name)) d ∧
  AtMost 4 (fun f => (".yml".toList <:+ f.name ∨ ".yaml".toList <:+ f.name) ∧ ∀ s, ¬Describes (i, f) s) d ∧
  AtMost 256 (fun f => ∃ s, Describes (i, f) s) d ∧
  ∀ f ∈ d, Parses f

end Verif.Tpmi
