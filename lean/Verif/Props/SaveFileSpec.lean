import Verif.Model.SaveFile

/-!
Specification for C124: saved settings are where the user asked for, and restoring from there finds them.
-/

namespace Verif.SaveFile

variable {V : Type}

/-- Where the settings go, as documented (docs/pepc-*.rst, and "-" as with 'restore'): to the standard output without '-o'
or with '-o -', otherwise to the file. -/
inductive Place where
  | stdout
  | file (name : PyStr)
  deriving DecidableEq

def asked : Option PyStr → Place
  | none => .stdout
  | some f => if f = ['-'] then .stdout else .file f

/-- The settings that were read: for 'cstates' first the C-states, then the properties. -/
def Read (r : Save V) (cs props : Dict PyStr V) : Prop :=
  r.props = .ok props ∧ (r.kind = .cstates → r.cstates = .ok (some cs) ∨ r.cstates = .ok none ∧ cs = []) ∧
    (r.kind ≠ .cstates → cs = [])

/-- Python dictionaries: no key is there twice. -/
def Dicts (r : Save V) : Prop :=
  (∀ d, r.props = .ok d → (Dict.keys d).Nodup) ∧ ∀ d, r.cstates = .ok (some d) → (Dict.keys d).Nodup

/-- A loaded dictionary holds the settings: every name of a property and every name of a C-state has its value. -/
def Holds (d cs props : Dict PyStr V) : Prop :=
  ∀ k, d.get? k = (props.get? k).or (cs.get? k)

/-- One of the two parts of the file of 'cstates save' is `{}`: C-states are supported, and there are no C-states or no
properties. -/
def PartMissing (r : Save V) : Prop :=
  r.kind = .cstates ∧ ∃ c p, r.cstates = .ok (some c) ∧ r.props = .ok p ∧ (c = [] ∨ p = [])

/-- The full claim for one command: if it succeeds, restoring from the place that was asked for finds what was read, and
nothing else changed; if it fails, the files are as before. -/
def SavedRight (r : Save V) (fs : Files V) : Prop :=
  match (save r fs).out with
  | .error _ => ∀ f, (save r fs).files f = fs f
  | .ok _ => ∃ cs props d, Read r cs props ∧ Holds d cs props ∧
    match asked r.outfile with
    | .stdout => (∀ f, (save r fs).files f = fs f) ∧
        ∀ fs', restoreLoad (some ['-']) (save r fs).stdout fs' = .ok d
    | .file f => (save r fs).stdout = [] ∧ (∀ g, g ≠ f → (save r fs).files g = fs g) ∧
        ∀ stdin, restoreLoad (some f) stdin (save r fs).files = .ok d

end Verif.SaveFile
