import Verif.Model.UncoreFreq

/-!
What the uncore frequency properties (C56, C64, C65) are about: the kernel's 'intel_uncore_frequency_tpmi'
driver.

The driver has a directory for every die of every package, with the frequencies in kHz, and a "legacy"
directory for every package. Writing a minimum or maximum frequency to the legacy directory sets it for all
dies of the package, and from then on the directories of the dies refuse values beyond it. Reading it gives
the lowest minimum or the highest maximum of the dies.
-/

namespace Verif.UncoreFreq

/-- The constant part: names of the directories; package and die of a directory, if it is a directory of a die;
limits of the packages and the dies; write operations that fail for other reasons. -/
structure Machine where
  ls : List PyStr
  domain : PyStr → Option Die
  limit : Int → Key → Int
  dieLimit : Die → Key → Int
  wfail : PyStr → PyStr → Int → Option Exn

/-- The frequencies of the dies, and the bounds set via the legacy directories. -/
structure KState where
  val : Die → Key → Int
  cap : Int → Key → Option Int

namespace Machine

variable (m : Machine)

/-- All dies, in the order of the directories. -/
def dies : List Die := m.ls.filterMap m.domain

/-- The package of a legacy directory. -/
def legacyPkg (dir : PyStr) : Option Int :=
  (m.dies.map Prod.fst).find? fun p => decide (legacyDir p 0 = dir)

/-- The file names: key, and whether it is the limit. -/
def fileOf (f : PyStr) : Option (Key × Bool) :=
  if f = "min_freq_khz".toList then some (.min, false)
  else if f = "max_freq_khz".toList then some (.max, false)
  else if f = "initial_min_freq_khz".toList then some (.min, true)
  else if f = "initial_max_freq_khz".toList then some (.max, true)
  else none

/-- The bound set via the legacy directory permits the value. -/
def accepts (s : KState) (p : Int) (key : Key) (v : Int) : Bool :=
  match s.cap p key, key with
  | none, _ => true
  | some c, .max => decide (v ≤ c)
  | some c, .min => decide (c ≤ v)

/-- The values of the dies of a package. -/
def vals (s : KState) (p : Int) (key : Key) : List Int :=
  (m.dies.filter fun x => x.1 == p).map fun x => s.val x key

/-- The legacy value. -/
def combined (s : KState) (p : Int) : Key → Option Int
  | .min => (m.vals s p .min).min?
  | .max => (m.vals s p .max).max?

def read (s : KState) (dir f : PyStr) : Except Exn Int :=
  match m.domain dir, fileOf f with
  | some x, some (key, false) => .ok (s.val x key)
  | some x, some (key, true) => .ok (m.dieLimit x key)
  | none, some (key, limit) =>
    match m.legacyPkg dir with
    | none => .error .notFound
    | some p =>
      if limit then .ok (m.limit p key)
      else
        match m.combined s p key with
        | none => .error .notFound
        | some v => .ok v
  | _, none => .error .notFound

/-- Set the frequency of one die. -/
def setOne (s : KState) (x : Die) (key : Key) (v : Int) : KState :=
  { s with val := fun x' key' => if x' = x ∧ key' = key then v else s.val x' key' }

/-- Set the frequency of all dies of a package, via the legacy directory. -/
def setAll (s : KState) (p : Int) (key : Key) (v : Int) : KState where
  val := fun x key' => if x ∈ m.dies ∧ x.1 = p ∧ key' = key then v else s.val x key'
  cap := fun p' key' => if p' = p ∧ key' = key then some v else s.cap p' key'

def write (s : KState) (dir f : PyStr) (v : Int) : KState × Except Exn Unit :=
  match m.wfail dir f v with
  | some e => (s, .error e)
  | none =>
    match m.domain dir, fileOf f with
    | some x, some (key, false) =>
      if accepts s x.1 key v then (setOne s x key v, .ok ()) else (s, .error .error)
    | none, some (key, false) =>
      match m.legacyPkg dir with
      | none => (s, .error .notFound)
      | some p => (m.setAll s p key v, .ok ())
    | _, _ => (s, .error .permissionDenied)

/-- The directory as seen by the code. -/
def sysfs : Sysfs KState where
  lsdir := m.ls
  packageId := fun dir =>
    match m.domain dir with
    | some (p, _) => .ok (PyStr.ofInt p ++ ['\n'])
    | none => .error .notFound
  domainId := fun dir =>
    match m.domain dir with
    | some (_, d) => .ok (PyStr.ofInt d ++ ['\n'])
    | none => .error .notFound
  readInt := m.read
  writeInt := m.write

/-- The directories of the dies are those named "uncore" and a number; no two are for the same die. There is at
least one. -/
structure WF : Prop where
  nodup : m.ls.Nodup
  named : ∀ dir, (m.domain dir).isSome ↔
    dir ∈ m.ls ∧ ∃ t, dir = "uncore".toList ++ t ∧ t ≠ [] ∧ ∀ c ∈ t, 48 ≤ c.toNat ∧ c.toNat ≤ 57
  inj : ∀ a b x, m.domain a = some x → m.domain b = some x → a = b
  nonneg : ∀ dir p d, m.domain dir = some (p, d) → 0 ≤ p
  some_die : m.dies ≠ []

/-- Values within the limit of the package. -/
def InLimit (p : Int) : Key → Int → Prop
  | .min, v => m.limit p .min ≤ v
  | .max, v => v ≤ m.limit p .max

/-- The states the driver can be in: the frequencies of the dies are within the limits and the bounds. -/
def Good (s : KState) : Prop :=
  ∀ x ∈ m.dies, ∀ key, m.InLimit x.1 key (s.val x key) ∧ accepts s x.1 key (s.val x key) = true

/-- Every value within the limits is accepted. -/
def Unlocked (s : KState) : Prop :=
  ∀ x ∈ m.dies, ∀ key v, m.InLimit x.1 key v → accepts s x.1 key v = true

end Machine

/-- What setting frequencies does to the frequencies of the dies: the new value for the given ones, in whole
kHz; the others stay. -/
def setSpec (val : Die → Key → Int) (freq : Int) (key : Key) (dies : List Die) : Die → Key → Int :=
  fun x key' => if x ∈ dies ∧ key' = key then freq / 1000 else val x key'

end Verif.UncoreFreq
