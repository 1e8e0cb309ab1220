import Verif.Lib.Dict
import Verif.Model.Trivial
import Verif.Model.KernelVersion

/-!
Model of pepclibs/_UncoreFreq.py: uncore frequency via the sysfs files of the kernel driver, and the quirk which
"unlocks" the newer one of its two interfaces.

Simplifications: `\d` matches ASCII digits only, and `$` does not match before a new line at the end of the
string (directory names do not have it). The list of the directories and the files with package and domain
numbers do not change. The dictionaries built from them are the same every time and therefore are not part of
the state; so are file paths (`_path_cache`). After a failure to build them the object is not used any
more. `_SysfsIO` is without transactions, and its cache is not modelled: its effects are not visible to the
callers here, because every file the driver changes on its own is written by the code right after that.
-/

namespace Verif.UncoreFreq

/-- A die: package number and die number. -/
abbrev Die := Int × Int

/-- The sysfs directory of the driver: sub-directories, the contents of the files with package and domain
numbers, and the files with frequencies. `σ` is the state of the kernel. -/
structure Sysfs (σ : Type) where
  lsdir : List PyStr
  packageId : PyStr → Except Exn PyStr
  domainId : PyStr → Except Exn PyStr
  readInt : σ → PyStr → PyStr → Except Exn Int
  writeInt : σ → PyStr → PyStr → Int → σ × Except Exn Unit

/-- The "min" and "max" keys. -/
inductive Key where
  | min
  | max
  deriving DecidableEq, Repr

def Key.str : Key → PyStr
  | .min => "min".toList
  | .max => "max".toList

/-- File name. Models: pepclibs/_UncoreFreq.py:126-127, 133-134. -/
def fname (key : Key) (limit : Bool) : PyStr :=
  (if limit then "initial_".toList else []) ++ key.str ++ "_freq_khz".toList

/-- `f"{n:02d}"`. -/
def fmt02 (n : Int) : PyStr :=
  if 0 ≤ n ∧ n < 10 then '0' :: PyStr.ofInt n else PyStr.ofInt n

/-- Directory name. Models: pepclibs/_UncoreFreq.py:130-135 `_get_legacy_sysfs_api_path()`. -/
def legacyDir (package die : Int) : PyStr :=
  "package_".toList ++ fmt02 package ++ "_die_".toList ++ fmt02 die

/-- Remove a prefix. -/
def dropPrefix (pre s : PyStr) : Option PyStr :=
  if pre.isPrefixOf s then some (s.drop pre.length) else none

/-- `re.match(r"package_(\d+)_die_(\d+)", dirname)`. Models: pepclibs/_UncoreFreq.py:517-520. -/
def parseLegacy (dirname : PyStr) : Option Die :=
  match dropPrefix "package_".toList dirname with
  | none => none
  | some s =>
    match KernelVersion.digits s with
    | none => none
    | some (package, s) =>
      match dropPrefix "_die_".toList s with
      | none => none
      | some s =>
        match KernelVersion.digits s with
        | none => none
        | some (die, _) => some (KernelVersion.toNum package, KernelVersion.toNum die)

/-- `re.match(r"^uncore(\d+)$", dirname)`. Models: pepclibs/_UncoreFreq.py:503. -/
def isUncoreDir (dirname : PyStr) : Bool :=
  match dropPrefix "uncore".toList dirname with
  | none => false
  | some s => !s.isEmpty && s.all KernelVersion.isDigit

/-- Models: pepclibs/_UncoreFreq.py:93-107 `_use_new_sysfs_api()`. -/
def useNew {σ : Type} (fs : Sysfs σ) : Bool := fs.lsdir.any fun dirname => "uncore".toList.isPrefixOf dirname

/-- The dies information dictionary and the directory map. -/
structure Info where
  dies : Dict Int (List Int)
  dirmap : Dict Int (Dict Int PyStr)

/-- Models: pepclibs/_UncoreFreq.py:480-492 `_add_die()`. -/
def addDie (info : Info) (package die : Int) (dirname : PyStr) : Info where
  dies := info.dies.set package (((info.dies.get? package).getD []) ++ [die])
  dirmap := info.dirmap.set package (((info.dirmap.get? package).getD []).set die dirname)

/-- The loop for the new interface. Models: pepclibs/_UncoreFreq.py:502-514. -/
def buildNew {σ : Type} (fs : Sysfs σ) : List PyStr → Info → Except Exn Info
  | [], info => .ok info
  | dirname :: rest, info =>
    if isUncoreDir dirname then
      match fs.packageId dirname with
      | .error e => .error e
      | .ok text =>
        match Trivial.strToInt text with
        | .error e => .error e
        | .ok package =>
          match fs.domainId dirname with
          | .error e => .error e
          | .ok text =>
            match Trivial.strToInt text with
            | .error e => .error e
            | .ok die => buildNew fs rest (addDie info package die dirname)
    else buildNew fs rest info

/-- The loop for the legacy interface. Models: pepclibs/_UncoreFreq.py:516-521. -/
def buildLegacy : List PyStr → Info → Info
  | [], info => info
  | dirname :: rest, info =>
    match parseLegacy dirname with
    | none => buildLegacy rest info
    | some (package, die) => buildLegacy rest (addDie info package die dirname)

/-- Models: pepclibs/_UncoreFreq.py:494-521 `_build_dies_info()`, 109-121 `_get_dies_info()` and
`_get_dirmap()`. -/
def build {σ : Type} (fs : Sysfs σ) : Except Exn Info :=
  if useNew fs then buildNew fs fs.lsdir ⟨[], []⟩ else .ok (buildLegacy fs.lsdir ⟨[], []⟩)

/-- Models: pepclibs/_UncoreFreq.py:523-538 `get_dies_info()`. -/
def getDiesInfo {σ : Type} (fs : Sysfs σ) : Except Exn (Dict Int (List Int)) :=
  match build fs with
  | .error e => .error e
  | .ok info => .ok info.dies

/-- The directory. Models: pepclibs/_UncoreFreq.py:123-128 `_get_new_sysfs_api_path()`. -/
def newDir {σ : Type} (fs : Sysfs σ) (package die : Int) : Except Exn PyStr :=
  match build fs with
  | .error e => .error e
  | .ok info =>
    match info.dirmap.get? package with
    | none => .error .pyKeyError
    | some m =>
      match m.get? die with
      | none => .error .pyKeyError
      | some dirname => .ok dirname

/-- The directory. Models: pepclibs/_UncoreFreq.py:137-157 `_get_sysfs_path_dies()`. -/
def dieDir {σ : Type} (fs : Sysfs σ) (package die : Int) : Except Exn PyStr :=
  if useNew fs then newDir fs package die else .ok (legacyDir package die)

/-- The pairs in the order of the nested loops `for package, pkg_dies in dies.items(): for die in pkg_dies`. -/
def pairs (dies : Dict Int (List Int)) : List Die := dies.flatMap fun (p, ds) => ds.map fun d => (p, d)

/-- Models: pepclibs/_UncoreFreq.py:159-175 `_get_freq_dies()`. The iterator is exhausted by the caller. -/
def getFreqLoop {σ : Type} (fs : Sysfs σ) (s : σ) (key : Key) (limit : Bool) :
    List Die → Except Exn (List (Die × Int))
  | [] => .ok []
  | (package, die) :: rest =>
    match dieDir fs package die with
    | .error e => .error e
    | .ok dirname =>
      match fs.readInt s dirname (fname key limit) with
      | .error e => .error e
      | .ok freq =>
        match getFreqLoop fs s key limit rest with
        | .error e => .error e
        | .ok res => .ok (((package, die), freq * 1000) :: res)

/-- Models: pepclibs/_UncoreFreq.py:177-235 `get_min_freq_dies()`, `get_max_freq_dies()`,
`get_min_freq_limit_dies()`, `get_max_freq_limit_dies()`. -/
def getFreqDies {σ : Type} (fs : Sysfs σ) (s : σ) (key : Key) (limit : Bool) (dies : Dict Int (List Int)) :
    Except Exn (List (Die × Int)) := getFreqLoop fs s key limit (pairs dies)

/-- Reading the values to restore. Models: pepclibs/_UncoreFreq.py:286-292. -/
def saveLoop {σ : Type} (fs : Sysfs σ) (s : σ) (package : Int) (key : Key) :
    List Int → Except Exn (List (PyStr × Int))
  | [] => .ok []
  | die :: rest =>
    match newDir fs package die with
    | .error e => .error e
    | .ok dirname =>
      match fs.readInt s dirname (fname key false) with
      | .error e => .error e
      | .ok freq =>
        match saveLoop fs s package key rest with
        | .error e => .error e
        | .ok saved => .ok ((dirname, freq) :: saved)

/-- Restoring them. Models: pepclibs/_UncoreFreq.py:298-300. The dictionaries indexed by the die number are
represented by the list of what is written: a die number listed twice stands for the same path and the same
value. -/
def restoreLoop {σ : Type} (fs : Sysfs σ) (s : σ) (key : Key) : List (PyStr × Int) → σ × Except Exn Unit
  | [] => (s, .ok ())
  | (dirname, freq) :: rest =>
    match fs.writeInt s dirname (fname key false) freq with
    | (s, .error e) => (s, .error e)
    | (s, .ok ()) => restoreLoop fs s key rest

/-- The body of the inner loop. Models: pepclibs/_UncoreFreq.py:272-300. -/
def unlockKey {σ : Type} (fs : Sysfs σ) (s : σ) (package : Int) (dies : List Int) (key : Key) :
    σ × Except Exn Unit :=
  match fs.readInt s (legacyDir package 0) (fname key true) with
  | .error e => (s, .error e)
  | .ok limit =>
    match fs.readInt s (legacyDir package 0) (fname key false) with
    | .error e => (s, .error e)
    | .ok freq =>
      if freq = limit then (s, .ok ())
      else
        match saveLoop fs s package key dies with
        | .error e => (s, .error e)
        | .ok saved =>
          match fs.writeInt s (legacyDir package 0) (fname key false) limit with
          | (s, .error e) => (s, .error e)
          | (s, .ok ()) => restoreLoop fs s key saved

/-- The two loops. Models: pepclibs/_UncoreFreq.py:270-300. -/
def unlockLoop {σ : Type} (fs : Sysfs σ) : σ → Dict Int (List Int) → σ × Except Exn Unit
  | s, [] => (s, .ok ())
  | s, (package, dies) :: rest =>
    match unlockKey fs s package dies .min with
    | (s, .error e) => (s, .error e)
    | (s, .ok ()) =>
      match unlockKey fs s package dies .max with
      | (s, .error e) => (s, .error e)
      | (s, .ok ()) => unlockLoop fs s rest

/-- The state: the kernel and `_new_sysfs_api_unlocked`. -/
structure State (σ : Type) where
  kernel : σ
  unlocked : Bool

/-- Models: pepclibs/_UncoreFreq.py:250-302 `_unlock_new_sysfs_api()`. -/
def unlock {σ : Type} (fs : Sysfs σ) (st : State σ) : State σ × Except Exn Unit :=
  if st.unlocked then (st, .ok ())
  else
    match build fs with
    | .error e => (st, .error e)
    | .ok info =>
      match unlockLoop fs st.kernel info.dies with
      | (s, .error e) => ({ st with kernel := s }, .error e)
      | (s, .ok ()) => (⟨s, true⟩, .ok ())

/-- Models: pepclibs/_UncoreFreq.py:312-315. -/
def setLoop {σ : Type} (fs : Sysfs σ) (freq : Int) (key : Key) : σ → List Die → σ × Except Exn Unit
  | s, [] => (s, .ok ())
  | s, (package, die) :: rest =>
    match dieDir fs package die with
    | .error e => (s, .error e)
    | .ok dirname =>
      match fs.writeInt s dirname (fname key false) (freq / 1000) with
      | (s, .error e) => (s, .error e)
      | (s, .ok ()) => setLoop fs freq key s rest

/-- Models: pepclibs/_UncoreFreq.py:304-315 `_set_freq_dies()`, 317-343 `set_min_freq_dies()`,
`set_max_freq_dies()`. -/
def setFreqDies {σ : Type} (fs : Sysfs σ) (st : State σ) (freq : Int) (key : Key) (dies : Dict Int (List Int)) :
    State σ × Except Exn Unit :=
  match (if useNew fs then unlock fs st else (st, .ok ())) with
  | (st, .error e) => (st, .error e)
  | (st, .ok ()) =>
    match setLoop fs freq key st.kernel (pairs dies) with
    | (s, r) => ({ st with kernel := s }, r)

/-- `levels` is `CPUInfo.get_cpu_levels()`. Models: pepclibs/_UncoreFreq.py:345-354 `_get_sysfs_path_cpu()`. -/
def cpuDir {σ : Type} (fs : Sysfs σ) (levels : Nat → Except Exn Die) (cpu : Nat) : Except Exn PyStr :=
  match levels cpu with
  | .error e => .error e
  | .ok (package, die) => if useNew fs then newDir fs package die else .ok (legacyDir package die)

/-- Models: pepclibs/_UncoreFreq.py:356-372 `_get_freq_cpus()` and the functions below it. The iterator is
exhausted by the caller. -/
def getFreqCpus {σ : Type} (fs : Sysfs σ) (levels : Nat → Except Exn Die) (s : σ) (key : Key) (limit : Bool) :
    List Nat → Except Exn (List (Nat × Int))
  | [] => .ok []
  | cpu :: rest =>
    match cpuDir fs levels cpu with
    | .error e => .error e
    | .ok dirname =>
      match fs.readInt s dirname (fname key limit) with
      | .error e => .error e
      | .ok freq =>
        match getFreqCpus fs levels s key limit rest with
        | .error e => .error e
        | .ok res => .ok ((cpu, freq * 1000) :: res)

/-- Models: pepclibs/_UncoreFreq.py:444-454 `_set_freq_cpus()` and the two functions below it. -/
def setFreqCpus {σ : Type} (fs : Sysfs σ) (levels : Nat → Except Exn Die) (freq : Int) (key : Key) :
    σ → List Nat → σ × Except Exn Unit
  | s, [] => (s, .ok ())
  | s, cpu :: rest =>
    match cpuDir fs levels cpu with
    | .error e => (s, .error e)
    | .ok dirname =>
      match fs.writeInt s dirname (fname key false) (freq / 1000) with
      | (s, .error e) => (s, .error e)
      | (s, .ok ()) => setFreqCpus fs levels freq key s rest

end Verif.UncoreFreq
