import Verif.Lib.Dict
import Verif.Lib.Exn

/-!
Model of the CPU and uncore frequency logic of pepclibs/PStates.py, of the sysfs part of
pepclibs/_CPUFreq.py and of the P-states setter of pepctool/_PepcSetter.py.

The frequency code exists twice: for CPUs (`_set_cpu_freq()`) and for uncore dies
(`_set_uncore_freq()`). Both do the same, so the model is generic in the type `κ` of the things that
have a frequency: a CPU number, or a (package, die) pair.
-/

namespace Verif.PStates

variable {κ σ : Type}

/-- A frequency value given by the user: "min", "max", another special name ("base", "eff", "mdl", ...)
or a number of Hz. Models: pepclibs/PStates.py:891-914 and 1030-1044. -/
inductive FVal where
  | min
  | max
  | other (name : String)
  | num (f : Int)
  deriving DecidableEq, Repr

/-- What the frequency code knows about the platform: the limits in kHz as the kernel reports them
(`cpuinfo_min_freq` and `cpuinfo_max_freq`, or the `initial_*_freq_khz` files of uncore dies) and the
values of the special names other than "min" and "max". Models: pepclibs/_CPUFreq.py:150-160, 193-215,
pepclibs/_UncoreFreq.py:160-230. -/
structure Plat (κ : Type) where
  loKHz : κ → Int
  hiKHz : κ → Int
  other : String → List κ → Except Exn (List (κ × Int))

/-- The "min_freq_limit" property, Hz. Models: pepclibs/_CPUFreq.py:150-160 with `limit=True`. -/
def Plat.lo (P : Plat κ) (c : κ) : Int := P.loKHz c * 1000

/-- The "max_freq_limit" property, Hz. Models: pepclibs/_CPUFreq.py:150-160 with `limit=True`. -/
def Plat.hi (P : Plat κ) (c : κ) : Int := P.hiKHz c * 1000

/-- A mechanism for getting and setting the min. and max. frequency: "sysfs" or "msr". `get true` is
the "min_freq" property, `get false` is "max_freq"; `set` is the `set_freq_method`.
Models: pepclibs/PStates.py:921-925. -/
structure Backend (κ σ : Type) where
  get : Bool → List κ → σ → Except Exn (List (κ × Int))
  set : Bool → Int → List κ → σ → σ × Except Exn Unit

/-- Models: pepclibs/PStates.py:884-914 `_get_numeric_cpu_freq()` and 1023-1044
`_get_numeric_uncore_freq()`. The iterator is consumed eagerly. -/
def numericFreq (P : Plat κ) (v : FVal) (cpus : List κ) : Except Exn (List (κ × Int)) :=
  match v with
  | .min => .ok (cpus.map fun c => (c, P.lo c))
  | .max => .ok (cpus.map fun c => (c, P.hi c))
  | .other n => P.other n cpus
  | .num f => .ok (cpus.map fun c => (c, f))

/-- The validation loop over the zipped iterators `new`, `lo`, `hi` and `cur`; only the CPU number of the
first one is used. Returns `freq2cpus`.
Models: pepclibs/PStates.py:935-954 and 1064-1084. -/
def checkLoop (isMin : Bool) : List ((κ × Int) × (κ × Int) × (κ × Int) × (κ × Int)) →
    Dict Int (List κ) → Except Exn (Dict Int (List κ))
  | [], d => .ok d
  | ((c, f), (_, lo), (_, hi), (_, cur)) :: rest, d =>
    if f < lo ∨ f > hi then .error .freqRange
    else if isMin ∧ f > cur then .error .freqOrder
    else if ¬ isMin ∧ f < cur then .error .freqOrder
    else checkLoop isMin rest (d.set f ((d.get? f).getD [] ++ [c]))

/-- Models: pepclibs/PStates.py:956-957 and 1086-1087. For uncore the dies of a group are additionally
grouped by package, which only affects the order of the writes. -/
def setGroups (B : Backend κ σ) (isMin : Bool) : Dict Int (List κ) → σ → σ × Except Exn Unit
  | [], s => (s, .ok ())
  | (f, cpus) :: rest, s =>
    match B.set isMin f cpus s with
    | (s, .error e) => (s, .error e)
    | (s, .ok ()) => setGroups B isMin rest s

/-- Models: pepclibs/PStates.py:916-957 `_set_cpu_freq()` and 1046-1087 `_set_uncore_freq()`. The limits
always come from sysfs. The iterators are consumed eagerly, which can only change which one of several
errors is reported. -/
def setFreq (P : Plat κ) (B : Backend κ σ) (isMin : Bool) (v : FVal) (cpus : List κ) (s : σ) :
    σ × Except Exn Unit :=
  match numericFreq P v cpus with
  | .error e => (s, .error e)
  | .ok new =>
    match B.get (!isMin) cpus s with
    | .error e => (s, .error e)
    | .ok cur =>
      let lo := cpus.map fun c => (c, P.lo c)
      let hi := cpus.map fun c => (c, P.hi c)
      match checkLoop isMin (new.zip (lo.zip (hi.zip cur))) [] with
      | .error e => (s, .error e)
      | .ok groups => setGroups B isMin groups s

/-! ### The "sysfs" mechanism -/

/-- The contents of the `scaling_min_freq` and `scaling_max_freq` files, kHz (for uncore:
`min_freq_khz` and `max_freq_khz`). Every CPU has its own files. -/
structure Sysfs (κ : Type) where
  mn : κ → Int
  mx : κ → Int

/-- The file selected by `key`. -/
def Sysfs.file (s : Sysfs κ) (isMin : Bool) (c : κ) : Int := if isMin then s.mn c else s.mx c

/-- Store a number into a file. -/
def Sysfs.write [DecidableEq κ] (s : Sysfs κ) (isMin : Bool) (c : κ) (khz : Int) : Sysfs κ :=
  if isMin then { s with mn := fun d => if d = c then khz else s.mn d }
  else { s with mx := fun d => if d = c then khz else s.mx d }

/-- Models: pepclibs/_CPUFreq.py:150-160 `_get_freq_sysfs()`. Read errors are not modelled. -/
def sysfsGet (isMin : Bool) (cpus : List κ) (s : Sysfs κ) : Except Exn (List (κ × Int)) :=
  .ok (cpus.map fun c => (c, s.file isMin c * 1000))

/-- `wfail c` is the error the kernel refuses a write with, the file is not changed then.
Models: pepclibs/_CPUFreq.py:218-248 `_set_freq_sysfs()`, pepclibs/_UncoreFreq.py:304-315
`_set_freq_dies()`. The kernel storing another number than written (reported as `ErrorVerifyFailed`) is
not modelled. -/
def sysfsSet [DecidableEq κ] (wfail : κ → Option Exn) (isMin : Bool) (f : Int) : List κ → Sysfs κ → Sysfs κ × Except Exn Unit
  | [], s => (s, .ok ())
  | c :: cpus, s =>
    match wfail c with
    | some e => (s, .error e)
    | none => sysfsSet wfail isMin f cpus (s.write isMin c (f / 1000))

/-- The "sysfs" mechanism. -/
def sysfsBackend [DecidableEq κ] (wfail : κ → Option Exn) : Backend κ (Sysfs κ) := ⟨sysfsGet, sysfsSet wfail⟩

/-! ### The setter -/

/-- The frequency properties: `true` is "min_freq" ("min_uncore_freq"), `false` is "max_freq"
("max_uncore_freq"). -/
abbrev PName := Bool

/-- The property name to exchange the order with. For the max. frequency the code computes
`pname.replace("max", "mim")`, which is never a key of `spinfo`.
Models: pepctool/_PepcSetter.py:249-257. -/
def otherPname : PName → Option PName
  | true => some false
  | false => none

/-- Models: pepctool/_PepcSetter.py:222-266 `PStatesSetter._set_prop_sname()` and 25-33
`_PropsSetter._set_prop_sname()`; `set` is `_PepcCommon.set_prop_sname()` (for the fixed target),
`spinfo` are the properties which are still to be set. -/
def setPropSname (set : PName → FVal → σ → σ × Except Exn Unit) (pname : PName)
    (spinfo : Dict PName FVal) (s : σ) : σ × Except Exn (Dict PName FVal) :=
  match spinfo.get? pname with
  | none => (s, .ok spinfo)
  | some v =>
    match set pname v s with
    | (s, .ok ()) => (s, .ok (spinfo.erase pname))
    | (s, .error e) =>
      if e ≠ .freqOrder then (s, .error e)
      else match otherPname pname with
        | none => (s, .error e)
        | some other =>
          match spinfo.get? other with
          | none => (s, .error e)
          | some v' =>
            match set other v' s with
            | (s, .error e) => (s, .error e)
            | (s, .ok ()) =>
              match set pname v s with
              | (s, .error e) => (s, .error e)
              | (s, .ok ()) => (s, .ok ((spinfo.erase other).erase pname))

/-- Models: pepctool/_PepcSetter.py:70-71. -/
def setPropsLoop (set : PName → FVal → σ → σ × Except Exn Unit) :
    List PName → Dict PName FVal → σ → σ × Except Exn Unit
  | [], _, s => (s, .ok ())
  | pname :: rest, spinfo, s =>
    match setPropSname set pname spinfo s with
    | (s, .error e) => (s, .error e)
    | (s, .ok spinfo) => setPropsLoop set rest spinfo s

/-- Models: pepctool/_PepcSetter.py:35-82 `set_props()` for the frequency properties. The transaction
commands, the translation of the default units and the printing are dropped. -/
def setProps (set : PName → FVal → σ → σ × Except Exn Unit) (spinfo : Dict PName FVal) (s : σ) :
    σ × Except Exn Unit :=
  setPropsLoop set spinfo.keys spinfo s

/-- Models: pepctool/_PepcSetter.py:268-291 `PStatesSetter._restore_prop()`; `set` is `_set_prop()`. -/
def restoreProp (set : PName → FVal → List κ → σ → σ × Except Exn Unit) (pname : PName) (v : FVal)
    (nums : List κ) (s : σ) : σ × Except Exn Unit :=
  match set pname v nums s with
  | (s, .ok ()) => (s, .ok ())
  | (s, .error e) =>
    if e ≠ .freqOrder then (s, .error e)
    else if pname then
      match set false .max nums s with
      | (s, .error e) => (s, .error e)
      | (s, .ok ()) => set true v nums s
    else
      match set true .min nums s with
      | (s, .error e) => (s, .error e)
      | (s, .ok ()) => set false v nums s

/-- The saved values of a property: value and the numbers which have this value.
Models: pepctool/_PepcSetter.py:147-165 (inner loop). -/
def restoreInfos (set : PName → FVal → List κ → σ → σ × Except Exn Unit) (pname : PName) :
    List (FVal × List κ) → σ → σ × Except Exn Unit
  | [], s => (s, .ok ())
  | (v, nums) :: rest, s =>
    match restoreProp set pname v nums s with
    | (s, .error e) => (s, .error e)
    | (s, .ok ()) => restoreInfos set pname rest s

/-- Models: pepctool/_PepcSetter.py:138-174 `_restore_props()` for the frequency properties, in the
order of the file. -/
def restoreProps (set : PName → FVal → List κ → σ → σ × Except Exn Unit) :
    List (PName × List (FVal × List κ)) → σ → σ × Except Exn Unit
  | [], s => (s, .ok ())
  | (pname, infos) :: rest, s =>
    match restoreInfos set pname infos s with
    | (s, .error e) => (s, .error e)
    | (s, .ok ()) => restoreProps set rest s

/-! ### Frequency lists and special values -/

/-- The loop `while freq <= max_freq: freqs.append(freq); freq += bclk`. The bus clock is positive, with
a zero bus clock the loop does not end. Models: pepclibs/PStates.py:594-598. -/
def freqGrid (bclk : Nat) (hb : 0 < bclk) (freq max : Int) : List Int :=
  if freq ≤ max then freq :: freqGrid bclk hb (freq + bclk) max else []
  termination_by (max + 1 - freq).toNat
  decreasing_by omega

/-- What one CPU looks like for `_get_frequencies_intel()`. -/
structure FreqInfo where
  driver : String
  minFreq : Int
  maxFreq : Int
  bclk : Nat
  hb : 0 < bclk

/-- Models: pepclibs/PStates.py:577-600 `_get_frequencies_intel()`: what was yielded and the error. -/
def getFrequenciesIntel (info : κ → FreqInfo) : List κ → List (κ × List Int) × Option Exn
  | [] => ([], none)
  | c :: cpus =>
    if (info c).driver ≠ "intel_pstate" then ([], some .notSupported)
    else
      let r := getFrequenciesIntel info cpus
      ((c, freqGrid (info c).bclk (info c).hb (info c).minFreq (info c).maxFreq) :: r.1, r.2)

/-- Python `round(n / d)` for a positive `d`: to the nearest integer, ties to the even one. The floating
point division is modelled as exact: for `|n| < 2^52` a quotient that is not a tie differs from a tie by
at least `1/(2d)`, which is more than the rounding error of the division. -/
def roundDiv (n d : Int) : Int :=
  let q := n / d
  let r := n % d
  if 2 * r < d then q
  else if 2 * r > d then q + 1
  else if q % 2 = 0 then q else q + 1

/-- The value of the special uncore frequency "mdl": `bclk * round(mean([min, max]) / bclk)`.
Models: pepclibs/PStates.py:1034-1040. -/
def mdl (bclk lo hi : Int) : Int := bclk * roundDiv (lo + hi) (2 * bclk)

/-- The platform as seen by the uncore frequency code. Models: pepclibs/PStates.py:1023-1044. An unknown
special name never gets here, it is refused by the value normalisation. -/
def uncorePlat (bclk : κ → Int) (loKHz hiKHz : κ → Int) : Plat κ where
  loKHz := loKHz
  hiKHz := hiKHz
  other n dies :=
    if n = "mdl" then .ok (dies.map fun d => (d, mdl (bclk d) (loKHz d * 1000) (hiKHz d * 1000)))
    else .error .error

/-- The platform as seen by the CPU frequency code. `base`, `eff` and `pm` are the properties
"base_freq", "max_eff_freq" and "min_oper_freq"; `eff` falls back to the min. frequency limit if it is
not supported. Models: pepclibs/PStates.py:891-914. The support of "max_eff_freq" does not change in the
middle of the CPU list. -/
def cpuPlat (base pm : κ → Except Exn Int) (eff : Option (κ → Int)) (loKHz hiKHz : κ → Int) : Plat κ where
  loKHz := loKHz
  hiKHz := hiKHz
  other n cpus :=
    if n = "base" ∨ n = "hfm" ∨ n = "P1" then cpus.mapM fun c => (base c).map fun f => (c, f)
    else if n = "eff" ∨ n = "lfm" ∨ n = "Pn" then
      match eff with
      | some eff => .ok (cpus.map fun c => (c, eff c))
      | none => .ok (cpus.map fun c => (c, loKHz c * 1000))
    else if n = "Pm" then cpus.mapM fun c => (pm c).map fun f => (c, f)
    else .error .error

end Verif.PStates
