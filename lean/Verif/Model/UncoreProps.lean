import Verif.Model.PStates
import Verif.Model.UncoreFreq

/-!
Model of the uncore frequency properties of pepclibs/PStates.py on top of pepclibs/_UncoreFreq.py, and of the
setter of pepctool/_PepcSetter.py for them.

`Verif/Model/PStates.lean` has the same logic for any kind of things with a frequency; here it is with the
dictionaries of dies, with the limits read from the driver, and with the driver which locks its new interface.
The iterators are consumed eagerly, which can only change which one of several errors is reported. The files
with the limits do not change. `_SysfsIO` is without transactions, see `Verif/Model/UncoreFreq.lean`.
-/

namespace Verif.UncoreProps

open Verif.UncoreFreq
open Verif.PStates (FVal PName)

/-- The result of `_get_fsbfreq()`, and whether the vendor is Intel. -/
structure Clock where
  fsb : Except Exn Unit
  intel : Bool

/-- The key for the property: `true` is "min_uncore_freq", `false` is "max_uncore_freq". -/
def keyOf (isMin : Bool) : Key := if isMin then .min else .max

/-- Models: pepclibs/PStates.py:551-570 `_get_bclks_dies()`. -/
def bclksDies (ck : Clock) (dies : Dict Int (List Int)) : Except Exn (List (Die × Int)) :=
  match ck.fsb with
  | .ok () => .error .error
  | .error .notSupported => if ck.intel then .ok ((pairs dies).map fun x => (x, 100000000)) else .error .notSupported
  | .error e => .error e

/-- Models: pepclibs/PStates.py:1038-1040. -/
def mdlLoop : List ((Die × Int) × (Die × Int) × (Die × Int)) → List (Die × Int)
  | [] => []
  | ((x, bclk), (_, lo), (_, hi)) :: rest => (x, PStates.mdl bclk lo hi) :: mdlLoop rest

/-- Models: pepclibs/PStates.py:1023-1044 `_get_numeric_uncore_freq()`. -/
def numericDies {σ : Type} (fs : Sysfs σ) (ck : Clock) (v : FVal) (dies : Dict Int (List Int)) (s : σ) :
    Except Exn (List (Die × Int)) :=
  match v with
  | .min => getFreqDies fs s .min true dies
  | .max => getFreqDies fs s .max true dies
  | .num f => .ok ((pairs dies).map fun x => (x, f))
  | .other n =>
    if n = "mdl" then
      match bclksDies ck dies with
      | .error e => .error e
      | .ok b =>
        match getFreqDies fs s .min true dies with
        | .error e => .error e
        | .ok lo =>
          match getFreqDies fs s .max true dies with
          | .error e => .error e
          | .ok hi => .ok (mdlLoop (b.zip (lo.zip hi)))
    else .error .error

/-- `freq2dies[new_freq][package].append(die)`, with the missing keys created.
Models: pepclibs/PStates.py:1080-1084. -/
def addGroup (d : Dict Int (Dict Int (List Int))) (freq : Int) (x : Die) : Dict Int (Dict Int (List Int)) :=
  let g := (d.get? freq).getD []
  d.set freq (g.set x.1 ((g.get? x.1).getD [] ++ [x.2]))

/-- The validation loop over the zipped iterators. Models: pepclibs/PStates.py:1061-1084. -/
def checkLoop (isMin : Bool) : List ((Die × Int) × (Die × Int) × (Die × Int) × (Die × Int)) →
    Dict Int (Dict Int (List Int)) → Except Exn (Dict Int (Dict Int (List Int)))
  | [], d => .ok d
  | ((x, f), (_, lo), (_, hi), (_, cur)) :: rest, d =>
    if f < lo ∨ f > hi then .error .freqRange
    else if isMin then
      if f > cur then .error .freqOrder else checkLoop isMin rest (addGroup d f x)
    else if f < cur then .error .freqOrder
    else checkLoop isMin rest (addGroup d f x)

/-- Models: pepclibs/PStates.py:1086-1087, 1011-1021 `_set_uncore_freq_prop_dies()`. -/
def setGroups {σ : Type} (fs : Sysfs σ) (isMin : Bool) :
    Dict Int (Dict Int (List Int)) → State σ → State σ × Except Exn Unit
  | [], st => (st, .ok ())
  | (f, dies) :: rest, st =>
    match setFreqDies fs st f (keyOf isMin) dies with
    | (st, .error e) => (st, .error e)
    | (st, .ok ()) => setGroups fs isMin rest st

/-- Models: pepclibs/PStates.py:1046-1087 `_set_uncore_freq()`. -/
def setUncore {σ : Type} (fs : Sysfs σ) (ck : Clock) (isMin : Bool) (v : FVal) (dies : Dict Int (List Int))
    (st : State σ) : State σ × Except Exn Unit :=
  match numericDies fs ck v dies st.kernel with
  | .error e => (st, .error e)
  | .ok new =>
    match getFreqDies fs st.kernel .min true dies with
    | .error e => (st, .error e)
    | .ok lo =>
      match getFreqDies fs st.kernel .max true dies with
      | .error e => (st, .error e)
      | .ok hi =>
        match getFreqDies fs st.kernel (keyOf !isMin) false dies with
        | .error e => (st, .error e)
        | .ok cur =>
          match checkLoop isMin (new.zip (lo.zip (hi.zip cur))) [] with
          | .error e => (st, .error e)
          | .ok groups => setGroups fs isMin groups st

/-- The values of a property for dies. Models: pepclibs/PStates.py:737-762 `_get_uncore_freq_dies()`,
764-773 `_get_prop_dies()`. -/
def getUncore {σ : Type} (fs : Sysfs σ) (isMin limit : Bool) (dies : Dict Int (List Int)) (st : State σ) :
    Except Exn (List (Die × Int)) := getFreqDies fs st.kernel (keyOf isMin) limit dies

/-- The 'config' command for uncore frequencies: the options with their values in the order they are given, for
the dies `dies`. Models: pepctool/_PepcSetter.py:35-82 `set_props()` with 222-266
`PStatesSetter._set_prop_sname()`. -/
def config {σ : Type} (fs : Sysfs σ) (ck : Clock) (dies : Dict Int (List Int)) (opts : Dict PName FVal)
    (st : State σ) : State σ × Except Exn Unit :=
  PStates.setProps (fun p v st => setUncore fs ck p v dies st) opts st

/-- The 'restore' command for uncore frequencies: the properties in the order of the file, each with its values
and the dies which have them. Models: pepctool/_PepcSetter.py:138-174 `_restore_props()` with 268-291
`PStatesSetter._restore_prop()`; the dictionary of dies is a list of pairs. -/
def restore {σ : Type} (fs : Sysfs σ) (ck : Clock) (file : List (PName × List (FVal × Dict Int (List Int))))
    (st : State σ) : State σ × Except Exn Unit :=
  PStates.restoreProps (fun p v dies st => setUncore fs ck p v dies st) file st

end Verif.UncoreProps
