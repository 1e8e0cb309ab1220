import Verif.Model.FreqInfo

/-!
Model of the "frequencies" and "bus_clock" properties of pepclibs/PStates.py.
-/

namespace Verif.FreqList

open Verif.FreqInfo (Host fsbClock readLoop unsupported)
open Verif.PropsBase (Gen Mech)

/-- The properties the list is built from: what `_get_prop_cpus_mnames()` yields for "driver", "min_freq" and
"max_freq". Models: pepclibs/PStates.py:583-585. -/
structure Props where
  driver : List Nat → Gen (Nat × PyStr)
  minFreq : List Nat → Gen (Nat × Int)
  maxFreq : List Nat → Gen (Nat × Int)

/-- The `while` loop. Simplification: with a bus clock which is not positive the Python loop does not end, here the
result is empty; there is no such bus clock in the tables of pepclibs/msr/FSBFreq.py:22-47.
Models: pepclibs/PStates.py:594-598. -/
def freqRange (freq max bclk : Int) : List Int :=
  if h : 0 < bclk ∧ freq ≤ max then freq :: freqRange (freq + bclk) max bclk else []
termination_by (max + 1 - freq).toNat
decreasing_by omega

/-- Models: pepclibs/PStates.py:532-549 `_get_bclks_cpus()`, which is the same as `_get_bclks()` in
pepclibs/_CPUFreq.py:830-847. -/
def bclksCpus (H : Host) (cpus : List Nat) : Gen (Nat × Int) :=
  match H.fsb with
  | none => if H.intel then readLoop (fun _ => .ok 100000000) cpus else unsupported
  | some (width, codes) =>
    if H.intel then readLoop (fsbClock H width codes) cpus else unsupported

/-- The loop over the zipped iterators, which are advanced from the left to the right.
Models: pepclibs/PStates.py:589-600. -/
def intelLoop (e1 e2 e3 e4 : Option Exn) : List (Nat × PyStr) → List (Nat × Int) → List (Nat × Int) →
    List (Nat × Int) → Gen (Nat × List Int)
  | [], _, _, _ => ⟨[], e1⟩
  | _ :: _, [], _, _ => ⟨[], e2⟩
  | _ :: _, _ :: _, [], _ => ⟨[], e3⟩
  | _ :: _, _ :: _, _ :: _, [] => ⟨[], e4⟩
  | (c, d) :: ds, (_, lo) :: los, (_, hi) :: his, (_, b) :: bs =>
    if d ≠ "intel_pstate".toList then ⟨[], some .notSupported⟩
    else
      let g := intelLoop e1 e2 e3 e4 ds los his bs
      ⟨(c, freqRange lo hi b) :: g.yields, g.err⟩

/-- Models: pepclibs/PStates.py:577-600 `_get_frequencies_intel()`. -/
def frequenciesIntel (H : Host) (Q : Props) (cpus : List Nat) : Gen (Nat × List Int) :=
  let d := Q.driver cpus
  let lo := Q.minFreq cpus
  let hi := Q.maxFreq cpus
  let b := bclksCpus H cpus
  intelLoop d.err lo.err hi.err b.err d.yields lo.yields hi.yields b.yields

/-- Models: pepclibs/_CPUFreq.py:267-293 `get_available_frequencies()`. -/
def availableLoop (H : Host) : List Nat → Gen (Nat × List Int)
  | [] => ⟨[], none⟩
  | c :: cpus =>
    match FreqInfo.available H c with
    | .error e => ⟨[], some e⟩
    | .ok v =>
      let g := availableLoop H cpus
      ⟨(c, v) :: g.yields, g.err⟩

/-- Models: pepclibs/PStates.py:602-617 `_get_frequencies()`. -/
def getFrequencies (H : Host) (Q : Props) (m : Mech) (cpus : List Nat) : Gen (Nat × List Int) :=
  match m with
  | .sysfs => availableLoop H cpus
  | .doc => frequenciesIntel H Q cpus
  | _ => ⟨[], some .error⟩

/-- Models: pepclibs/PStates.py:619-642 `_get_bus_clock()`. -/
def getBusClock (H : Host) (m : Mech) (cpus : List Nat) : Gen (Nat × Int) :=
  match m with
  | .msr =>
    match H.fsb with
    | none => unsupported
    | some (width, codes) => if H.intel then readLoop (fsbClock H width codes) cpus else unsupported
  | .doc =>
    match H.fsb with
    | none => if H.intel then readLoop (fun _ => .ok 100000000) cpus else unsupported
    | some _ => if H.intel then ⟨[], some .tryAnother⟩ else unsupported
  | _ => ⟨[], some .error⟩

/-- Models: pepclibs/PStates.py:102-109, the scope is the one of `_set_sname()`, 1107-1115. `module` tells whether
the register has "module" scope, pepclibs/msr/FSBFreq.py:59, 114-121. -/
def busProp (H : Host) (module : Bool) : PropsBase.PropDesc where
  mnames := [.msr, .doc]
  sname := some (if H.intel && H.fsb.isSome then (if module then .lvl .module else .lvl .core) else .global)
  iosname := if H.intel && H.fsb.isSome then (if module then .lvl .module else .lvl .core) else .global
  writable := false

/-- Models: pepclibs/PStates.py:134-141. -/
def freqsProp : PropsBase.PropDesc where
  mnames := [.sysfs, .doc]
  sname := some (.lvl .CPU)
  iosname := .lvl .CPU
  writable := false

/-- Every yielded value is a value (not `None`). -/
def someVals {V : Type} (g : Gen (Nat × V)) : Gen (Nat × Option V) := ⟨g.yields.map fun p => (p.1, some p.2), g.err⟩

/-- `PStates.get_prop_cpus("bus_clock")`. Models: pepclibs/_PropsClassBase.py:583-621 with
pepclibs/PStates.py:694-735. -/
def getBusProp (i : CPUInfo.Info) (H : Host) (module : Bool) (cpus : CPUInfo.Nums) (mnames : Option (List Mech)) :
    Gen (PropsBase.PVInfo Nat Int) :=
  PropsBase.getPropCpus i (busProp H module) (fun m l => someVals (getBusClock H m l)) cpus mnames

/-- `PStates.get_prop_cpus("frequencies")`. Models: pepclibs/_PropsClassBase.py:583-621 with
pepclibs/PStates.py:694-735. -/
def getFreqsProp (i : CPUInfo.Info) (H : Host) (Q : Props) (cpus : CPUInfo.Nums) (mnames : Option (List Mech)) :
    Gen (PropsBase.PVInfo Nat (List Int)) :=
  PropsBase.getPropCpus i freqsProp (fun m l => someVals (getFrequencies H Q m l)) cpus mnames

end Verif.FreqList
