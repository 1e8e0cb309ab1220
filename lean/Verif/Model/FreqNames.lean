import Verif.Model.FreqInfo
import Verif.Model.PStates

/-!
Model of setting the min. and max. CPU frequency with the iterators of pepclibs/PStates.py as they are: the values
of all the special names, the lazy `zip()` of four iterators, and the fall-back for the "eff" names. In
`Verif.Model.PStates` the values of the names are a parameter and the iterators are consumed eagerly.
-/

namespace Verif.FreqNames

open Verif.PropsBase (Gen Mech)
open Verif.FreqInfo (Kind tryMnames readLoop freqProp)
open Verif.PStates (FVal)

variable {σ : Type}

/-- The host `H` has the base, efficiency and min. operating frequencies. `limit true` is the min. frequency limit of a
CPU in kHz, `limit false` is the max. one; they are read from sysfs. `get m isMin` are the "min_freq" or "max_freq"
values with mechanism `m`, `set m isMin` is the `set_freq_method` of `m`. Simplification: the readers do not change
the state (there are caches behind them, see C71). Models: pepclibs/PStates.py:456-506, 921-925. -/
structure Env (σ : Type) where
  H : FreqInfo.Host
  limit : Bool → Nat → Except Exn Int
  get : Mech → Bool → List Nat → σ → Gen (Nat × Int)
  set : Mech → Bool → Int → List Nat → σ → σ × Except Exn Unit

/-- One of the properties "base_freq", "max_eff_freq" and "min_oper_freq", with all its mechanisms.
Models: pepclibs/_PropsClassBase.py:519-572. -/
def propGen (H : FreqInfo.Host) (k : Kind) (cpus : List Nat) : Gen (Nat × Int) :=
  tryMnames (fun m => FreqInfo.getFreq H k m cpus) (freqProp k).mnames

/-- One limit in Hz. Models: pepclibs/_CPUFreq.py:150-160 with `limit=True`. -/
def limitHz (E : Env σ) (isMin : Bool) (c : Nat) : Except Exn Int :=
  match E.limit isMin c with
  | .error e => .error e
  | .ok khz => .ok (khz * 1000)

/-- The "min_freq_limit" and "max_freq_limit" properties with one mechanism. The mechanism is not used, it is not even
checked that the property has it. Models: pepclibs/PStates.py:500-506, 716-717,
pepclibs/_PropsClassBase.py:519-572. -/
def limitGen (E : Env σ) (isMin : Bool) (cpus : List Nat) (m : Mech) : Gen (Nat × Int) :=
  tryMnames (fun _ => readLoop (limitHz E isMin) cpus) [m]

/-- The max. efficiency frequencies `g` with the fall-back `fb`. `idx` is the index of the last value which was yielded,
or 0, so it is 0 also after the first value. Models: pepclibs/PStates.py:897-909. -/
def effGen (g fb : Gen (Nat × Int)) : Gen (Nat × Int) :=
  match g.err with
  | none => g
  | some e =>
    if e.isNotSupported then
      if g.yields.length - 1 ≠ 0 then g else ⟨g.yields ++ fb.yields, fb.err⟩
    else g

/-- Models: pepclibs/PStates.py:884-914 `_get_numeric_cpu_freq()`. A string which is not one of the names is never a
value (pepclibs/_PropsClassBase.py:987-1003); here comparing it with a number is a `TypeError`. -/
def numericGen (E : Env σ) (v : FVal) (cpus : List Nat) : Gen (Nat × Int) :=
  match v with
  | .min => limitGen E true cpus .sysfs
  | .max => limitGen E false cpus .sysfs
  | .num f => ⟨cpus.map fun c => (c, f), none⟩
  | .other n =>
    if n = "base" ∨ n = "hfm" ∨ n = "P1" then propGen E.H .base cpus
    else if n = "eff" ∨ n = "lfm" ∨ n = "Pn" then
      effGen (propGen E.H .maxEff cpus) (limitGen E true cpus .sysfs)
    else if n = "Pm" then propGen E.H .minOper cpus
    else ⟨[], some .pyTypeError⟩

/-- `zip()` of four iterators: they are advanced one after the other, and it ends with the first one which ends or
raises. Models: pepclibs/PStates.py:933. -/
def zipLoop (e1 e2 e3 e4 : Option Exn) : List (Nat × Int) → List (Nat × Int) → List (Nat × Int) → List (Nat × Int) →
    Gen ((Nat × Int) × (Nat × Int) × (Nat × Int) × (Nat × Int))
  | [], _, _, _ => ⟨[], e1⟩
  | _ :: _, [], _, _ => ⟨[], e2⟩
  | _ :: _, _ :: _, [], _ => ⟨[], e3⟩
  | _ :: _, _ :: _, _ :: _, [] => ⟨[], e4⟩
  | a :: as, b :: bs, c :: cs, d :: ds =>
    let g := zipLoop e1 e2 e3 e4 as bs cs ds
    ⟨(a, b, c, d) :: g.yields, g.err⟩

/-- See `zipLoop`. -/
def zip4 (a b c d : Gen (Nat × Int)) : Gen ((Nat × Int) × (Nat × Int) × (Nat × Int) × (Nat × Int)) :=
  zipLoop a.err b.err c.err d.err a.yields b.yields c.yields d.yields

/-- The loop which fills `freq2cpus`. An exception of an iterator comes after the checks of the values before it.
Models: pepclibs/PStates.py:920-954. -/
def plan (E : Env σ) (isMin : Bool) (v : FVal) (cpus : List Nat) (m : Mech) (s : σ) : Except Exn (Dict Int (List Nat)) :=
  let cur := tryMnames (fun m => E.get m (!isMin) cpus s) [m]
  let g := zip4 (numericGen E v cpus) (limitGen E true cpus m) (limitGen E false cpus m) cur
  match PStates.checkLoop isMin g.yields [] with
  | .error e => .error e
  | .ok d =>
    match g.err with
    | some e => .error e
    | none => .ok d

/-- Models: pepclibs/PStates.py:916-957 `_set_cpu_freq()`. -/
def setCpuFreq (E : Env σ) (isMin : Bool) (v : FVal) (cpus : List Nat) (m : Mech) (s : σ) : σ × Except Exn Unit :=
  match plan E isMin v cpus m s with
  | .error e => (s, .error e)
  | .ok d => PStates.setGroups ⟨fun _ _ _ => .ok [], E.set m⟩ isMin d s

/-- The properties "min_freq" and "max_freq". Models: pepclibs/PStates.py:60-77. -/
def limitProp : PropsBase.PropDesc where
  mnames := [.sysfs, .msr]
  sname := some (.lvl .CPU)
  iosname := .lvl .CPU
  writable := true

/-- `set_prop_cpus()` of "min_freq" and "max_freq" with a normalized value. Models:
pepclibs/_PropsClassBase.py:1035-1063, pepclibs/PStates.py:985-1008. -/
def setProp (E : Env σ) (i : CPUInfo.Info) (isMin : Bool) (v : FVal) (cpus : CPUInfo.Nums) (mnames : Option (List Mech)) (s : σ) :
    σ × Except Exn Mech :=
  PropsBase.setPropCpus i limitProp .ok (fun m v cpus => setCpuFreq E isMin v cpus m) (some v) cpus mnames s

end Verif.FreqNames
