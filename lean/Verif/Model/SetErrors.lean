import Verif.Model.EP
import Verif.Model.CPUFreq

/-!
Model of what happens when a CPU frequency, an EPP value or the mode of the 'intel_pstate' driver cannot be set: the exceptions
and the explanations which are added to them (pepclibs/_SysfsIO.py, pepclibs/_CPUFreq.py, pepclibs/PStates.py).
-/

namespace Verif.SetErrors

/-! ### Frequencies -/

/-- The host: writing the text to the frequency file of a CPU, the texts which are read back from it one after the other, whether the
CPU is an Intel one with hardware power management, and the properties of the CPU (frequencies in Hz). -/
structure Host where
  write : Nat → PyStr → Except Exn Unit
  reads : Nat → Nat → Except Exn PyStr
  hwp : Nat → Bool
  freqs : Nat → Except Exn (List Int)
  turbo : Nat → Except Exn PyStr
  base : Nat → Except Exn (Option Int)

/-- Read until the text is the expected one: `none` if it is, the last text if it never was.
Models: pepclibs/_SysfsIO.py:165-188 `_verify()`; the sleeps are not modelled. -/
def verify (reads : Nat → Except Exn PyStr) (val : PyStr) : Nat → Nat → Except Exn (Option PyStr)
  | retries, i =>
    match reads i with
    | .error e => .error e
    | .ok t =>
      if t = val then .ok none
      else match retries with
        | 0 => .ok (some t)
        | r + 1 => verify reads val r (i + 1)

/-- An exception: one without further data, or 'ErrorVerifyFailed' with the attributes `expected`, `actual` (if it is a number) and
`cpu`. -/
inductive Raised where
  | exn (e : Exn)
  | mismatch (expected : Int) (actual : Option Int) (cpu : Nat)
deriving DecidableEq, Repr

/-- The `actual` attribute: a number if the text is one. Models: pepclibs/_SysfsIO.py:367-368. -/
def actualOf (t : PyStr) : Except Exn (Option Int) :=
  if EP.isInt t then
    match EP.parse10 t with
    | .ok v => .ok (some v)
    | .error e => .error e
  else .ok none

/-- Write an integer and verify it, outside of transactions. The number of retries depends on the CPU.
Models: pepclibs/_SysfsIO.py:338-371 `write_verify_int()`, pepclibs/_CPUFreq.py:226-236. -/
def writeVerify (H : Host) (val : Int) (cpu : Nat) : Except Raised Unit :=
  match H.write cpu (PyStr.ofInt val) with
  | .error e => .error (.exn e)
  | .ok () =>
    match verify (H.reads cpu) (PyStr.ofInt val) (if H.hwp cpu then 2 else 0) 0 with
    | .error e => .error (.exn e)
    | .ok none => .ok ()
    | .ok (some t) =>
      match actualOf t with
      | .error e => .error (.exn e)
      | .ok a => .error (.mismatch val a cpu)

/-- The frequency, in Hz, is written in kHz. The first component are the CPUs which the file was written for.
Models: pepclibs/_CPUFreq.py:217-248 `_set_freq_sysfs()`. -/
def setFreq (H : Host) (freq : Int) : List Nat → List Nat × Except Raised Unit
  | [] => ([], .ok ())
  | cpu :: cpus =>
    match writeVerify H (freq / 1000) cpu with
    | .error r => ([cpu], .error r)
    | .ok () =>
      let (l, r) := setFreq H freq cpus
      (cpu :: l, r)

/-- The explanations: the frequency is not supported, with the ones which are; turbo is disabled, with the base frequency. -/
inductive Hint where
  | unsupported (freq : Int) (freqs : List Int)
  | turbo (base : Int)
deriving DecidableEq, Repr

/-- `with contextlib.suppress(Error)`. -/
def suppress (r : Except Exn (List Hint)) : Except Exn (List Hint) :=
  match r with
  | .ok l => .ok l
  | .error .pyKeyError => .error .pyKeyError
  | .error .pyValueError => .error .pyValueError
  | .error .pyIndexError => .error .pyIndexError
  | .error .pyTypeError => .error .pyTypeError
  | .error .pyOverflowError => .error .pyOverflowError
  | .error .pyUnboundLocal => .error .pyUnboundLocal
  | .error .pyAttributeError => .error .pyAttributeError
  | .error _ => .ok []

/-- Models: pepclibs/PStates.py:825-832. -/
def freqsHint (H : Host) (freq : Int) (actual : Option Int) (cpu : Nat) : Except Exn (List Hint) :=
  match H.freqs cpu with
  | .error e => .error e
  | .ok l =>
    match actual with
    | none => .ok []
    | some a => .ok (if freq ∉ l ∧ a ∈ l then [.unsupported freq l] else [])

/-- Models: pepclibs/PStates.py:834-840. -/
def turboHint (H : Host) (freq : Int) (cpu : Nat) : Except Exn (List Hint) :=
  match H.turbo cpu with
  | .error e => .error e
  | .ok t =>
    if t = "off".toList then
      match H.base cpu with
      | .error e => .error e
      | .ok none => .ok []
      | .ok (some b) => .ok (if b ≠ 0 ∧ freq > b then [.turbo b] else [])
    else .ok []

/-- The explanations for a mismatch; `freq` is the `expected` attribute of the exception. An exception of Python itself is raised in
place of the right one. Models: pepclibs/PStates.py:814-842 `_handle_write_and_read_freq_mismatch()`. -/
def explain (H : Host) (freq : Int) (actual : Option Int) (cpu : Nat) : Except Exn (List Hint) :=
  match suppress (freqsHint H freq actual cpu) with
  | .error e => .error e
  | .ok l =>
    match suppress (turboHint H freq cpu) with
    | .error e => .error e
    | .ok k => .ok (l ++ k)

/-- The result of setting a frequency for CPUs: the CPUs written to, and the exception with the explanations.
Models: pepclibs/PStates.py:844-857 `_set_freq_prop_cpus_sysfs()` for the properties "min_freq" and "max_freq". -/
def setFreqProp (H : Host) (freq : Int) (cpus : List Nat) : List Nat × Except (Exn × List Hint) Unit :=
  match setFreq H freq cpus with
  | (l, .ok ()) => (l, .ok ())
  | (l, .error (.exn e)) => (l, .error (e, []))
  | (l, .error (.mismatch expected actual cpu)) =>
    match explain H expected actual cpu with
    | .error e => (l, .error (e, []))
    | .ok hints => (l, .error (.verifyFailed, hints))

/-- The end of a transaction: the buffered writes are done and verified, nothing is added to the exceptions.
Models: pepclibs/_SysfsIO.py:204-219 `flush_transaction()`, pepctool/_PepcSetter.py:75-76. -/
def commit (H : Host) : List (Nat × Int) → Except (Exn × List Hint) Unit
  | [] => .ok ()
  | (cpu, val) :: l =>
    match H.write cpu (PyStr.ofInt val) with
    | .error e => .error (e, [])
    | .ok () =>
      match verify (H.reads cpu) (PyStr.ofInt val) (if H.hwp cpu then 2 else 0) 0 with
      | .error e => .error (e, [])
      | .ok none => commit H l
      | .ok (some _) => .error (.verifyFailed, [])

/-- Set a frequency in a transaction, as the 'config' command does: the writes are only buffered, then committed. -/
def configFreq (H : Host) (freq : Int) (cpus : List Nat) : Except (Exn × List Hint) Unit :=
  commit H (cpus.map fun cpu => (cpu, freq / 1000))

/-! ### EPP -/

/-- The value as it is given to `set_prop_cpus()`. -/
inductive Val where
  | str (s : PyStr)
  | int (n : Int)
deriving DecidableEq, Repr

/-- What the properties of the CPU are read as. -/
structure EppHost where
  driver : Nat → Except Exn PyStr
  mode : Nat → Except Exn PyStr
  governor : Nat → Except Exn PyStr

/-- Whether the explanation is added; `cpu` is the attribute of the exception.
Models: pepclibs/PStates.py:959-984 `_handle_epp_set_exception()`. -/
def eppExplain (H : EppHost) (val : Val) (sysfs : Bool) (cpu : Option Nat) : Except Exn Bool :=
  if !sysfs then .ok false
  else if val = .str "0".toList ∨ val = .str "performance".toList then .ok false
  else match cpu with
    | none => .ok false
    | some cpu =>
      match H.driver cpu with
      | .error e => .error e
      | .ok driver =>
        if driver ≠ "intel_pstate".toList then .ok false
        else match H.mode cpu with
          | .error e => .error e
          | .ok mode =>
            if mode ≠ "active".toList then .ok false
            else match H.governor cpu with
              | .error e => .error e
              | .ok governor => .ok (decide (governor = "performance".toList))

/-- The exception which is raised after setting EPP failed with `err`, and whether it has the explanation.
Models: pepclibs/PStates.py:989-996. -/
def eppRaise (H : EppHost) (val : Val) (sysfs : Bool) (err : Exn) (cpu : Option Nat) : Exn × Bool :=
  match eppExplain H val sysfs cpu with
  | .error e => (e, false)
  | .ok b => (err, b)

/-! ### The mode of 'intel_pstate' -/

/-- The loop of `set_intel_pstate_mode()` in a transaction: the write is only buffered, and the new mode is in the cache.
Models: pepclibs/_CPUFreq.py:403-410 with pepclibs/_SysfsIO.py:285-299 in a transaction. -/
def modeLoop (E : CPUFreq.Env) (mode : PyStr) : List Nat → SysFiles.Files CPUFreq.Path → Except Exn Unit
  | [], _ => .ok ()
  | cpu :: cpus, F =>
    match CPUFreq.getMode E F cpu with
    | .error e => .error e
    | .ok _ => modeLoop E mode cpus fun q => if q = .status then some mode else F q

/-- Set the mode in a transaction and commit it.
Models: pepctool/_PepcSetter.py:65-76, pepclibs/_CPUFreq.py:383-432 `set_intel_pstate_mode()`. -/
def configMode (E : CPUFreq.Env) (mode : PyStr) (cpus : List Nat) (F : SysFiles.Files CPUFreq.Path) :
    SysFiles.Files CPUFreq.Path × Except Exn Unit :=
  if mode ≠ "active".toList ∧ mode ≠ "passive".toList ∧ mode ≠ CPUFreq.off then (F, .error .error)
  else match modeLoop E mode cpus F with
    | .error e => (F, .error e)
    | .ok () => if cpus = [] then (F, .ok ()) else SysFiles.write E.fs F .status mode

end Verif.SetErrors
