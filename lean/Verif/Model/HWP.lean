import Verif.Model.RegFile
import Verif.Model.PStates

/-!
Model of the `MSR_HWP_REQUEST` part of pepclibs/_CPUFreq.py (class `CPUFreqMSR`) and of
pepclibs/msr/HWPRequest.py.
-/

namespace Verif.HWP

open Verif.Bits (BitRange FieldVal getBits)
open Verif.RegFile (Reg)

/-- The platform: online CPUs, whether package control is supported, the P-core CPUs of a hybrid
processor (empty for other processors) and their scaling factor, the bus clock of every CPU in Hz, the
errors of register writes. The flags are the same for all CPUs.
Models: pepclibs/_CPUFreq.py:830-847, 1243-1272. -/
structure Env where
  online : List Nat
  pkgSup : Bool
  pcore : List Nat
  factor : Nat
  bclk : Nat → Nat
  wfail : Nat → Option Exn

/-- `MSR_HWP_REQUEST` and `MSR_HWP_REQUEST_PKG` as seen from every CPU. -/
structure St where
  req : Reg
  pkg : Reg

/-- The per-CPU register file environment. Models: the "iosname" keys of
pepclibs/msr/HWPRequest.py:24-97. -/
def regEnv (E : Env) : RegFile.Env := ⟨fun c d => c == d, E.wfail⟩

/-- The fields "min_perf" (`true`) and "max_perf" (`false`).
Models: pepclibs/msr/HWPRequest.py:24-41, pepclibs/msr/HWPRequestPkg.py:22-39. -/
def perfBits (isMin : Bool) : BitRange := if isMin then (7, 0) else (15, 8)

/-- The field "pkg_control". Models: pepclibs/msr/HWPRequest.py:53-64. -/
def pkgControlBits : BitRange := (42, 42)

/-- The fields "min_perf_valid" (`true`) and "max_perf_valid" (`false`).
Models: pepclibs/msr/HWPRequest.py:76-97. -/
def validBits (isMin : Bool) : BitRange := if isMin then (63, 63) else (62, 62)

/-- `is_cpu_feature_enabled()` of a one-bit feature. Models: pepclibs/msr/_FeaturedMSR.py:245-278. -/
def bitOn (r : Int) (bits : BitRange) : Except Exn Bool :=
  match getBits r bits with
  | .error e => .error e
  | .ok v => .ok (v == 1)

/-- Models: pepclibs/msr/HWPRequest.py:111-131 `is_cpu_feature_pkg_controlled()`. -/
def pkgControlled (E : Env) (isMin : Bool) (s : St) (c : Nat) : Except Exn Bool :=
  if !E.pkgSup then .ok false
  else match bitOn (s.req c) pkgControlBits with
    | .error e => .error e
    | .ok false => .ok false
    | .ok true =>
      match bitOn (s.req c) (validBits isMin) with
      | .error e => .error e
      | .ok valid => .ok (!valid)

/-- Models: pepclibs/_CPUFreq.py:873-897 `_perf_to_freq()`. -/
def perfToFreq (E : Env) (c : Nat) (perf : Int) : Int :=
  if E.pcore.contains c then
    let freq := perf * E.factor
    freq - freq % E.bclk c
  else perf * E.bclk c

/-- Models: pepclibs/_CPUFreq.py:986-989. The code uses a floating point division for the P-cores,
`int((freq + factor - 1) / factor)`. It is modelled as an exact one: below `2^53` the rounding error of
the division is smaller than the distance of a non-integer quotient to the next integer. -/
def freqToPerf (E : Env) (c : Nat) (freq : Int) : Int :=
  if E.pcore.contains c then (freq + E.factor - 1) / E.factor else freq / E.bclk c

/-- The first loop of `_get_freq_msr()`: what is yielded, and whether to run again.
Models: pepclibs/_CPUFreq.py:911-920. -/
def getLoop1 (E : Env) (isMin : Bool) (s : St) : List Nat → Except Exn (List (Nat × Int) × Bool)
  | [] => .ok ([], false)
  | c :: cpus =>
    match getBits (s.req c) (perfBits isMin) with
    | .error e => .error e
    | .ok perf =>
      match pkgControlled E isMin s c with
      | .error e => .error e
      | .ok true => .ok ([], true)
      | .ok false =>
        match getLoop1 E isMin s cpus with
        | .error e => .error e
        | .ok (l, again) => .ok ((c, perfToFreq E c perf) :: l, again)

/-- The second loop of `_get_freq_msr()`. Models: pepclibs/_CPUFreq.py:931-943. -/
def getLoop2 (E : Env) (isMin : Bool) (s : St) : List Nat → Except Exn (List (Nat × Int))
  | [] => .ok []
  | c :: cpus =>
    match getBits (s.req c) (perfBits isMin) with
    | .error e => .error e
    | .ok perf =>
      match getBits (s.pkg c) (perfBits isMin) with
      | .error e => .error e
      | .ok perfPkg =>
        match pkgControlled E isMin s c with
        | .error e => .error e
        | .ok ctl =>
          match getLoop2 E isMin s cpus with
          | .error e => .error e
          | .ok l => .ok ((c, perfToFreq E c (if ctl then perfPkg else perf)) :: l)

/-- Models: pepclibs/_CPUFreq.py:899-943 `_get_freq_msr()`, consumed to the end. -/
def getFreq (E : Env) (isMin : Bool) (cpus : List Nat) (s : St) : Except Exn (List (Nat × Int)) :=
  match getLoop1 E isMin s cpus with
  | .error e => .error e
  | .ok (l, false) => .ok l
  | .ok (l, true) =>
    let left := cpus.filter fun c => !(l.map Prod.fst).contains c
    match getLoop2 E isMin s left with
    | .error e => .error e
    | .ok l2 => .ok (l ++ l2)

/-- The CPUs with package control enabled. Models: pepclibs/_CPUFreq.py:977-979. -/
def pkgControlCpus (s : St) : List Nat → Except Exn (List Nat)
  | [] => .ok []
  | c :: cpus =>
    match bitOn (s.req c) pkgControlBits with
    | .error e => .error e
    | .ok on =>
      match pkgControlCpus s cpus with
      | .error e => .error e
      | .ok l => .ok (if on then c :: l else l)

/-- Disable package control. It is disabled on *all* CPUs, not only on the requested ones.
Models: pepclibs/_CPUFreq.py:974-980. -/
def disablePkgControl (E : Env) (isMin : Bool) (s : St) : St × Except Exn Unit :=
  if !E.pkgSup then (s, .ok ())
  else match pkgControlCpus s E.online with
    | .error e => (s, .error e)
    | .ok l =>
      match RegFile.writeBits (regEnv E) (validBits isMin) (.num 1) l s.req with
      | (req, .error e) => ({ s with req := req }, if e.isNotSupported then .ok () else .error e)
      | (req, .ok ()) => ({ s with req := req }, .ok ())

/-- Group the CPUs by the performance level. Models: pepclibs/_CPUFreq.py:984-992. -/
def perfGroups (E : Env) (freq : Int) : List Nat → Dict Int (List Nat) → Dict Int (List Nat)
  | [], d => d
  | c :: cpus, d =>
    let perf := freqToPerf E c freq
    perfGroups E freq cpus (d.set perf ((d.get? perf).getD [] ++ [c]))

/-- Models: pepclibs/_CPUFreq.py:994-995. -/
def writePerfs (E : Env) (isMin : Bool) : Dict Int (List Nat) → St → St × Except Exn Unit
  | [], s => (s, .ok ())
  | (perf, cpus) :: rest, s =>
    match RegFile.writeBits (regEnv E) (perfBits isMin) (.num perf) cpus s.req with
    | (req, .error e) => ({ s with req := req }, .error e)
    | (req, .ok ()) => writePerfs E isMin rest { s with req := req }

/-- Models: pepclibs/_CPUFreq.py:967-995 `_set_freq_msr()`. -/
def setFreq (E : Env) (isMin : Bool) (freq : Int) (cpus : List Nat) (s : St) : St × Except Exn Unit :=
  match disablePkgControl E isMin s with
  | (s, .error e) => (s, .error e)
  | (s, .ok ()) => writePerfs E isMin (perfGroups E freq cpus []) s

/-- The "msr" mechanism of the "min_freq" and "max_freq" properties.
Models: pepclibs/PStates.py:921-925. -/
def backend (E : Env) : PStates.Backend Nat St := ⟨getFreq E, setFreq E⟩

end Verif.HWP
