import Verif.Lib.Groups
import Verif.Model.FreqNames
import Verif.Props.FreqInfoSpec

/-!
Specification of setting the CPU frequency limits to frequencies given by name (C120).
-/

namespace Verif.FreqNames

open Verif.CPUInfo (Info)
open Verif.PropsBase (Mech)
open Verif.FreqInfo (Kind getProp cpusOf)
open Verif.PStates (FVal)

variable {σ : Type}

/-- `get_prop_cpus()` says that property `k` of every CPU in `cpus` is `f`. -/
def Shown (i : Info) (H : FreqInfo.Host) (k : Kind) (cpus : List Nat) (f : Nat → Int) : Prop :=
  ∃ m, getProp i H k (.nums cpus) none = ⟨cpus.map fun c => ⟨c, some (f c), m⟩, none⟩

/-- `get_prop_cpus()` says that property `k` is not supported. -/
def NotShown (i : Info) (H : FreqInfo.Host) (k : Kind) (cpus : List Nat) : Prop :=
  ∃ m, getProp i H k (.nums cpus) none = ⟨cpus.map fun c => ⟨c, none, m⟩, none⟩

/-- The documented meaning of a frequency value: `f` is the frequency in Hz for each of the CPUs. -/
def Means (i : Info) (E : Env σ) (cpus : List Nat) (f : Nat → Int) : FVal → Prop
  | .num g => ∀ c ∈ cpus, f c = g
  | .min => ∀ c ∈ cpus, ∃ khz, E.limit true c = .ok khz ∧ f c = khz * 1000
  | .max => ∀ c ∈ cpus, ∃ khz, E.limit false c = .ok khz ∧ f c = khz * 1000
  | .other n =>
    (n ∈ ["base", "hfm", "P1"] ∧ Shown i E.H .base cpus f) ∨
    (n ∈ ["eff", "lfm", "Pn"] ∧ Shown i E.H .maxEff cpus f) ∨
    (n ∈ ["eff", "lfm", "Pn"] ∧ NotShown i E.H .maxEff cpus ∧
      ∀ c ∈ cpus, ∃ khz, E.limit true c = .ok khz ∧ f c = khz * 1000) ∨
    (n = "Pm" ∧ Shown i E.H .minOper cpus f)

/-- A value is within the limits (kHz), and on the right side of the other limit in effect (Hz). -/
def Allowed (isMin : Bool) (lo hi cur f : Int) : Prop :=
  lo * 1000 ≤ f ∧ f ≤ hi * 1000 ∧ (if isMin then f ≤ cur else cur ≤ f)

/-- The calls in `d` give every CPU in `cpus` its own frequency `f`, and nothing to other CPUs. -/
def Assigns (d : Dict Int (List Nat)) (cpus : List Nat) (f : Nat → Int) : Prop :=
  ∀ c g, (∃ cs, (g, cs) ∈ d ∧ c ∈ cs) ↔ c ∈ cpus ∧ g = f c

/-- The readers of the current limits report the CPUs in order, and all of them unless they fail. -/
def InOrder (E : Env σ) (cpus : List Nat) : Prop :=
  ∀ m b s, cpusOf (E.get m b cpus s) <+: cpus ∧ ((E.get m b cpus s).err = none → cpusOf (E.get m b cpus s) = cpus)

/-- The "sysfs" mechanism works on the files, and the kernel accepts the numbers. -/
structure SysfsFiles (E : Env (PStates.Sysfs Nat)) : Prop where
  get : ∀ b cpus s, E.get .sysfs b cpus s = ⟨cpus.map fun c => (c, s.file b c * 1000), none⟩
  set : ∀ b f cpus s, E.set .sysfs b f cpus s = PStates.sysfsSet (fun _ => none) b f cpus s

end Verif.FreqNames
