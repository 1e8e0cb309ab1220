import Verif.Model.OpTarget
import Verif.Props.Topology

/-!
What the target options mean (C52, C53), independently of how the code finds it out. Only the `Args`
structure of the model is used, and at the end its methods for the histories of calls.
-/

namespace Verif.OpTarget

open Verif.CPUInfo

/-- Package `p` exists. -/
def PkgEx (i : Info) (p : Nat) : Prop := p ≠ NA ∧ ∃ t ∈ i.topology, t.package = p

/-- There is core or die `u` in package `p`. -/
def UnitEx (i : Info) (lvl : Level) (p u : Nat) : Prop :=
  u ≠ NA ∧ p ≠ NA ∧ ∃ t ∈ i.topology, t.package = p ∧ t.get lvl = u

/-- Module `m` exists. -/
def ModEx (i : Info) (m : Nat) : Prop := m ≠ NA ∧ ∃ t ∈ i.topology, t.module = m

/-- The option is given (an empty list of numbers is the same as no option). -/
def Given : Option Nums → Prop
  | .none => False
  | some .all => True
  | some (.nums l) => l ≠ []

/-- The option is given and selects number `n`. -/
def Picks : Option Nums → Nat → Prop
  | .none, _ => False
  | some .all, _ => True
  | some (.nums l), n => n ∈ l

/-- The cores or dies option is given. -/
def UnitGiven : UnitArg → Prop
  | .none => False
  | .nums n => Given (some n)
  | .dict d => d ≠ []

/-- The cores or dies option includes at least one number. -/
def UnitNumbers : UnitArg → Prop
  | .none => False
  | .nums n => Given (some n)
  | .dict d => ∃ pu ∈ d, pu.2 ≠ []

/-- No option is given, which means "everything". -/
def Nothing (a : Args) : Prop :=
  ¬ Given a.cpus ∧ ¬ UnitGiven a.cores ∧ ¬ Given a.modules ∧ ¬ UnitGiven a.dies ∧ ¬ Given a.packages

/-- Package `p` is one of the packages the core and die numbers are relative to: all packages unless
packages are given. -/
def PkgScope (a : Args) (p : Nat) : Prop := Given a.packages → Picks a.packages p

/-- The cores (or dies) option selects core (die) `u` of package `p`. -/
def PicksUnit (a : Args) : UnitArg → Nat → Nat → Prop
  | .none, _, _ => False
  | .nums n, p, u => Picks (some n) u ∧ PkgScope a p
  | .dict d, p, u => ∃ us, (p, us) ∈ d ∧ u ∈ us

/-- CPU `c` is selected by one of the options. Package numbers select CPUs only if there are no core or die
numbers, otherwise they qualify the core and die numbers. -/
def Union (i : Info) (a : Args) (c : Nat) : Prop :=
  (Nothing a ∧ c ∈ (if a.offlineOk then i.present else i.online)) ∨
  (∃ n, a.cpus = some n ∧ Requested i a.offlineOk n c) ∨
  CpuWith i (fun t => PicksUnit a a.cores t.package t.core) c ∨
  CpuWith i (fun t => Picks a.modules t.module) c ∨
  CpuWith i (fun t => PicksUnit a a.dies t.package t.die) c ∨
  (¬ UnitNumbers a.cores ∧ ¬ UnitNumbers a.dies ∧ CpuWith i (fun t => Picks a.packages t.package) c)

/-- CPU `c` is targeted: one of the options selects it, and the sibling index options keep it. -/
def Selected (i : Info) (a : Args) (c : Nat) : Prop :=
  Union i a c ∧
  (a.coreSib ≠ [] → CpuWith i (fun t => position i (fun b => [b.core, b.package]) t ∈ a.coreSib) c) ∧
  (a.modSib ≠ [] → CpuWith i (fun t => position i (fun b => [b.module]) t ∈ a.modSib) c)

/-- Core (die) numbers are taken to be for every package in question (as opposed to being looked up in all
packages): packages are given, or all dies or all cores are asked for. -/
def PerPackage (a : Args) : Prop := Given a.packages ∨ a.dies = .nums .all ∨ a.cores = .nums .all

/-- Package `p` is one of the packages the options are about: it is given, or no packages are given and the
options are about all packages (no options at all, or all cores or all dies are asked for). -/
def PkgIn (a : Args) (p : Nat) : Prop :=
  Picks a.packages p ∨ (¬ Given a.packages ∧ (Nothing a ∨ PerPackage a))

/-- The core (die) numbers of the option exist. Without packages a number must exist in exactly one
package. -/
def ValidUnits (i : Info) (a : Args) (lvl : Level) : UnitArg → Prop
  | .none => True
  | .nums .all => True
  | .nums (.nums l) => ∀ u ∈ l,
      (PerPackage a → ∀ p, PkgEx i p → PkgScope a p → UnitEx i lvl p u) ∧
      (¬ PerPackage a → ∃ p, UnitEx i lvl p u ∧ ∀ q, UnitEx i lvl q u → q = p)
  | .dict d => ∀ pu ∈ d, PkgEx i pu.1 ∧ ∀ u ∈ pu.2, UnitEx i lvl pu.1 u

/-- All the numbers given by the user exist. -/
def Valid (i : Info) (a : Args) : Prop :=
  (∀ l, a.cpus = some (.nums l) → ∀ c ∈ l, c ∈ (if a.offlineOk then i.present else i.online)) ∧
  (∀ l, a.modules = some (.nums l) → ∀ m ∈ l, ModEx i m) ∧
  (∀ l, a.packages = some (.nums l) → ∀ p ∈ l, PkgEx i p) ∧
  ValidUnits i a .core a.cores ∧ ValidUnits i a .die a.dies

/-- Module numbers are globally unique. -/
def ModulesUnique (i : Info) : Prop :=
  ∀ a ∈ i.topology, ∀ b ∈ i.topology, a.cpu ≠ NA → b.cpu ≠ NA → a.module = b.module →
    a.package = b.package

/-- A call of one of the methods of an `OpTarget` object. -/
inductive Call
  | cpus
  | dies (strict : Bool)
  | packages (strict : Bool)
  deriving DecidableEq

/-- The cached results after a call. -/
def call (i : Info) (t : Tgt) (ca : Cache) : Call → Cache
  | .cpus => (getCpus i t ca).2
  | .dies strict => (getDies i t strict ca).2
  | .packages strict => (getPackages' i t strict ca).2

/-- The cached results after any number of calls. -/
def calls (i : Info) (t : Tgt) (ca : Cache) (h : List Call) : Cache := h.foldl (call i t) ca

end Verif.OpTarget
