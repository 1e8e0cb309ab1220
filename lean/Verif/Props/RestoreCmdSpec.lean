import Verif.Model.RestoreCmd
import Verif.Props.PropsCmdSpec
import Verif.Props.PropsYamlSpec

/-!
Specification for C99: what the 'save' and 'restore' commands for properties have to do, for any class of properties which
keeps the contract of C97.
-/

namespace Verif.RestoreCmd

open CPUInfo OpTarget
open PropsTarget (Where)
open PropsYaml (SName TNums Entry File)
open HumanPrint (Val Sys)
open PropsCmd (Cls Host TellsAbout Reading)
open HotplugCmd (Lists)

variable {σ Q V X : Type}

/-- The entries of a file, in the order of the file, with the names of the properties. -/
def entries (f : File V) : List (PyStr × Entry V) := (f.map fun x => x.2.map fun e => (x.1, e)).flatten

/-- What the numbers of an entry mean: CPUs, packages, or dies of packages. -/
def Means (e : Entry V) : Where → Prop
  | .cpus l => e.sname = .CPU ∧ ∃ t, e.nums = .text t ∧ Lists t l
  | .packages l => e.sname = .package ∧ ∃ t, e.nums = .text t ∧ Lists t l
  | .dies d => e.sname = .die ∧ d.keys.Nodup ∧
      ∃ d', e.nums = .dies d' ∧ List.Forall₂ (fun (x : Nat × PyStr) (y : Nat × List Nat) => x.1 = y.1 ∧ Lists x.2 y.2) d' d

/-- CPU `c` is one of the CPUs. -/
def OnCpu (i : Info) (c : Nat) : Where → Prop
  | .cpus l => c ∈ l
  | .packages l => ∃ p ∈ l, CpuWith i (InPackage p) c
  | .dies d => ∃ pd ∈ d, ∃ u ∈ pd.2, CpuWith i (InUnit .die pd.1 u) c

/-- An entry is about CPU `c`. -/
def NamesCpu (i : Info) (e : Entry V) (c : Nat) : Prop := ∃ w, Means e w ∧ OnCpu i c w

/-- The pairs of properties with ordering constraints. -/
def Paired (p q : PyStr) : Prop :=
  (p, q) ∈ [("min_freq".toList, "max_freq".toList), ("max_freq".toList, "min_freq".toList),
    ("min_uncore_freq".toList, "max_uncore_freq".toList), ("max_uncore_freq".toList, "min_uncore_freq".toList)]

/-- Restoring property `p` may change property `q`: it is the same property, or the other frequency of the pair. -/
def Touches (K : Cls σ Q) (p q : PyStr) : Prop := p = q ∨ (K.freqs = true ∧ Paired p q)

/-- The numbers of an entry can be understood, and the entry is for CPUs, or for units of the scope of the property. -/
structure Proper (K : Cls σ Q) (x : PyStr × Entry V) : Prop where
  means : ∃ w, Means x.2 w
  scope : ∀ q P, Touches K x.1 q → K.desc q = some P →
    (x.2.sname = .die → P.sname = some (.lvl .die)) ∧ (x.2.sname = .package → P.sname = some (.lvl .package))

/-- Entry `y` changes nothing of what entry `x` is about. -/
def Apart (i : Info) (K : Cls σ Q) (x y : PyStr × Entry V) : Prop :=
  Touches K y.1 x.1 → ∀ c, NamesCpu i x.2 c → ¬ NamesCpu i y.2 c

/-- The entry took effect: `val c` is what CPU `c` has for the property of the entry. -/
def Restored (i : Info) (K : Cls σ Q) (R : PyStr → Nat → Val Q → X → Prop) (val : PyStr → Nat → X)
    (x : PyStr × Entry (Val Q)) (c : Nat) : Prop :=
  NamesCpu i x.2 c → ∃ v w, x.2.value = some v ∧ K.norm x.1 v = .ok w ∧ R x.1 c w (val x.1 c)

/-- An item of the list of a property is a dictionary with a value and one scope name; `e` is what it has. -/
def YItem.Is : YItem V → Entry V → Prop
  | .notDict, _ => False
  | .dict value scopes, e => value = some e.value ∧ scopes = [(e.sname, e.nums)]

/-- What is loaded is a dictionary with a list for every property; `f` is what it has. -/
def Loaded.Is : Loaded V → File V → Prop
  | .notDict, _ => False
  | .dict d, f => List.Forall₂ (fun (x : PyStr × YVals V) (y : PyStr × List (Entry V)) =>
      x.1 = y.1 ∧ ∃ l, x.2 = .list l ∧ List.Forall₂ YItem.Is l y.2) d f

/-- The order of the frequencies of a pair is violated only if the new value of one conflicts with the other:
`Conflict p y x` means that property `p` cannot be `y` when the other property of the pair has `x`. -/
structure Ordered (i : Info) (K : Cls σ Q) (Inv : σ → Prop) (held : PyStr → σ → Nat → X)
    (Conflict : PyStr → Val Q → X → Prop) : Prop where
  norm : ∀ p x, K.norm p x ≠ .error .freqOrder
  set : ∀ p q m y l s, Paired p q → Inv s → (∀ d ∈ l, d ∈ i.online) → (K.set p m y l s).2 = .error .freqOrder →
    ∃ d ∈ l, Conflict p y (held q s d)

/-- The CPUs, packages or dies exist, and there is at least one. -/
def There (i : Info) : Where → Prop
  | .cpus l => l ≠ [] ∧ ∀ c ∈ l, c ∈ i.online
  | .packages l => l ≠ [] ∧ ∀ p ∈ l, PkgEx i p
  | .dies d => d ≠ [] ∧ ∀ pd ∈ d, PkgEx i pd.1 ∧ ∀ u ∈ pd.2, UnitEx i .die pd.1 u

/-- Property `p` can be written, and the CPUs with `T` are entire units of its scope. -/
def Writable (i : Info) (K : Cls σ Q) (T : Nat → Prop) (p : PyStr) : Prop :=
  ∃ P sn, K.desc p = some P ∧ P.sname = some sn ∧ sn ≠ .lvl .module ∧ sn ≠ .lvl .node ∧ sn ≠ .lvl .die ∧ P.mnames ≠ [] ∧
    P.writable = true ∧ ∀ c d, T c → SameUnit i sn c d → T d

/-- Property `p`, one of a pair of frequencies, can be set to `y` when the other one is out of the way: a minimum when the maximum
has its highest value, a maximum when the minimum has its lowest value. Otherwise it may be refused because of the order. -/
def Reorders (i : Info) (K : Cls σ Q) (R : PyStr → Nat → Val Q → X → Prop) (held : PyStr → σ → Nat → X) (Good : σ → Prop)
    (T : Nat → Prop) (p : PyStr) (y : Val Q) : Prop :=
  K.freqs = true ∧ ∃ q word z,
    (p, q, word) ∈ [("min_freq".toList, "max_freq".toList, "max".toList), ("max_freq".toList, "min_freq".toList, "min".toList),
      ("min_uncore_freq".toList, "max_uncore_freq".toList, "max".toList),
      ("max_uncore_freq".toList, "min_uncore_freq".toList, "min".toList)] ∧
    Writable i K T q ∧ K.norm q (.str word) = .ok z ∧
    (∀ m l s, (∀ d ∈ l, T d) → Good s → ((K.set p m y l s).2 = .ok () ∨ (K.set p m y l s).2 = .error .freqOrder) ∧
      Good (K.set p m y l s).1) ∧
    (∀ m l s, (∀ d ∈ l, T d) → Good s → (K.set q m z l s).2 = .ok () ∧ Good (K.set q m z l s).1) ∧
    ∀ m l s, (∀ d ∈ l, T d) → Good s → (∀ d ∈ l, R q d z (held q s d)) → (K.set p m y l s).2 = .ok ()

/-- Property `p` of the CPUs with `T` can be restored to `v`: the CPUs are entire units of the scope of the property, the value
is accepted - for a frequency, perhaps only when the other one of the pair is out of the way - and the property can be read.
`Good` is what the state must be like. -/
structure CanRestore (i : Info) (K : Cls σ Q) (R : PyStr → Nat → Val Q → X → Prop)
    (rd : PyStr → PropsBase.Mech → Nat → X → Except Exn (Option (Val Q)))
    (held : PyStr → σ → Nat → X) (Good : σ → Prop) (T : Nat → Prop) (p : PyStr) (v : Option (Val Q)) : Prop where
  desc : Writable i K T p
  norm : ∃ x y, v = some x ∧ K.norm p x = .ok y ∧ ((∀ m l s, (∀ d ∈ l, T d) → Good s →
    (K.set p m y l s).2 = .ok () ∧ Good (K.set p m y l s).1) ∨ Reorders i K R held Good T p y)
  reads : ∀ s, Good s → PropsCmd.CanRead K rd (fun p c => held p s c) T none p ∧
    PropsCmd.Uniform T rd fun p c => held p s c

end Verif.RestoreCmd
