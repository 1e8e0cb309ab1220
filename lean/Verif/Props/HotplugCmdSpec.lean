import Verif.Props.CPUOnline
import Verif.Props.OpTargetSpec
import Verif.Model.HotplugCmd

/-!
What the options of the 'cpu-hotplug' commands mean (C92): how numbers are written, and which CPUs they are about.
-/

namespace Verif.HotplugCmd

open CPUInfo (Info Nums)
open CPUOnline (Env St)

/-- An element of a list of numbers: a number, or a range. -/
inductive Item
  | one (n : Nat)
  | range (a b : Nat)

/-- How it is written: "5" or "5-7". -/
def Item.text : Item → PyStr
  | .one n => PyStr.ofNat n
  | .range a b => PyStr.ofNat a ++ '-' :: PyStr.ofNat b

/-- Number `n` is one of the numbers. -/
def Item.Has : Item → Nat → Prop
  | .one m, n => n = m
  | .range a b, n => a ≤ n ∧ n ≤ b

/-- A range starts with its smallest number. -/
def Item.Ok : Item → Prop
  | .one _ => True
  | .range a b => a ≤ b

/-- The text is a list of numbers: elements separated by commas, at least one of them; `l` are these numbers. -/
def Lists (text : PyStr) (l : List Nat) : Prop :=
  ∃ items : List Item, items ≠ [] ∧ (∀ x ∈ items, x.Ok) ∧ text = PyStr.joinC ',' (items.map Item.text) ∧
    ∀ n, n ∈ l ↔ ∃ x ∈ items, x.Has n

/-- What an option means: nothing if it is not given, otherwise "all" or a list of numbers. -/
def Means : Option PyStr → Option Nums → Prop
  | none, n => n = none
  | some text, n => (text = "all".toList ∧ n = some .all) ∨ ∃ l, n = some (.nums l) ∧ Lists text l

/-- What an option with siblings indexes means. -/
def MeansSib : Option PyStr → List Nat → Prop
  | none, l => l = []
  | some text, l => Lists text l

/-- What the target options mean, in terms of `OpTarget.Selected`. -/
def Written (o : Opts) (a : OpTarget.Args) : Prop :=
  Means o.cpus a.cpus ∧ (∃ n, Means o.cores n ∧ a.cores = toUnit n) ∧ Means o.modules a.modules ∧
  (∃ n, Means o.dies n ∧ a.dies = toUnit n) ∧ Means o.packages a.packages ∧ MeansSib o.coreSib a.coreSib ∧
  MeansSib o.modSib a.modSib ∧ a.offlineOk = false

/-- `i` describes the host: the same present CPUs, and the CPUs which are online. -/
def Describes (i : Info) (E : Env) (s : St) : Prop :=
  (∀ c, c ∈ i.online ↔ c ∈ E.present ∧ s.online c = true) ∧ ∀ c, c ∈ i.present ↔ c ∈ E.present

/-- CPU numbers are named by the user: '--cpus' with numbers. -/
def Named (o : Opts) : Prop := ∃ text, o.cpus = some text ∧ text ≠ "all".toList

end Verif.HotplugCmd
