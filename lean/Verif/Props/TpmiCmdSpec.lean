import Verif.Lemmas.Tpmi
import Verif.Model.TpmiCmd

/-! Specification for C91: what a selection is about, and what the read command should print. -/

namespace Verif.Tpmi

/-- The instances of a device. -/
def nums (M : Machine) (E : Env) (f a : PyStr) : List Nat := (M.lay (a, E.fid f)).map Inst.num

/-- The device `a`, which is in package `p`, meets the restrictions. -/
def Sel.Device (S : Sel) (fm : Dict PyStr Nat) (a : PyStr) (p : Nat) : Prop :=
  fm.get? a = some p ∧ (∀ as, S.addrs = some as → a ∈ as) ∧ (∀ ps, S.packages = some ps → p ∈ ps)

/-- The device, the package and the instance exist and meet the restrictions. -/
def Sel.Target (S : Sel) (M : Machine) (E : Env) (f : PyStr) (fm : Dict PyStr Nat) (t : Triple) : Prop :=
  S.Device fm t.1 t.2.1 ∧ t.2.2 ∈ nums M E f t.1 ∧ ∀ is, S.instances = some is → t.2.2 ∈ is

/-- Nothing is given twice. -/
structure Sel.Nodup (S : Sel) : Prop where
  addrs : ∀ as, S.addrs = some as → as.Nodup
  packages : ∀ ps, S.packages = some ps → ps.Nodup
  instances : ∀ is, S.instances = some is → is.Nodup

/-- Instances are given, or all devices have the same ones. -/
def Sel.Same (S : Sel) (M : Machine) (E : Env) (f : PyStr) (fm : Dict PyStr Nat) : Prop :=
  S.instances = none → ∀ a p b q, S.Device fm a p → S.Device fm b q → ∀ i, i ∈ nums M E f a ↔ i ∈ nums M E f b

/-- What was given exists: the devices, the packages, the devices in the packages, and the instances. -/
structure Sel.Valid (S : Sel) (M : Machine) (E : Env) (f : PyStr) (fm : Dict PyStr Nat) : Prop where
  addrs : ∀ as, S.addrs = some as → ∀ a ∈ as, a ∈ fm.keys
  packages : ∀ ps, S.packages = some ps → ∀ p ∈ ps, p ∈ E.packages
  both : ∀ as ps, S.addrs = some as → S.packages = some ps → ∀ a ∈ as, ∀ p ∈ ps, fm.get? a = some p
  instances : ∀ is, S.instances = some is → ∀ a p, S.Device fm a p → ∀ i ∈ is, i ∈ nums M E f a
  same : S.Same M E f fm

/-- The devices of the feature with their packages, as found by the discovery (see C90). -/
structure FmapOk (E : Env) (f : PyStr) (fm : Dict PyStr Nat) : Prop where
  get : E.fmaps.get? f = some fm
  nodup : fm.keys.Nodup
  pkgs : E.packages.Nodup
  known : ∀ a p, fm.get? a = some p → p ∈ E.packages

/-- The features as the discovery finds them. -/
def EnvOk (E : Env) : Prop := ∀ f fm, E.fmaps.get? f = some fm → FmapOk E f fm

/-- The bits of `x` from `lo` to `hi`. -/
def slice (x hi lo : Nat) : Nat := x / 2 ^ lo % 2 ^ (hi + 1 - lo)

/-- What is printed about a register of an instance: package and value. -/
def shownAt (info : Dict PyStr FeatInfo) (f a : PyStr) (i : Nat) (r : PyStr) : Option (Nat × Nat) :=
  (info.get? f).bind fun fi => (fi.get? a).bind fun d => (d.instances.get? i).bind fun rs =>
    (rs.get? r).map fun ri => (d.package, ri.value)

/-- What is printed about a bit field of a register of an instance. -/
def fieldAt (info : Dict PyStr FeatInfo) (f a : PyStr) (i : Nat) (r b : PyStr) : Option Nat :=
  (info.get? f).bind fun fi => (fi.get? a).bind fun d => (d.instances.get? i).bind fun rs =>
    (rs.get? r).bind fun ri => ri.fields.bind fun fs => fs.get? b

/-- The name does not begin with "RESERVED". -/
def Public (name : PyStr) : Prop := ¬∃ t, name = "RESERVED".toList ++ t

/-- The registers to print: those which were asked for, or those which are not reserved. -/
def WantsReg (regnames : Option (List PyStr)) (r : PyStr) : Prop :=
  match regnames with
  | some l => r ∈ l
  | none => Public r

/-- The bit fields to print: those which were asked for, except for reserved ones, or those which are not reserved. -/
def WantsField (bfnames : Option (List PyStr)) (b : PyStr) : Prop :=
  Public b ∧ ∀ l, bfnames = some l → b ∈ l

end Verif.Tpmi
