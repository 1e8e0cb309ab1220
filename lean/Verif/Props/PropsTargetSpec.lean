import Verif.Model.PropsTarget
import Verif.Props.OpTarget
import Verif.Props.PropsBase

/-!
What reading and changing a property of the target means (C86, C87).
-/

namespace Verif.PropsTarget

open CPUInfo OpTarget PropsBase

variable {V σ : Type}

/-- The contract of the method which writes a property with I/O scope `ios`; `val s c` is what CPU `c` has for the property,
and `R c v x` tells that `x` is right for CPU `c` after the property is set to `v`: it is `x = v` when values are kept as
they are, and something else when, for example, they are rounded. Writing for a CPU changes what the CPUs of the same unit of
the I/O scope have, and nothing for any other CPU. The CPUs must be online. Nothing is said about the CPUs of these units when the method fails. -/
structure Local {H : Type} (i : Info) (ios : Scope) (R : Nat → V → H → Prop) (val : σ → Nat → H)
    (set : Mech → V → List Nat → σ → σ × Except Exn Unit) : Prop where
  keeps : ∀ m v l s, (∀ d ∈ l, d ∈ i.online) → ∀ c, (∀ d ∈ l, ¬ SameUnit i ios d c) → val (set m v l s).1 c = val s c
  sets : ∀ m v l s, (∀ d ∈ l, d ∈ i.online) → (set m v l s).2 = .ok () → ∀ d ∈ l, ∀ c, SameUnit i ios d c →
    R c v (val (set m v l s).1 c)

/-- The units of scope `a` are not wider than the units of scope `b`. -/
def Within (i : Info) (a b : Scope) : Prop := ∀ c d, SameUnit i a c d → SameUnit i b c d

/-- The requested target has a part of a unit of the scope, but not the entire unit. -/
def Splits (i : Info) (a : Args) (s : Scope) : Prop :=
  ∃ c d, Selected i a c ∧ SameUnit i s c d ∧ ¬ Selected i a d

/-- The options the claims are limited to, for a property accessed with scope `s`. Module numbers do not repeat if they are
used for module sibling indexes; for properties with die (package) scope, every die (package) the options name has a
targeted CPU, unless it has no CPUs at all. -/
structure Plain (i : Info) (a : Args) (s : Scope) : Prop where
  modules : a.modSib ≠ [] → ModulesUnique i
  dies : s = .lvl .die → ∀ p u,
    DieIn i a p u ∨ (OnlyPackages a ∧ Picks a.packages p ∧ UnitEx i .die p u) →
    (∃ c, CpuWith i (InUnit .die p u) c) → ∃ c, CpuWith i (InUnit .die p u) c ∧ Selected i a c
  packages : s = .lvl .package → ∀ p, PkgIn a p → PkgEx i p →
    (∃ c, CpuWith i (InPackage p) c) → ∃ c, CpuWith i (InPackage p) c ∧ Selected i a c

/-- No earlier call with `strict=False`. -/
def Strict (hist : List Call) : Prop := .dies false ∉ hist ∧ .packages false ∉ hist

/-- The scope a property is accessed with. -/
def scopeOf (sname override : Option Scope) : Scope := override.getD (sname.getD (.lvl .CPU))

/-- Read a property for CPUs one after another. Models: the `for` loops of the `_get_prop_cpus()` generators; `read c`
is what the body of the loop does for CPU `c`. -/
def readCpus (read : Nat → Except Exn (Option V)) : List Nat → Gen (Nat × Option V)
  | [] => ⟨[], none⟩
  | c :: cs =>
    match read c with
    | .error e => ⟨[], some e⟩
    | .ok v =>
      let g := readCpus read cs
      ⟨(c, v) :: g.yields, g.err⟩

/-- What must be shown for CPU `c` when mechanisms `ms` are allowed: what the first mechanism which supports the property
returns, or nothing if no mechanism does. -/
def Shows (read : Mech → Nat → Except Exn (Option V)) (ms : List Mech) (c : Nat) (v : Option V) (m : Mech) : Prop :=
  (∃ pre post, ms = pre ++ m :: post ∧ (∀ p ∈ pre, read p c = .error .notSupported) ∧ read m c = .ok v) ∨
  ((∀ p ∈ ms, read p c = .error .notSupported) ∧ v = none ∧ m ∈ ms)

/-- A mechanism supports the property on all the CPUs or on none of them. -/
def Agree (T : Nat → Prop) (read : Mech → Nat → Except Exn (Option V)) (ms : List Mech) : Prop :=
  ∀ m ∈ ms, ∀ c d, T c → T d → read m c = .error .notSupported → read m d = .error .notSupported

/-- Reading works or is not supported. -/
def Reads (T : Nat → Prop) (read : Mech → Nat → Except Exn (Option V)) (ms : List Mech) : Prop :=
  ∀ m ∈ ms, ∀ c, T c → read m c = .error .notSupported ∨ ∃ v, read m c = .ok v

/-- CPU `c` is one of the CPUs an item is about. -/
def Covers (i : Info) (c : Nat) : Item V → Prop
  | .cpu pv => pv.num = c
  | .die pv => CpuWith i (InUnit .die pv.num.1 pv.num.2) c
  | .package pv => CpuWith i (InPackage pv.num) c

/-- The value of an item. -/
def Item.val : Item V → Option V
  | .cpu pv => pv.val
  | .die pv => pv.val
  | .package pv => pv.val

/-- The mechanism of an item. -/
def Item.mname : Item V → Mech
  | .cpu pv => pv.mname
  | .die pv => pv.mname
  | .package pv => pv.mname

end Verif.PropsTarget
