import Verif.Model.PropsCmd
import Verif.Props.PropsTargetSpec
import Verif.Props.HumanPrintSpec
import Verif.Props.HotplugCmdSpec
import Verif.Props.CStatesCmdSpec

/-!
Specification for C97: what the 'info' and 'config' commands for properties have to do, for any class of properties which
keeps the contract.
-/

namespace Verif.PropsCmd

open CPUInfo OpTarget
open PropsBase (Mech PropDesc toTry)
open PropsTarget (Local Within readCpus Shows Strict Plain Splits)
open PropsYaml (Cell)
open HumanPrint (Sys Val Entry Tells Follows Fits Blank)

variable {σ Q : Type}

/-- CPU `c` is one of the CPUs a CPU, die or package number is about. -/
def About (i : Info) (c : Nat) : Cell → Prop
  | (.CPU, _, n) => n = (c : Int)
  | (.die, p, n) => ∃ q u : Nat, p = (q : Int) ∧ n = (u : Int) ∧ CpuWith i (InUnit .die q u) c
  | (.package, _, n) => ∃ q : Nat, n = (q : Int) ∧ CpuWith i (InPackage q) c

/-- The lines tell the values of the properties on the CPUs with `T`, and nothing else: what they tell is wanted, every CPU is
told about unless there is nothing to tell, and only once. `want p c v m` is that `v` should be told for property `p` and CPU
`c`, with mechanism `m`; `skip` is that values which are not supported are not told. -/
structure TellsAbout (S : Sys) (H : Host Q) (K : Cls σ Q) (group : Bool) (action : Option PyStr) (T : Nat → Prop)
    (names : List PyStr) (skip : Bool) (want : PyStr → Nat → Option (Val Q) → PyStr → Prop) (lines : List PyStr)
    (told : List (Entry Q)) : Prop where
  lines : List.Forall₂ (Tells S H.F K.props H.descr group action) lines told
  right : ∀ t, Entry.value t ∈ told → t.pname ∈ names ∧ t.cells ≠ [] ∧
    ∀ cell ∈ t.cells, ∀ c, About H.i c cell → T c ∧ want t.pname c t.val t.mname
  all : ∀ p ∈ names, ∀ c, T c → ∃ v m, want p c v m ∧
    ((skip = true ∧ v = none) ∨ Blank v = true ∨
      ∃ t, Entry.value t ∈ told ∧ t.pname = p ∧ t.val = v ∧ t.mname = m ∧ ∃ cell ∈ t.cells, About H.i c cell)
  once : (told.flatMap Entry.items).Pairwise fun x y => x.2.1 = y.2.1 → ∀ c, About H.i c x.2.2.1 → ¬ About H.i c y.2.2.1
  source : (group = true → Follows none told) ∧ (group = false → ∀ m, Entry.source m ∉ told)

/-- The contract of a class of properties. `held p s c` is what CPU `c` has for property `p`, including what is written in
the transaction and not committed yet; `hw p s c` is what the system has. `R p c v x` is that `x` is right after the property
is set to `v` (already normalized), and `rd p m c x` is what mechanism `m` returns when `x` is read. `Inv` is an invariant
of the state. -/
structure Contract (i : Info) (K : Cls σ Q) {X : Type} (Inv : σ → Prop) (R : PyStr → Nat → Val Q → X → Prop)
    (held hw : PyStr → σ → Nat → X) (rd : PyStr → Mech → Nat → X → Except Exn (Option (Val Q))) : Prop where
  /-- Setting for a CPU changes the property for the CPUs of its unit of the I/O scope, and for no other CPU. -/
  loc : ∀ p P, K.desc p = some P →
    Local i P.iosname (fun c v (x : X × X) => R p c v x.1) (fun s c => (held p s c, hw p s c)) (K.set p)
  /-- Other properties do not change. -/
  others : ∀ p q m v l s, p ≠ q → held q (K.set p m v l s).1 = held q s ∧ hw q (K.set p m v l s).1 = hw q s
  /-- Reading is done for one CPU after another. -/
  get : ∀ s, Inv s → ∀ p m l, K.get s p m l = readCpus (fun c => rd p m c (held p s c)) l
  start : ∀ s p, held p (K.start s).1 = held p s ∧ hw p (K.start s).1 = hw p s
  /-- After a commit, the system has what was written. -/
  commit : ∀ s, Inv s → (K.commit s).2 = .ok () → ∀ p, held p (K.commit s).1 = held p s ∧ hw p (K.commit s).1 = held p s
  /-- A commit, even one which fails, changes nothing where nothing new was written. -/
  keeps : ∀ s, Inv s → ∀ p c, held p s c = hw p s c →
    held p (K.commit s).1 c = held p s c ∧ hw p (K.commit s).1 c = hw p s c
  inv : ∀ s, Inv s → Inv (K.start s).1 ∧ Inv (K.commit s).1 ∧
    ∀ p m v l, (∀ d ∈ l, d ∈ i.online) → Inv (K.set p m v l s).1
  /-- The CPUs of a unit of the I/O scope have the same value. -/
  unit : ∀ p P m s c d, K.desc p = some P → Inv s → SameUnit i P.iosname c d →
    rd p m c (held p s c) = rd p m d (held p s d)
  /-- Values have the right type. -/
  type : ∀ p pi m c x v, K.props.get? p = some pi → rd p m c x = .ok v → Fits pi.type v
  /-- The I/O scope is not wider than the scope. -/
  scopes : ∀ p P, K.desc p = some P → ∀ sn, P.sname = some sn → Within i P.iosname sn
  /-- Both descriptions are about the same properties. -/
  table : ∀ p, (K.desc p).map (·.writable) = (K.props.get? p).map (·.writable)

/-- The cache of the target object is what is left by earlier calls of its methods, which were all strict. -/
def Later (H : Host Q) : Prop :=
  ∀ t ca x, ∃ hist, Strict hist ∧ H.later t ca x = calls H.i t ca hist

/-- Mechanisms are supported by all the CPUs with `T`, or by none of them. -/
def Uniform {X : Type} (T : Nat → Prop) (rd : PyStr → Mech → Nat → X → Except Exn (Option (Val Q))) (val : PyStr → Nat → X) :
    Prop :=
  ∀ p m c d, T c → T d → rd p m c (val p c) = .error .notSupported → rd p m d (val p d) = .error .notSupported

/-- The value to be shown for a property of CPU `c`: what the first of the mechanisms which supports it returns. -/
def Reading {X : Type} (K : Cls σ Q) (rd : PyStr → Mech → Nat → X → Except Exn (Option (Val Q))) (val : PyStr → Nat → X)
    (mnames : Option (List Mech)) (p : PyStr) (c : Nat) (v : Option (Val Q)) (m : PyStr) : Prop :=
  ∃ P, K.desc p = some P ∧ (P.sname = none → v = none) ∧
    (P.sname ≠ none → ∃ mech, m = mechName mech ∧ Shows (fun m c => rd p m c (val p c)) (toTry P mnames) c v mech)

/-- The value to be shown for a property which was set: what the mechanism returns it was set with. -/
def SetReading {X : Type} (K : Cls σ Q) (rd : PyStr → Mech → Nat → X → Except Exn (Option (Val Q))) (val : PyStr → Nat → X)
    (mnames : Option (List Mech)) (p : PyStr) (c : Nat) (v : Option (Val Q)) (m : PyStr) : Prop :=
  ∃ mech, Reading K rd val (some [mech]) p c v m ∧ ∃ P, K.desc p = some P ∧ mech ∈ toTry P mnames

/-- The options are `Plain` for the properties. -/
def PlainFor (i : Info) (a : OpTarget.Args) (K : Cls σ Q) (names : List PyStr) : Prop :=
  ∀ p ∈ names, ∀ P, K.desc p = some P → Plain i a (PropsTarget.scopeOf P.sname none)

/-- The text of a value with the default unit of the property, if there is one, and the text is a number. -/
def Means (K : Cls σ Q) (p text x : PyStr) : Prop :=
  (K.defUnit p = none ∨ K.numText text = none → x = text) ∧
  ∀ u n, K.defUnit p = some u → K.numText text = some n → x = n ++ u

/-- The options without a value, and the options with a value. -/
def asked (o : Dict PyStr (Option PyStr)) : List PyStr := (o.filter fun x => x.2.isNone).map (·.1)

def given (o : Dict PyStr (Option PyStr)) : List PyStr := (o.filter fun x => x.2.isSome).map (·.1)

/-- What the '--mechanisms' option means. -/
def MeansMechs (K : Cls σ Q) : Option PyStr → Option (List Mech) → Prop
  | none, l => l = none
  | some text, l => (text = [] ∧ l = none) ∨
      ∃ ms, l = some ms ∧ (∀ m ∈ ms, m ∈ K.mechs) ∧ CStatesCmd.MeansMechs text (ms.map mechName)

/-- Properties which can be read. -/
structure CanRead {X : Type} (K : Cls σ Q) (rd : PyStr → Mech → Nat → X → Except Exn (Option (Val Q)))
    (val : PyStr → Nat → X) (T : Nat → Prop) (ml : Option (List Mech)) (p : PyStr) : Prop where
  desc : ∃ P sn, K.desc p = some P ∧ P.sname = some sn ∧ sn ≠ .lvl .die ∧ P.mnames ≠ [] ∧
    ∀ l, ml = some l → ∀ m ∈ l, m ∈ P.mnames
  reads : ∀ m c, T c → rd p m c (val p c) = .error .notSupported ∨ ∃ v, rd p m c (val p c) = .ok v

/-- Properties which can be set to the value for the targeted CPUs; `Good` is what the state must be like. -/
structure CanSet (H : Host Q) (K : Cls σ Q) (Good : σ → Prop) (a : OpTarget.Args) (ml : Option (List Mech)) (p : PyStr) (x : Val Q) : Prop where
  desc : ∃ P sn, K.desc p = some P ∧ P.sname = some sn ∧ sn ≠ .lvl .module ∧ sn ≠ .lvl .node ∧ ¬ Splits H.i a sn ∧
    P.writable = true ∧ ∀ l, ml = some l → ∀ m ∈ l, m.writable = true
  norm : ∃ v, K.norm p x = .ok v ∧ ∀ m l s, (∀ d ∈ l, Selected H.i a d) → Good s →
    (K.set p m v l s).2 = .ok () ∧ Good (K.set p m v l s).1

end Verif.PropsCmd
