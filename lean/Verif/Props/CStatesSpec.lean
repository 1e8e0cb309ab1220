import Verif.Model.CStates
import Verif.Props.PCStateConfigCtl
import Verif.Props.PropsBase

/-!
Specification for C82: what the C-state properties mean in terms of the registers and files.
-/

namespace Verif.CStates

open Verif.Bits (getBits)
open Verif.RegFile (EnvWF Uniform)
open Verif.FeaturedMSR (Val Means SameText)
open Verif.PCStateConfigCtl (Limits limitFeature allLimits Decodes)
open Verif.CPUInfo (Scope WF)

/-- The name of a switch position. -/
def onOff (b : Bool) : PVal := .str (if b then "on".toList else "off".toList)

/-- `v` is the value of property `p` for CPU `c`: what the bits of the registers of this CPU and the files
of the idle driver stand for. There is no value if the property is not supported. -/
def Value (H : Host) (s : St) (p : Name) (c : Nat) (v : PVal) : Prop :=
  match p with
  | .limit => H.intel = true ∧ ∃ L code n, H.limits = some L ∧ getBits (s.pcst c) L.bits = .ok code ∧
      Decodes L.codes code n ∧ v = .str n
  | .lock => H.intel = true ∧ H.limits ≠ none ∧ v = onOff ((s.pcst c).testBit 15)
  | .limits => H.intel = true ∧ ∃ L, H.limits = some L ∧ v = .list (L.codes.map Prod.fst)
  | .aliases => H.intel = true ∧ ∃ L, H.limits = some L ∧ v = .map L.aliases
  | .c1Demotion => H.intel = true ∧ v = onOff ((s.pcst c).testBit 26)
  | .c1Undemotion => H.intel = true ∧ v = onOff ((s.pcst c).testBit 28)
  | .c1e => H.intel = true ∧ v = onOff ((s.pctl c).testBit 1)
  | .prewake => H.intel = true ∧ H.prewake = true ∧ v = onOff (!(s.pctl c).testBit 30)
  | .driver => ∃ t, s.gov.driver = some t ∧ v = .str (PyStr.strip t)
  | .governor => s.gov.driver ≠ none ∧ ∃ t, s.gov.current = some t ∧ v = .str (PyStr.strip t)
  | .governors => s.gov.driver ≠ none ∧
      ∃ t, s.gov.avail = some t ∧ v = .list (FreqInfo.splitWs (PyStr.strip t))

/-- The value the user asks for with `v`. -/
def Asks (H : Host) (s : St) (p : Name) (v : Val) (w : PVal) : Prop :=
  match p with
  | .limit => ∃ L n, H.limits = some L ∧ Means (limitFeature L fun _ => true) v n ∧ w = .str n
  | .governor => ∃ g t, v = .str g ∧ s.gov.avail = some t ∧ g ∈ FreqInfo.splitWs (PyStr.strip t) ∧ w = .str g
  | .c1Demotion | .c1Undemotion | .c1e | .prewake => ∃ b, w = onOff b ∧ (v = .bool b ∨
      ∃ t, v = .str t ∧ ∃ n ∈ (if b then ["on".toList, "enable".toList] else ["off".toList, "disable".toList]),
        SameText t n)
  | _ => False

/-- The CPUs which have to be set together: a core, a module, a die, a package or the whole system. -/
def unitOf (H : Host) (p : Name) : Scope :=
  match p with
  | .limit | .lock | .c1e | .prewake => if H.clxAp then .lvl .die else .lvl .package
  | .c1Demotion | .c1Undemotion =>
    match H.family with
    | .silvermont => .lvl .module
    | .phi => .lvl .package
    | .other => .lvl .core
  | _ => .global

/-- Where a property comes from. -/
def source (p : Name) : PropsBase.Mech :=
  if p = .limits ∨ p = .aliases then .doc
  else if p = .driver ∨ p = .governor ∨ p = .governors then .sysfs
  else .msr

/-- The hardware: the registers are shared as the scopes say, and the CPU model is one with a known table. -/
structure HostWF (H : Host) : Prop where
  info : WF H.info
  table : ∀ L, H.limits = some L → L ∈ allLimits
  pcst : EnvWF H.ePcst
  pctl : EnvWF H.ePctl
  sharePcst : ∀ c d, c ∈ H.info.online → H.ePcst.same c d = true →
    CPUInfo.SameUnit H.info (unitOf H .c1Demotion) c d ∧ CPUInfo.SameUnit H.info (unitOf H .limit) c d
  sharePctl : ∀ c d, c ∈ H.info.online → H.ePctl.same c d = true →
    CPUInfo.SameUnit H.info (unitOf H .c1e) c d

/-- The registers hold 64-bit values, and CPUs sharing a register see the same value. -/
structure StWF (H : Host) (s : St) : Prop where
  pcst : Uniform H.ePcst s.pcst ∧ ∀ c, 0 ≤ s.pcst c ∧ s.pcst c < 2 ^ 64
  pctl : Uniform H.ePctl s.pctl ∧ ∀ c, 0 ≤ s.pctl c ∧ s.pctl c < 2 ^ 64

/-- What a "set" call needs: a value of the property, CPUs which are online and make up whole units (modules
are not supported), the right mechanism, a property which the system has, and, for the package C-state
limit, a register which is not locked. -/
structure Accepts (H : Host) (s : St) (p : Name) (v : Option Val) (cpus : CPUInfo.Nums)
    (mnames : Option (List PropsBase.Mech)) (l : List Nat) (w : PVal) : Prop where
  value : ∃ v0, v = some v0 ∧ Asks H s p v0 w
  cpus : CPUInfo.normalizeCpus H.info cpus false = .ok l ∧ l ≠ []
  whole : unitOf H p ≠ .lvl .module ∧ PropsBase.Whole H.info (unitOf H p) l
  mech : ∀ ml, mnames = some ml → ∀ m ∈ ml, m = source p
  has : ∃ c x, Value H s p c x
  unlocked : p = .limit → ∀ c ∈ l, ¬ PCStateConfigCtl.Locked s.pcst c

/-- Neither the hardware nor the kernel refuses to change property `p` of CPUs `l` to `w`. -/
def NoFail (H : Host) (p : Name) (w : PVal) (l : List Nat) : Prop :=
  match p with
  | .limit | .c1Demotion | .c1Undemotion => ∀ a ∈ l, H.ePcst.wfail a = none
  | .c1e | .prewake => ∀ a ∈ l, H.ePctl.wfail a = none
  | _ => ∀ g, w = .str g → H.wfail g = none

end Verif.CStates
