import Verif.Model.RaplLimits

/-!
Specification of the RAPL switches and time windows (C88).
-/

namespace Verif.RaplLimits

open Verif.MSR (St)
open CPUInfo (Nums)

/-- The bit of the register a switch stands for. -/
def Switch.bit : Switch → Nat
  | .enable true => 15
  | .clamp true => 16
  | .enable false => 47
  | .clamp false => 48

/-- The bits of the two limits. -/
def LimitBit (i : Nat) : Prop := i ≤ 14 ∨ 32 ≤ i ∧ i ≤ 46

/-- The number in bits `lsb`, ..., `lsb + n - 1`. -/
def bitsOf (v : Int) (lsb n : Nat) : Int := v / 2 ^ lsb % 2 ^ n

/-- The time window of register value `v`, in seconds: `2 ^ y * (1 + z / 4)` time units of `1 / 2 ^ t` seconds, that is,
`2 ^ y * (4 + z) / 2 ^ (2 + t)`. -/
def windowOf (t : Nat) (v : Int) (first : Bool) : Power.Float :=
  let lsb := if first then 17 else 49
  .num (2 ^ (bitsOf v lsb 5).toNat * (4 + bitsOf v (lsb + 5) 2)) (2 + t)

/-- The values which mean "on" and "off". -/
def Means : FeaturedMSR.Val → Bool → Prop
  | .bool b, b' => b = b'
  | .str s, true => s.map Char.toLower = "on".toList
  | .str s, false => s.map Char.toLower = "off".toList
  | .int _, _ => False

/-- How a switch is shown. -/
def shown (on : Bool) : FeaturedMSR.Val := if on then .str "on".toList else .str "off".toList

/-- The CPUs are in the same package. -/
def SamePkg (P : Plat) (c d : Nat) : Prop := d ∈ P.msr.T.sib (.lvl .package) c

/-- The hardware: register 0x610 is one per package, writing it changes no bits but those which are different in the written
value (maybe not all of them: the register may be locked, or have read-only bits), and writes are not refused. The sibling
relation is an equivalence (C15). Nothing is assumed about reading. -/
structure Hardware (P : Plat) : Prop where
  refl : ∀ s c, c ∈ P.msr.T.online → c ∈ P.msr.T.sib s c
  sub : ∀ s c d, c ∈ P.msr.T.online → d ∈ P.msr.T.sib s c → d ∈ P.msr.T.online
  eqv : ∀ s c d, c ∈ P.msr.T.online → d ∈ P.msr.T.sib s c → P.msr.T.sib s d = P.msr.T.sib s c
  share : ∀ c ∈ P.msr.T.online, ∀ d ∈ P.msr.T.online, P.msr.share 0x610 c d = true ↔ SamePkg P c d
  keeps : ∀ (o v : Int) (i : Nat), (P.msr.store 0x610 o v).testBit i = o.testBit i ∨
    (P.msr.store 0x610 o v).testBit i = v.testBit i
  writes : ∀ c ∈ P.msr.T.online, P.msr.wfail 0x610 c = false

/-- A new object: nothing cached, no transaction. The register has 64 bits and is one per package. -/
structure Fresh (P : Plat) (st : St) : Prop where
  cache : ∀ n c, st.cache.get? n c = none
  noTrans : st.inTransaction = false
  buf : st.buf = []
  bits64 : ∀ c ∈ P.msr.T.online, 0 ≤ st.hw 0x610 c ∧ st.hw 0x610 c < 2 ^ 64
  pkg : ∀ c ∈ P.msr.T.online, ∀ d, SamePkg P c d → st.hw 0x610 d = st.hw 0x610 c

/-- The state can be reached from a new object by a sequence of operations, where no switch failed in a transaction. -/
def Reachable (P : Plat) (st : St) : Prop := ∃ st0 ops, Fresh P st0 ∧ run P ops st0 = some st

/-- The CPUs asked for. -/
def Asked (P : Plat) (cpus : Nums) (c : Nat) : Prop :=
  match cpus with
  | .all => c ∈ P.msr.T.online
  | .nums l => c ∈ l

end Verif.RaplLimits
