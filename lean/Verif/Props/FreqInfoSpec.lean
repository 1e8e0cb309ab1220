import Verif.Model.FreqInfo

/-!
Specification of the frequency properties of CPUs (C79).
-/

namespace Verif.FreqInfo

/-- `width` bits of a register, starting with bit `lo`. -/
def field (v lo width : Nat) : Nat := v / 2 ^ lo % 2 ^ width

/-- The registers of the host. -/
abbrev Regs := Nat → Nat → Nat

/-- All registers can be read. -/
def Readable (H : Host) (R : Regs) : Prop := ∀ addr c, H.msr addr c = .ok (R addr c)

/-- The packages are a partition of the CPUs, and the CPUs of a package are the same with respect to HWP: all or
none have it, and it is enabled on all or on none. -/
structure Uniform (H : Host) (R : Regs) : Prop where
  nonempty : ∀ p ∈ H.packages, p ≠ []
  once : ∀ p ∈ H.packages, ∀ q ∈ H.packages, ∀ c ∈ p, c ∈ q → p = q
  flag : ∀ p ∈ H.packages, ∀ c ∈ p, ∀ d ∈ p, H.hwpFlag c = H.hwpFlag d
  enabled : ∀ p ∈ H.packages, ∀ c ∈ p, ∀ d ∈ p, R 0x770 c % 2 = R 0x770 d % 2

/-- The bus clock of a CPU in Hz: 100 MHz, unless the processor has the `MSR_FSB_FREQ` register (0xCD). -/
def busClock (H : Host) (R : Regs) (c : Nat) : Option Int :=
  match H.fsb with
  | none => some 100000000
  | some (width, codes) => codes.get? (field (R 0xCD c) 0 width)

/-- The bits of the HWP capabilities register (0x771): highest, guaranteed, most efficient and lowest
performance. -/
def capLevel (r : Nat) : Kind → Nat
  | .maxTurbo => field r 0 8
  | .base => field r 8 8
  | .maxEff => field r 16 8
  | .minOper => field r 24 8

/-- The ratio of a processor without HWP: from the turbo ratio limit register (0x1AD) or the platform information
register (0xCE). -/
def ratio (R : Regs) (c : Nat) : Kind → Nat
  | .maxTurbo => field (R 0x1AD c) 0 8
  | .base => field (R 0xCE c) 8 8
  | .maxEff => field (R 0xCE c) 40 8
  | .minOper => field (R 0xCE c) 48 8

/-- The processor model has the field. -/
def modelHas (H : Host) : Kind → Bool
  | .maxTurbo => H.trl1 || H.trlGrp
  | k => H.platSup k

/-- The registers have the frequency of the CPU: with HWP it has to be enabled, without it the processor model has to
have the field. -/
def hasMsr (H : Host) (R : Regs) (k : Kind) (c : Nat) : Bool :=
  if H.hwpFlag c then R 0x770 c % 2 == 1
  else modelHas H k

/-- The frequency in Hz a CPU has according to its registers, for the bus clock `b`. P-cores have performance values
of their own, the frequency is a multiple of the bus clock nevertheless. -/
def msrHz (H : Host) (R : Regs) (k : Kind) (c : Nat) (b : Int) : Int :=
  if H.hwpFlag c then
    if c ∈ H.pcore then b * ((capLevel (R 0x771 c) k * H.factor : Int) / b) else capLevel (R 0x771 c) k * b
  else ratio R c k * b

/-- The number in a file. -/
def num (H : Host) (p : Path) : Option Int :=
  match H.files p with
  | none => none
  | some s =>
    match Trivial.strToInt s with
    | .error _ => none
    | .ok n => some n

/-- A number in an ACPI CPPC file that makes sense. -/
def cppcNum (H : Host) (c : Nat) (fname : String) : Option Int :=
  match num H (.cppc c fname) with
  | none => none
  | some n => if n = 0 then none else some n

/-- The CPUs a generator has yielded. -/
def cpusOf {V : Type} (g : PropsBase.Gen (Nat × V)) : List Nat := g.yields.map (·.1)

/-- The number of bits of the bus clock code. -/
def Width (H : Host) : Prop := ∀ w codes, H.fsb = some (w, codes) → 1 ≤ w ∧ w ≤ 64

/-- What the theorems about registers assume: an Intel processor, readable registers, packages with or without HWP,
and CPUs which belong to the packages and have a known bus clock `b`. -/
structure Regular (H : Host) (R : Regs) (cpus : List Nat) (b : Nat → Int) : Prop where
  intel : H.intel = true
  readable : Readable H R
  uniform : Uniform H R
  width : Width H
  nodup : cpus.Nodup
  pkg : ∀ c ∈ cpus, ∃ p ∈ H.packages, c ∈ p
  bus : ∀ c ∈ cpus, busClock H R c = some (b c)

/-- The level of a CPU the frequency comes from. -/
def level (H : Host) (R : Regs) (k : Kind) (c : Nat) : Nat :=
  if H.hwpFlag c then capLevel (R 0x771 c) k else ratio R c k

/-- The frequency files of ACPI CPPC: all of them have a number, or the one of the first CPU has none. -/
def CppcUniform (H : Host) (fname : String) (cpus : List Nat) : Prop :=
  (∀ c ∈ cpus, cppcNum H c fname ≠ none) ∨ ∀ c, cpus.head? = some c → cppcNum H c fname = none

/-- The ACPI CPPC files with the frequency and with the performance. -/
def cppcFile : Kind → String × String
  | .minOper => ("lowest_freq", "lowest_perf")
  | _ => ("highest_freq", "highest_perf")

end Verif.FreqInfo
