import Verif.Lib.Dict
import Verif.Model.Bits

/-!
A register as the code on top of the `MSR` class sees it: one 64-bit value per CPU. This is the
behaviour of an `MSR` object outside of (or at the end of) a transaction, see the theorems C04, C05
and C08 about pepclibs/msr/MSR.py; the cache and the transaction buffer are not visible any more.
-/

namespace Verif.RegFile

open Verif.Bits (BitRange FieldVal setBits getBits)

/-- One register: its value on every CPU. -/
abbrev Reg := Nat → Int

/-- `same c d`: CPUs `c` and `d` share the register; `wfail c` is the error a write on CPU `c` is
refused with. -/
structure Env where
  same : Nat → Nat → Bool
  wfail : Nat → Option Exn

/-- Models: pepclibs/msr/MSR.py:471-486 `_write_cpu_nocache()`, 488-528 `write()`, see `MSR.hwWrite`. -/
def writeRegs (E : Env) (val : Int) : List Nat → Reg → Reg × Except Exn Unit
  | [], R => (R, .ok ())
  | c :: cpus, R =>
    if val < 0 ∨ val ≥ 2 ^ 64 then (R, .error .pyOverflowError)
    else match E.wfail c with
      | some e => (R, .error e)
      | none => writeRegs E val cpus (fun d => if E.same c d then val else R d)

/-- The read-modify loop of `write_bits()`. Models: pepclibs/msr/MSR.py:555-563. -/
def modifyRegs (bits : BitRange) (val : FieldVal) (R : Reg) :
    List Nat → Dict Int (List Nat) → Except Exn (Dict Int (List Nat))
  | [], d => .ok d
  | c :: cpus, d =>
    match setBits (R c) bits val with
    | .error e => .error e
    | .ok new =>
      if R c = new then modifyRegs bits val R cpus d
      else modifyRegs bits val R cpus (d.set new ((d.get? new).getD [] ++ [c]))

/-- Models: pepclibs/msr/MSR.py:565-566. -/
def writeGroups (E : Env) : Dict Int (List Nat) → Reg → Reg × Except Exn Unit
  | [], R => (R, .ok ())
  | (v, cpus) :: rest, R =>
    match writeRegs E v cpus R with
    | (R, .error e) => (R, .error e)
    | (R, .ok ()) => writeGroups E rest R

/-- Models: pepclibs/msr/MSR.py:542-566 `write_bits()`; the CPUs exist. -/
def writeBits (E : Env) (bits : BitRange) (val : FieldVal) (cpus : List Nat) (R : Reg) :
    Reg × Except Exn Unit :=
  match modifyRegs bits val R cpus [] with
  | .error e => (R, .error e)
  | .ok d => writeGroups E d R

/-- Models: pepclibs/msr/MSR.py:414-429 `read_bits()`; the CPUs exist, read errors are not modelled. -/
def readBits (bits : BitRange) (R : Reg) : List Nat → Except Exn (List (Nat × Int))
  | [] => .ok []
  | c :: cpus =>
    match getBits (R c) bits with
    | .error e => .error e
    | .ok v =>
      match readBits bits R cpus with
      | .error e => .error e
      | .ok l => .ok ((c, v) :: l)

end Verif.RegFile
