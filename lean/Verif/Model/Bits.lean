import Verif.Lib.IntBits
import Verif.Lib.Exn

/-!
Model of the pure bit-field functions of pepclibs/msr/MSR.py.
-/

namespace Verif.Bits

/-- A bit range `(msb, lsb)` as given by the user. -/
abbrev BitRange := Int × Int

/-- `self.regbits`. Models: pepclibs/msr/MSR.py:638. -/
def regbits : Int := 64

/-- The value argument of `set_bits()`: the `ALL_BITS_1` marker, an integer (or a string holding an
integer), or something that is not an integer. Models: pepclibs/msr/MSR.py:457-462. -/
inductive FieldVal where
  | allOnes
  | num (v : Int)
  | notInt
  deriving DecidableEq, Repr

/-- Models: pepclibs/msr/MSR.py:232-253 `_normalize_bits()`. The non-integer elements branch (line
237-238, 250-251) is not modelled, the range is a pair of integers here. -/
def normalizeBits (bits : BitRange) : Except Exn BitRange :=
  if bits.1 < bits.2 then .error .error
  else
    let bits_cnt := bits.1 - bits.2 + 1
    if bits_cnt > regbits then .error .error
    else .ok bits

/-- Models: pepclibs/msr/MSR.py:255-268 `get_bits()`. A negative `lsb` makes Python's `>>` raise
`ValueError`. -/
def getBits (regval : Int) (bits : BitRange) : Except Exn Int :=
  match normalizeBits bits with
  | .error e => .error e
  | .ok bits =>
    let bits_cnt := bits.1 - bits.2 + 1
    let mask := onesMask bits_cnt.toNat
    if bits.2 < 0 then .error .pyValueError
    else .ok (Int.land (shr regval bits.2.toNat) mask)

/-- The field value as an integer. Models: pepclibs/msr/MSR.py:457-462. -/
def fieldNum (maxVal : Int) : FieldVal → Except Exn Int
  | .allOnes => .ok maxVal
  | .num v => .ok v
  | .notInt => .error .error

/-- Models: pepclibs/msr/MSR.py:444-469 `set_bits()`. -/
def setBits (regval : Int) (bits : BitRange) (val : FieldVal) : Except Exn Int :=
  match normalizeBits bits with
  | .error e => .error e
  | .ok bits =>
    let bits_cnt := bits.1 - bits.2 + 1
    let max_val := onesMask bits_cnt.toNat
    match fieldNum max_val val with
    | .error e => .error e
    | .ok v =>
      if v > max_val then .error .error
      else if bits.2 < 0 then .error .pyValueError
      else
        let clear_mask := shl max_val bits.2.toNat
        let set_mask := shl v bits.2.toNat
        .ok (Int.lor (Int.land regval (Int.lnot clear_mask)) set_mask)

end Verif.Bits
