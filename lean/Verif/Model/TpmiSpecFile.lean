import Verif.Model.Tpmi

/-!
TPMI spec files: checking the contents and building the register definitions.
Models: pepclibs/Tpmi.py:234-341.

Simplifications: the keys of the YAML dictionaries are strings; lists, floating point numbers and null are
one value (`other`); booleans are integers, like in Python; letters are ASCII.
-/

namespace Verif.Tpmi

/-- What a YAML file was loaded to. -/
inductive Yaml where
  | int (n : Int)
  | str (s : PyStr)
  | other
  | dict (d : List (PyStr × Yaml))

/-- `s.isupper()`: there is a letter, and no letter is a small one. -/
def isUpperStr (s : PyStr) : Bool :=
  s.any (fun c => 65 ≤ c.toNat && c.toNat ≤ 90) && !s.any (fun c => 97 ≤ c.toNat && c.toNat ≤ 122)

/-- Models: pepclibs/Tpmi.py:251-266 `_check_keys()` for the same allowed and mandatory keys. Characters of
a string are never allowed keys, and an empty string has no keys; numbers cannot be iterated. -/
def checkKeys (keys : List PyStr) : Yaml → Except Exn (Dict PyStr Yaml)
  | .dict d =>
    if d.any (fun p => !keys.contains p.1) then .error .error
    else if keys.any (fun k => (Dict.get? d k).isNone) then .error .error
    else .ok d
  | .str _ => .error .error
  | .int _ | .other => .error .pyTypeError

/-- `d[k]`. -/
def getKey (d : Dict PyStr Yaml) (k : PyStr) : Except Exn Yaml :=
  match d.get? k with
  | some v => .ok v
  | none => .error .pyKeyError

/-- `v.items()`. -/
def items : Yaml → Except Exn (Dict PyStr Yaml)
  | .dict d => .ok d
  | _ => .error .pyAttributeError

def kName : PyStr := "name".toList
def kDesc : PyStr := "desc".toList
def kFid : PyStr := "feature-id".toList
def kRegisters : PyStr := "registers".toList
def kFields : PyStr := "fields".toList
def kOffset : PyStr := "offset".toList
def kWidth : PyStr := "width".toList
def kBits : PyStr := "bits".toList

/-- Models: pepclibs/Tpmi.py:315-318: `"\n" in bfdict["desc"]`. -/
def checkDesc : Yaml → Except Exn Unit
  | .str s => if s.contains '\n' then .error .error else .ok ()
  | .dict d => if (Dict.get? d ['\n']).isSome then .error .error else .ok ()
  | .int _ | .other => .error .pyTypeError

/-- The high and the low bit. Models: pepclibs/Tpmi.py:320-335. Only strings can be split. -/
def parseBits : Yaml → Except Exn (Int × Int)
  | .str s =>
    match Trivial.splitCsvLine s ':' false with
    | [hi, lo] =>
      match Trivial.strToInt hi with
      | .error e => .error e
      | .ok hi =>
        match Trivial.strToInt lo with
        | .error e => .error e
        | .ok lo => if hi < lo then .error .error else .ok (hi, lo)
    | _ => .error .error
  | _ => .error .pyAttributeError

/-- Models: pepclibs/Tpmi.py:305-339: one bit field. `1 << lowbit` fails for a negative number. -/
def formatField (bfname : PyStr) (bf : Yaml) : Except Exn Field :=
  if !isUpperStr bfname then .error .error
  else
    match checkKeys [kBits, kDesc] bf with
    | .error e => .error e
    | .ok d =>
      match getKey d kDesc with
      | .error e => .error e
      | .ok desc =>
        match checkDesc desc with
        | .error e => .error e
        | .ok () =>
          match getKey d kBits with
          | .error e => .error e
          | .ok bits =>
            match parseBits bits with
            | .error e => .error e
            | .ok (hi, lo) =>
              if lo < 0 then .error .pyValueError
              else mkField hi.toNat lo.toNat

/-- The loop over the bit fields of a register. Models: pepclibs/Tpmi.py:305-339. -/
def formatFields : List (PyStr × Yaml) → Except Exn (Dict PyStr Field)
  | [] => .ok []
  | (name, bf) :: rest =>
    match formatField name bf with
    | .error e => .error e
    | .ok F =>
      match formatFields rest with
      | .error e => .error e
      | .ok fs => .ok ((name, F) :: fs)

/-- Models: pepclibs/Tpmi.py:287-294. -/
def checkOffset : Yaml → Except Exn Int
  | .int n => if n % 4 ≠ 0 then .error .error else .ok n
  | _ => .error .error

/-- Models: pepclibs/Tpmi.py:296-303. -/
def checkWidth : Yaml → Except Exn Nat
  | .int n => if n = 32 then .ok 32 else if n = 64 then .ok 64 else .error .error
  | _ => .error .error

/-- A register definition of the file. Unlike `Reg`, the offset may be negative. -/
structure SpecReg where
  offset : Int
  width : Nat
  fields : Dict PyStr Field

/-- Models: pepclibs/Tpmi.py:277-339: one register. -/
def formatReg (regname : PyStr) (reg : Yaml) : Except Exn SpecReg :=
  if !isUpperStr regname then .error .error
  else
    match checkKeys [kFields, kOffset, kWidth] reg with
    | .error e => .error e
    | .ok d =>
      match getKey d kOffset with
      | .error e => .error e
      | .ok o =>
        match checkOffset o with
        | .error e => .error e
        | .ok offset =>
          match getKey d kWidth with
          | .error e => .error e
          | .ok w =>
            match checkWidth w with
            | .error e => .error e
            | .ok width =>
              match getKey d kFields with
              | .error e => .error e
              | .ok fl =>
                match items fl with
                | .error e => .error e
                | .ok fl =>
                  match formatFields fl with
                  | .error e => .error e
                  | .ok fields => .ok ⟨offset, width, fields⟩

/-- The loop over the registers. Models: pepclibs/Tpmi.py:276-341. -/
def formatRegs : List (PyStr × Yaml) → Except Exn (Dict PyStr SpecReg)
  | [] => .ok []
  | (name, reg) :: rest =>
    match formatReg name reg with
    | .error e => .error e
    | .ok R =>
      match formatRegs rest with
      | .error e => .error e
      | .ok rs => .ok ((name, R) :: rs)

/-- `"registers" not in spec`. Models: pepclibs/Tpmi.py:268-269. -/
def hasRegisters : Yaml → Except Exn Unit
  | .dict d => if (Dict.get? d kRegisters).isSome then .ok () else .error .error
  | .str _ => .error .error
  | .int _ | .other => .error .pyTypeError

/-- Models: pepclibs/Tpmi.py:234-341 `_format_fdict()`. A string which includes "registers" is refused by
the next check, in the same way as one which does not. -/
def formatFdict (spec : Yaml) : Except Exn (Dict PyStr SpecReg) :=
  match hasRegisters spec with
  | .error e => .error e
  | .ok () =>
    match checkKeys [kName, kDesc, kFid, kRegisters] spec with
    | .error e => .error e
    | .ok d =>
      match getKey d kRegisters with
      | .error e => .error e
      | .ok regs =>
        match items regs with
        | .error e => .error e
        | .ok regs => formatRegs regs

end Verif.Tpmi
