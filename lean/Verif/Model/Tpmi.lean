import Verif.Lib.Exn
import Verif.Lib.Dict
import Verif.Model.Trivial
import Verif.Model.KernelVersion

/-!
TPMI registers. Models: pepclibs/Tpmi.py.

The kernel is a parameter: it shows the memory of a TPMI feature of a device as the text of a
'mem_dump' file, and changes the memory when a line is written to the 'mem_write' file.
Simplifications: files consist of ASCII characters, so that positions of `seek()` are character
numbers; the writes are not buffered; the contents of a 'mem_write' line
(`f"{instance},{offset},{writeval:#x}"`) are passed to the kernel as three numbers; the spec files were
loaded already (see `Env`).
-/

namespace Verif.Tpmi

/-! ### Text -/

/-- `[0-9a-f]`. -/
def isHex (c : Char) : Bool := (48 ≤ c.toNat && c.toNat ≤ 57) || (97 ≤ c.toNat && c.toNat ≤ 102)

/-- The unsigned part of `int(s, 16)`. -/
def parse16 : PyStr → Option Nat
  | '0' :: 'x' :: cs | '0' :: 'X' :: cs => Trivial.parseDigits 16 0 false (Trivial.skipUnderscore cs)
  | cs => Trivial.parseDigits 16 0 false cs

/-- `str_to_int(s, base=16)`. Models: pepclibs/helperlibs/Trivial.py:89-127. -/
def strToInt16 (s : PyStr) : Except Exn Int :=
  let r : Option Int := match PyStr.strip s with
    | '-' :: cs => (parse16 cs).map (fun n : Nat => -(n : Int))
    | '+' :: cs => (parse16 cs).map (fun n : Nat => (n : Int))
    | cs => (parse16 cs).map (fun n : Nat => (n : Int))
  match r with
  | some v => .ok v
  | none => .error .badFormat

/-- The lines `for line in fobj` iterates, with their line separators. -/
def lines (text : PyStr) : List PyStr :=
  let parts := PyStr.splitC '\n' text
  parts.dropLast.map (· ++ ['\n']) ++ (match parts.getLast? with
    | some [] => []
    | some p => [p]
    | none => [])

/-- What follows the prefix. -/
def stripPrefix : PyStr → PyStr → Option PyStr
  | [], s => some s
  | _ :: _, [] => none
  | p :: ps, c :: s => if p = c then stripPrefix ps s else none

/-- `re.match(r"TPMI Instance:(\d+) offset:(0x[0-9a-f]+)", line)`: the first group.
Models: pepclibs/Tpmi.py:553. -/
def matchHeader (line : PyStr) : Option PyStr :=
  match stripPrefix "TPMI Instance:".toList line with
  | none => none
  | some s =>
    match KernelVersion.digits s with
    | none => none
    | some (num, s) =>
      match stripPrefix " offset:0x".toList s with
      | some (c :: _) => if isHex c then some num else none
      | _ => none

/-- `re.match(r"^( |\[)([0-9a-f]+)(:|\]) (.*)$", line)`: the second and the fourth group.
Models: pepclibs/Tpmi.py:562. -/
def matchRow (line : PyStr) : Option (PyStr × PyStr) :=
  match line with
  | [] => none
  | c :: s =>
    if c = ' ' ∨ c = '[' then
      if s.takeWhile isHex = [] then none
      else match s.dropWhile isHex with
        | d :: ' ' :: rest => if d = ':' ∨ d = ']' then some (s.takeWhile isHex, rest) else none
        | _ => none
    else none

/-! ### The map of the memory dump -/

/-- Instance number to register offset to position in the file. -/
abbrev Mdmap := Dict Nat (Dict Nat Nat)

/-- `mdmap[instance][offs] = pos`; `instance` may be unbound. -/
def setPos (mdmap : Mdmap) (inst : Option Nat) (offs pos : Nat) : Except Exn Mdmap :=
  match inst with
  | none => .error .pyUnboundLocal
  | some i =>
    match mdmap.get? i with
    | none => .error .pyKeyError
    | some d => .ok (mdmap.set i (d.set offs pos))

/-- The loop over the values of a line. `pos` is the position of the value in the file.
Models: pepclibs/Tpmi.py:567-572. -/
def wordLoop (inst : Option Nat) : List PyStr → (offs pos : Nat) → Mdmap → Except Exn Mdmap
  | [], _, _, mdmap => .ok mdmap
  | regval :: regvals, offs, pos, mdmap =>
    match strToInt16 regval with
    | .error e => .error e
    | .ok _ =>
      match setPos mdmap inst offs pos with
      | .error e => .error e
      | .ok mdmap => wordLoop inst regvals (offs + 4) (pos + 9) mdmap

/-- The loop over the lines. `inst` is the local variable `instance`, `none` if unbound.
Models: pepclibs/Tpmi.py:547-578. Numbers are not negative: the patterns do not match signs. -/
def lineLoop : List PyStr → Option Nat → Nat → Mdmap → Except Exn Mdmap
  | [], _, _, mdmap => .ok mdmap
  | line :: rest, inst, pos, mdmap =>
    let line := PyStr.rstripBy PyStr.isSpace line
    match matchHeader line with
    | some num =>
      match Trivial.strToInt num with
      | .error e => .error e
      | .ok i => lineLoop rest (some i.toNat) (pos + (line.length + 1)) (mdmap.set i.toNat [])
    | none =>
      match matchRow line with
      | none => .error .error
      | some (hex, vals) =>
        match strToInt16 hex with
        | .error e => .error e
        | .ok offs =>
          match wordLoop inst (Trivial.splitCsvLine vals ' ' false) offs.toNat
              (pos + (3 + hex.length)) mdmap with
          | .error e => .error e
          | .ok mdmap => lineLoop rest inst (pos + (line.length + 1)) mdmap

/-- Models: pepclibs/Tpmi.py:524-578 `_build_mdmap()`; the argument is the contents of the file. -/
def buildMdmap (text : PyStr) : Except Exn Mdmap := lineLoop (lines text) none 0 []

/-! ### Bit fields -/

/-- A bit field definition. -/
structure Field where
  shift : Nat
  mask : Nat

/-- Models: pepclibs/Tpmi.py:332-339. -/
def mkField (highbit lowbit : Nat) : Except Exn Field :=
  if highbit < lowbit then .error .error
  else .ok { shift := lowbit, mask := ((1 <<< (highbit + 1)) - 1) - ((1 <<< lowbit) - 1) }

/-- Models: pepclibs/Tpmi.py:638-650 `_get_bitfield()`. -/
def getBitfield (F : Field) (regval : Nat) : Nat := (regval &&& F.mask) >>> F.shift

/-- Models: pepclibs/Tpmi.py:652-666 `_set_bitfield()`. -/
def setBitfield (F : Field) (regval bitval : Nat) : Nat :=
  (regval ^^^ (regval &&& F.mask)) ||| (bitval <<< F.shift)

/-! ### Registers -/

/-- A register definition. Models: pepclibs/Tpmi.py:276-341. Negative offsets are not modelled (they are
refused when the register is accessed). -/
structure Reg where
  offset : Nat
  width : Nat
  fields : Dict PyStr Field

/-- What identifies a debugfs directory: device address and feature ID.
Models: pepclibs/Tpmi.py:512-522 `_get_debugfs_feature_path()`. -/
abbrev Key := PyStr × Nat

/-- The kernel. -/
structure Kernel (W : Type) where
  /-- The contents of the 'mem_dump' file. -/
  dump : W → Key → PyStr
  /-- A write of "instance,offset,value" to the 'mem_write' file. -/
  write : W → Key → (inst offs val : Nat) → W × Except Exn Unit

/-- The result of the discovery and of loading the spec files. -/
structure Env where
  /-- `_fmaps`: features with the devices which have them, and the package of the device. -/
  fmaps : Dict PyStr (Dict PyStr Nat)
  /-- `_get_sdict(fname)["feature-id"]`. -/
  fid : PyStr → Nat
  /-- `_get_fdict(fname)`, `none` if there is no spec file. -/
  fdict : PyStr → Option (Dict PyStr Reg)
  /-- The keys of `_pkg2addrs`. -/
  packages : List Nat

/-- The machine and the cached maps, by feature name and device address. -/
structure St (W : Type) where
  w : W
  mdmaps : Dict (PyStr × PyStr) Mdmap

section
variable {W : Type} (K : Kernel W) (E : Env)

/-- Models: pepclibs/Tpmi.py:591-603 `_validate_instance_offset()`. The error message computes `max()` of
the offsets, which fails if there are none. -/
def validateOffset (mdmap : Mdmap) (inst offset : Nat) : Except Exn Unit :=
  match mdmap.get? inst with
  | none => .error .error
  | some d =>
    if offset % 4 ≠ 0 ∨ (d.get? offset).isNone then
      if d.isEmpty then .error .pyValueError else .error .error
    else .ok ()

/-- Models: pepclibs/Tpmi.py:605-618 `_read()`. The text read has no sign in a valid dump. -/
def read (w : W) (key : Key) (inst offset : Nat) (mdmap : Mdmap) : Except Exn Nat :=
  match validateOffset mdmap inst offset with
  | .error e => .error e
  | .ok () =>
    match (mdmap.get? inst).bind (·.get? offset) with
    | none => .error .pyKeyError
    | some pos =>
      match strToInt16 (((K.dump w key).drop pos).take 8) with
      | .error e => .error e
      | .ok v => .ok v.toNat

/-- The register of a feature. Models: pepclibs/Tpmi.py:580-589 `_get_regdict()`. -/
def getReg (fname regname : PyStr) : Except Exn Reg :=
  match E.fdict fname with
  | none => .error .notSupported
  | some fdict =>
    match fdict.get? regname with
    | none => .error .error
    | some r => .ok r

/-- Models: pepclibs/Tpmi.py:621-636 `_get_bfdict()`. -/
def getField (R : Reg) (bfname : PyStr) : Except Exn Field :=
  match R.fields.get? bfname with
  | none => .error .error
  | some F => .ok F

/-- `_read_register()` without `mdmap`: the map is always built anew. Models: pepclibs/Tpmi.py:668-694. -/
def readReg (w : W) (fname addr : PyStr) (inst : Nat) (regname : PyStr) (bfname : Option PyStr) :
    Except Exn Nat :=
  match getReg E fname regname with
  | .error e => .error e
  | .ok R =>
    match buildMdmap (K.dump w (addr, E.fid fname)) with
    | .error e => .error e
    | .ok mdmap =>
      match read K w (addr, E.fid fname) inst R.offset mdmap with
      | .error e => .error e
      | .ok lo =>
        let val : Except Exn Nat :=
          if R.width > 32 then
            match read K w (addr, E.fid fname) inst (R.offset + 4) mdmap with
            | .error e => .error e
            | .ok hi => .ok (lo + hi <<< 32)
          else .ok lo
        match val with
        | .error e => .error e
        | .ok val =>
          match bfname with
          | none => .ok val
          | some bfname =>
            match getField R bfname with
            | .error e => .error e
            | .ok F => .ok (getBitfield F val)

/-- Models: pepclibs/Tpmi.py:748-755 `_get_mdmap()`. An empty map is false. -/
def getMdmap (fname addr : PyStr) (s : St W) : St W × Except Exn Mdmap :=
  match s.mdmaps.get? (fname, addr) with
  | some (p :: m) => (s, .ok (p :: m))
  | _ =>
    match buildMdmap (K.dump s.w (addr, E.fid fname)) with
    | .error e => (s, .error e)
    | .ok m => ({ s with mdmaps := s.mdmaps.set (fname, addr) m }, .ok m)

/-- The loop writing 32-bit words, `n` iterations. Models: pepclibs/Tpmi.py:734-746. -/
def writeWords (key : Key) (inst : Nat) : Nat → (offset value : Nat) → W → W × Except Exn Unit
  | 0, _, _, w => (w, .ok ())
  | n + 1, offset, value, w =>
    match K.write w key inst offset (value &&& 0xffffffff) with
    | (w, .error e) => (w, .error e)
    | (w, .ok ()) => writeWords key inst n (offset + 4) (value >>> 32) w

/-- Models: pepclibs/Tpmi.py:696-746 `_write_register()`. -/
def writeReg (value : Int) (fname addr : PyStr) (inst : Nat) (regname : PyStr) (bfname : Option PyStr)
    (s : St W) : St W × Except Exn Unit :=
  match getReg E fname regname with
  | .error e => (s, .error e)
  | .ok R =>
    if value < 0 then (s, .error .error)
    else if value > (1 <<< R.width : Nat) - 1 then (s, .error .error)
    else
      match getMdmap K E fname addr s with
      | (s, .error e) => (s, .error e)
      | (s, .ok mdmap) =>
        match validateOffset mdmap inst R.offset with
        | .error e => (s, .error e)
        | .ok () =>
          let value : Except Exn Nat :=
            match bfname with
            | none => .ok value.toNat
            | some bfname =>
              match readReg K E s.w fname addr inst regname none with
              | .error e => .error e
              | .ok regval =>
                match getField R bfname with
                | .error e => .error e
                | .ok F => .ok (setBitfield F regval value.toNat)
          match value with
          | .error e => (s, .error e)
          | .ok value =>
            let r := writeWords K (addr, E.fid fname) inst ((R.width + 31) / 32) R.offset value s.w
            ({ s with w := r.1 }, r.2)

/-- Models: pepclibs/Tpmi.py:767-773 `_validate_fname()` and 775-803 `_validate_addr()` without a
package, for an address which is not `None`. -/
def validateAddr (fname addr : PyStr) : Except Exn Unit :=
  match E.fmaps.get? fname with
  | none => .error .error
  | some addrs => if (addrs.get? addr).isSome then .ok () else .error .error

/-- Models: pepclibs/Tpmi.py:820-831 `_validate_regname()`. -/
def validateReg (fname regname : PyStr) (bfname : Option PyStr) : Except Exn Unit :=
  match getReg E fname regname with
  | .error e => .error e
  | .ok R =>
    match bfname with
    | none => .ok ()
    | some b => if (R.fields.get? b).isSome then .ok () else .error .error

/-- Models: pepclibs/Tpmi.py:833-842 `_validate_instance()`. -/
def validateInstance (fname addr : PyStr) (inst : Nat) (s : St W) : St W × Except Exn Unit :=
  match getMdmap K E fname addr s with
  | (s, .error e) => (s, .error e)
  | (s, .ok mdmap) => (s, if (mdmap.get? inst).isSome then .ok () else .error .error)

/-- Models: pepclibs/Tpmi.py:925-941 `read_register()`. -/
def readRegister (fname addr : PyStr) (inst : Nat) (regname : PyStr) (bfname : Option PyStr) (s : St W) :
    St W × Except Exn Nat :=
  match validateAddr E fname addr with
  | .error e => (s, .error e)
  | .ok () =>
    match validateReg E fname regname bfname with
    | .error e => (s, .error e)
    | .ok () =>
      match validateInstance K E fname addr inst s with
      | (s, .error e) => (s, .error e)
      | (s, .ok ()) => (s, readReg K E s.w fname addr inst regname bfname)

/-- Models: pepclibs/Tpmi.py:956-973 `write_register()`. -/
def writeRegister (value : Int) (fname addr : PyStr) (inst : Nat) (regname : PyStr)
    (bfname : Option PyStr) (s : St W) : St W × Except Exn Unit :=
  match validateAddr E fname addr with
  | .error e => (s, .error e)
  | .ok () =>
    match validateReg E fname regname bfname with
    | .error e => (s, .error e)
    | .ok () =>
      match validateInstance K E fname addr inst s with
      | (s, .error e) => (s, .error e)
      | (s, .ok ()) => writeReg K E value fname addr inst regname bfname s

/-! ### Iterating -/

/-- Models: pepclibs/Tpmi.py:775-801 `_validate_addr()`. -/
def validateAddrPkg (fname : PyStr) (addr : Option PyStr) (package : Option Nat) : Except Exn Unit :=
  match addr, package with
  | none, none => .ok ()
  | none, some p => if p ∈ E.packages then .ok () else .error .error
  | some a, package =>
    match E.fmaps.get? fname with
    | none => .error .pyKeyError
    | some fmap =>
      match fmap.get? a with
      | none => .error .error
      | some correct =>
        match package with
        | none => .ok ()
        | some p => if p ≠ correct then .error .error else .ok ()

/-- `check(x)` for every element, until the first exception. -/
def checkAll {α : Type} (check : α → Except Exn Unit) : List α → Except Exn Unit
  | [] => .ok ()
  | x :: xs =>
    match check x with
    | .error e => .error e
    | .ok () => checkAll check xs

/-- `None` as a sequence with one `None` element.
Models: pepclibs/Tpmi.py:811-814. -/
def orNone {α : Type} : Option (List α) → List (Option α)
  | none => [none]
  | some l => l.map some

/-- Models: pepclibs/Tpmi.py:803-818 `_validate_addrs()`. -/
def validateAddrs (fname : PyStr) (addrs : Option (List PyStr)) (packages : Option (List Nat)) :
    Except Exn Unit :=
  checkAll (fun p : Option PyStr × Option Nat => validateAddrPkg E fname p.1 p.2)
    ((orNone addrs).flatMap fun a => (orNone packages).map fun p => (a, p))

/-- The loop validating instance numbers. Models: pepclibs/Tpmi.py:914-916. -/
def validateInstances (fname addr : PyStr) : List Nat → St W → St W × Except Exn Unit
  | [], s => (s, .ok ())
  | i :: is, s =>
    match validateInstance K E fname addr i s with
    | (s, .error e) => (s, .error e)
    | (s, .ok ()) => validateInstances fname addr is s

/-- What `iter_feature()` yields. -/
abbrev Triple := PyStr × Nat × Nat

/-- The loops over devices and packages, as one loop over the pairs; `out` is what was yielded so far.
The variable `instances` is assigned in the loop. The generator is assumed to be consumed to the end.
Models: pepclibs/Tpmi.py:905-923. -/
def iterLoop (fname : PyStr) (fmap : Dict PyStr Nat) : List (PyStr × Nat) → Option (List Nat) →
    List Triple → St W → St W × List Triple × Option Exn
  | [], _, out, s => (s, out, none)
  | (addr, package) :: rest, instances, out, s =>
    if fmap.get? addr ≠ some package then iterLoop fname fmap rest instances out s
    else
      match instances with
      | some is =>
        match validateInstances K E fname addr is s with
        | (s, .error e) => (s, out, some e)
        | (s, .ok ()) =>
          iterLoop fname fmap rest (some is) (out ++ is.map fun i => (addr, package, i)) s
      | none =>
        match getMdmap K E fname addr s with
        | (s, .error e) => (s, out, some e)
        | (s, .ok mdmap) =>
          iterLoop fname fmap rest (some mdmap.keys)
            (out ++ mdmap.keys.map fun i => (addr, package, i)) s

/-- What was yielded and the exception, if any. Models: pepclibs/Tpmi.py:885-923 `iter_feature()`. -/
def iterFeature (fname : PyStr) (addrs : Option (List PyStr)) (packages : Option (List Nat))
    (instances : Option (List Nat)) (s : St W) : St W × List Triple × Option Exn :=
  match validateAddrs E fname addrs packages with
  | .error e => (s, [], some e)
  | .ok () =>
    match E.fmaps.get? fname with
    | none => (s, [], some .pyKeyError)
    | some fmap =>
      iterLoop K E fname fmap
        ((addrs.getD fmap.keys).flatMap fun a => (packages.getD E.packages).map fun p => (a, p))
        instances [] s

end

end Verif.Tpmi
