import Verif.Model.Tpmi

/-!
Model of the 'pepc tpmi read' and 'pepc tpmi write' commands. Sources: pepctool/_PepcTpmi.py, pepclibs/Tpmi.py.

Simplifications: the options are already split into lists without repetitions (`Trivial.split_csv_line()` and
`Trivial.split_csv_line_int()` with `dedup=True`, see C25), numbers of packages and instances are not negative
(negative ones do not exist and are refused like other missing ones). `tpmi_read_command()` turns the device
addresses into a set, the model takes them in the order in which the set is iterated, whichever it is. Text is not
modelled: what the write command reports is the list of devices, packages and instances, what the read
command prints is the dictionary `info`.
-/

namespace Verif.Tpmi

section
variable {W : Type} (K : Kernel W) (E : Env)

/-- The body of the `for` loop over what `iter_feature()` yields: state and what was collected so far. -/
abbrev Body (W A : Type) := Triple → St W → A → St W × A × Option Exn

/-- The loop yielding the instances of a device, with the body of the user of the generator run after each one.
Models: pepclibs/Tpmi.py:922-923. -/
def eachInst {A : Type} (body : Body W A) (addr : PyStr) (package : Nat) : List Nat → St W → A →
    St W × A × Option Exn
  | [], s, acc => (s, acc, none)
  | i :: is, s, acc =>
    match body (addr, package, i) s acc with
    | (s, acc, some e) => (s, acc, some e)
    | (s, acc, none) => eachInst body addr package is s acc

/-- Like `iterLoop`, but with the body of the user of the generator.
Models: pepclibs/Tpmi.py:905-923. -/
def eachLoop {A : Type} (body : Body W A) (fname : PyStr) (fmap : Dict PyStr Nat) : List (PyStr × Nat) →
    Option (List Nat) → St W → A → St W × A × Option Exn
  | [], _, s, acc => (s, acc, none)
  | (addr, package) :: rest, instances, s, acc =>
    if fmap.get? addr ≠ some package then eachLoop body fname fmap rest instances s acc
    else
      match instances with
      | some is =>
        match validateInstances K E fname addr is s with
        | (s, .error e) => (s, acc, some e)
        | (s, .ok ()) =>
          match eachInst body addr package is s acc with
          | (s, acc, some e) => (s, acc, some e)
          | (s, acc, none) => eachLoop body fname fmap rest (some is) s acc
      | none =>
        match getMdmap K E fname addr s with
        | (s, .error e) => (s, acc, some e)
        | (s, .ok mdmap) =>
          match eachInst body addr package mdmap.keys s acc with
          | (s, acc, some e) => (s, acc, some e)
          | (s, acc, none) => eachLoop body fname fmap rest (some mdmap.keys) s acc

/-- The options selecting devices, packages and instances. -/
structure Sel where
  addrs : Option (List PyStr)
  packages : Option (List Nat)
  instances : Option (List Nat)

/-- `for addr, package, instance in tpmi.iter_feature(...)`. Models: pepclibs/Tpmi.py:885-923. -/
def forFeature {A : Type} (body : Body W A) (fname : PyStr) (S : Sel) (s : St W) (acc : A) :
    St W × A × Option Exn :=
  match validateAddrs E fname S.addrs S.packages with
  | .error e => (s, acc, some e)
  | .ok () =>
    match E.fmaps.get? fname with
    | none => (s, acc, some .pyKeyError)
    | some fmap =>
      eachLoop K E body fname fmap
        ((S.addrs.getD fmap.keys).flatMap fun a => (S.packages.getD E.packages).map fun p => (a, p))
        S.instances s acc

/-! ### The write command -/

/-- Write the register and report. Models: pepctool/_PepcTpmi.py:229-235. -/
def writeBody (value : Int) (fname regname : PyStr) (bfname : Option PyStr) : Body W (List Triple) :=
  fun t s out =>
    match writeRegister K E value fname t.1 t.2.2 regname bfname s with
    | (s, .error e) => (s, out, some e)
    | (s, .ok ()) => (s, out ++ [t], none)

/-- What was reported, and the exception. Models: pepctool/_PepcTpmi.py:197-235 `tpmi_write_command()`. -/
def writeCmd (value : Int) (fname regname : PyStr) (bfname : Option PyStr) (S : Sel) (s : St W) :
    St W × List Triple × Option Exn :=
  forFeature K E (writeBody K E value fname regname bfname) fname S s []

/-! ### The read command -/

/-- `info[fname][addr]["instances"][instance][regname]`. -/
structure RegInfo where
  value : Nat
  /-- `none`: there is no "fields" key. -/
  fields : Option (Dict PyStr Nat)
  deriving DecidableEq

/-- `info[fname][addr]`. -/
structure DevInfo where
  package : Nat
  instances : Dict Nat (Dict PyStr RegInfo)
  deriving DecidableEq

/-- `info[fname]`. -/
abbrev FeatInfo := Dict PyStr DevInfo

/-- `name.startswith("RESERVED")`. Models: pepctool/_PepcTpmi.py:156, 178. -/
def reserved (name : PyStr) : Bool := (stripPrefix "RESERVED".toList name).isSome

/-- Models: pepclibs/Tpmi.py:943-954 `get_bitfield()`. -/
def getBitfieldOf (regval : Nat) (fname regname bfname : PyStr) : Except Exn Nat :=
  if (E.fmaps.get? fname).isNone then .error .error
  else
    match getReg E fname regname with
    | .error e => .error e
    | .ok R =>
      match getField R bfname with
      | .error e => .error e
      | .ok F => .ok (getBitfield F regval)

/-- The loop over bit fields. Models: pepctool/_PepcTpmi.py:177-182. -/
def readFields (fname regname : PyStr) (regval : Nat) : List PyStr → Dict PyStr Nat → Except Exn (Dict PyStr Nat)
  | [], acc => .ok acc
  | b :: bs, acc =>
    if reserved b then readFields fname regname regval bs acc
    else
      match getBitfieldOf E regval fname regname b with
      | .error e => .error e
      | .ok v => readFields fname regname regval bs (acc.set b v)

/-- The loop over registers. The `AssertionError` is represented by `pyValueError`.
`fdict[regname]` may be missing only if `read_register()` refuses the register.
Models: pepctool/_PepcTpmi.py:166-187. -/
def readRegs (fname addr : PyStr) (inst : Nat) (fdict : Dict PyStr Reg) (bfnames : Option (List PyStr)) :
    List PyStr → St W → Dict PyStr RegInfo → St W × Except Exn (Dict PyStr RegInfo)
  | [], s, acc => (s, .ok acc)
  | r :: rs, s, acc =>
    match readRegister K E fname addr inst r none s with
    | (s, .error e) => (s, .error e)
    | (s, .ok regval) =>
      if (acc.get? r).isSome then (s, .error .pyValueError)
      else
        match fdict.get? r with
        | none => (s, .error .pyKeyError)
        | some R =>
          match readFields E fname r regval (bfnames.getD R.fields.keys) [] with
          | .error e => (s, .error e)
          | .ok bfs =>
            readRegs fname addr inst fdict bfnames rs s
              (acc.set r ⟨regval, if bfs.isEmpty then none else some bfs⟩)

/-- The body of the loop over the instances. Models: pepctool/_PepcTpmi.py:158-187. -/
def readBody (fname : PyStr) (fdict : Dict PyStr Reg) (regnames : List PyStr) (bfnames : Option (List PyStr)) :
    Body W FeatInfo :=
  fun t s info =>
    let dev : DevInfo := (info.get? t.1).getD ⟨t.2.1, []⟩
    if (dev.instances.get? t.2.2).isSome then (s, info, some .pyValueError)
    else
      match readRegs K E fname t.1 t.2.2 fdict bfnames regnames s [] with
      | (s, .error e) => (s, info, some e)
      | (s, .ok regs) => (s, info.set t.1 { dev with instances := dev.instances.set t.2.2 regs }, none)

/-- One feature. Models: pepctool/_PepcTpmi.py:150-187. -/
def readFeature (fname : PyStr) (regnames bfnames : Option (List PyStr)) (S : Sel) (s : St W) :
    St W × Except Exn FeatInfo :=
  match E.fdict fname with
  | none => (s, .error .notSupported)
  | some fdict =>
    let regs := regnames.getD (fdict.keys.filter fun r => !reserved r)
    match forFeature K E (readBody K E fname fdict regs bfnames) fname S s [] with
    | (s, _, some e) => (s, .error e)
    | (s, info, none) => (s, .ok info)

/-- The loop over features. Models: pepctool/_PepcTpmi.py:149-187. -/
def readFeatures (regnames bfnames : Option (List PyStr)) (S : Sel) : List PyStr → St W → Dict PyStr FeatInfo →
    St W × Except Exn (Dict PyStr FeatInfo)
  | [], s, acc => (s, .ok acc)
  | f :: fs, s, acc =>
    match readFeature K E f regnames bfnames S s with
    | (s, .error e) => (s, .error e)
    | (s, .ok info) => readFeatures regnames bfnames S fs s (acc.set f info)

/-- The dictionary the command prints. By default it is about all features of the system.
Models: pepctool/_PepcTpmi.py:108-195 `tpmi_read_command()`. -/
def readCmd (fnames regnames bfnames : Option (List PyStr)) (S : Sel) (s : St W) :
    St W × Except Exn (Dict PyStr FeatInfo) :=
  if regnames.isNone && bfnames.isSome then (s, .error .error)
  else
    match readFeatures K E regnames bfnames S (fnames.getD E.fmaps.keys) s [] with
    | (s, .error e) => (s, .error e)
    | (s, .ok info) => if info.isEmpty then (s, .error .error) else (s, .ok info)

end

end Verif.Tpmi
