import Verif.Model.PerCPUCache
import Verif.Model.Bits

/-!
Model of the MSR access module pepclibs/msr/MSR.py: cached reads, scope-aware writes, transactions.
The "remote optimised" variants (lines 133-167 and 287-366), which do the same accesses through a script,
are in Verif/Model/MSRRemote.lean.
-/

namespace Verif.MSR

open CPUInfo (Scope Nums)
open Verif.Bits (BitRange FieldVal setBits getBits)

/-- The environment: topology and hardware. `share addr c d` says that CPUs `c` and `d` physically
share register `addr`; `store addr old new` is what the register holds after `new` was written over
`old` (read-only bits may be dropped); `rfail`/`wfail` are accesses the kernel refuses. -/
structure Env where
  T : Topo
  share : Nat → Nat → Nat → Bool
  store : Nat → Int → Int → Int
  rfail : Nat → Nat → Bool
  wfail : Nat → Nat → Bool

/-- A transaction buffer element. Models: pepclibs/msr/MSR.py:76-78. -/
structure TInfo where
  regval : Int
  verify : Bool
  iosname : Scope
  deriving DecidableEq, Repr

/-- The state of an `MSR` object and of the hardware. `hw addr cpu` is what the hardware holds, `log`
is the list of hardware writes done so far `(cpu, addr, val)`.
Models: pepclibs/msr/MSR.py:612-660. -/
structure St where
  cache : Cache Nat Int
  inTransaction : Bool
  buf : Dict Nat (Dict Nat TInfo)
  hw : Nat → Nat → Int
  log : List (Nat × Nat × Int)

/-- Models: pepclibs/msr/MSR.py:471-486 `_write_cpu_nocache()` and the inner part of 112-131
`_transaction_write()`. A value that does not fit 8 bytes makes `to_bytes()` raise `OverflowError`. -/
def hwWrite (E : Env) (st : St) (addr : Nat) (val : Int) (cpu : Nat) : St × Except Exn Unit :=
  if val < 0 ∨ val ≥ 2 ^ 64 then (st, .error .pyOverflowError)
  else if E.wfail addr cpu then (st, .error .error)
  else
    let new := E.store addr (st.hw addr cpu) val
    ({ st with
        hw := fun a c => if a = addr ∧ E.share addr cpu c = true then new else st.hw a c
        log := st.log ++ [(cpu, addr, val)] }, .ok ())

/-- Read one CPU. Models: pepclibs/msr/MSR.py:375-384 (loop body of `_read()`). -/
def readOne (E : Env) (st : St) (addr : Nat) (iosname : Scope) (cpu : Nat) : St × Except Exn Int :=
  match st.cache.get? addr cpu with
  | some v => (st, .ok v)
  | none =>
    if E.rfail addr cpu then (st, .error .error)
    else
      let v := st.hw addr cpu
      ({ st with cache := st.cache.add E.T addr cpu v iosname }, .ok v)

/-- Models: pepclibs/msr/MSR.py:368-384 `_read()`, consumed to the end. -/
def readLoop (E : Env) (addr : Nat) (iosname : Scope) :
    List Nat → St → St × Except Exn (List (Nat × Int))
  | [], st => (st, .ok [])
  | cpu :: cpus, st =>
    match readOne E st addr iosname cpu with
    | (st, .error e) => (st, .error e)
    | (st, .ok v) =>
      match readLoop E addr iosname cpus st with
      | (st, .error e) => (st, .error e)
      | (st, .ok l) => (st, .ok ((cpu, v) :: l))

/-- Models: pepclibs/msr/MSR.py:386-399 `read()`. -/
def read (E : Env) (st : St) (addr : Nat) (cpus : Nums) (iosname : Scope) :
    St × Except Exn (List (Nat × Int)) :=
  match E.T.normCpus cpus with
  | .error e => (st, .error e)
  | .ok cpus => readLoop E addr iosname cpus st

/-- Models: pepclibs/msr/MSR.py:414-429 `read_bits()`, consumed to the end. -/
def readBitsLoop (E : Env) (addr : Nat) (bits : BitRange) (iosname : Scope) :
    List Nat → St → St × Except Exn (List (Nat × Int))
  | [], st => (st, .ok [])
  | cpu :: cpus, st =>
    match readOne E st addr iosname cpu with
    | (st, .error e) => (st, .error e)
    | (st, .ok regval) =>
      match getBits regval bits with
      | .error e => (st, .error e)
      | .ok v =>
        match readBitsLoop E addr bits iosname cpus st with
        | (st, .error e) => (st, .error e)
        | (st, .ok l) => (st, .ok ((cpu, v) :: l))

/-- Models: pepclibs/msr/MSR.py:414-429 `read_bits()`. -/
def readBits (E : Env) (st : St) (addr : Nat) (bits : BitRange) (cpus : Nums) (iosname : Scope) :
    St × Except Exn (List (Nat × Int)) :=
  match E.T.normCpus cpus with
  | .error e => (st, .error e)
  | .ok cpus => readBitsLoop E addr bits iosname cpus st

/-- Remove all the CPUs from the cache. Models: pepclibs/msr/MSR.py:503-504 and 103-104. -/
def removeLoop (E : Env) (addr : Nat) (iosname : Scope) : List Nat → St → St × Except Exn Unit
  | [], st => (st, .ok ())
  | cpu :: cpus, st =>
    match st.cache.remove E.T addr cpu iosname with
    | .error e => (st, .error e)
    | .ok cache => removeLoop E addr iosname cpus { st with cache := cache }

/-- The comparison loop of `_verify()`: reads go through the cache.
Models: pepclibs/msr/MSR.py:106-110. -/
def verifyLoop (E : Env) (addr : Nat) (val : Int) (iosname : Scope) :
    List Nat → St → St × Except Exn Unit
  | [], st => (st, .ok ())
  | cpu :: cpus, st =>
    match readOne E st addr iosname cpu with
    | (st, .error e) => (st, .error e)
    | (st, .ok v) => if v ≠ val then (st, .error .verifyFailed)
                     else verifyLoop E addr val iosname cpus st

/-- Models: pepclibs/msr/MSR.py:100-110 `_verify()`. -/
def verify (E : Env) (addr : Nat) (val : Int) (cpus : List Nat) (iosname : Scope) (st : St) :
    St × Except Exn Unit :=
  match removeLoop E addr iosname cpus st with
  | (st, .error e) => (st, .error e)
  | (st, .ok ()) => verifyLoop E addr val iosname cpus st

/-- Models: pepclibs/msr/MSR.py:54-78 `_add_for_transation()`. The consistency checks of lines 69-74
are dead code (`tinfo` is always a new dictionary). -/
def addForTransaction (st : St) (addr : Nat) (val : Int) (cpu : Nat) (verify : Bool)
    (iosname : Scope) : Except Exn St :=
  if !st.cache.enabled then .error .error
  else .ok { st with buf := st.buf.set cpu (((st.buf.get? cpu).getD []).set addr ⟨val, verify, iosname⟩) }

/-- The main loop of `write()`. Models: pepclibs/msr/MSR.py:509-523. -/
def writeLoop (E : Env) (addr : Nat) (val : Int) (vfy : Bool) (iosname : Scope) :
    List Nat → St → St × Except Exn Unit
  | [], st => (st, .ok ())
  | cpu :: cpus, st =>
    if st.cache.isCached addr cpu then writeLoop E addr val vfy iosname cpus st
    else if !st.inTransaction then
      match hwWrite E st addr val cpu with
      | (st, .error e) => (st, .error e)
      | (st, .ok ()) =>
        writeLoop E addr val vfy iosname cpus
          { st with cache := st.cache.add E.T addr cpu val iosname }
    else
      match addForTransaction st addr val cpu vfy iosname with
      | .error e => (st, .error e)
      | .ok st =>
        writeLoop E addr val vfy iosname cpus
          { st with cache := st.cache.add E.T addr cpu val iosname }

/-- `write()` with an already normalised CPU list. Models: pepclibs/msr/MSR.py:503-528. -/
def writeNorm (E : Env) (st : St) (addr : Nat) (val : Int) (cpus : List Nat) (iosname : Scope)
    (vfy : Bool) : St × Except Exn Unit :=
  match removeLoop E addr iosname cpus st with
  | (st, .error e) => (st, .error e)
  | (st, .ok ()) =>
    match writeLoop E addr val vfy iosname cpus st with
    | (st, .error e) => (st, .error e)
    | (st, .ok ()) =>
      if vfy && !st.inTransaction then verify E addr val cpus iosname st
      else (st, .ok ())

/-- Models: pepclibs/msr/MSR.py:488-528 `write()`. -/
def write (E : Env) (st : St) (addr : Nat) (val : Int) (cpus : Nums) (iosname : Scope)
    (vfy : Bool) : St × Except Exn Unit :=
  match E.T.normCpus cpus with
  | .error e => (st, .error e)
  | .ok cpus => writeNorm E st addr val cpus iosname vfy

/-- The read-modify loop of `write_bits()`: groups the CPUs by the new register value.
Models: pepclibs/msr/MSR.py:555-563. -/
def modifyLoop (E : Env) (addr : Nat) (bits : BitRange) (val : FieldVal) (iosname : Scope) :
    List Nat → St → Dict Int (List Nat) → St × Except Exn (Dict Int (List Nat))
  | [], st, regvals => (st, .ok regvals)
  | cpu :: cpus, st, regvals =>
    match readOne E st addr iosname cpu with
    | (st, .error e) => (st, .error e)
    | (st, .ok regval) =>
      match setBits regval bits val with
      | .error e => (st, .error e)
      | .ok new =>
        if regval = new then modifyLoop E addr bits val iosname cpus st regvals
        else modifyLoop E addr bits val iosname cpus st
          (regvals.set new ((regvals.get? new).getD [] ++ [cpu]))

/-- Write every group. Models: pepclibs/msr/MSR.py:565-566. -/
def writeGroups (E : Env) (addr : Nat) (iosname : Scope) (vfy : Bool) :
    Dict Int (List Nat) → St → St × Except Exn Unit
  | [], st => (st, .ok ())
  | (regval, cpus) :: groups, st =>
    match write E st addr regval (.nums cpus) iosname vfy with
    | (st, .error e) => (st, .error e)
    | (st, .ok ()) => writeGroups E addr iosname vfy groups st

/-- Models: pepclibs/msr/MSR.py:542-566 `write_bits()`. -/
def writeBits (E : Env) (st : St) (addr : Nat) (bits : BitRange) (val : FieldVal) (cpus : Nums)
    (iosname : Scope) (vfy : Bool) : St × Except Exn Unit :=
  match E.T.normCpus cpus with
  | .error e => (st, .error e)
  | .ok cpus =>
    match modifyLoop E addr bits val iosname cpus st [] with
    | (st, .error e) => (st, .error e)
    | (st, .ok groups) => writeGroups E addr iosname vfy groups st

/-- Models: pepclibs/msr/MSR.py:80-98 `start_transaction()`. -/
def startTransaction (st : St) : St × Except Exn Unit :=
  if !st.cache.enabled then (st, .ok ())
  else if st.inTransaction then (st, .error .error)
  else ({ st with inTransaction := true }, .ok ())

/-- Write all registers of one CPU. Models: pepclibs/msr/MSR.py:117-127. -/
def flushCpu (E : Env) (cpu : Nat) : Dict Nat TInfo → St → St × Except Exn Unit
  | [], st => (st, .ok ())
  | (addr, ti) :: rest, st =>
    match hwWrite E st addr ti.regval cpu with
    | (st, .error e) => (st, .error e)
    | (st, .ok ()) => flushCpu E cpu rest st

/-- Models: pepclibs/msr/MSR.py:112-131 `_transaction_write()`. -/
def flushAll (E : Env) : Dict Nat (Dict Nat TInfo) → St → St × Except Exn Unit
  | [], st => (st, .ok ())
  | (cpu, regs) :: rest, st =>
    match flushCpu E cpu regs st with
    | (st, .error e) => (st, .error e)
    | (st, .ok ()) => flushAll E rest st

/-- Add one transaction buffer element to `verify_info[regval][regaddr]`.
Models: pepclibs/msr/MSR.py:194-204. -/
def addVerifyInfo (info : Dict Int (Dict Nat (Scope × List Nat))) (cpu addr : Nat) (ti : TInfo) :
    Dict Int (Dict Nat (Scope × List Nat)) :=
  if !ti.verify then info
  else
    let regs := (info.get? ti.regval).getD []
    let cpus := ((regs.get? addr).getD (ti.iosname, [])).2
    info.set ti.regval (regs.set addr (ti.iosname, cpus ++ [cpu]))

/-- What is verified after a flush. Models: pepclibs/msr/MSR.py:190-204. -/
def verifyInfo (buf : Dict Nat (Dict Nat TInfo)) : Dict Int (Dict Nat (Scope × List Nat)) :=
  buf.foldl (fun d p => p.2.foldl (fun d q => addVerifyInfo d p.1 q.1 q.2) d) []

/-- Models: pepclibs/msr/MSR.py:209-210. -/
def verifyRegs (E : Env) (val : Int) : Dict Nat (Scope × List Nat) → St → St × Except Exn Unit
  | [], st => (st, .ok ())
  | (addr, (iosname, cpus)) :: rest, st =>
    match verify E addr val cpus iosname st with
    | (st, .error e) => (st, .error e)
    | (st, .ok ()) => verifyRegs E val rest st

/-- Models: pepclibs/msr/MSR.py:208-210. -/
def verifyAll (E : Env) : Dict Int (Dict Nat (Scope × List Nat)) → St → St × Except Exn Unit
  | [], st => (st, .ok ())
  | (val, regs) :: rest, st =>
    match verifyRegs E val regs st with
    | (st, .error e) => (st, .error e)
    | (st, .ok ()) => verifyAll E rest st

/-- Models: pepclibs/msr/MSR.py:169-213 `flush_transaction()`. -/
def flushTransaction (E : Env) (st : St) : St × Except Exn Bool :=
  if !st.cache.enabled then (st, .ok false)
  else if !st.inTransaction then (st, .ok false)
  else if st.buf.isEmpty then (st, .ok false)
  else
    match flushAll E st.buf st with
    | (st, .error e) => (st, .error e)
    | (st, .ok ()) =>
      let info := verifyInfo st.buf
      match verifyAll E info { st with buf := [] } with
      | (st, .error e) => (st, .error e)
      | (st, .ok ()) => (st, .ok true)

/-- Models: pepclibs/msr/MSR.py:215-230 `commit_transaction()`. -/
def commitTransaction (E : Env) (st : St) : St × Except Exn Unit :=
  if !st.inTransaction then (st, .error .error)
  else
    match flushTransaction E st with
    | (st, .error e) => (st, .error e)
    | (st, .ok _) => ({ st with inTransaction := false }, .ok ())

end Verif.MSR
