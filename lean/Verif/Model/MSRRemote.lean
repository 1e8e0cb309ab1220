import Verif.Model.MSR
import Verif.Model.Trivial

/-!
Model of the "remote optimised" variants of pepclibs/msr/MSR.py: when the host is a remote one and there are several CPUs,
registers are read and written by a script running on that host, and the values come as a text.
-/

namespace Verif.MSR

open CPUInfo (Scope Nums)
open Verif.Bits (BitRange FieldVal setBits getBits)

/-! ### Text -/

/-- The characters `str.splitlines()` splits at. -/
def isLineEnd (c : Char) : Bool :=
  let n := c.toNat
  (10 ≤ n && n ≤ 13) || (28 ≤ n && n ≤ 30) || n == 0x85 || n == 0x2028 || n == 0x2029

/-- `str.splitlines()`, `cur` is the current line reversed. -/
def splitLinesAux : PyStr → PyStr → List PyStr
  | cur, [] => if cur.isEmpty then [] else [cur.reverse]
  | cur, '\r' :: '\n' :: s => cur.reverse :: splitLinesAux [] s
  | cur, c :: s => if isLineEnd c then cur.reverse :: splitLinesAux [] s else splitLinesAux (c :: cur) s

/-- `s.splitlines()`. -/
def splitLines (s : PyStr) : List PyStr := splitLinesAux [] s

/-- The line the script prints. Models: pepclibs/msr/MSR.py:345. -/
def scriptLine (p : Nat × Int) : PyStr := PyStr.ofNat p.1 ++ ',' :: (PyStr.ofInt p.2 ++ ['\n'])

/-- The script reading register `addr` of the CPUs and what the caller gets: its output, or an error if it fails for one
of the CPUs. Models: pepclibs/msr/MSR.py:334-348. That `run_verify()` provides the whole output is C73 and C74. -/
def runReadScript (E : Env) (st : St) (addr : Nat) (cpus : List Nat) : Except Exn PyStr :=
  if cpus.any (E.rfail addr) then .error .error
  else .ok (cpus.flatMap fun c => scriptLine (c, st.hw addr c))

/-! ### Reading -/

/-- The list `do_read`, the last argument is `dont_read`. Models: pepclibs/msr/MSR.py:299-327. -/
def planReads (E : Env) (st : St) (addr : Nat) (iosname : Scope) : List Nat → List Nat → List Nat
  | [], _ => []
  | cpu :: cpus, dont =>
    if dont.contains cpu then planReads E st addr iosname cpus dont
    else match st.cache.get? addr cpu with
      | some _ => planReads E st addr iosname cpus dont
      | none =>
        if st.cache.enabled then
          let siblings := E.T.sib iosname cpu
          siblings.filter (· == cpu) ++
            planReads E st addr iosname cpus (siblings.filter (· != cpu) ++ dont)
        else cpu :: planReads E st addr iosname cpus dont

/-- Handle the lines: fill the cache and the dictionary `regvals`. `get_cpu_siblings()`, which `add()` calls, fails if
there is no such CPU. Models: pepclibs/msr/MSR.py:349-360. -/
def handleLines (E : Env) (addr : Nat) (iosname : Scope) :
    List PyStr → St → Dict Int Int → St × Except Exn (Dict Int Int)
  | [], st, regvals => (st, .ok regvals)
  | line :: lines, st, regvals =>
    match Trivial.splitCsvLine (PyStr.strip line) ',' false with
    | [s0, s1] =>
      match Trivial.strToInt s0 with
      | .error e => (st, .error e)
      | .ok cpu =>
        match Trivial.strToInt s1 with
        | .error e => (st, .error e)
        | .ok regval =>
          if st.cache.enabled ∧ ¬ (0 ≤ cpu ∧ cpu.toNat ∈ E.T.online) then (st, .error .error)
          else handleLines E addr iosname lines
            { st with cache := st.cache.add E.T addr cpu.toNat regval iosname } (regvals.set cpu regval)
    | _ => (st, .error .error)

/-- Provide the values: from `regvals`, otherwise from the cache. Models: pepclibs/msr/MSR.py:329-332 (with an empty
`regvals`) and 362-366. -/
def collect (st : St) (addr : Nat) (regvals : Dict Int Int) : List Nat → Except Exn (List (Nat × Int))
  | [] => .ok []
  | cpu :: cpus =>
    match (regvals.get? (cpu : Int)).or (st.cache.get? addr cpu) with
    | none => .error .notFound
    | some v =>
      match collect st addr regvals cpus with
      | .error e => .error e
      | .ok l => .ok ((cpu, v) :: l)

/-- Models: pepclibs/msr/MSR.py:287-366 `_read_remote_optimized()`. -/
def readRemote (E : Env) (addr : Nat) (iosname : Scope) (cpus : List Nat) (st : St) :
    St × Except Exn (List (Nat × Int)) :=
  let doRead := planReads E st addr iosname cpus []
  if doRead.isEmpty then (st, collect st addr [] cpus)
  else match runReadScript E st addr doRead with
    | .error e => (st, .error e)
    | .ok stdout =>
      match handleLines E addr iosname (splitLines stdout) st [] with
      | (st, .error e) => (st, .error e)
      | (st, .ok regvals) => (st, collect st addr regvals cpus)

/-- `_read()` of a remote host, consumed to the end. Models: pepclibs/msr/MSR.py:368-384. -/
def readLoopR (E : Env) (addr : Nat) (iosname : Scope) (cpus : List Nat) (st : St) :
    St × Except Exn (List (Nat × Int)) :=
  if cpus.length > 1 then readRemote E addr iosname cpus st else readLoop E addr iosname cpus st

/-- `read()` of a remote host. Models: pepclibs/msr/MSR.py:386-399. -/
def readR (E : Env) (st : St) (addr : Nat) (cpus : Nums) (iosname : Scope) :
    St × Except Exn (List (Nat × Int)) :=
  match E.T.normCpus cpus with
  | .error e => (st, .error e)
  | .ok cpus => readLoopR E addr iosname cpus st

/-- The loop of `read_bits()`. Models: pepclibs/msr/MSR.py:428-429. -/
def bitsOf (bits : BitRange) : List (Nat × Int) → Except Exn (List (Nat × Int))
  | [] => .ok []
  | (cpu, regval) :: l =>
    match getBits regval bits with
    | .error e => .error e
    | .ok v =>
      match bitsOf bits l with
      | .error e => .error e
      | .ok r => .ok ((cpu, v) :: r)

/-- `read_bits()` of a remote host. Models: pepclibs/msr/MSR.py:414-429. -/
def readBitsR (E : Env) (st : St) (addr : Nat) (bits : BitRange) (cpus : Nums) (iosname : Scope) :
    St × Except Exn (List (Nat × Int)) :=
  match readR E st addr cpus iosname with
  | (st, .error e) => (st, .error e)
  | (st, .ok l) => (st, bitsOf bits l)

/-! ### Writing -/

/-- The comparisons of `_verify()`. Models: pepclibs/msr/MSR.py:106-110. -/
def checkAll (val : Int) : List (Nat × Int) → Except Exn Unit
  | [] => .ok ()
  | (_, v) :: l => if v ≠ val then .error .verifyFailed else checkAll val l

/-- `_verify()` of a remote host. Models: pepclibs/msr/MSR.py:100-110. -/
def verifyR (E : Env) (addr : Nat) (val : Int) (cpus : List Nat) (iosname : Scope) (st : St) :
    St × Except Exn Unit :=
  if cpus.length > 1 then
    match removeLoop E addr iosname cpus st with
    | (st, .error e) => (st, .error e)
    | (st, .ok ()) =>
      match readRemote E addr iosname cpus st with
      | (st, .error e) => (st, .error e)
      | (st, .ok l) => (st, checkAll val l)
  else verify E addr val cpus iosname st

/-- `write()` of a remote host with an already normalised CPU list. Models: pepclibs/msr/MSR.py:503-528. -/
def writeNormR (E : Env) (st : St) (addr : Nat) (val : Int) (cpus : List Nat) (iosname : Scope)
    (vfy : Bool) : St × Except Exn Unit :=
  match removeLoop E addr iosname cpus st with
  | (st, .error e) => (st, .error e)
  | (st, .ok ()) =>
    match writeLoop E addr val vfy iosname cpus st with
    | (st, .error e) => (st, .error e)
    | (st, .ok ()) =>
      if vfy && !st.inTransaction then verifyR E addr val cpus iosname st
      else (st, .ok ())

/-- `write()` of a remote host. Models: pepclibs/msr/MSR.py:488-528. -/
def writeR (E : Env) (st : St) (addr : Nat) (val : Int) (cpus : Nums) (iosname : Scope)
    (vfy : Bool) : St × Except Exn Unit :=
  match E.T.normCpus cpus with
  | .error e => (st, .error e)
  | .ok cpus => writeNormR E st addr val cpus iosname vfy

/-- The loop of `write_bits()`. Models: pepclibs/msr/MSR.py:555-563. -/
def modifyAll (bits : BitRange) (val : FieldVal) :
    List (Nat × Int) → Dict Int (List Nat) → Except Exn (Dict Int (List Nat))
  | [], regvals => .ok regvals
  | (cpu, regval) :: l, regvals =>
    match setBits regval bits val with
    | .error e => .error e
    | .ok new =>
      if regval = new then modifyAll bits val l regvals
      else modifyAll bits val l (regvals.set new ((regvals.get? new).getD [] ++ [cpu]))

/-- Write every group. Models: pepclibs/msr/MSR.py:565-566. -/
def writeGroupsR (E : Env) (addr : Nat) (iosname : Scope) (vfy : Bool) :
    Dict Int (List Nat) → St → St × Except Exn Unit
  | [], st => (st, .ok ())
  | (regval, cpus) :: groups, st =>
    match writeR E st addr regval (.nums cpus) iosname vfy with
    | (st, .error e) => (st, .error e)
    | (st, .ok ()) => writeGroupsR E addr iosname vfy groups st

/-- `write_bits()` of a remote host. Models: pepclibs/msr/MSR.py:542-566. -/
def writeBitsR (E : Env) (st : St) (addr : Nat) (bits : BitRange) (val : FieldVal) (cpus : Nums)
    (iosname : Scope) (vfy : Bool) : St × Except Exn Unit :=
  match E.T.normCpus cpus with
  | .error e => (st, .error e)
  | .ok cpus =>
    match readLoopR E addr iosname cpus st with
    | (st, .error e) => (st, .error e)
    | (st, .ok l) =>
      match modifyAll bits val l [] with
      | .error e => (st, .error e)
      | .ok groups => writeGroupsR E addr iosname vfy groups st

/-! ### Transactions -/

/-- The script writing the transaction buffer: the writes are the same and in the same order, but every failure of it is
`Error`. Models: pepclibs/msr/MSR.py:133-167 `_transaction_write_remote_optimized()`. The representation of the buffer in
the text of the script is not modelled. -/
def flushRemote (E : Env) (buf : Dict Nat (Dict Nat TInfo)) (st : St) : St × Except Exn Unit :=
  match flushAll E buf st with
  | (st, .error _) => (st, .error .error)
  | (st, .ok ()) => (st, .ok ())

/-- Models: pepclibs/msr/MSR.py:209-210. -/
def verifyRegsR (E : Env) (val : Int) : Dict Nat (Scope × List Nat) → St → St × Except Exn Unit
  | [], st => (st, .ok ())
  | (addr, (iosname, cpus)) :: rest, st =>
    match verifyR E addr val cpus iosname st with
    | (st, .error e) => (st, .error e)
    | (st, .ok ()) => verifyRegsR E val rest st

/-- Models: pepclibs/msr/MSR.py:208-210. -/
def verifyAllR (E : Env) : Dict Int (Dict Nat (Scope × List Nat)) → St → St × Except Exn Unit
  | [], st => (st, .ok ())
  | (val, regs) :: rest, st =>
    match verifyRegsR E val regs st with
    | (st, .error e) => (st, .error e)
    | (st, .ok ()) => verifyAllR E rest st

/-- `flush_transaction()` of a remote host. Models: pepclibs/msr/MSR.py:169-213. -/
def flushTransactionR (E : Env) (st : St) : St × Except Exn Bool :=
  if !st.cache.enabled then (st, .ok false)
  else if !st.inTransaction then (st, .ok false)
  else if st.buf.isEmpty then (st, .ok false)
  else
    match (if st.buf.length > 1 then flushRemote E st.buf st else flushAll E st.buf st) with
    | (st, .error e) => (st, .error e)
    | (st, .ok ()) =>
      let info := verifyInfo st.buf
      match verifyAllR E info { st with buf := [] } with
      | (st, .error e) => (st, .error e)
      | (st, .ok ()) => (st, .ok true)

/-- Models: pepclibs/msr/MSR.py:215-230 `commit_transaction()`. -/
def commitTransactionR (E : Env) (st : St) : St × Except Exn Unit :=
  if !st.inTransaction then (st, .error .error)
  else
    match flushTransactionR E st with
    | (st, .error e) => (st, .error e)
    | (st, .ok _) => ({ st with inTransaction := false }, .ok ())

end Verif.MSR
