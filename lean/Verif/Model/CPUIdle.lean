import Verif.Lib.Dict
import Verif.Lib.PyList
import Verif.Model.EP

/-!
Model of pepclibs/CPUIdle.py: C-states information and toggling.
-/

namespace Verif.CPUIdle

/-- The name of a C-state file with its extension-less name; `CST_SYSFS_FNAMES`.
Models: pepclibs/CPUIdle.py:24-26. -/
def fnames : List PyStr :=
  ["name".toList, "desc".toList, "disable".toList, "latency".toList, "residency".toList, "time".toList,
   "usage".toList]

/-- A file `/sys/devices/system/cpu/cpu<cpu>/cpuidle/state<idx>/<fname>`. Simplification: every file has
one line, `content` is that line without the white space around it. -/
structure File where
  cpu : Nat
  idx : Nat
  fname : PyStr
  content : PyStr
  deriving DecidableEq, Repr

/-- The values in C-state dictionaries. -/
inductive Value where
  | num (n : Int)
  | text (s : PyStr)
  | bool (b : Bool)
  deriving DecidableEq, Repr

/-- A C-state dictionary. Models: pepclibs/CPUIdle.py:298-307. -/
structure CState where
  index : Nat
  attrs : Dict PyStr Value
  deriving DecidableEq, Repr

/-- C-states of a CPU by name. -/
abbrev CsInfo := Dict PyStr CState

/-! ### Reading -/

/-- Comparison of Python strings. -/
def strLe : PyStr → PyStr → Bool
  | [], _ => true
  | _ :: _, [] => false
  | a :: as, b :: bs => if a = b then strLe as bs else decide (a.toNat < b.toNat)

/-- The path of a file as printed by 'find'. -/
def path (f : File) : PyStr :=
  "/sys/devices/system/cpu/cpu".toList ++ PyStr.ofNat f.cpu ++ "/cpuidle/state".toList ++
    PyStr.ofNat f.idx ++ '/' :: f.fname ++ ['\n']

/-- The files of `cpus` in the order they are processed; `files` are in the order of 'find'.
`none`: there are no files. Models: pepclibs/CPUIdle.py:52-124 `_read_fpaths_and_values()`. -/
def readFiles (files : List File) (cpus : List Nat) : Option (List File) :=
  let found := files.filter (fun f => f.cpu ∈ cpus)
  if found.isEmpty then none
  else some ((sortBy (fun f g => strLe (path f) (path g)) found).filter (fun f => f.fname ∈ fnames))

/-- Models: pepclibs/CPUIdle.py:181-182. -/
def parseVal (s : PyStr) : Except Exn Value :=
  if EP.isInt s then
    match EP.parse10 s with
    | .ok n => .ok (.num n)
    | .error e => .error e
  else .ok (.text s)

/-- `csname.upper()`. Models: pepclibs/CPUIdle.py:202-205. Simplification: ASCII. -/
def upper (s : PyStr) : PyStr := s.map Char.toUpper

/-- The loop over the keys. Models: pepclibs/CPUIdle.py:147-148. -/
def copyKeys (attrs : Dict PyStr Value) : List PyStr → Except Exn (Dict PyStr Value)
  | [] => .ok []
  | k :: ks =>
    match attrs.get? k with
    | none => .error .pyKeyError
    | some v =>
      match copyKeys attrs ks with
      | .error e => .error e
      | .ok d => .ok ((k, v) :: d)

/-- Models: pepclibs/CPUIdle.py:132-148 `_add_cstate()`. -/
def addCState (csinfo : CsInfo) (cs : CState) : Except Exn CsInfo :=
  match cs.attrs.get? "name".toList with
  | none => .error .error
  | some (.text name) =>
    match copyKeys cs.attrs fnames with
    | .error e => .error e
    | .ok attrs => .ok (csinfo.set (upper name) ⟨cs.index, attrs⟩)
  | some _ => .error .pyAttributeError

/-- The variables of the loop. `out` is what was yielded. -/
structure Loop where
  csinfo : CsInfo
  cstate : CState
  prev : Option (Nat × Nat)
  out : List (Nat × CsInfo)

/-- Before the loop. Models: pepclibs/CPUIdle.py:158-164. -/
def Loop.init : Loop := ⟨[], ⟨0, []⟩, none, []⟩

/-- Models: pepclibs/CPUIdle.py:184-187: the C-state is added when the index changes. -/
def flushState (L : Loop) (idx : Nat) : Except Exn Loop :=
  match L.prev with
  | some (_, pidx) =>
    if idx ≠ pidx then
      match addCState L.csinfo L.cstate with
      | .error e => .error e
      | .ok csinfo => .ok { L with csinfo := csinfo, cstate := ⟨0, []⟩ }
    else .ok L
  | none => .ok L

/-- Models: pepclibs/CPUIdle.py:189-191: the dictionary is yielded when the CPU changes. -/
def flushCpu (L : Loop) (cpu : Nat) : Loop :=
  match L.prev with
  | some (pcpu, _) =>
    if cpu ≠ pcpu then { L with csinfo := [], out := L.out ++ [(pcpu, L.csinfo)] } else L
  | none => L

/-- One iteration. Models: pepclibs/CPUIdle.py:168-197. -/
def step (L : Loop) (f : File) : Except Exn Loop :=
  match parseVal f.content with
  | .error e => .error e
  | .ok v =>
    match flushState L f.idx with
    | .error e => .error e
    | .ok L =>
      let L := flushCpu L f.cpu
      .ok { L with prev := some (f.cpu, f.idx), cstate := ⟨f.idx, L.cstate.attrs.set f.fname v⟩ }

/-- All iterations: what was yielded, and the variables at the end or the exception. -/
def loop : List File → Loop → List (Nat × CsInfo) × Except Exn Loop
  | [], L => (L.out, .ok L)
  | f :: fs, L =>
    match step L f with
    | .error e => (L.out, .error e)
    | .ok L => loop fs L

/-- What is yielded, and the exception. Without any files, the C-state dictionary is empty and adding it
fails. Models: pepclibs/CPUIdle.py:126-200 `_read_cstates_info()`. -/
def readInfo (files : List File) (cpus : List Nat) : List (Nat × CsInfo) × Except Exn Unit :=
  match readFiles files cpus with
  | none => (cpus.map (fun c => (c, [])), .ok ())
  | some fs =>
    match loop fs Loop.init with
    | (out, .error e) => (out, .error e)
    | (out, .ok L) =>
      match addCState L.csinfo L.cstate with
      | .error e => (out, .error e)
      | .ok csinfo =>
        match L.prev with
        | none => (out, .error .error)
        | some (cpu, _) => (out ++ [(cpu, csinfo)], .ok ())

/-- The names: "all" or a list. -/
inductive Names where
  | all
  | list (l : List PyStr)

/-- Models: pepclibs/CPUIdle.py:207-226 `_normalize_csnames()` for collections. -/
def normalizeNames : Names → Names
  | .all => .all
  | .list l => .list ((pyDedup l).map upper)

/-- The system and the object. -/
structure St where
  files : List File
  cache : Nat → Option CsInfo

/-- What a write to a "disable" file does: the value is stored, silently ignored, or refused. -/
inductive Kernel where
  | stored
  | ignored
  | refused

/-- The platform. `driver`: an idle driver is in use; `kern c i v`: what writing `v` to the "disable" file
of state `i` of CPU `c` does; `cacheOn`: caching is enabled. -/
structure Env where
  driver : Bool
  kern : Nat → Nat → PyStr → Kernel
  cacheOn : Bool

/-- Models: pepclibs/_PerCPUCache.py:37-51 `get()`. -/
def cacheGet (E : Env) (s : St) (c : Nat) : Except Exn CsInfo :=
  if !E.cacheOn then .error .notFound
  else match s.cache c with
    | none => .error .notFound
    | some i => .ok i

/-- Models: pepclibs/_PerCPUCache.py:79-101 `add()` with the "CPU" scope. -/
def cacheAdd (E : Env) (s : St) (c : Nat) (i : CsInfo) : St :=
  if !E.cacheOn then s else { s with cache := EP.upd s.cache c (some i) }

/-- Models: pepclibs/CPUIdle.py:264-268. -/
def load (E : Env) (cpus : List Nat) (s : St) : St × Except Exn Unit :=
  let need := cpus.filter (fun c => !Except.isOk' (cacheGet E s c))
  if need.isEmpty then (s, .ok ())
  else match readInfo s.files need with
    | (out, r) => (out.foldl (fun s p => cacheAdd E s p.1 p.2) s, r)

/-- The requested C-states of a CPU. Models: pepclibs/CPUIdle.py:276-283. -/
def pick (csinfo : CsInfo) : List PyStr → CsInfo → Except Exn CsInfo
  | [], acc => .ok acc
  | n :: ns, acc =>
    match csinfo.get? n with
    | none => .error .error
    | some st => pick csinfo ns (acc.set n st)

/-- The names used for a CPU and the ones after it: "all" becomes the names of the first CPU.
Models: pepclibs/CPUIdle.py:273-274. -/
def fixNames (names : Names) (csinfo : CsInfo) : List PyStr :=
  match names with
  | .all => csinfo.keys
  | .list l => l

/-- The loop yielding information. Models: pepclibs/CPUIdle.py:271-285. -/
def getLoop (E : Env) (s : St) : Names → List Nat → Except Exn (List (Nat × CsInfo))
  | _, [] => .ok []
  | names, c :: cpus =>
    match cacheGet E s c with
    | .error e => .error e
    | .ok csinfo =>
      let names := fixNames names csinfo
      match pick csinfo names [] with
      | .error e => .error e
      | .ok r =>
        match getLoop E s (.list names) cpus with
        | .error e => .error e
        | .ok l => .ok ((c, r) :: l)

/-- Models: pepclibs/CPUIdle.py:287-318 `get_cstates_info()`; the CPUs are normalized already.
Simplification: everything is yielded before the caller gets to see it. -/
def getInfo (E : Env) (names : Names) (cpus : List Nat) (s : St) :
    St × Except Exn (List (Nat × CsInfo)) :=
  if !E.driver then (s, .error .notSupported)
  else match load E cpus s with
    | (s, .error e) => (s, .error e)
    | (s, .ok ()) => (s, getLoop E s (normalizeNames names) cpus)

/-! ### Toggling -/

/-- The contents of a file. -/
def content (files : List File) (c i : Nat) (k : PyStr) : Option PyStr :=
  (files.find? (fun f => f.cpu == c && f.idx == i && f.fname == k)).map File.content

/-- Change the contents of a file. -/
def setContent (files : List File) (c i : Nat) (k : PyStr) (v : PyStr) : List File :=
  files.map (fun f => if f.cpu == c && f.idx == i && f.fname == k then { f with content := v } else f)

/-- Models: pepclibs/CPUIdle.py:228-256 `_toggle_cstate()`. -/
def toggle (E : Env) (c i : Nat) (enable : Bool) (s : St) : St × Except Exn Unit :=
  let val := if enable then ['0'] else ['1']
  match content s.files c i "disable".toList with
  | none => (s, .error .error)
  | some _ =>
    let (s, r) : St × Except Exn Unit := match E.kern c i val with
      | .stored => ({ s with files := setContent s.files c i "disable".toList val }, .ok ())
      | .ignored => (s, .ok ())
      | .refused => (s, .error .error)
    match r with
    | .error e => (s, .error e)
    | .ok () =>
      if content s.files c i "disable".toList = some val then (s, .ok ()) else (s, .error .error)

/-- Update of the cached data: `csinfo[csname]["disable"] = not enable`.
Models: pepclibs/CPUIdle.py:440-443. -/
def markCached (E : Env) (c : Nat) (name : PyStr) (enable : Bool) (s : St) : St × Except Exn Unit :=
  match cacheGet E s c with
  | .error e => (s, .error e)
  | .ok csinfo =>
    match csinfo.get? name with
    | none => (s, .error .pyKeyError)
    | some st =>
      (cacheAdd E s c (csinfo.set name { st with attrs := st.attrs.set "disable".toList (.bool (!enable)) }),
       .ok ())

/-- The loop over the C-states of a CPU. Models: pepclibs/CPUIdle.py:433-443. -/
def toggleStates (E : Env) (enable : Bool) (c : Nat) : CsInfo → St → St × Except Exn Unit
  | [], s => (s, .ok ())
  | (name, st) :: rest, s =>
    match toggle E c st.index enable s with
    | (s, .error e) => (s, .error e)
    | (s, .ok ()) =>
      match markCached E c name enable s with
      | (s, .error e) => (s, .error e)
      | (s, .ok ()) => toggleStates E enable c rest s

/-- The loop over the CPUs: toggling happens while the information is being yielded. The result are the
CPUs and the names of the C-states. Models: pepclibs/CPUIdle.py:271-285, 431-445. -/
def toggleLoop (E : Env) (enable : Bool) :
    Names → List Nat → St → St × Except Exn (List (Nat × List PyStr))
  | _, [], s => (s, .ok [])
  | names, c :: cpus, s =>
    match cacheGet E s c with
    | .error e => (s, .error e)
    | .ok csinfo =>
      let names := fixNames names csinfo
      match pick csinfo names [] with
      | .error e => (s, .error e)
      | .ok r =>
        match toggleStates E enable c r s with
        | (s, .error e) => (s, .error e)
        | (s, .ok ()) =>
          match toggleLoop E enable (.list names) cpus s with
          | (s, .error e) => (s, .error e)
          | (s, .ok l) => (s, .ok (if r.isEmpty then l else (c, r.keys) :: l))

/-- Models: pepclibs/CPUIdle.py:416-474 `_toggle_cstates()`, `enable_cstates()`, `disable_cstates()`; the
CPUs are normalized already. -/
def toggleCStates (E : Env) (names : Names) (cpus : List Nat) (enable : Bool) (s : St) :
    St × Except Exn (List (Nat × List PyStr)) :=
  if !E.driver then (s, .error .notSupported)
  else match load E cpus s with
    | (s, .error e) => (s, .error e)
    | (s, .ok ()) => toggleLoop E enable (normalizeNames names) cpus s

end Verif.CPUIdle
