import Verif.Lib.Exn
import Verif.Lib.PyList

/-!
Model of pepclibs/CPUOnline.py: onlining and offlining CPUs.
-/

namespace Verif.CPUOnline

/-- What a write to an "online" file does: the CPU changes its state, nothing happens, or the write is
refused. -/
inductive Kernel where
  | stored
  | ignored
  | refused
  deriving DecidableEq

/-- The platform. `present`: the CPUs in `/sys/devices/system/cpu/present`; `hasFile c`: CPU `c` has the
"online" file, i.e. supports hotplug; `hasDir c`: there is the directory of CPU `c`; `kern online c b`: what
writing "1" or "0" (`b`) to the file of CPU `c` does when the CPUs `online` are online. -/
structure Env where
  present : List Nat
  hasFile : Nat → Bool
  hasDir : Nat → Bool
  kern : (Nat → Bool) → Nat → Bool → Kernel

/-- The system and the object: `online`: which CPUs are online; `cached`: `self._cpus` of the 'CPUInfo'
object, `[]` stands for `None`. Simplification: CPUs which are not present are not online; the set of present
CPUs never changes, so that it does not matter that it is cached. -/
structure St where
  online : Nat → Bool
  cached : List Nat

/-- Contents of `/sys/devices/system/cpu/online`. -/
def readOnline (E : Env) (s : St) : List Nat := E.present.filter s.online

/-- Models: pepclibs/_CPUInfoBase.py:325-330 `_get_online_cpus_set()`. -/
def onlineSet (E : Env) (s : St) : St × List Nat :=
  if s.cached.isEmpty then ({ s with cached := readOnline E s }, readOnline E s) else (s, s.cached)

/-- Models: pepclibs/_CPUInfoBase.py:414-423 `_cpus_hotplugged()`; the topology is not modelled. -/
def hotplugged (s : St) : St := { s with cached := [] }

/-- Models: pepclibs/CPUInfo.py:276-288 `get_cpus()` with order "CPU". -/
def getCpus (E : Env) (s : St) : St × List Nat :=
  match onlineSet E s with
  | (s, l) => (s, sortNat l)

/-- Models: pepclibs/CPUInfo.py:290-295 `get_offline_cpus()`. Simplification: the order of `present` instead
of the order of the set. -/
def getOffline (E : Env) (s : St) : St × List Nat :=
  match onlineSet E s with
  | (s, l) => (s, E.present.filter (fun c => c ∉ l))

/-- Models: pepclibs/CPUInfo.py:864-892 `normalize_cpus()` with `offline_ok=True`, for integers. -/
def normalize (E : Env) (cpus : List Nat) : Except Exn (List Nat) :=
  if (pyDedup cpus).all (fun c => c ∈ E.present) then .ok (pyDedup cpus) else .error .error

/-- Models: pepclibs/CPUOnline.py:37-44 `_verify_path()`. -/
def verifyPath (E : Env) (c : Nat) : Except Exn Unit :=
  if !E.hasFile c then
    if E.hasDir c then .error .notSupported else .error .error
  else .ok ()

/-- Write to the "online" file. -/
def write (E : Env) (c : Nat) (b : Bool) (s : St) : St × Except Exn Unit :=
  match E.kern s.online c b with
  | .stored => ({ s with online := fun c' => if c' = c then b else s.online c' }, .ok ())
  | .ignored => (s, .ok ())
  | .refused => (s, .error .error)

/-- The loop. The result are the toggled CPUs. Models: pepclibs/CPUOnline.py:103-127. -/
def loop (E : Env) (online skip : Bool) (ready : List Nat) :
    List Nat → List Nat → St → St × Except Exn (List Nat)
  | [], toggled, s => (s, .ok toggled)
  | c :: cpus, toggled, s =>
    if c ∈ ready then loop E online skip ready cpus toggled s
    else match verifyPath E c with
      | .error .notSupported =>
        if !skip then (s, .error .notSupported) else loop E online skip ready cpus toggled s
      | .error e => (s, .error e)
      | .ok () =>
        match write E c online s with
        | (s, .error e) => (s, .error e)
        | (s, .ok ()) => loop E online skip ready cpus (toggled ++ [c]) s

/-- Models: pepclibs/CPUOnline.py:46-57 `_validate_hotplugged_cpus()`. -/
def validate (E : Env) (cpus : List Nat) (online : Bool) (s : St) : St × Except Exn Unit :=
  let (s, valid) := if online then getCpus E s else getOffline E s
  if cpus.all (fun c => c ∈ valid) then (s, .ok ()) else (s, .error .error)

/-- The CPUs: "all" or a list. -/
inductive Cpus where
  | all
  | list (l : List Nat)

/-- The CPUs to process, 'none' for "All CPUs are already online/offline".
Models: pepclibs/CPUOnline.py:91-101. -/
def target (E : Env) (cpus : Cpus) (online : Bool) (s : St) : St × Except Exn (Option (List Nat)) :=
  match cpus with
  | .all =>
    let (s, l) := if online then getOffline E s else getCpus E s
    if l.isEmpty then (s, .ok none) else (s, .ok (some l))
  | .list l =>
    match normalize E l with
    | .error e => (s, .error e)
    | .ok l => (s, .ok (some l))

/-- Whether unsupported CPUs are skipped. Models: pepclibs/CPUOnline.py:92. -/
def skips : Cpus → Bool → Bool
  | .all, _ => true
  | .list _, skip => skip

/-- Models: pepclibs/CPUOnline.py:73-131 `_toggle()`, and 133-147 `online()`, `offline()`. -/
def toggle (E : Env) (cpus : Cpus) (online skip : Bool) (s : St) : St × Except Exn Unit :=
  let s := hotplugged s
  let (s, ready) := if online then getCpus E s else getOffline E s
  match target E cpus online s with
  | (s, .error e) => (s, .error e)
  | (s, .ok none) => (s, .ok ())
  | (s, .ok (some l)) =>
    match loop E online (skips cpus skip) ready l [] s with
    | (s, .error e) => (s, .error e)
    | (s, .ok toggled) =>
      if toggled.isEmpty then (s, .ok ()) else validate E toggled online (hotplugged s)

/-- Models: pepclibs/CPUOnline.py:59-66 `_get_online()` and 149-160 `is_online()`. Simplification: the file
contains "1" or "0". -/
def isOnline (E : Env) (c : Nat) (s : St) : Except Exn Bool :=
  if E.hasFile c then .ok (s.online c)
  else if !E.hasDir c then .error .notFound
  else .ok true

end Verif.CPUOnline
