import Verif.Model.FreqInfo

/-!
Model of the idle driver and idle governor part of pepclibs/CPUIdle.py.
-/

namespace Verif.IdleGov

/-- The texts of the files "current_driver", "available_governors" and "current_governor" in
"/sys/devices/system/cpu/cpuidle", `none` if there is no such file. -/
structure Files where
  driver : Option PyStr
  avail : Option PyStr
  current : Option PyStr
  deriving DecidableEq

/-- Whether caching is enabled, whether CPU 0 is online, and the errors the kernel refuses to change the
governor with. -/
structure Env where
  cacheOn : Bool
  cpu0 : Bool
  wfail : PyStr → Option Exn

/-- The files and the cached items "current_driver", "available_governors" and "current_governor". All of
them are cached for CPU 0. -/
structure St where
  files : Files
  cDriver : Option PyStr
  cAvail : Option (List PyStr)
  cCurrent : Option PyStr

/-! ### Without caching -/

/-- Reading a missing file is reported as "not supported". Models: pepclibs/CPUIdle.py:358-366 without the
cache. -/
def driverPlain (F : Files) : Except Exn PyStr :=
  match F.driver with
  | none => .error .notSupported
  | some t => .ok (PyStr.strip t)

/-- Models: pepclibs/CPUIdle.py:371-393 `get_current_governor()` without the cache. -/
def currentPlain (F : Files) : Except Exn PyStr :=
  match driverPlain F with
  | .error e => .error e
  | .ok _ =>
    match F.current with
    | none => .error .notSupported
    | some t => .ok (PyStr.strip t)

/-- Models: pepclibs/CPUIdle.py:395-414 `get_available_governors()` without the cache. -/
def availPlain (F : Files) : Except Exn (List PyStr) :=
  match driverPlain F with
  | .error e => .error e
  | .ok _ =>
    match F.avail with
    | none => .error .notSupported
    | some t => .ok (FreqInfo.splitWs (PyStr.strip t))

/-- Writing the file. Models: pepclibs/CPUIdle.py:491-497: the file is opened with the "r+" mode, so it
has to exist. -/
def writeCurrent (wfail : PyStr → Option Exn) (g : PyStr) (F : Files) : Files × Except Exn Unit :=
  match F.current with
  | none => (F, .error .notFound)
  | some _ =>
    match wfail g with
    | some e => (F, .error e)
    | none => ({ F with current := some g }, .ok ())

/-- Models: pepclibs/CPUIdle.py:476-499 `set_current_governor()` without the cache. -/
def setPlain (wfail : PyStr → Option Exn) (g : PyStr) (F : Files) : Files × Except Exn Unit :=
  match availPlain F with
  | .error e => (F, .error e)
  | .ok l =>
    if l.isEmpty then (F, .error .notSupported)
    else if !l.contains g then (F, .error .error)
    else writeCurrent wfail g F

/-! ### With caching -/

/-- Adding to or removing from the cache looks the siblings of CPU 0 up, which fails if CPU 0 is offline.
Models: pepclibs/_PerCPUCache.py:65-77, 91-101, pepclibs/CPUInfo.py:416-417. -/
def cacheFails (E : Env) : Bool := E.cacheOn && !E.cpu0

/-- Models: pepclibs/CPUIdle.py:348-369 `get_idle_driver()`. -/
def driver (E : Env) (s : St) : St × Except Exn PyStr :=
  match (if E.cacheOn then s.cDriver else none) with
  | some d => (s, .ok d)
  | none =>
    match s.files.driver with
    | none => (s, .error .notSupported)
    | some t =>
      if cacheFails E then (s, .error .error)
      else ({ s with cDriver := if E.cacheOn then some (PyStr.strip t) else s.cDriver },
        .ok (PyStr.strip t))

/-- Models: pepclibs/CPUIdle.py:371-393 `get_current_governor()`. -/
def current (E : Env) (s : St) : St × Except Exn PyStr :=
  match driver E s with
  | (s, .error e) => (s, .error e)
  | (s, .ok _) =>
    match (if E.cacheOn then s.cCurrent else none) with
    | some g => (s, .ok g)
    | none =>
      match s.files.current with
      | none => (s, .error .notSupported)
      | some t =>
        if cacheFails E then (s, .error .error)
        else ({ s with cCurrent := if E.cacheOn then some (PyStr.strip t) else s.cCurrent },
          .ok (PyStr.strip t))

/-- Models: pepclibs/CPUIdle.py:395-414 `get_available_governors()`. -/
def avail (E : Env) (s : St) : St × Except Exn (List PyStr) :=
  match driver E s with
  | (s, .error e) => (s, .error e)
  | (s, .ok _) =>
    match (if E.cacheOn then s.cAvail else none) with
    | some l => (s, .ok l)
    | none =>
      match s.files.avail with
      | none => (s, .error .notSupported)
      | some t =>
        let l := FreqInfo.splitWs (PyStr.strip t)
        if cacheFails E then (s, .error .error)
        else ({ s with cAvail := if E.cacheOn then some l else s.cAvail }, .ok l)

/-- Models: pepclibs/CPUIdle.py:476-499 `set_current_governor()`. -/
def set (E : Env) (g : PyStr) (s : St) : St × Except Exn Unit :=
  if cacheFails E then (s, .error .error)
  else
    match avail E { s with cCurrent := if E.cacheOn then none else s.cCurrent } with
    | (s, .error e) => (s, .error e)
    | (s, .ok l) =>
      if l.isEmpty then (s, .error .notSupported)
      else if !l.contains g then (s, .error .error)
      else
        match writeCurrent E.wfail g s.files with
        | (F, .error e) => ({ s with files := F }, .error e)
        | (F, .ok ()) =>
          ({ s with files := F, cCurrent := if E.cacheOn then some g else s.cCurrent }, .ok ())

/-- The methods. -/
inductive Op where
  | driver | current | avail
  | set (g : PyStr)

/-- What a method returns. -/
inductive Res where
  | text (s : PyStr)
  | list (l : List PyStr)
  | done
  deriving DecidableEq

/-- One call of a `CPUIdle` object. -/
def step (E : Env) (o : Op) (s : St) : St × Except Exn Res :=
  match o with
  | .driver => match driver E s with | (s, r) => (s, r.map .text)
  | .current => match current E s with | (s, r) => (s, r.map .text)
  | .avail => match avail E s with | (s, r) => (s, r.map .list)
  | .set g => match set E g s with | (s, r) => (s, r.map fun _ => .done)

/-- A series of calls: the results. -/
def run (E : Env) : List Op → St → St × List (Except Exn Res)
  | [], s => (s, [])
  | o :: os, s =>
    match step E o s with
    | (s, r) => match run E os s with | (s, l) => (s, r :: l)

end Verif.IdleGov
