import Verif.Model.EP

/-!
Model of `CPUInfo.get_cache_info()`: the table of the CPU caches, as `lscpu --caches --json --bytes` prints it, turned into a
dictionary of dictionaries. Running `lscpu` and `json.loads()` are parameters.
-/

namespace Verif.CacheInfo

/-- A value of a JSON dictionary: a text, a whole number, or `null`. Simplification: `lscpu` prints no other kinds of values here
(true/false, fractions, nested lists), they are left out. -/
inductive Val where
  | text (s : PyStr)
  | num (n : Int)
  | null
  deriving DecidableEq, Repr

/-- The attributes of one cache: a dictionary as `json.loads()` gives it, in order. -/
abbrev Attrs := List (PyStr × Val)

/-- `self._cacheinfo`. The initial `None` and the empty dictionary are both `[]`: the only question asked about them is
`if self._cacheinfo`. Models: pepclibs/CPUInfo.py:1070-1071. -/
abbrev Table := List (Val × Attrs)

/-- What comes from `lscpu` and `json.loads()`: the command fails, the output is not JSON, there is no "caches" key, or there is a
list of caches. Models: pepclibs/CPUInfo.py:1073-1081, 1086. -/
inductive Reply where
  | failed (e : Exn)
  | garbage
  | noCaches
  | caches (infos : List Attrs)

/-- One value: `int(val) if Trivial.is_int(val) else val`. For `None` `is_int()` is false (`int("None", 0)` raises `ValueError`,
`int(None)` raises `TypeError`). Models: pepclibs/CPUInfo.py:1094-1097. -/
def conv : Val → Except Exn Val
  | .text s =>
    if EP.isInt s then
      match EP.parse10 s with
      | .ok n => .ok (.num n)
      | .error e => .error e
    else .ok (.text s)
  | .num n => .ok (.num n)
  | .null => .ok .null

/-- The loop over the attributes of one cache: what is stored, and the exception which ended the loop. The keys of a dictionary
are distinct, therefore every assignment adds an item. Models: pepclibs/CPUInfo.py:1093-1097. -/
def fill : Attrs → Attrs × Option Exn
  | [] => ([], none)
  | (k, v) :: r =>
    match conv v with
    | .error e => ([], some e)
    | .ok w => ((k, w) :: (fill r).1, (fill r).2)

/-- The loop over the caches: what is in `self._cacheinfo` at the end, and the exception which ended the loop.
Models: pepclibs/CPUInfo.py:1086-1097. -/
def loop : List Attrs → Table → Table × Option Exn
  | [], acc => (acc, none)
  | info :: r, acc =>
    match info.lookup "name".toList with
    | none => (acc, some .pyKeyError)
    | some name =>
      if name ∈ acc.map Prod.fst then (acc, some .error)
      else
        match (fill info).2 with
        | some e => (acc ++ [(name, (fill info).1)], some e)
        | none => loop r (acc ++ [(name, (fill info).1)])

/-- `get_cache_info()`: the new `self._cacheinfo` and the result. Models: pepclibs/CPUInfo.py:1064-1099. -/
def getCacheInfo (reply : Reply) (st : Table) : Table × Except Exn Table :=
  if st ≠ [] then (st, .ok st)
  else
    match reply with
    | .failed e => (st, .error e)
    | .garbage => (st, .error .error)
    | .noCaches => ([], .error .pyKeyError)
    | .caches infos =>
      match loop infos [] with
      | (t, none) => (t, .ok t)
      | (t, some e) => (t, .error e)

end Verif.CacheInfo
