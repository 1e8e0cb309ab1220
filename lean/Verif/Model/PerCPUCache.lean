import Verif.Model.CPUInfo

/-!
Model of pepclibs/_PerCPUCache.py.
-/

namespace Verif

open CPUInfo (Scope Nums)

/-- What the cache and the MSR module use of a `CPUInfo` object: the online CPUs and
`get_cpu_siblings()` of an online CPU (it does not fail for online CPUs, see
`CPUInfo.C15_siblings_exact`). -/
structure Topo where
  online : List Nat
  sib : Scope → Nat → List Nat

/-- The topology of a `CPUInfo` object. Models: pepclibs/CPUInfo.py:406-434. -/
def Topo.ofInfo (i : CPUInfo.Info) : Topo where
  online := i.online
  sib s c := match CPUInfo.getCpuSiblings i c s with
    | .ok l => l
    | .error _ => []

/-- `normalize_cpus()` as used by the MSR module. Models: pepclibs/CPUInfo.py:864-892 with
`offline_ok=False`. -/
def Topo.normCpus (T : Topo) (cpus : Nums) : Except Exn (List Nat) :=
  match cpus with
  | .all => .ok (sortNat (pyDedup T.online))
  | .nums l => if (pyDedup l).all (fun c => T.online.contains c) then .ok (pyDedup l) else .error .error

/-- A `PerCPUCache` object: whether caching is enabled and the two-level dictionary
`self._cache[name][cpu]`. Models: pepclibs/_PerCPUCache.py:103-118. Dictionary order is never
observed, so plain functions are used. -/
structure Cache (κ ν : Type) where
  enabled : Bool
  tab : κ → Option (Nat → Option ν)

namespace Cache

variable {κ ν : Type} [DecidableEq κ]

/-- An empty cache. Models: pepclibs/_PerCPUCache.py:103-118 `__init__()`. -/
def empty (enabled : Bool) : Cache κ ν := ⟨enabled, fun _ => none⟩

/-- Models: pepclibs/_PerCPUCache.py:37-51 `get()`; `none` stands for `ErrorNotFound`. -/
def get? (c : Cache κ ν) (name : κ) (cpu : Nat) : Option ν :=
  if !c.enabled then none
  else match c.tab name with
    | none => none
    | some f => f cpu

/-- Models: pepclibs/_PerCPUCache.py:25-35 `is_cached()`. -/
def isCached (c : Cache κ ν) (name : κ) (cpu : Nat) : Bool := (c.get? name cpu).isSome

/-- Models: pepclibs/_PerCPUCache.py:53-77 `remove()`. In the "global" scope `del self._cache[name]`
raises `KeyError` if there is nothing cached under that name. -/
def remove (T : Topo) (c : Cache κ ν) (name : κ) (cpu : Nat) (sname : Scope) :
    Except Exn (Cache κ ν) :=
  if !c.enabled then .ok c
  else if sname = .global then
    match c.tab name with
    | none => .error .pyKeyError
    | some _ => .ok { c with tab := fun n => if n = name then none else c.tab n }
  else
    let cpus := T.sib sname cpu
    .ok { c with
      tab := fun n =>
        if n = name then (c.tab n).map (fun f => fun x => if cpus.contains x then none else f x)
        else c.tab n }

/-- Models: pepclibs/_PerCPUCache.py:79-101 `add()`. -/
def add (T : Topo) (c : Cache κ ν) (name : κ) (cpu : Nat) (val : ν) (sname : Scope) : Cache κ ν :=
  if !c.enabled then c
  else
    let cpus := T.sib sname cpu
    { c with
      tab := fun n =>
        if n = name then
          some (fun x => if cpus.contains x then some val else
            match c.tab n with
            | none => none
            | some f => f x)
        else c.tab n }

end Cache

end Verif
