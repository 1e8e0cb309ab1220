import Verif.Lib.Exn
import Verif.Lib.PyStr

/-!
Model of how objects are closed: `ClassHelpers.close()`, and of the objects the classes create or get from the caller.
Sources: pepclibs/helperlibs/ClassHelpers.py, and the constructors and `close()` methods of the classes.

Simplifications: an attribute is `None`, a boolean, or an object; attributes which are neither closed nor dereferenced by
`close()` are left out; all objects which are closed have a `close()` method, which does what `ClassHelpers.close()` does
for the lists of attributes of the class and of its base classes (what `close()` methods do besides, such as unloading a
driver, is left out); messages are dropped.
-/

namespace Verif.Closing

/-- The value of an attribute; objects are numbers. -/
inductive Val where
  | none
  | bool (b : Bool)
  | ref (n : Nat)
  deriving DecidableEq

/-- `bool(val)`. -/
def Val.truthy : Val → Bool
  | .none => false
  | .bool b => b
  | .ref _ => true

/-- How an attribute gets its object.
 * `arg`: `self.attr = arg`, `self._close_attr = arg is None`, and the class creates the object if there is none;
 * `borrowed`: `self.attr = arg`, and the class never creates the object;
 * `own`: `self.attr = None`, and the class creates the object;
 * `leaky`: `self.attr = arg`, and the class creates the object if there is none, but there is no `_close_attr`. -/
inductive Kind where
  | arg
  | borrowed
  | own
  | leaky
  deriving DecidableEq

/-- A class: the attributes, and, for `close()` of the class and of its base classes, the lists which are passed to
`ClassHelpers.close()`: `close_attrs` and `unref_attrs`. -/
structure Cls where
  name : PyStr
  slots : List (PyStr × Kind)
  stages : List (List PyStr × List PyStr)

/-- An object. `maker` is not read by the code: it tells which attribute of which object it was created for; `none` if it
was created by the user of the classes. -/
structure Obj where
  cls : Cls
  maker : Option (Nat × PyStr)
  attrs : PyStr → Option Val

/-- The objects. -/
abbrev Heap := Nat → Option Obj

/-- `setattr(obj, attr, None)`. -/
def clear (h : Heap) (id : Nat) (a : PyStr) : Heap :=
  fun x => if x = id then (h x).map fun o => { o with attrs := fun k => if k = a then some .none else o.attrs k } else h x

/-- The name of the attribute which tells whether to close. Models: pepclibs/helperlibs/ClassHelpers.py:167-170. -/
def flagName (a : PyStr) : PyStr :=
  if a.head? = some '_' then "_close".toList ++ a else "_close_".toList ++ a

/-- What a call does: the objects afterwards, the objects whose `close()` was called, and the exception. -/
abbrev Res := Heap × List Nat × Option Exn

/-- The attribute value: `getattr(cls_obj, attr, None)`. -/
def valueOf (h : Heap) (id : Nat) (a : PyStr) : Val := (((h id).bind fun o => o.attrs a)).getD .none

/-- One attribute of `close_attrs`; `rc` is the `close()` method of another object.
Models: pepclibs/helperlibs/ClassHelpers.py:158-188. -/
def closeAttr (rc : Heap → Nat → Res) (id : Nat) (a : PyStr) (h : Heap) : Res :=
  match valueOf h id a with
  | .none => (h, [], none)
  | .bool false => (h, [], none)
  | v =>
    match (h id).bind fun o => o.attrs (flagName a) with
    | some (.bool false) => (clear h id a, [], none)
    | some .none => (clear h id a, [], none)
    | some (.ref _) => (clear h id a, [], none)
    | _ =>
      match v with
      | .ref c =>
        match rc h c with
        | (h, l, some e) => (h, l, some e)
        | (h, l, none) => (clear h id a, l, none)
      | _ => (clear h id a, [], none)

/-- The loop over `close_attrs`. The boolean tells whether the local variable `name` has a value.
Models: pepclibs/helperlibs/ClassHelpers.py:158-188. -/
def closeAttrs (rc : Heap → Nat → Res) (id : Nat) : List PyStr → Heap → Bool → Res × Bool
  | [], h, b => ((h, [], none), b)
  | a :: as, h, b =>
    let b := b || (valueOf h id a).truthy
    match closeAttr rc id a h with
    | (h, l, some e) => ((h, l, some e), b)
    | (h, l, none) =>
      match closeAttrs rc id as h b with
      | ((h, l', e), b) => ((h, l ++ l', e), b)

/-- The loop over `unref_attrs`; the message about an attribute which does not exist has `name` in place of `attr`.
Models: pepclibs/helperlibs/ClassHelpers.py:190-197. -/
def unrefAttrs (id : Nat) : List PyStr → Heap → Bool → Heap × Option Exn
  | [], h, _ => (h, none)
  | a :: as, h, b =>
    if ((h id).bind fun o => o.attrs a).isNone && !b then (h, some .pyUnboundLocal)
    else if (valueOf h id a).truthy then unrefAttrs id as (clear h id a) b
    else unrefAttrs id as h b

/-- `ClassHelpers.close()`. Models: pepclibs/helperlibs/ClassHelpers.py:119-197. -/
def closeStage (rc : Heap → Nat → Res) (id : Nat) (st : List PyStr × List PyStr) (h : Heap) : Res :=
  match closeAttrs rc id st.1 h false with
  | ((h, l, some e), _) => (h, l, some e)
  | ((h, l, none), b) =>
    match unrefAttrs id st.2 h b with
    | (h, e) => (h, l, e)

/-- `close()` of the class, then `super().close()`. Models, for instance: pepclibs/PStates.py:1149-1156. -/
def closeStages (rc : Heap → Nat → Res) (id : Nat) : List (List PyStr × List PyStr) → Heap → Res
  | [], h => (h, [], none)
  | st :: sts, h =>
    match closeStage rc id st h with
    | (h, l, some e) => (h, l, some e)
    | (h, l, none) =>
      match closeStages rc id sts h with
      | (h, l', e) => (h, l ++ l', e)

/-- `obj.close()`; the first argument bounds the depth of the recursion (`RecursionError` beyond). -/
def closeObj : Nat → Heap → Nat → Res
  | 0, h, _ => (h, [], some .error)
  | n + 1, h, id =>
    match h id with
    | none => (h, [], some .pyAttributeError)
    | some o =>
      match closeStages (closeObj n) id o.cls.stages h with
      | (h, l, e) => (h, id :: l, e)

/-- The attributes which a constructor sets. Models, for instance: pepclibs/_PropsClassBase.py:1297-1305,
pepclibs/PStates.py:1136-1145. -/
def initAttrs (cls : Cls) (args : PyStr → Option Nat) (k : PyStr) : Option Val :=
  match cls.slots.find? (fun s => decide (s.1 = k)) with
  | some (_, .own) => some .none
  | some (_, _) =>
    some (match args k with
      | some x => .ref x
      | none => .none)
  | none =>
    match cls.slots.find? (fun s => decide (s.2 = .arg ∧ flagName s.1 = k)) with
    | some s => some (.bool (args s.1).isNone)
    | none => none

/-- The state: the number of objects, the objects, the `close()` calls, those made by the user, and the exceptions. -/
structure St where
  size : Nat
  heap : Heap
  log : List Nat
  calls : List Nat
  errs : List Exn

/-- What happens to the objects: the user creates one; an object creates another one for an attribute (in the
constructor, or later: `if not self.attr: self.attr = Class(…)`); the user closes one. -/
inductive Op where
  | new (cls : Cls) (args : PyStr → Option Nat)
  | make (p : Nat) (a : PyStr) (cls : Cls) (args : PyStr → Option Nat)
  | close (id : Nat)

/-- A new object; arguments are objects which exist. -/
def alloc (s : St) (cls : Cls) (maker : Option (Nat × PyStr)) (args : PyStr → Option Nat) : Heap :=
  fun x => if x = s.size then
    some ⟨cls, maker, initAttrs cls fun k => (args k).filter (fun n => decide (n < s.size))⟩ else s.heap x

/-- `setattr(obj, attr, val)`. -/
def setRef (h : Heap) (id : Nat) (a : PyStr) (c : Nat) : Heap :=
  fun x => if x = id then (h x).map fun o => { o with attrs := fun k => if k = a then some (.ref c) else o.attrs k }
    else h x

/-- The class creates objects for the attribute. -/
def creates (cls : Cls) (a : PyStr) : Bool :=
  match cls.slots.find? (fun s => decide (s.1 = a)) with
  | some (_, .borrowed) => false
  | some (_, _) => true
  | none => false

/-- One step. Users close what they have created, and objects do not create anything after they are closed: other steps
do nothing. -/
def step (s : St) : Op → St
  | .new cls args => { s with size := s.size + 1, heap := alloc s cls none args }
  | .make p a cls args =>
    match s.heap p with
    | none => s
    | some o =>
      if creates o.cls a = true ∧ o.attrs a = some .none ∧ p ∉ s.log then
        { s with size := s.size + 1, heap := setRef (alloc s cls (some (p, a)) args) p a s.size }
      else s
  | .close id =>
    match s.heap id with
    | none => s
    | some o =>
      if o.maker = none then
        match closeObj s.size s.heap id with
        | (h, l, e) => ⟨s.size, h, s.log ++ l, s.calls ++ [id], s.errs ++ e.toList⟩
      else s

/-- The steps, one after another. -/
def run (ops : List Op) : St := ops.foldl step ⟨0, fun _ => none, [], [], []⟩

/-! ### The classes -/

/-- A class which has only the process manager. -/
def pmanOnly (name : String) : Cls := ⟨name.toList, [("_pman".toList, .arg)], [(["_pman".toList], [])]⟩

/-- The attributes of `PropsClassBase`. Models: pepclibs/_PropsClassBase.py:1297-1305. -/
def propsSlots : List (PyStr × Kind) :=
  [("_pman".toList, .arg), ("_cpuinfo".toList, .arg), ("_msr".toList, .arg), ("_sysfs_io".toList, .arg)]

/-- `PropsClassBase.close()`. Models: pepclibs/_PropsClassBase.py:1324-1328. -/
def propsStage : List PyStr × List PyStr :=
  (["_sysfs_io".toList, "_msr".toList, "_cpuinfo".toList, "_pman".toList], [])

/-- The attributes of `FeaturedMSR`. Models: pepclibs/msr/_FeaturedMSR.py:499-504. -/
def featSlots : List (PyStr × Kind) := [("_pman".toList, .arg), ("_cpuinfo".toList, .borrowed), ("_msr".toList, .arg)]

/-- `FeaturedMSR.close()`. Models: pepclibs/msr/_FeaturedMSR.py:525-530. -/
def featStage : List PyStr × List PyStr := (["_msr".toList, "_pman".toList], ["_cpuinfo".toList])

/-- The attributes of `EPBase`. Models: pepclibs/_EPBase.py:247-271. -/
def epSlots : List (PyStr × Kind) :=
  [("_pman".toList, .arg), ("_cpuinfo".toList, .arg), ("_msr".toList, .arg), ("_pcache".toList, .own)]

/-- `EPBase.close()`. Models: pepclibs/_EPBase.py:272-276. -/
def epStage : List PyStr × List PyStr := (["_msr".toList, "_cpuinfo".toList, "_pman".toList, "_pcache".toList], [])

/-- The list of the attributes an object creates. -/
def owns (l : List String) : List (PyStr × Kind) := l.map fun a => (a.toList, .own)

/-- A list of names. -/
def names (l : List String) : List PyStr := l.map String.toList

/-- `CPUFreqMSR`. Models: pepclibs/_CPUFreq.py:804-810, 1243-1279. -/
def cpufreqMsr : Cls :=
  ⟨"CPUFreqMSR".toList, [("_pman".toList, .arg), ("_cpuinfo".toList, .arg), ("_msr".toList, .leaky)] ++
    owns ["_fsbfreq", "_pmenable", "_hwpreq", "_hwpreq_pkg", "_hwpcap", "_platinfo", "_trl"],
    [(names ["_trl", "_platinfo", "_fsbfreq", "_pmenable", "_hwpreq", "_hwpreq_pkg", "_hwpcap", "_cpuinfo", "_pman"],
      [])]⟩

/-- The other classes. Models: pepclibs/helperlibs/LocalProcessManager.py, pepclibs/_SysfsIO.py:380-399,
pepclibs/ASPM.py:162-175, pepclibs/helperlibs/PCI.py:67-77, pepclibs/helperlibs/Systemctl.py:163-178,
pepclibs/helperlibs/Dmesg.py:85-95, pepclibs/helperlibs/KernelModule.py:124-139, pepclibs/_PerCPUCache.py:108-121,
pepclibs/helperlibs/ToolChecker.py:218-224, pepclibs/Tpmi.py:984, 1028, pepclibs/_PropsCache.py:146-162,
pepclibs/_CPUInfoBase.py:436-486, pepclibs/msr/MSR.py:628-661, pepclibs/msr/_FeaturedMSR.py:499-530,
pepclibs/msr/PackagePowerInfo.py:114-124, pepclibs/msr/PackagePowerLimit.py:246-257, pepclibs/_UncoreFreq.py:612-661,
pepclibs/_LinuxPMQoS.py:104-123, pepclibs/CPUOnline.py:171-189, pepclibs/CPUIdle.py:509-528,
pepclibs/_CPUFreq.py:575-608 and 754-775, pepclibs/_EPBase.py:247-276, pepclibs/EPP.py:178, 179, 189-193,
pepclibs/EPB.py:128, 140-144, pepclibs/PStates.py:1136-1156, pepclibs/CStates.py:313-327, pepclibs/Power.py:218-230,
pepclibs/PMQoS.py:102-112, pepctool/_OpTarget.py:371-376, 507-511, pepctool/_PepcSetter.py:213,
pepctool/_PepcPrinter.py:533. -/
def classes : List Cls :=
  [⟨"LocalProcessManager".toList, [], []⟩, pmanOnly "SysfsIO", pmanOnly "ASPM", pmanOnly "PCI", pmanOnly "Systemctl",
    pmanOnly "Dmesg",
    ⟨"KernelModule".toList, [("_pman".toList, .arg), ("_dmesg_obj".toList, .arg)],
      [(names ["_dmesg_obj", "_pman"], [])]⟩,
    ⟨"PerCPUCache".toList, [("_cpuinfo".toList, .borrowed)], [([], names ["_cpuinfo"])]⟩,
    ⟨"ToolChecker".toList, [("_pman".toList, .borrowed)], [([], names ["_pman"])]⟩,
    ⟨"Tpmi".toList, [("_pman".toList, .borrowed)], [([], names ["_pman"])]⟩,
    ⟨"PropsCache".toList, [("_cpuinfo".toList, .arg)], [(names ["_cpuinfo"], [])]⟩,
    ⟨"CPUInfo".toList, ("_pman".toList, .arg) :: owns ["_msr", "_pliobj", "_uncfreq_obj"],
      [(names ["_uncfreq_obj", "_pliobj", "_msr", "_pman"], [])]⟩,
    ⟨"MSR".toList, [("_pman".toList, .arg), ("_cpuinfo".toList, .borrowed)] ++ owns ["_msr_drv", "_cache"],
      [(names ["_pman", "_msr_drv", "_cache"], names ["_cpuinfo"])]⟩,
    ⟨"FeaturedMSR".toList, featSlots, [featStage]⟩,
    ⟨"PackagePowerInfo".toList, owns ["_unitobj"] ++ featSlots, [(names ["_unitobj"], []), featStage]⟩,
    ⟨"PackagePowerLimit".toList, owns ["_unitobj"] ++ featSlots, [(names ["_unitobj"], []), featStage]⟩,
    ⟨"UncoreFreqSysfs".toList, [("_pman".toList, .arg), ("_cpuinfo".toList, .borrowed), ("_sysfs_io".toList, .arg)] ++
      owns ["_drv"], [(names ["_sysfs_io", "_drv", "_pman"], names ["_cpuinfo"])]⟩,
    ⟨"LinuxPMQoS".toList, [("_pman".toList, .arg), ("_sysfs_io".toList, .arg)], [(names ["_sysfs_io", "_pman"], [])]⟩,
    ⟨"CPUOnline".toList, [("_pman".toList, .arg), ("_cpuinfo".toList, .arg)], [(names ["_cpuinfo", "_pman"], [])]⟩,
    ⟨"CPUIdle".toList, [("_pman".toList, .arg), ("_cpuinfo".toList, .arg)] ++ owns ["_cache"],
      [(names ["_cache", "_cpuinfo", "_pman"], [])]⟩,
    ⟨"CPUFreqSysfs".toList, propsSlots ++ owns ["_cpufreq_msr_obj"],
      [(names ["_sysfs_io", "_msr", "_cpufreq_msr_obj", "_cpuinfo", "_pman"], [])]⟩,
    ⟨"CPUFreqCPPC".toList, [("_pman".toList, .arg), ("_cpuinfo".toList, .arg), ("_sysfs_io".toList, .arg)],
      [(names ["_sysfs_io", "_cpuinfo", "_pman"], [])]⟩,
    ⟨"EPP".toList, epSlots ++ owns ["_hwpreq", "_hwpreq_pkg"], [(names ["_hwpreq", "_hwpreq_pkg"], []), epStage]⟩,
    ⟨"EPB".toList, epSlots ++ owns ["_epb_msr"], [(names ["_epb_msr"], []), epStage]⟩,
    ⟨"PStates".toList, propsSlots ++ owns ["_eppobj", "_epbobj", "_fsbfreq", "_cpufreq_sysfs_obj", "_cpufreq_cppc_obj",
        "_cpufreq_msr_obj", "_uncfreq_sysfs_obj"],
      [(names ["_eppobj", "_epbobj", "_fsbfreq", "_cpufreq_sysfs_obj", "_cpufreq_cppc_obj", "_cpufreq_msr_obj",
        "_uncfreq_sysfs_obj"], []), propsStage]⟩,
    ⟨"CStates".toList, propsSlots ++ ("_cpuidle".toList, .arg) :: owns ["_powerctl", "_pcstatectl"],
      [(names ["_pcstatectl", "_powerctl", "_cpuidle"], []), propsStage]⟩,
    ⟨"Power".toList, propsSlots ++ owns ["_pplobj", "_ppiobj"], [(names ["_pplobj", "_ppiobj"], []), propsStage]⟩,
    ⟨"PMQoS".toList, propsSlots ++ owns ["_linux_pmqos_obj"], [(names ["_linux_pmqos_obj"], []), propsStage]⟩,
    ⟨"OpTarget".toList, [("_pman".toList, .arg), ("_cpuinfo".toList, .arg)], [(names ["_cpuinfo", "_pman"], [])]⟩,
    ⟨"PropsSetter".toList, ["_pman", "_pobj", "_cpuinfo", "_pcsprint", "_msr", "_sysfs_io"].map (fun a => (a.toList, .borrowed)),
      [([], names ["_sysfs_io", "_msr", "_pcsprint", "_cpuinfo", "_pobj", "_pman"])]⟩,
    ⟨"PropsPrinter".toList, ["_pobj", "_cpuinfo", "_fobj"].map (fun a => (a.toList, .borrowed)),
      [([], names ["_fobj", "_cpuinfo", "_pobj"])]⟩]

end Verif.Closing
