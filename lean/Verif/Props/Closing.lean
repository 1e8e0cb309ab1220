import Verif.Lemmas.Closing

/-!
C113: objects are closed by those who created them, once.

`C113_closed`: whatever objects are created, by the user or by other objects, and in whatever order the user closes
objects, if the classes treat their attributes properly, then an object created by the user is closed as many times as the
user closes it, an object created by another object is closed exactly once when that one is closed first, never before and
never again, and no exception is raised. `C113_dropped`: an object which was closed keeps no objects.
`C113_half`: closing an object which has no attributes yet does nothing, if there are no `unref_attrs`.
`C113_classes`: the classes of the project treat their attributes properly, with the exception of `CPUFreqMSR`.
`C113_leak_counterexample`: the MSR object which `CPUFreqMSR` creates is never closed.
`C113_half_counterexample`: closing an object whose constructor failed early may raise `UnboundLocalError`.
-/

namespace Verif.Closing

open Spec

theorem C113_closed (ops : List Op) (hw : ∀ op ∈ ops, ∀ cls, opCls op = some cls → wellFormed cls = true) :
    (run ops).errs = [] ∧
    (∀ c o, (run ops).heap c = some o → o.maker = none → (run ops).log.count c = (run ops).calls.count c) ∧
    ∀ c o p a, (run ops).heap c = some o → o.maker = some (p, a) →
      (run ops).log.count c = if p ∈ (run ops).log then 1 else 0 := by
  have hi := inv_run ops hw
  refine ⟨hi.errs, hi.root, ?_⟩
  intro c o p a hc ho
  rw [hi.child c o p a hc ho]
  split
  · rename_i h
    have := List.count_pos_iff.mpr h
    omega
  · rename_i h
    rw [List.count_eq_zero_of_not_mem h]
    rfl

theorem C113_dropped (ops : List Op) (hw : ∀ op ∈ ops, ∀ cls, opCls op = some cls → wellFormed cls = true) (c : Nat)
    (o : Obj) (hc : (run ops).heap c = some o) (hl : c ∈ (run ops).log) (a : PyStr)
    (ha : a ∈ closeList o.cls ∨ a ∈ unrefList o.cls) : o.attrs a = some .none :=
  (inv_run ops hw).shut c o hc hl a ha

/-- An object whose constructor failed before it set the attributes can be closed if the class has no `unref_attrs`:
nothing happens. -/
theorem C113_half (n : Nat) (h : Heap) (id : Nat) (o : Obj) (ho : h id = some o) (hn : ∀ a ∈ closeList o.cls, o.attrs a = none)
    (hu : ∀ st ∈ o.cls.stages, st.2 = []) : closeObj (n + 1) h id = (h, [id], none) := by
  rw [closeObj, ho]
  dsimp only
  rw [closeStages_half]
  intro st hst
  refine ⟨fun a ha => ?_, hu st hst⟩
  unfold valueOf
  rw [ho]
  show (o.attrs a).getD .none = .none
  rw [hn a (List.mem_flatMap.mpr ⟨st, hst, ha⟩)]
  rfl

/-- The classes of the project. -/
theorem C113_classes : ∀ cls ∈ classes, wellFormed cls = true := by decide +kernel

/-- The exception. -/
theorem C113_cpufreq_msr : wellFormed cpufreqMsr = false := by decide +kernel

/-! ### A non-trivial case -/

/-- The class with a name. -/
def byName (n : String) : Cls := (classes.find? fun c => decide (c.name = n.toList)).getD (pmanOnly "")

/-- `pepc cstates`: the user creates a process manager (0), `CPUInfo` (1), `MSR` (2) and `CStates` (3), which creates
`CPUIdle` (4), which creates a cache (5), and `PowerCtl` (6); everything is closed, and `CStates` is closed again. -/
def exOps : List Op :=
  [.new (byName "LocalProcessManager") (fun _ => none),
    .new (byName "CPUInfo") (fun k => if k = "_pman".toList then some 0 else none),
    .new (byName "MSR") (fun k => if k = "_pman".toList then some 0 else if k = "_cpuinfo".toList then some 1 else none),
    .new (byName "CStates") (fun k => if k = "_pman".toList then some 0 else if k = "_cpuinfo".toList then some 1
      else if k = "_msr".toList then some 2 else none),
    .make 3 "_cpuidle".toList (byName "CPUIdle")
      (fun k => if k = "_pman".toList then some 0 else if k = "_cpuinfo".toList then some 1 else none),
    .make 4 "_cache".toList (byName "PerCPUCache") (fun k => if k = "_cpuinfo".toList then some 1 else none),
    .make 3 "_powerctl".toList (byName "FeaturedMSR") (fun k => if k = "_pman".toList then some 0
      else if k = "_cpuinfo".toList then some 1 else if k = "_msr".toList then some 2 else none),
    .close 3, .close 2, .close 1, .close 3, .close 0]

example : ∀ op ∈ exOps, ∀ cls, opCls op = some cls → wellFormed cls = true := by
  have h : ∀ op ∈ exOps, (match opCls op with
    | some cls => wellFormed cls
    | none => true) = true := by decide +kernel
  intro op hop cls hc
  have := h op hop
  rw [hc] at this
  exact this

example : (run exOps).log = [3, 6, 4, 5, 2, 1, 3, 0] := by decide +kernel

/-! ### Where it does not hold -/

/-- `CPUFreqMSR(cpuinfo)` (the process manager is 0, `CPUInfo` 1, `CPUFreqMSR` 2) creates an MSR object (3). -/
def leakOps : List Op :=
  [.new (byName "LocalProcessManager") (fun _ => none),
    .new (byName "CPUInfo") (fun k => if k = "_pman".toList then some 0 else none),
    .new cpufreqMsr (fun k => if k = "_pman".toList then some 0 else if k = "_cpuinfo".toList then some 1 else none),
    .make 2 "_msr".toList (byName "MSR")
      (fun k => if k = "_pman".toList then some 0 else if k = "_cpuinfo".toList then some 1 else none),
    .close 2, .close 1, .close 0]

theorem C113_leak_counterexample : (run leakOps).errs = [] ∧ (run leakOps).log = [2, 1, 0] ∧
    ((run leakOps).heap 3).map (fun o => o.maker) = some (some (2, "_msr".toList)) := by decide +kernel

/-- `close()` of an object whose constructor failed before it set the attributes, for a class which has an attribute in
`unref_attrs`: an exception; without such attributes there is none. -/
theorem C113_half_counterexample (mk : Option (Nat × PyStr)) :
    (closeObj 1 (fun x => if x = 0 then some ⟨byName "ToolChecker", mk, fun _ => none⟩ else none) 0).2.2 =
      some .pyUnboundLocal ∧
    (closeObj 1 (fun x => if x = 0 then some ⟨byName "CPUOnline", mk, fun _ => none⟩ else none) 0).2.2 = none := by
  constructor <;> rfl

end Verif.Closing
