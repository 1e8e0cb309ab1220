import Verif.Lemmas.TopoTable
import Verif.Lemmas.TopoHost
import Verif.Lemmas.TopoInfo

/-!
C72: the topology table is right at every level and in every order, after any history of requests and CPU hot-plugging.
-/

namespace Verif.TopoBuild

open CPUInfo (Level)

/-- C72: provided every die with CPUs always had an online CPU, whatever was requested before and however CPUs went
online and offline, requesting any levels in any order succeeds, and returns exactly one line for every online CPU with
the right numbers, one line for every I/O die if dies were ever requested, and no other lines; the lines are sorted.
Missing: histories where all CPUs of a die were offline (see the counterexample). -/
theorem C72_table_partial (m : Machine) (hw : m.WF) (asked : Bool) (on : List Nat) (h : Host) (st : St)
    (hr : Reach m (Covers m) asked on h st) (levels : List Level) (order : Level) :
    ∃ st' rows, getTopology h st levels order = .ok (st', rows) ∧
      Correct m on (asked || decide (Level.die ∈ levels) || decide (order = .die)) levels order rows := by
  have hi := inv_of_reach hw hr
  obtain ⟨st', base, h1, h2, h3, h4⟩ := getTopology_spec hw hi levels order
  refine ⟨st', _, h1, ?_⟩
  rw [h4.asked]
  exact correct_of_base hw h2 hi.shows.nodup h3 order

/-- C72: the tables with all levels, and the cached I/O dies, satisfy the assumptions of the topology queries (`CPUInfo.WF`),
therefore C15-C22 and everything which uses the topology hold for them. -/
theorem C72_queries_partial (m : Machine) (hw : m.WF) (asked : Bool) (on : List Nat) (h : Host) (st st' : St)
    (rows : List Row) (hr : Reach m (Covers m) asked on h st) (order : Level)
    (hg : getTopology h st [.CPU, .core, .module, .die, .node, .package] order = .ok (st', rows)) :
    CPUInfo.WF (infoOf m on st' rows) := by
  have hi := inv_of_reach hw hr
  obtain ⟨st1, rows1, h1, h2⟩ := C72_table_partial m hw asked on h st hr [.CPU, .core, .module, .die, .node, .package] order
  obtain ⟨st2, base, h3, _, h4, h5⟩ := getTopology_spec hw hi [.CPU, .core, .module, .die, .node, .package] order
  rw [h1] at h3
  cases h3
  rw [h1] at hg
  cases hg
  have hd : Level.die ∈ st'.levels := h4 _ (by decide)
  rw [show (asked || decide (Level.die ∈ [Level.CPU, .core, .module, .die, .node, .package]) || decide (order = .die)) =
    true by simp] at h2
  exact wf_of_correct hw hi.shows.sub hi.shows.nodup (by intro l; cases l <;> decide) h2 fun p d =>
    ⟨h5.dies.di.isIo p d, h5.dies.all hd p d⟩

/-- An example machine: packages 0 and 1, CPUs 0-3 on two dies of package 0, CPUs 4 and 5 on the die of package 1. The
driver also reports the die 2 of package 0 and the die 1 of package 1. -/
def exMachine : Machine where
  present := [0, 1, 2, 3, 4, 5]
  num
    | .CPU, c => c
    | .core, c => [0, 1, 4, 5, 0, 1].getD c 0
    | .module, c => [0, 0, 1, 1, 2, 2].getD c 0
    | .die, c => [0, 0, 1, 1, 0, 0].getD c 0
    | .node, c => [0, 0, 0, 0, 1, 1].getD c 0
    | .package, c => [0, 0, 0, 0, 1, 1].getD c 0
  uncore := some [(0, [0, 1, 2]), (1, [1, 0])]

theorem exMachine_wf : exMachine.WF := by
  refine ⟨fun c => rfl, fun c hc l => ?_, fun u hu => ?_, fun u hu p ds hp => ?_⟩
  · have : c = 0 ∨ c = 1 ∨ c = 2 ∨ c = 3 ∨ c = 4 ∨ c = 5 := by simpa [exMachine] using hc
    rcases this with rfl | rfl | rfl | rfl | rfl | rfl <;> cases l <;> decide
  · cases hu; decide
  · cases hu
    have := Dict.mem_of_get? hp
    simp only [List.mem_cons, List.not_mem_nil, or_false, Prod.mk.injEq] at this
    rcases this with ⟨rfl, rfl⟩ | ⟨rfl, rfl⟩ <;> decide

/-- A history: the table of cores is requested with CPUs 0, 2 and 5 online, then CPU 5 goes offline, CPUs 1 and 4 go
online, and dies are requested. -/
example : ∃ st1 rows1, Reach exMachine (Covers exMachine) false [0, 1, 2, 4] (hostOf exMachine true [0, 1, 2, 4])
      (hotplugged st1) ∧
    getTopology (hostOf exMachine true [0, 2, 5]) St.new [.core] .core = .ok (st1, rows1) ∧
    (getTopology (hostOf exMachine true [0, 1, 2, 4]) (hotplugged st1) [.die, .node] .die).map Prod.snd = .ok
      [⟨0, some 0, none, some 0, some 0, some 0⟩, ⟨1, some 1, none, some 0, some 0, some 0⟩,
       ⟨2, some 4, none, some 1, some 0, some 0⟩, Row.io 0 2, ⟨4, some 0, none, some 0, some 1, some 1⟩, Row.io 1 1] := by
  have s1 : Shows exMachine [0, 2, 5] (hostOf exMachine true [0, 2, 5]) :=
    shows_hostOf _ _ (by decide) (by decide) (by decide)
  have s2 : Shows exMachine [0, 1, 2, 4] (hostOf exMachine true [0, 1, 2, 4]) :=
    shows_hostOf _ _ (by decide) (by decide) (by decide)
  have c1 : Covers exMachine [0, 2, 5] := by unfold Covers; decide
  have c2 : Covers exMachine [0, 1, 2, 4] := by unfold Covers; decide
  have r0 := Reach.new (m := exMachine) (C := Covers exMachine) _ _ s1 c1
  obtain ⟨st1, rows1, g, _⟩ := C72_table_partial exMachine exMachine_wf _ _ _ _ r0 [.core] .core
  refine ⟨st1, rows1, .hotplug _ _ _ _ _ _ (.get _ _ _ _ _ _ _ _ r0 g) s2 c2, g, ?_⟩
  have key : (match getTopology (hostOf exMachine true [0, 2, 5]) St.new [.core] .core with
      | .ok (st, _) => (getTopology (hostOf exMachine true [0, 1, 2, 4]) (hotplugged st) [.die, .node] .die).map Prod.snd
      | .error e => .error e) = .ok
      [⟨0, some 0, none, some 0, some 0, some 0⟩, ⟨1, some 1, none, some 0, some 0, some 0⟩,
       ⟨2, some 4, none, some 1, some 0, some 0⟩, Row.io 0 2, ⟨4, some 0, none, some 0, some 1, some 1⟩, Row.io 1 1] := by
    decide +kernel
  rw [g] at key
  exact key

/-- The hypotheses of `C72_queries_partial` for a new object. -/
example : ∃ st rows, getTopology (hostOf exMachine false [0, 2, 5]) St.new
      [.CPU, .core, .module, .die, .node, .package] .CPU = .ok (st, rows) ∧
    CPUInfo.WF (infoOf exMachine [0, 2, 5] st rows) := by
  have r0 := Reach.new (m := exMachine) (C := Covers exMachine) _ _
    (shows_hostOf exMachine false (on := [0, 2, 5]) (by decide) (by decide) (by decide)) (by unfold Covers; decide)
  obtain ⟨st, rows, g, _⟩ := C72_table_partial exMachine exMachine_wf _ _ _ _ r0 _ _
  exact ⟨st, rows, g, C72_queries_partial _ exMachine_wf _ _ _ _ _ _ r0 _ g⟩

/-- A machine with two CPUs, each on its own die of package 0. -/
def twoDies : Machine where
  present := [0, 1]
  num
    | .CPU, c => c
    | .core, c => c
    | .module, c => c
    | .die, c => c
    | .node, _ => 0
    | .package, _ => 0
  uncore := some [(0, [0, 1])]

/-- The requests of the counterexample: dies with only CPU 0 online, then dies and nodes with both CPUs online. -/
def staleRun : Except Exn (List Row) :=
  match getTopology (hostOf twoDies true [0]) St.new [.die] .CPU with
  | .error e => .error e
  | .ok (st1, _) =>
    match getTopology (hostOf twoDies true [0, 1]) (hotplugged st1) [.die] .CPU with
    | .error e => .error e
    | .ok (st2, _) => (getTopology (hostOf twoDies true [0, 1]) st2 [.node] .CPU).map Prod.snd

/-- Without the condition on the past the property fails even if all CPUs are online now: a die whose CPUs were offline
when dies were first requested is cached as an I/O die, and this is not undone when its CPUs go online. -/
theorem C72_counterexample : ∃ (m : Machine) (asked : Bool) (on : List Nat) (h : Host) (st st' : St) (rows : List Row),
    m.WF ∧ Reach m (fun _ => True) asked on h st ∧ (∀ c ∈ m.present, c ∈ on) ∧
      getTopology h st [.node] .CPU = .ok (st', rows) ∧ Row.io 0 1 ∈ rows ∧ m.HasCpus 0 1 := by
  have hw : twoDies.WF := by
    refine ⟨fun c => rfl, fun c hc l => ?_, fun u hu => ?_, fun u hu p ds hp => ?_⟩
    · have : c = 0 ∨ c = 1 := by simpa [twoDies] using hc
      rcases this with rfl | rfl <;> cases l <;> decide
    · cases hu; decide
    · cases hu
      have := Dict.mem_of_get? hp
      simp only [List.mem_cons, List.not_mem_nil, or_false, Prod.mk.injEq] at this
      obtain ⟨rfl, rfl⟩ := this
      decide
  have key : staleRun = .ok [⟨0, some 0, none, some 0, some 0, some 0⟩, ⟨1, some 1, none, some 1, some 0, some 0⟩,
      Row.io 0 1] := by decide +kernel
  have s1 : Shows twoDies [0] (hostOf twoDies true [0]) := shows_hostOf _ _ (by decide) (by decide) (by decide)
  have s2 : Shows twoDies [0, 1] (hostOf twoDies true [0, 1]) := shows_hostOf _ _ (by decide) (by decide) (by decide)
  unfold staleRun at key
  cases h1 : getTopology (hostOf twoDies true [0]) St.new [.die] .CPU with
  | error e => rw [h1] at key; cases key
  | ok r1 =>
    obtain ⟨st1, rows1⟩ := r1
    rw [h1] at key
    dsimp only at key
    have r1 := Reach.hotplug _ _ _ _ _ _ (Reach.get _ _ _ _ _ _ _ _
      (Reach.new (m := twoDies) (C := fun _ => True) _ _ s1 True.intro) h1) s2 True.intro
    cases h2 : getTopology (hostOf twoDies true [0, 1]) (hotplugged st1) [.die] .CPU with
    | error e => rw [h2] at key; cases key
    | ok r2 =>
      obtain ⟨st2, rows2⟩ := r2
      rw [h2] at key
      dsimp only at key
      have r2 := Reach.get _ _ _ _ _ _ _ _ r1 h2
      cases h3 : getTopology (hostOf twoDies true [0, 1]) st2 [.node] .CPU with
      | error e => rw [h3] at key; cases key
      | ok r3 =>
        obtain ⟨st3, rows3⟩ := r3
        rw [h3] at key
        injection key with key
        have key : rows3 = _ := key
        exact ⟨twoDies, _, _, _, st2, st3, rows3, hw, r2, by decide, h3, by rw [key]; decide, 1, by decide, rfl, rfl⟩

end Verif.TopoBuild
