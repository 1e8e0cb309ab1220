import Verif.Lemmas.TopoPrint

/-!
C85: what "pepc topology info" prints.
-/

namespace Verif.TopoPrint

open CPUInfo (Level)
open TopoBuild (Machine Row St Host Reach Covers lexLe getTopology Shows hostOf shows_hostOf exMachine exMachine_wf)
open FreqInfo (splitWs)

/-- The command, once the columns and the order are known. -/
theorem command_spec (m : Machine) (hw : m.WF) (on : List Nat) (h : Host) (st : St)
    (hr : Reach m (Covers m) false on h st) (optar : St → Except Exn (St × Target)) (target : Target)
    (ht : Targets m on h optar target) (hybrid : Option (List Int))
    (hy : ∀ pc, hybrid = some pc → (0xFFFFFFFF : Int) ∉ pc) (offline : List Int)
    (ho : ∀ c ∈ offline, c < 0xFFFFFFFF) (args : Args) {st1 : St} {cols : List Level} {hyb : Bool} {order : Level}
    (hc : colnames h st args = .ok (st1, cols, hyb)) (hh : hyb = true → hybrid ≠ none)
    (hf : findLevel args.order LEVELS = some order) :
    ∃ out, infoCommand h hybrid optar offline args st = .ok out ∧
      IsTable m on hybrid cols order target
        (if args.onlineOnly then [] else offline.filter fun c => decide (c ∈ target.cpus)) out := by
  obtain ⟨hcols, asked, hr1⟩ := colnames_ok hw hr args hc
  obtain ⟨st2, asked2, ht2, hr2⟩ := ht asked st1 hr1
  obtain ⟨st3, rows, hg, hcorr, _⟩ := topo_correct hw hr2 (if cols = [] then LEVELS else cols) order
  have hsub := (TopoBuild.inv_of_reach hw hr).shows.sub
  have hcs : ∀ c ∈ (if args.onlineOnly then [] else offline.filter fun c => decide (c ∈ target.cpus)),
      c < (0xFFFFFFFF : Int) := by
    intro c hcc
    split at hcc
    · cases hcc
    · exact ho c (List.mem_filter.1 hcc).1
  obtain ⟨body, things, offs, hp, hb, hn, hs, ha, hall, hoff, hoc⟩ := body_spec hw hsub hcorr target cols
    (fun l hl => (mem_addLevelsTo _ _ l).2 (Or.inl (by
      rw [if_neg (by rintro rfl; cases hl)]; exact hl)))
    (fun l hl => (mem_addLevelsTo _ _ l).2 (Or.inr hl))
    (fun hd => by
      rw [if_neg (by rintro rfl; cases hd)]
      simp [hd]) hybrid hy _ hcs
  refine ⟨format cols (headers hybrid.isSome cols) :: body, ?_, things, offs, ?_, hb ▸ hn, hs, ha, hall, hoff,
    fun c hcc => hb ▸ hoc c hcc⟩
  · rw [infoCommand, hc]
    simp only
    rw [if_neg (by rintro ⟨h1, h2⟩; exact hh h1 h2), hf]
    simp only
    rw [ht2]
    simp only
    rw [hg]
    simp only
    have : (if args.onlineOnly = true then
          (filterIoDies target.dies cols (filterCpus target.cpus rows)).map Line.row
        else addOffline target.cpus offline ((filterIoDies target.dies cols (filterCpus target.cpus rows)).map Line.row)) =
        (filterIoDies target.dies cols (filterCpus target.cpus rows)).map Line.row ++
          (if args.onlineOnly then [] else offline.filter fun c => decide (c ∈ target.cpus)).map Line.offline := by
      cases args.onlineOnly
      · rfl
      · simp
    rw [this, hp]
  · rw [List.map_cons, splitWs_titles, hb]

/-- C85. Whatever is printed is the table of the CPUs and dies the user asks for: the numbers of every one of them are on
a line, in the columns asked for, sorted in the order asked for; no line is there twice; all other lines are about offline
CPUs asked for, and they are there unless only online CPUs are asked for. By default the module and die columns are there
if there are modules with several cores and packages with several dies. The "Hybrid" column is there on hybrid systems,
asked for or not. -/
theorem C85_table_partial (m : Machine) (hw : m.WF) (on : List Nat) (h : Host) (st : St)
    (hr : Reach m (Covers m) false on h st) (optar : St → Except Exn (St × Target)) (target : Target)
    (ht : Targets m on h optar target) (hybrid : Option (List Int))
    (hy : ∀ pc, hybrid = some pc → (0xFFFFFFFF : Int) ∉ pc) (offline : List Int)
    (ho : ∀ c ∈ offline, c < 0xFFFFFFFF) (args : Args) (out : List PyStr)
    (hok : infoCommand h hybrid optar offline args st = .ok out) :
    ∃ cols hyb order, Cols m on args.columns cols hyb ∧ (hyb = true → hybrid ≠ none) ∧
      FeaturedMSR.lower args.order = FeaturedMSR.lower (levelName order) ∧
      IsTable m on hybrid cols order target
        (if args.onlineOnly then [] else offline.filter fun c => decide (c ∈ target.cpus)) out := by
  have hok' := hok
  rw [infoCommand] at hok
  cases hc : colnames h st args with
  | error e => rw [hc] at hok; cases hok
  | ok p =>
    obtain ⟨st1, cols, hyb⟩ := p
    rw [hc] at hok
    simp only at hok
    by_cases hh : hyb = true ∧ hybrid = none
    · rw [if_pos hh] at hok; cases hok
    · rw [if_neg hh] at hok
      have hh' : hyb = true → hybrid ≠ none := fun a b => hh ⟨a, b⟩
      cases hf : findLevel args.order LEVELS with
      | none => rw [hf] at hok; cases hok
      | some order =>
        obtain ⟨out', h1, h2⟩ := command_spec m hw on h st hr optar target ht hybrid hy offline ho args hc hh' hf
        rw [hok'] at h1
        cases h1
        exact ⟨cols, hyb, order, (colnames_ok hw hr args hc).1, hh', findLevel_some.1 hf, h2⟩

/-- C85. The table is printed if the columns and the order exist; the "hybrid" column exists on hybrid systems. -/
theorem C85_works (m : Machine) (hw : m.WF) (on : List Nat) (h : Host) (st : St)
    (hr : Reach m (Covers m) false on h st) (optar : St → Except Exn (St × Target)) (target : Target)
    (ht : Targets m on h optar target) (hybrid : Option (List Int))
    (hy : ∀ pc, hybrid = some pc → (0xFFFFFFFF : Int) ∉ pc) (offline : List Int)
    (ho : ∀ c ∈ offline, c < 0xFFFFFFFF) (args : Args) (cols : List Level) (hyb : Bool) (order : Level)
    (hc : Cols m on args.columns cols hyb) (hh : hyb = true → hybrid ≠ none)
    (hf : FeaturedMSR.lower args.order = FeaturedMSR.lower (levelName order)) :
    ∃ out, infoCommand h hybrid optar offline args st = .ok out := by
  have : ∃ st1 cols1 hyb1, colnames h st args = .ok (st1, cols1, hyb1) ∧ (hyb1 = true → hybrid ≠ none) := by
    rw [colnames]
    unfold Cols at hc
    cases e : args.columns with
    | none =>
      obtain ⟨st1, c1, g, _, _⟩ := defaultColnames_spec hw hr
      exact ⟨st1, c1, false, by simp only [g], (fun h => nomatch h)⟩
    | some text =>
      rw [e] at hc
      have := (parseColumns_ok (Trivial.splitCsvLine text ',' false) [] false).2 ⟨cols, hyb, hc, rfl, rfl⟩
      exact ⟨st, cols, hyb, by simp only [this]; rfl, hh⟩
  obtain ⟨st1, cols1, hyb1, h1, h2⟩ := this
  obtain ⟨out, h3, _⟩ := command_spec m hw on h st hr optar target ht hybrid hy offline ho args h1 h2
    (findLevel_some.2 hf)
  exact ⟨out, h3⟩

/-- C85. Otherwise there is an error, and nothing is printed. -/
theorem C85_refused (m : Machine) (hw : m.WF) (on : List Nat) (h : Host) (st : St)
    (hr : Reach m (Covers m) false on h st) (optar : St → Except Exn (St × Target)) (hybrid : Option (List Int))
    (offline : List Int) (args : Args)
    (hno : ¬ ∃ cols hyb order, Cols m on args.columns cols hyb ∧ (hyb = true → hybrid ≠ none) ∧
      FeaturedMSR.lower args.order = FeaturedMSR.lower (levelName order)) :
    infoCommand h hybrid optar offline args st = .error .error := by
  rw [infoCommand]
  cases hc : colnames h st args with
  | error e =>
    rw [colnames] at hc
    cases ec : args.columns with
    | none =>
      obtain ⟨st1, c1, g, _, _⟩ := defaultColnames_spec hw hr
      rw [ec] at hc
      simp only [g] at hc
      cases hc
    | some text =>
      rw [ec] at hc
      simp only at hc
      cases e2 : parseColumns (Trivial.splitCsvLine text ',' false) [] false with
      | ok p => rw [e2] at hc; cases hc
      | error x =>
        rw [e2] at hc
        cases hc
        rw [parseColumns_err _ _ _ e2]
  | ok p =>
    obtain ⟨st1, cols, hyb⟩ := p
    simp only
    by_cases hh : hyb = true ∧ hybrid = none
    · rw [if_pos hh]
    · rw [if_neg hh]
      cases hf : findLevel args.order LEVELS with
      | none => rfl
      | some order =>
        exact absurd ⟨cols, hyb, order, (colnames_ok hw hr args hc).1, fun a b => hh ⟨a, b⟩, findLevel_some.1 hf⟩ hno

/-- All the CPUs of the example machine, and the I/O dies of package 0. -/
def exTarget : Target := ⟨[0, 1, 2, 3, 4, 5], [(0, [2])]⟩

def exOptar (st : St) : Except Exn (St × Target) := .ok (st, exTarget)

theorem exReach : Reach exMachine (Covers exMachine) false [0, 1, 2, 4] (hostOf exMachine true [0, 1, 2, 4]) St.new :=
  Reach.new _ _ (shows_hostOf _ _ (by decide) (by decide) (by decide)) (by unfold Covers; decide)

/-- The hypotheses of the theorems, and a table with all kinds of lines. -/
example : Reach exMachine (Covers exMachine) false [0, 1, 2, 4] (hostOf exMachine true [0, 1, 2, 4]) St.new ∧
    Targets exMachine [0, 1, 2, 4] (hostOf exMachine true [0, 1, 2, 4]) exOptar exTarget ∧
    infoCommand (hostOf exMachine true [0, 1, 2, 4]) (some [0, 1]) exOptar [3, 5]
      ⟨some "cpu,Die,PACKAGE".toList, "Die".toList, false⟩ St.new = .ok
      ["CPU    Die    Package    Hybrid".toList,
       "  0      0          0    P-core".toList,
       "  1      0          0    P-core".toList,
       "  2      1          0    E-core".toList,
       "  -      2          0    E-core".toList,
       "  4      0          1    E-core".toList,
       "  3      ?          ?         ?".toList,
       "  5      ?          ?         ?".toList] :=
  ⟨exReach, fun asked st hr => ⟨st, asked, rfl, hr⟩, by decide +kernel⟩

/-- The default columns. -/
example : infoCommand (hostOf exMachine true [0, 1, 2, 4]) none exOptar [3, 5] ⟨none, "package".toList, true⟩ St.new = .ok
      ["CPU    Core    Module    Die    Node    Package".toList,
       "  0       0         0      0       0          0".toList,
       "  1       1         0      0       0          0".toList,
       "  2       4         1      1       0          0".toList,
       "  -       -         -      2       -          0".toList,
       "  4       0         2      0       1          1".toList] := by decide +kernel

/-- One line for all the CPUs of a package. -/
example : infoCommand (hostOf exMachine true [0, 1, 2, 4]) none exOptar [3, 5] ⟨some "package".toList, "CPU".toList, true⟩
      St.new = .ok ["Package".toList, "      0".toList, "      1".toList] := by decide +kernel

/-- There is no such column, no such order, no hybrid CPU. -/
example : (infoCommand (hostOf exMachine true [0, 1, 2, 4]) none exOptar [3, 5] ⟨some "CPU,socket".toList, "CPU".toList, true⟩
      St.new = .error .error) ∧
    (infoCommand (hostOf exMachine true [0, 1, 2, 4]) none exOptar [3, 5] ⟨none, "hybrid".toList, true⟩
      St.new = .error .error) ∧
    infoCommand (hostOf exMachine true [0, 1, 2, 4]) none exOptar [3, 5] ⟨some "CPU,hybrid".toList, "CPU".toList, true⟩
      St.new = .error .error := by decide +kernel

/-- On hybrid systems there is a column nobody asked for, and because of it, there may be two lines about one core's,
package's, etc number where one was asked for. -/
theorem C85_columns_counterexample : ∃ (m : Machine) (on : List Nat) (h : Host) (st : St)
    (optar : St → Except Exn (St × Target)) (target : Target) (out : List PyStr),
    m.WF ∧ Reach m (Covers m) false on h st ∧ Targets m on h optar target ∧
    infoCommand h (some [0, 1]) optar [] ⟨some "package".toList, "package".toList, true⟩ st = .ok out ∧
    out.map splitWs = [["Package".toList, "Hybrid".toList], ["0".toList, "P-core".toList], ["0".toList, "E-core".toList],
      ["1".toList, "E-core".toList]] :=
  ⟨exMachine, [0, 1, 2, 4], hostOf exMachine true [0, 1, 2, 4], St.new, exOptar, exTarget, _, exMachine_wf, exReach,
    fun asked st hr => ⟨st, asked, rfl, hr⟩,
    (by decide +kernel : infoCommand (hostOf exMachine true [0, 1, 2, 4]) (some [0, 1]) exOptar []
      ⟨some "package".toList, "package".toList, true⟩ St.new = .ok ["Package    Hybrid".toList,
        "      0    P-core".toList, "      0    E-core".toList, "      1    E-core".toList]), by decide +kernel⟩

/-- An I/O die has no CPUs, but on hybrid systems it is shown as one with E-core CPUs. -/
theorem C85_io_kind_counterexample : ∃ (m : Machine) (on : List Nat) (h : Host) (st : St)
    (optar : St → Except Exn (St × Target)) (target : Target) (out : List PyStr),
    m.WF ∧ Reach m (Covers m) false on h st ∧ Targets m on h optar target ∧ m.IsIo 0 2 ∧
    infoCommand h (some [0, 1]) optar [] ⟨some "CPU,die,package".toList, "CPU".toList, true⟩ st = .ok out ∧
    ["-".toList, "2".toList, "0".toList, "E-core".toList] ∈ out.map splitWs := by
  refine ⟨exMachine, [0, 1, 2, 4], hostOf exMachine true [0, 1, 2, 4], St.new, exOptar, exTarget, _, exMachine_wf, exReach,
    fun asked st hr => ⟨st, asked, rfl, hr⟩,
    ⟨⟨_, rfl, [0, 1, 2], rfl, by decide⟩, ⟨0, by decide, by decide⟩, by unfold Machine.HasCpus; decide⟩,
    (by decide +kernel : infoCommand (hostOf exMachine true [0, 1, 2, 4]) (some [0, 1]) exOptar []
      ⟨some "CPU,die,package".toList, "CPU".toList, true⟩ St.new = .ok ["CPU    Die    Package    Hybrid".toList,
        "  0      0          0    P-core".toList,
        "  1      0          0    P-core".toList,
        "  2      1          0    E-core".toList,
        "  4      0          1    E-core".toList,
        "  -      2          0    E-core".toList]), by decide +kernel⟩

end Verif.TopoPrint
