import Verif.Lemmas.ProcOut

/-!
C73: all the output of a process is returned, once and in order, however it arrives.
-/

namespace Verif.ProcOut

/-- At any time, what was returned so far is the beginning of what the process wrote to that stream, in entire lines. -/
theorem C73_prefix (ssh : Bool) (code : Int) (st : St) (got : Stream → List PyStr)
    (h : Reach (.own ssh) code St.new st got) (s : Stream) :
    (∃ rest, (got s).flatten ++ rest = text st.arrived s) ∧ ∀ l ∈ got s, IsLine l := by
  obtain ⟨fed, hf, he⟩ := (inv_of_reach h).split s
  refine ⟨⟨(st.output s).flatten ++ st.rem s ++ text st.queue s, ?_⟩, fun l hl => hf.lines l (List.mem_append_left _ hl)⟩
  rw [← he, ← hf.concat]
  simp

/-- A limit is respected: `wait()` returns at most that many lines. -/
theorem C73_limit (k : Kind) (w : Wait) (st st' : St) (r : Result) (h : wait k w st = (st', .ok r)) (s : Stream) (n : Nat)
    (hn : w.lines s = some (n : Int)) : (r.lines s).length ≤ n := by
  rcases (wait_ok h).2 with ⟨_, _, rfl⟩ | ⟨_, lines, hl, rfl⟩
  · simp
  · have key : ∀ x : St, ((linesToReturn w.lines x).2 s).length ≤ n := by
      intro x
      show ((x.output s).take (takeCount w.lines x s)).length ≤ n
      rw [List.length_take]
      unfold takeCount
      rw [hn]
      dsimp only
      split
      · rename_i hle; omega
      · omega
    unfold waitLow at hl
    split at hl
    · cases hl
    · injection hl with _ h2
      injection h2 with h2
      subst h2
      exact key _

/-- When `wait()` returns an exit code, it is the one of the process, both streams have ended, and all that the process
wrote was returned, except for a last line without a line end. Without carriage returns, exactly the lines the process
wrote were returned.
Missing: the last line if it has no line end, see the counterexample. -/
theorem C73_exit_partial (ssh : Bool) (code : Int) (st st' : St) (got : Stream → List PyStr)
    (h : Reach (.own ssh) code St.new st got) (w : Wait) (hw : w.status = none ∨ w.status = some code) (r : Result)
    (hr : wait (.own ssh) w st = (st', .ok r)) (c : Int) (hc : r.exitcode = some c) :
    c = code ∧ ∀ s, (s, none) ∈ st'.arrived ∧
      (∃ rest, NoEnd rest ∧ (got s ++ r.lines s).flatten ++ rest = text st'.arrived s) ∧
      ('\r' ∉ text st'.arrived s → got s ++ r.lines s = fullLines (text st'.arrived s)) := by
  have hi := inv_wait hw (inv_of_reach h) hr
  obtain ⟨hd, hx⟩ := exit_done hr hc
  obtain ⟨_, _, h1, h2, hq⟩ := isDone_iff.1 hd
  obtain ⟨he, ho⟩ := hi.exit c hx
  refine ⟨he, fun s => ⟨hi.closed s (ho s), ?_⟩⟩
  obtain ⟨fed, hf, hfe⟩ := hi.split s
  have hos : st'.output s = [] := by cases s <;> assumption
  rw [hos, List.append_nil] at hf
  rw [hq, text_nil, List.append_nil] at hfe
  subst hfe
  refine ⟨⟨_, hf.noEnd, hf.concat⟩, fun hcr => ?_⟩
  rw [(hf.exact hcr).1, extract_fullLines _ hcr]

/-- `run()`: if it succeeds, the exit code is the one of the process, and the output is all its lines.
Missing: as above. -/
theorem C73_run_partial (ssh : Bool) (w : Wait) (hv : Valid (w.ticks.flatMap Tick.arrive)) (lines : Stream → List PyStr)
    (c : Int) (h : runOwn ssh w = .done lines c) :
    w.status = some c ∧ ∀ s, (s, none) ∈ w.ticks.flatMap Tick.arrive ∧
      (∃ rest, NoEnd rest ∧ (lines s).flatten ++ rest = text (w.ticks.flatMap Tick.arrive) s) ∧
      ('\r' ∉ text (w.ticks.flatMap Tick.arrive) s → lines s = fullLines (text (w.ticks.flatMap Tick.arrive) s)) := by
  unfold runOwn at h
  cases hw : wait (.own ssh) { w with lines := noLimits } St.new with
  | mk st' res =>
    rw [hw] at h
    cases res with
    | error e => cases h
    | ok r =>
      obtain ⟨ls, ec⟩ := r
      cases ec with
      | none => cases h
      | some c' =>
        injection h with h1 h2
        subst h1 h2
        obtain ⟨hst, rest, hrest⟩ := run_done (w := { w with lines := noLimits }) hw
        have hst : w.status = some c' := hst
        refine ⟨hst, fun s => ?_⟩
        have hp := C73_exit_partial ssh c' St.new st' (fun _ => []) (Reach.new) { w with lines := noLimits } (Or.inr hst)
          ⟨ls, some c'⟩ hw c' rfl
        obtain ⟨h1, h2, h3⟩ := hp.2 s
        have hrest : st'.arrived ++ rest = w.ticks.flatMap Tick.arrive := hrest
        have ht : text (w.ticks.flatMap Tick.arrive) s = text st'.arrived s := by
          rw [← hrest]
          exact text_ended (hrest ▸ hv) h1
        rw [ht]
        exact ⟨by rw [← hrest]; exact List.mem_append_left _ h1, by simpa using h2, by simpa using h3⟩

/-- `run()` succeeds if the output arrives in time and both streams end. The exception is a command which prints one line
to the standard error stream only and exits with 127: it is taken for a missing one, and only such a command is. -/
theorem C73_live (ssh : Bool) (items : List Item) (hv : Valid items) (hend : ∀ s, (s, none) ∈ items) (c : Int) (w : Wait)
    (hz : w.zero = false) (hs : w.status = some c) (ha : w.after = [])
    (ht : w.ticks = items.map fun i => ⟨[i], false⟩) :
    ((∃ lines, runOwn ssh w = .done lines c) ∧
      ('\r' ∉ text items .out → '\r' ∉ text items .err →
        ¬ (c = 127 ∧ fullLines (text items .out) = [] ∧ (fullLines (text items .err)).length = 1))) ∨
      (runOwn ssh w = .failed .notFound ∧ c = 127 ∧
        ('\r' ∉ text items .out → fullLines (text items .out) = []) ∧
        ('\r' ∉ text items .err → (fullLines (text items .err)).length = 1)) :=
  run_live (w := { w with lines := noLimits }) rfl hv hend hz hs ha ht

/-! ### Examples -/

/-- A process: writes "one\ntwo\n" and "oops\n", the chunks being split in the middle of the lines. -/
def exItems : List Item :=
  [(.out, some "on".toList), (.err, some "oo".toList), (.out, some "e\ntw".toList), (.err, some "ps\n".toList), (.err, none),
   (.out, some "o\n".toList), (.out, none)]

/-- Waiting for the process without limits. -/
def exWait (items : List Item) (code : Int) : Wait := ⟨false, noLimits, items.map fun i => ⟨[i], false⟩, some code, []⟩

/-- The lines of both streams and the exit code. -/
def RunRes.view : RunRes → Option (List PyStr × List PyStr × Int)
  | .done lines code => some (lines .out, lines .err, code)
  | _ => none

example : (runOwn false (exWait exItems 3)).view = some (["one\n".toList, "two\n".toList], ["oops\n".toList], 3) ∧
    fullLines "one\ntwo\n".toList = ["one\n".toList, "two\n".toList] ∧
    text exItems .out = "one\ntwo\n".toList ∧ text exItems .err = "oops\n".toList :=
  ⟨by decide +kernel, by decide +kernel, by decide +kernel, by decide +kernel⟩

example : Valid exItems := by
  intro s a b h i hi
  have hb : b = (exItems.drop 5) ∧ s = .err ∨ b = [] := by
    unfold exItems at h ⊢
    rcases a with _ | ⟨_, _ | ⟨_, _ | ⟨_, _ | ⟨_, _ | ⟨_, _ | ⟨_, _ | ⟨_, a⟩⟩⟩⟩⟩⟩⟩ <;> simp_all
  rcases hb with ⟨rfl, rfl⟩ | rfl
  · revert i; decide
  · cases hi

/-- Two `wait()` calls: the first one for one line. -/
def exFirst : Wait := ⟨false, fun | .out => some 1 | .err => some 0, exItems.map fun i => ⟨[i], false⟩, none, []⟩

example : ((wait (.own false) exFirst St.new).2.toOption.map fun r => (r.lines .out, r.lines .err, r.exitcode)) =
    some (["one\n".toList], [], none) := by decide +kernel

/-- The last line is lost if there is no line end after it. -/
theorem C73_counterexample :
    let items : List Item := [(.out, some "one\ntwo".toList), (.out, none), (.err, none)]
    (runOwn false (exWait items 0)).view = some (["one\n".toList], [], 0) ∧ text items .out = "one\ntwo".toList :=
  ⟨by decide +kernel, by decide +kernel⟩

/-- If a process closes its streams, but does not exit within the time-out, its exit code is never returned by any later
`wait()` call. -/
theorem C73_exit_counterexample :
    let items : List Item := [(.out, none), (.err, none)]
    let st := (wait (.own false) { exWait items 0 with status := none } St.new).1
    ∀ w : Wait, w.ticks.flatMap Tick.arrive = [] → w.after = [] →
      ∀ r, (wait (.own false) w st).2 = .ok r → r.exitcode = none := by
  intro items st w ht ha r hr
  have hq : st.queue = [] := by decide +kernel
  have hx : st.exitcode = none := by decide +kernel
  clear_value st
  have hd : isDone st = false := by simp [isDone, hx]
  have hloop : (ownLoop false w w.ticks st).exitcode = none := by
    cases htt : w.ticks with
    | nil => exact hx
    | cons t ticks =>
      rw [htt] at ht
      have hta : t.arrive = [] := (List.append_eq_nil_iff.1 ht).1
      rw [ownLoop]
      split
      · exact hx
      split
      · exact hx
      have hpq : (put t.arrive st).queue = [] := by rw [hta]; show st.queue ++ [] = []; rw [hq]; rfl
      dsimp only
      rw [hpq]
      exact hx
  unfold wait at hr
  split at hr
  · cases hr
  rw [if_neg (by rw [hd]; decide), waitLow_own] at hr
  dsimp only at hr
  have he : (put w.after (linesToReturn w.lines (ownLoop false w w.ticks st)).1).exitcode = none := hloop
  rw [he] at hr
  rw [if_neg (by simp)] at hr
  injection hr with hr
  subst hr
  simp

end Verif.ProcOut
