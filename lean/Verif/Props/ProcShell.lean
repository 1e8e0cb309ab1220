import Verif.Lemmas.ProcRun
import Verif.Props.ProcOut

/-!
C74: a command run in the interactive shell has its own output and its own exit code.
-/

namespace Verif.ProcOut

theorem sinv_of_reach {marker o : PyStr} {code : Nat} {st0 st : St} {got : Stream → List PyStr} (hm : IsMarker marker)
    (ho : EndsNl o) (hno : ¬ marker <:+: o) (hq : st0.queue = [])
    (h : Reach (.shell marker) code (reinit st0) st got) (hp : Pre marker o code st) : SInv marker o code got st := by
  induction h with
  | new => exact sinv_new code hq
  | arrive items st got _ ih => exact sinv_put (ih (hp.mono ⟨items, rfl⟩)) items
  | wait w st st' got r _ _ hr ih => exact sinv_wait hm ho hno (ih (hp.mono (wait_arrived hr))) hr hp

/-- The command prints the text `o`, all in entire lines and without the marker, and then the marker. When `wait()`
returns an exit code, it is the exit code of the command, and what was returned is exactly the text `o`: neither the
marker nor output of earlier commands. The same for what the command wrote to the standard error stream before that,
except for a last line without a line end. -/
theorem C74_exit (marker o : PyStr) (code : Nat) (hm : IsMarker marker) (ho : EndsNl o) (hno : ¬ marker <:+: o)
    (st0 st st' : St) (hq : st0.queue = []) (got : Stream → List PyStr)
    (h : Reach (.shell marker) code (reinit st0) st got) (w : Wait) (r : Result)
    (hr : wait (.shell marker) w st = (st', .ok r)) (hc : Chunks st'.arrived)
    (ht : text st'.arrived .out <+: o ++ markerText marker code) (c : Int) (hx : r.exitcode = some c) :
    c = code ∧ (got .out ++ r.lines .out).flatten = o ∧ (∀ l ∈ got .out ++ r.lines .out, IsLine l) ∧
    ('\r' ∉ o → got .out ++ r.lines .out = fullLines o) ∧
    (∃ rest, NoEnd rest ∧ (got .err ++ r.lines .err).flatten ++ rest = text st'.arrived .err) ∧
    ('\r' ∉ text st'.arrived .err → got .err ++ r.lines .err = fullLines (text st'.arrived .err)) := by
  obtain ⟨z, hz⟩ := ht
  have hp : Pre marker o code st' := ⟨⟨z, hz⟩, hc⟩
  have hi := sinv_wait hm ho hno (sinv_of_reach hm ho hno hq h (hp.mono (wait_arrived hr))) hr hp
  obtain ⟨hd, hx'⟩ := exit_done hr hx
  obtain ⟨h1, h2⟩ := sinv_done ho hi hd
  rw [h1] at hx'
  injection hx' with hx'
  exact ⟨hx'.symm, h2⟩

/-- At any time, what was returned is the beginning of what the command printed, in entire lines: never a part of the
marker, nothing twice. -/
theorem C74_prefix (marker o : PyStr) (code : Nat) (hm : IsMarker marker) (ho : EndsNl o) (hno : ¬ marker <:+: o)
    (st0 st : St) (hq : st0.queue = []) (got : Stream → List PyStr)
    (h : Reach (.shell marker) code (reinit st0) st got) (hc : Chunks st.arrived)
    (ht : text st.arrived .out <+: o ++ markerText marker code) :
    (got .out).flatten <+: o ∧ (∀ l ∈ got .out, IsLine l) ∧ (got .err).flatten <+: text st.arrived .err := by
  obtain ⟨z, hz⟩ := ht
  have hi := sinv_of_reach hm ho hno hq h ⟨⟨z, hz⟩, hc⟩
  obtain ⟨cap, hf, hcap⟩ := hi.out
  obtain ⟨fed, hfe, hee⟩ := hi.err
  have hpre : cap <+: o := by
    rcases hcap with ⟨_, h2, h3, _⟩ | ⟨_, h2, _⟩
    · exact SInv.cap_le hm ⟨⟨z, hz⟩, hc⟩ h2 h3
    · exact h2 ▸ List.prefix_refl _
  refine ⟨List.IsPrefix.trans ⟨(st.output .out).flatten ++ st.rem .out, ?_⟩ hpre,
    fun l hl => hf.lines l (List.mem_append_left _ hl),
    ⟨(st.output .err).flatten ++ st.rem .err ++ text st.queue .err, ?_⟩⟩
  · rw [← hf.concat]; simp
  · rw [← hee, ← hfe.concat]; simp

/-- Once the command is finished and all its output has arrived (in whatever chunks, at whatever times), a `wait()` call
without limits and with enough time returns the exit code. The exception is exit code 127, which may be taken for a
missing command. -/
theorem C74_live (marker o : PyStr) (code : Nat) (hm : IsMarker marker) (ho : EndsNl o) (hno : ¬ marker <:+: o)
    (st0 st : St) (hq : st0.queue = []) (got : Stream → List PyStr)
    (h : Reach (.shell marker) code (reinit st0) st got) (hc : Chunks st.arrived)
    (ht : text st.arrived .out = o ++ markerText marker code) (hs : ∀ s, (s, none) ∉ st.queue) (w : Wait)
    (hz : w.zero = false) (hl : w.lines = noLimits) (n : Nat) (hn : st.queue.length < n)
    (hw : w.ticks = List.replicate n ⟨[], false⟩) (ha : w.after = []) :
    (∃ st' r, wait (.shell marker) w st = (st', .ok r) ∧ r.exitcode = some (code : Int)) ∨
      (code = 127 ∧ ∃ st', wait (.shell marker) w st = (st', .error .notFound)) :=
  wait_live hm ho hno hz hl n hw ha
    (sinv_of_reach hm ho hno hq h ⟨⟨[], by rw [List.append_nil]; exact ht⟩, hc⟩) hc ht hs hn

/-- `run()`: the shell prints its PID, the output of the command, and the marker. If `run()` returns, the exit code is the
one of the command and the lines are exactly the ones of the command, the PID line is not among them. -/
theorem C74_run (marker out : PyStr) (pid code : Nat) (hm : IsMarker marker) (ho : EndsNl out) (hno : ¬ marker <:+: out)
    (st0 st' : St) (hq : st0.queue = []) (wpid w : Wait) (lines : Stream → List PyStr) (c : Int)
    (h : runShell marker wpid w st0 = (st', .done lines c)) (hc : Chunks st'.arrived)
    (ht : text st'.arrived .out <+: PyStr.ofNat pid ++ '\n' :: (out ++ markerText marker code)) :
    c = code ∧ (lines .out).flatten = out ∧ ('\r' ∉ out → lines .out = fullLines out) ∧
    (∃ rest, NoEnd rest ∧ (lines .err).flatten ++ rest = text st'.arrived .err) ∧
    ('\r' ∉ text st'.arrived .err → lines .err = fullLines (text st'.arrived .err)) := by
  unfold runShell at h
  cases hp : readPid (.shell marker) wpid (reinit st0) with
  | mk st1 res =>
    rw [hp] at h
    cases res with
    | error e => cases h
    | ok p =>
      dsimp only at h
      obtain ⟨st2, line, r1, hw1, hl1, hl2, rfl, _⟩ := readPid_ok hp
      generalize hs1 : ({ st2 with cnt := upd st2.cnt .out (st2.cnt .out - 1) } : St) = s1 at h
      cases hw : wait (.shell marker) { w with lines := noLimits } s1 with
      | mk st3 res =>
        rw [hw] at h
        injection h with h1 h2
        subst h1
        cases res with
        | error e => cases h2
        | ok r2 =>
          obtain ⟨ls, ec⟩ := r2
          cases ec with
          | none => cases h2
          | some c' =>
            injection h2 with h2 h3
            subst h2 h3
            have ho' : EndsNl (PyStr.ofNat pid ++ '\n' :: out) := ho.cons
            have hno' := marker_behind (n := pid) hm hno
            obtain ⟨z, hz⟩ := ht
            have hpre : Pre marker (PyStr.ofNat pid ++ '\n' :: out) code st3 := ⟨⟨z, by rw [hz]; simp⟩, hc⟩
            have hpre1 : Pre marker (PyStr.ofNat pid ++ '\n' :: out) code s1 := hpre.mono (wait_arrived hw)
            have hi1 := sinv_wait hm ho' hno' (sinv_new code hq) hw1 (by subst hs1; exact hpre1)
            have hi1 : SInv marker (PyStr.ofNat pid ++ '\n' :: out) code (fun s => [] ++ r1.lines s) s1 := by
              subst hs1
              exact ⟨hi1.err, hi1.out, hi1.queued⟩
            have hi2 := sinv_wait hm ho' hno' hi1 hw hpre
            obtain ⟨hd, hx'⟩ := exit_done hw rfl
            obtain ⟨g1, g2, g3, g4, g5, g6⟩ := sinv_done ho' hi2 hd
            rw [g1] at hx'
            injection hx' with hx'
            simp only [hl1, hl2, List.nil_append, List.singleton_append, List.flatten_cons] at g2 g3 g4 g5 g6
            obtain ⟨q1, q2⟩ := first_line (g3 line (List.mem_cons_self ..)) g2
            refine ⟨hx'.symm, q2, fun hcr => ?_, g5, g6⟩
            have hcr' : '\r' ∉ PyStr.ofNat pid ++ '\n' :: out := by
              intro hmem
              rcases List.mem_append.1 hmem with hmem | hmem
              · exact digits_not_mem (by decide) hmem
              · rcases List.mem_cons.1 hmem with hmem | hmem
                · exact absurd hmem (by decide)
                · exact hcr hmem
            have := g4 hcr'
            rw [fullLines_first] at this
            injection this

/-- `run()` succeeds, if everything arrives (in any chunks, the streams interleaved in any way) and there is enough time.
The exception is a command which prints one line to the standard error stream only and exits with 127: it is taken for a
missing one, and only such a command is. -/
theorem C74_run_live (marker out : PyStr) (pid code : Nat) (hm : IsMarker marker) (ho : EndsNl out)
    (hno : ¬ marker <:+: out) (hpid : pid < 10 ^ 128) (st0 : St) (hq : st0.queue = [])
    (items : List Item) (hc : Chunks items) (hs : ∀ s, (s, none) ∉ items)
    (ht : text items .out = PyStr.ofNat pid ++ '\n' :: (out ++ markerText marker code)) (wpid w : Wait) (n m : Nat)
    (hw1 : wpid.ticks = ⟨items, false⟩ :: List.replicate n ⟨[], false⟩) (hn : items.length ≤ n) (ha1 : wpid.after = [])
    (hw2 : w.ticks = List.replicate m ⟨[], false⟩) (hm2 : items.length < m) (ha2 : w.after = []) (hz : w.zero = false) :
    ((∃ st' lines, runShell marker wpid w st0 = (st', .done lines code)) ∧
      ('\r' ∉ out → '\r' ∉ text items .err →
        ¬ (code = 127 ∧ fullLines out = [] ∧ (fullLines (text items .err)).length = 1))) ∨
    ((∃ st', runShell marker wpid w st0 = (st', .failed .notFound)) ∧ code = 127 ∧
      ('\r' ∉ out → fullLines out = []) ∧ ('\r' ∉ text items .err → (fullLines (text items .err)).length = 1)) := by
  obtain ⟨st1, h1, h2, h3, h4, h5⟩ := readPid_live hm ho hno (ofNat_length hpid (by decide)) hq hc hs ht hw1 hn ha1
  unfold runShell
  rw [h1]
  dsimp only
  have hlen : st1.queue.length ≤ items.length := h5.length_le
  have ho' : EndsNl (PyStr.ofNat pid ++ '\n' :: out) := ho.cons
  have hno' := marker_behind (n := pid) hm hno
  obtain ⟨s2, g1, g2, g3, g4, g5, g6⟩ := wait_live2 (w := { w with lines := noLimits }) hm ho' hno' hz rfl m hw2 ha2 h2 h3
    rfl rfl (by rw [h4]; exact hc) (by rw [h4, ht]; simp) (fun s hs' => hs s (h5.subset hs')) (by omega)
  obtain ⟨c1, c2⟩ := counts g1 g2 g3 g4
  rw [g5, h4] at c2
  have c1 : '\r' ∉ out → s2.cnt .out = ((fullLines out).length : Int) := by
    intro hcr
    have hcr' : '\r' ∉ PyStr.ofNat pid ++ '\n' :: out := by
      intro hmem
      rcases List.mem_append.1 hmem with hmem | hmem
      · exact digits_not_mem (by decide) hmem
      · rcases List.mem_cons.1 hmem with hmem | hmem
        · exact absurd hmem (by decide)
        · exact hcr hmem
    have := c1 hcr'
    rw [fullLines_first, if_pos rfl, List.length_cons] at this
    omega
  have c2 : '\r' ∉ text items .err → s2.cnt .err = ((fullLines (text items .err)).length : Int) := by
    intro hcr
    have := c2 hcr
    rw [if_neg (by decide)] at this
    omega
  rcases g6 with ⟨st', r, hw, hx, hgood⟩ | ⟨st', hw, hcode, hbad⟩
  · left
    rw [hw]
    obtain ⟨lines, ec⟩ := r
    subst hx
    refine ⟨⟨st', lines, rfl⟩, fun q1 q2 hb => hgood ⟨hb.1, ?_, ?_⟩⟩
    · rw [c1 q1, hb.2.1]; rfl
    · rw [c2 q2, hb.2.2]; rfl
  · right
    rw [hw]
    refine ⟨⟨st', rfl⟩, hcode, fun q1 => ?_, fun q2 => ?_⟩
    · have := c1 q1
      rw [hbad.1] at this
      exact List.length_eq_zero_iff.1 (by omega)
    · have := c2 q2
      rw [hbad.2] at this
      omega

/-! ### Examples -/

/-- A marker. -/
def exMarker : PyStr := "--- 0123456789abcdef0123456789abcdef0123456789abcdef0123456789abcdef".toList

example : IsMarker exMarker :=
  ⟨"0123456789abcdef0123456789abcdef0123456789abcdef0123456789abcdef".toList, by decide +kernel, by decide +kernel,
    by decide +kernel⟩

/-- The chunks: the marker is split. -/
def exChunks : List Item :=
  [(.out, some "12".toList), (.out, some "3\none\ntw".toList), (.err, some "oops\n".toList),
   (.out, some "o\n--- 0123456789abcdef".toList),
   (.out, some "0123456789abcdef0123456789abcdef0123456789abcdef, ".toList), (.out, some "3 ---".toList)]

/-- A `wait()` call with enough time. -/
def exTicks (items : List Item) : Wait :=
  ⟨false, noLimits, ⟨items, false⟩ :: List.replicate (items.length + 1) ⟨[], false⟩, none, []⟩

example : (runShell exMarker (exTicks exChunks) { exTicks [] with ticks := List.replicate 7 ⟨[], false⟩ } St.new).2.view =
    some (["one\n".toList, "two\n".toList], ["oops\n".toList], 3) ∧
    text exChunks .out = PyStr.ofNat 123 ++ '\n' :: ("one\ntwo\n".toList ++ markerText exMarker 3) :=
  ⟨by decide +kernel, by decide +kernel⟩

example : EndsNl "one\ntwo\n".toList ∧ ¬ exMarker <:+: "one\ntwo\n".toList ∧ Chunks exChunks :=
  ⟨by
    intro c hc
    have : "one\ntwo\n".toList.getLast? = some '\n' := by decide +kernel
    rw [this] at hc
    exact (Option.some.inj hc).symm, by decide +kernel, by intro s; cases s <;> decide +kernel⟩

/-- If the output does not end with a new line, everything depends on the chunks: if the output comes in two chunks and
the marker in one chunk, the exit code is returned, if the output comes in one chunk, `run()` times out however much time
there is. -/
theorem C74_counterexample :
    let m := markerText exMarker 0
    let pid := (Stream.out, some "123\n".toList)
    let a : List Item := [pid, (.out, some "ab".toList), (.out, some "c".toList), (.out, some m)]
    let b : List Item := [pid, (.out, some "abc".toList), (.out, some m)]
    text a .out = text b .out ∧
    (runShell exMarker (exTicks a) { exTicks [] with ticks := List.replicate 9 ⟨[], false⟩ } St.new).2.view =
      some ([], [], 0) ∧
    ∀ n, (runShell exMarker (exTicks b) { exTicks [] with ticks := List.replicate n ⟨[], false⟩ } St.new).2.view = none := by
  refine ⟨by decide +kernel, by decide +kernel, fun n => ?_⟩
  match n with
  | 0 => decide +kernel
  | 1 => decide +kernel
  | k + 2 =>
    generalize hb : ([(Stream.out, some "123\n".toList), (.out, some "abc".toList),
      (.out, some (markerText exMarker 0))] : List Item) = b
    have h2 : (runShell exMarker (exTicks b) { exTicks [] with ticks := List.replicate 2 ⟨[], false⟩ } St.new).2.view =
        none := by subst hb; decide +kernel
    rw [← h2]
    have hst : (shellLoop exMarker { exTicks [] with ticks := List.replicate 2 ⟨[], false⟩ } (List.replicate 2 ⟨[], false⟩)
          (readPid (.shell exMarker) (exTicks b) (reinit St.new)).1).1.exitcode = none ∧
        (shellLoop exMarker { exTicks [] with ticks := List.replicate 2 ⟨[], false⟩ } (List.replicate 2 ⟨[], false⟩)
          (readPid (.shell exMarker) (exTicks b) (reinit St.new)).1).1.queue = [] := by
      subst hb; exact ⟨by decide +kernel, by decide +kernel⟩
    unfold runShell
    generalize readPid (.shell exMarker) (exTicks b) (reinit St.new) = res at hst
    obtain ⟨s1, r⟩ := res
    cases r with
    | error e => rfl
    | ok p =>
      dsimp only at hst ⊢
      rw [Nat.add_comm k 2]
      have hw : wait (.shell exMarker)
          { exTicks [] with ticks := List.replicate (2 + k) ⟨[], false⟩, lines := noLimits } s1 =
          wait (.shell exMarker) { exTicks [] with ticks := List.replicate 2 ⟨[], false⟩, lines := noLimits } s1 := by
        refine wait_congr ?_ ?_ ?_
        · rfl
        · rfl
        exact (shellLoop_congr rfl rfl _ _).trans (shell_more rfl 2 k hst.1 hst.2)
      exact congrArg (fun x => (runResult x.2).view) hw

/-- A chunk from the standard error stream arriving at the very end makes `run()` report a time-out, though the command
is finished and there was enough time. -/
theorem C74_race_counterexample :
    let items : List Item := [(.out, some ("123\none\n".toList ++ markerText exMarker 0))]
    let w : Wait := { exTicks [] with ticks := List.replicate 9 ⟨[], false⟩ }
    (runShell exMarker (exTicks items) w St.new).2.view = some (["one\n".toList], [], 0) ∧
    (runShell exMarker (exTicks items) { w with after := [(.err, some "oops\n".toList)] } St.new).2.view = none :=
  ⟨by decide +kernel, by decide +kernel⟩

/-- What arrives from the standard error stream after the end of the command is returned as output of the next command. -/
theorem C74_late_counterexample :
    let cmd (out : PyStr) : List Item := [(.out, some ("123\n".toList ++ out ++ markerText exMarker 0))]
    let w : Wait := { exTicks [] with ticks := List.replicate 9 ⟨[], false⟩ }
    let first := runShell exMarker (exTicks (cmd "one\n".toList)) w St.new
    let late := put [(.err, some "oops\n".toList)] first.1
    first.2.view = some (["one\n".toList], [], 0) ∧
    (runShell exMarker (exTicks (cmd "two\n".toList)) w late).2.view = some (["two\n".toList], ["oops\n".toList], 0) :=
  ⟨by decide +kernel, by decide +kernel⟩

end Verif.ProcOut
