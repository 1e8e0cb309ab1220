import Verif.Lemmas.IntShellThreads

/-!
# C119: the interactive shell runs one command at a time
-/

namespace Verif.IntShell
open Verif.IntShell.Spec

/-- In a program with one thread, whatever fails and however the processes are waited for, a
command is never sent to an interactive shell in which another command is still running, or which
was told to exit. -/
theorem C119_one_thread (ls : List Label) (h : OneThread init ls) :
    OneAtATime (exec init ls).log :=
  (SInv.init.exec ls h).excl

/-- In a program with one thread which only uses `run()`, whatever fails and whatever times out, a
call is only given the outcome of its own command. -/
theorem C119_own_result (ls : List Label) (h : OnlyRun none init ls) :
    OwnResults (exec init ls).log :=
  onlyRun_exec SInv.init (by intro t g h; exact absurd h (by simp))
    (by intro t c h; exact absurd h (by simp [init])) ls h

/-- With any number of threads and in every order of their steps, both hold if nothing fails and
no command has ended with all its output by the time the line with the PID is read. The flag may
stay set because a lock was not acquired. -/
theorem C119_threads_partial (ls : List Label) (h : ∀ l ∈ ls, Smooth l) :
    OneAtATime (exec init ls).log ∧ OwnResults (exec init ls).log :=
  have := CInv.init.exec ls h
  ⟨this.excl, this.own⟩

/-- A call runs its command at most twice, and at most once unless reading the PID has failed. In
any order of the steps of any number of threads. -/
theorem C119_once (ls : List Label) (t : Nat) :
    timesRun t (exec init ls).log ≤ 2
      ∧ ((∀ x y z, Label.readPid t x y z true ∉ ls) → timesRun t (exec init ls).log ≤ 1) := by
  constructor
  · exact Nat.le_trans (timesRun_exec init ls t true (Nat.zero_le _) (by simp))
      (bound_le true _)
  · intro h
    exact Nat.le_trans (timesRun_exec init ls t false (Nat.zero_le _) (fun _ => h))
      (bound_le false _)

/-- If all calls have ended and the locks for clearing the flag were acquired, then the next
command which may use the interactive shell does. Failures do not matter. -/
theorem C119_available (ls : List Label) (h : ∀ l ∈ ls, Locked l)
    (he : ∀ u, ended ((exec init ls).thr u) = true) (t : Nat) (ht : (exec init ls).thr t = .start) :
    (step (exec init ls) (.claim t true true)).thr t = .claimed := by
  have hb : (exec init ls).busy = false := by
    cases hb : (exec init ls).busy with
    | false => rfl
    | true =>
      obtain ⟨u, hu⟩ := locked_exec init ls (by simp [init]) h hb
      have := he u
      cases hp : (exec init ls).thr u <;> simp [hp, ended, keeps] at hu this
  simp [step, ht, hb, goto, upd]

/-- A command which was started in the interactive shell, timed out and is not waited for any
more takes the shell for ever: nothing is sent to the shell afterwards. -/
theorem C119_timed_out (s : St) (t : Nat) (hb : s.busy = true)
    (ha : ∀ u, u ≠ t → s.thr u = .start ∨ s.thr u = .fresh ∨ s.thr u = .own ∨ s.thr u = .over)
    (ls : List Label) (hl : ∀ l ∈ ls, who l ≠ t) (g c : Nat)
    (hs : Ev.sent (some g) c ∈ (exec s ls).log) : Ev.sent (some g) c ∈ s.log :=
  stuck_exec s ls t hb (by
    intro u hu
    rcases ha u hu with h | h | h | h <;> rw [h] <;> rfl) hl g c hs

/-! ### What is not true -/

/-- Three threads, nothing fails, all locks are acquired, and each thread waits for its own
process once. Two commands run in the shell at the same time: the first command has ended by the
time its PID is read, which clears the flag; the second thread sets it, the first one clears it
once more. -/
def race : List Label :=
  [.claim 0 true true, .openSh 0 true, .send 0 true, .reinit 0, .readPid 0 true true true false,
   .claim 1 true true, .wait 0 false true true, .openSh 1 true, .send 1 true,
   .claim 2 true true, .openSh 2 true, .send 2 true]

theorem C119_threads_counterexample :
    (∀ l ∈ race, Fine l) ∧ ¬ OneAtATime (exec init race).log
      ∧ running 0 (exec init race).log = [2, 1] := by
  decide +kernel

/-- With two threads the first one can be given the outcome of the command of the second. -/
def steal : List Label :=
  [.claim 0 true true, .openSh 0 true, .send 0 true, .reinit 0, .readPid 0 true true true false,
   .claim 1 true true, .openSh 1 true, .send 1 true, .reinit 1, .readPid 1 false true true false,
   .wait 0 true true true]

theorem C119_result_counterexample :
    (∀ l ∈ steal, Fine l) ∧ Ev.got 0 1 ∈ (exec init steal).log := by
  decide +kernel

/-- The same happens with one thread and `run_async()`: both calls return the same object. -/
theorem C119_async_counterexample :
    OneThread init steal ∧ ¬ OwnResults (exec init steal).log := by
  refine ⟨?_, fun h => absurd (h 0 1 (by decide +kernel)) (by decide)⟩
  refine ⟨?_, ?_, ?_, ?_, ?_, ?_, ?_, ?_, ?_, ?_, ?_, trivial⟩ <;>
    (intro u hu
     simp only [who] at hu
     rcases (by omega : u = 0 ∨ u = 1 ∨ (u ≠ 0 ∧ u ≠ 1)) with h | h | h
     · subst h
       first | exact absurd rfl hu | decide +kernel
     · subst h
       first | exact absurd rfl hu | decide +kernel
     · simp [step, init, goto, upd, waitIntsh, look, isDone, h.1, h.2, resting])

/-- If the PID could not be read after the command has been sent, the command is run once more, in
a session of its own. One thread, one `run()`. -/
def twice : List Label :=
  [.claim 0 true true, .openSh 0 true, .send 0 true, .reinit 0, .readPid 0 false false true true,
   .unbusy 0 true, .drop 0, .session 0 true]

theorem C119_twice_counterexample : timesRun 0 (exec init twice).log = 2 := by
  decide +kernel

/-- The flag is cleared before the shell is forgotten: a command of another thread is sent to the
shell which has just been told to exit. -/
def dropped : List Label :=
  [.claim 0 true true, .openSh 0 true, .send 0 true, .reinit 0, .readPid 0 false false true true,
   .unbusy 0 true, .claim 1 true true, .openSh 1 true, .drop 0, .send 1 true]

theorem C119_dropped_counterexample :
    (exec init dropped).log.take 2 = [.sent (some 0) 1, .quit 0]
      ∧ ¬ OneAtATime (exec init dropped).log := by
  decide +kernel

/-! ### The hypotheses can be met -/

/-- Two calls of `run()` in one thread, the second one in the same shell. -/
def two : List Label :=
  [.claim 0 true true, .openSh 0 true, .send 0 true, .reinit 0, .readPid 0 false false true false,
   .wait 0 true true true,
   .claim 1 true true, .openSh 1 true, .send 1 true, .reinit 1, .readPid 1 true true true false,
   .wait 1 false true true]

theorem two_onlyRun : OnlyRun none init two := by
  refine ⟨?_, by decide +kernel, ?_, by decide +kernel, ?_, by decide +kernel, ?_,
    by decide +kernel, ?_, by decide +kernel, ?_, by decide +kernel, ?_, by decide +kernel, ?_,
    by decide +kernel, ?_, by decide +kernel, ?_, by decide +kernel, ?_, by decide +kernel, ?_,
    by decide +kernel, trivial⟩ <;>
    (intro u hu
     simp only [who] at hu
     rcases (by omega : u = 0 ∨ u = 1 ∨ (u ≠ 0 ∧ u ≠ 1)) with h | h | h
     · subst h
       first | exact absurd rfl hu | decide +kernel
     · subst h
       first | exact absurd rfl hu | decide +kernel
     · simp [step, init, goto, upd, waitIntsh, look, isDone, h.1, h.2, resting])

example : OwnResults (exec init two).log ∧ (exec init two).log =
    [.got 1 1, .seen 0 1, .sent (some 0) 1, .got 0 0, .seen 0 0, .sent (some 0) 0] :=
  ⟨C119_own_result two two_onlyRun, by decide +kernel⟩

/-- Two threads: the second one finds the shell busy. -/
def busyTwo : List Label :=
  [.claim 0 true true, .claim 1 true true, .openSh 0 true, .session 1 true, .send 0 true,
   .reinit 0, .readPid 0 false false true false, .claim 2 true true, .wait 0 true true true]

example : (OneAtATime (exec init busyTwo).log ∧ OwnResults (exec init busyTwo).log)
    ∧ (exec init busyTwo).log = [.got 0 0, .seen 0 0, .sent (some 0) 0, .sent none 1] :=
  ⟨C119_threads_partial busyTwo (by decide +kernel), by decide +kernel⟩

example : OneAtATime (exec init steal).log :=
  C119_one_thread steal C119_async_counterexample.1

/-- After a failure, with the first shell given up, a shell is available. -/
example : (step (exec init twice) (.claim 7 true true)).thr 7 = .claimed :=
  C119_available twice (by decide +kernel)
    (by
      intro u
      simp [twice, exec, step, init, goto, upd, waitIntsh, look, isDone]
      repeat' split
      all_goals rfl)
    7 (by decide +kernel)

/-- A call which timed out, and another one after it. -/
def timedOut : List Label :=
  [.claim 0 true true, .openSh 0 true, .send 0 true, .reinit 0, .readPid 0 false false true false,
   .wait 0 false true true]

example : ∀ g c, Ev.sent (some g) c ∈
    (exec (exec init timedOut) [.claim 1 true true, .session 1 true]).log → c = 0 := by
  intro g c h
  have := C119_timed_out (exec init timedOut) 0 (by decide +kernel)
    (by
      intro u hu
      left
      simp [timedOut, exec, step, init, goto, upd, waitIntsh, look, isDone, hu])
    [.claim 1 true true, .session 1 true] (by decide +kernel) g c h
  have e : (exec init timedOut).log = [.sent (some 0) 0] := by decide +kernel
  rw [e] at this
  simp at this
  exact this.2

end Verif.IntShell
