import Verif.Model.IntShell

/-!
# What is expected of the interactive shell

Over the events (the last one first) and over the order in which the threads make their steps.
-/

namespace Verif.IntShell.Spec
open Verif.IntShell

/-- The commands which were sent to shell `g` and the end of which was not seen afterwards. -/
def running (g : Nat) : List Ev → List Nat
  | [] => []
  | .sent (some g') c :: l => if g' = g then c :: running g l else running g l
  | .seen g' c :: l => if g' = g then (running g l).filter (· != c) else running g l
  | _ :: l => running g l

/-- No command is sent to a shell in which another one has not ended, or which was told to exit. -/
def OneAtATime : List Ev → Prop
  | [] => True
  | .sent (some g) _ :: l => running g l = [] ∧ Ev.quit g ∉ l ∧ OneAtATime l
  | _ :: l => OneAtATime l

instance : (l : List Ev) → Decidable (OneAtATime l)
  | [] => .isTrue trivial
  | .sent (some g) _ :: l =>
    have := instDecidableOneAtATime l
    inferInstanceAs (Decidable (running g l = [] ∧ Ev.quit g ∉ l ∧ OneAtATime l))
  | .sent none _ :: l => instDecidableOneAtATime l
  | .seen _ _ :: l => instDecidableOneAtATime l
  | .quit _ :: l => instDecidableOneAtATime l
  | .got _ _ :: l => instDecidableOneAtATime l

/-- A call is only given the outcome of its own command. -/
def OwnResults (l : List Ev) : Prop := ∀ t c, Ev.got t c ∈ l → t = c

/-- How many times a command was sent to a shell or executed in a session. -/
def timesRun (t : Nat) : List Ev → Nat
  | [] => 0
  | .sent _ c :: l => (if c = t then 1 else 0) + timesRun t l
  | _ :: l => timesRun t l

/-- The thread which makes the step. -/
def who : Label → Nat
  | .claim t _ _ | .openSh t _ | .send t _ | .reinit t | .readPid t _ _ _ _ | .wait t _ _ _
  | .unbusy t _ | .drop t | .session t _ => t

/-- Not inside of `_run_async()`. -/
def resting : Phase → Bool
  | .start | .got _ | .own | .over => true
  | _ => false

/-- A program with one thread: a step is made only if no other call of `_run_async()` is going
on. Processes which have been started can be waited for at any other time, and in any order. -/
def OneThread : St → List Label → Prop
  | _, [] => True
  | s, l :: ls => (∀ u, u ≠ who l → resting (s.thr u) = true) ∧ OneThread (step s l) ls

/-- A program with one thread which only uses `run()`: in addition, a call which another one has
been started after is never returned to. -/
def OnlyRun : Option Nat → St → List Label → Prop
  | _, _, [] => True
  | last, s, l :: ls =>
    (∀ u, u ≠ who l → resting (s.thr u) = true)
      ∧ (last = some (who l) ∨ s.thr (who l) = .start)
      ∧ OnlyRun (some (who l)) (step s l) ls

/-- Nothing fails, and no command has ended with all of its output returned by the time the line
with the PID is read. -/
def Smooth : Label → Prop
  | .openSh _ ok => ok = true
  | .send _ ok => ok = true
  | .readPid _ sees drained _ raised => raised = false ∧ ¬ (sees = true ∧ drained = true)
  | _ => True

instance : DecidablePred Smooth := fun l => by cases l <;> (unfold Smooth; infer_instance)

/-- Nothing fails and all locks are acquired. -/
def Fine : Label → Prop
  | .claim _ _ acq => acq = true
  | .openSh _ ok => ok = true
  | .send _ ok => ok = true
  | .readPid _ _ _ acq raised => raised = false ∧ acq = true
  | .wait _ _ _ acq => acq = true
  | _ => True

instance : DecidablePred Fine := fun l => by cases l <;> (unfold Fine; infer_instance)

/-- The locks which protect clearing of the flag are acquired. -/
def Locked : Label → Prop
  | .readPid _ _ _ acq _ => acq = true
  | .wait _ _ _ acq => acq = true
  | .unbusy _ acq => acq = true
  | _ => True

instance : DecidablePred Locked := fun l => by cases l <;> (unfold Locked; infer_instance)

/-- The call has ended, or has not been made. -/
def ended : Phase → Bool
  | .start | .own | .over => true
  | _ => false

end Verif.IntShell.Spec
