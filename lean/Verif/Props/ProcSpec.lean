import Verif.Model.ProcOut

/-!
What the properties about the output of processes (C73, C74) are about: what a process wrote, its lines, and histories of
an object.
-/

namespace Verif.ProcOut

/-- The text of a stream: all its chunks. -/
def text (items : List Item) (s : Stream) : PyStr :=
  items.flatMap fun i => if i.1 = s then i.2.getD [] else []

/-- Nothing comes from a stream after its end. -/
def Valid (items : List Item) : Prop :=
  ∀ s a b, items = a ++ (s, none) :: b → ∀ i ∈ b, i.1 ≠ s

/-- The complete lines of a text. -/
def fullLines (t : PyStr) : List PyStr := (PyStr.splitC '\n' t).dropLast.map (· ++ ['\n'])

/-- There is no line end in the text. -/
def NoEnd (t : PyStr) : Prop := '\n' ∉ t ∧ '\r' ∉ t

/-- A line: a line end is the last character, and '\n' is nowhere else. -/
def IsLine (l : PyStr) : Prop := ∃ a c, l = a ++ [c] ∧ (c = '\n' ∨ c = '\r') ∧ '\n' ∉ a

/-- The states of an object which was `init` in the beginning, and the lines `wait()` calls returned so far, in any
history of arriving output and `wait()` calls. The exit status of the process is `code`. -/
inductive Reach (k : Kind) (code : Int) (init : St) : St → (Stream → List PyStr) → Prop
  | new : Reach k code init init fun _ => []
  | arrive (items : List Item) (st : St) (got : Stream → List PyStr) :
      Reach k code init st got → Reach k code init (put items st) got
  | wait (w : Wait) (st st' : St) (got : Stream → List PyStr) (r : Result) :
      Reach k code init st got → (w.status = none ∨ w.status = some code) → wait k w st = (st', .ok r) →
      Reach k code init st' fun s => got s ++ r.lines s

/-- A marker. Models: pepclibs/helperlibs/SSHProcessManager.py:346-356 `_reinit_marker()`. -/
def IsMarker (marker : PyStr) : Prop :=
  ∃ hex : PyStr, marker = "--- ".toList ++ hex ∧ hex.length = 64 ∧ ∀ c ∈ hex, c ∈ "0123456789abcdef".toList

/-- What the shell prints when the command is finished. Models: pepclibs/helperlibs/SSHProcessManager.py:466. -/
def markerText (marker : PyStr) (code : Nat) : PyStr := marker ++ ", ".toList ++ PyStr.ofNat code ++ " ---".toList

/-- The text ends with a new line, if it is not empty. -/
def EndsNl (o : PyStr) : Prop := ∀ c, o.getLast? = some c → c = '\n'

/-- Chunks are not empty. Models: pepclibs/helperlibs/_ProcessManagerBase.py:118-127. -/
def Chunks (items : List Item) : Prop := ∀ s, (s, some []) ∉ items

end Verif.ProcOut
