import Verif.Model.HumanCStates
import Verif.Props.HumanPrintSpec
import Verif.Lemmas.CPUIdleToggle

/-!
Specification for C94: what the lines about requestable C-states tell. The lines come in blocks, one for every C-state. The
text about CPUs is read with the readers of C78.
-/

namespace Verif.HumanCStates

open CPUIdle (Names CsInfo Value File Has NameOf NameAt)
open CStatesYaml (dictKey)
open HumanPrint (Sys cutFor)
open PrinterText (readCpus)

/-- What is told about a C-state: the CPUs it is on or off for, and the notes: keys and texts. -/
structure Block where
  name : PyStr
  status : List (Bool × List Nat)
  notes : List (PyStr × PyStr)
  deriving DecidableEq

/-- The line tells that the C-state is on (off) for exactly these CPUs. -/
def TellsStatus (S : Sys) (group : Bool) (action : Option PyStr) (name : PyStr) (x : Bool × List Nat) (line : PyStr) :
    Prop :=
  ∃ body w l,
    line = (if group then " - ".toList else []) ++ (name ++ ": ".toList) ++
      (match action with
        | some a => if a = [] then [] else a ++ " ".toList
        | none => []) ++ body ∧
    cutFor body = some ((if x.1 then "'on'".toList else "'off'".toList), w) ∧
    readCpus S.online w = some l ∧ ∀ c, c ∈ l ↔ c ∈ x.2

/-- The line tells the latency, the residency (in microseconds), or the description of the C-state. -/
def TellsNote (group : Bool) (x : PyStr × PyStr) (line : PyStr) : Prop :=
  ∃ rest, line = (if group then "    - ".toList else " - ".toList) ++ rest ∧
    ((x.1 = "latency".toList ∧ rest = "expected latency: ".toList ++ x.2 ++ " us".toList) ∨
      (x.1 = "residency".toList ∧ rest = "target residency: ".toList ++ x.2 ++ " us".toList) ∨
      (x.1 = "desc".toList ∧ rest = "description: ".toList ++ x.2))

/-- The lines of a block: the status lines, then the notes. -/
def TellsBlock (S : Sys) (group : Bool) (action : Option PyStr) (b : Block) (lines : List PyStr) : Prop :=
  ∃ l1 l2, lines = l1 ++ l2 ∧ List.Forall₂ (TellsStatus S group action b.name) b.status l1 ∧
    List.Forall₂ (TellsNote group) b.notes l2

/-- The block tells that the C-state is on (off) for the CPU. -/
def Block.Says (b : Block) (on : Bool) (c : Nat) : Prop := ∃ x ∈ b.status, x.1 = on ∧ c ∈ x.2

/-- All the lines. -/
def TellsAll (S : Sys) (descr : PyStr) (group : Bool) (action : Option PyStr) (blocks : List Block) (lines : List PyStr) :
    Prop :=
  ∃ ls, List.Forall₂ (TellsBlock S group action) blocks ls ∧
    lines = (if group then ["Source: ".toList ++ descr] else []) ++ ls.flatten

/-- The keys of the notes. -/
def noteKeys : List PyStr := ["latency".toList, "residency".toList, "desc".toList]

/-- CPU `c` was read to have value `v` for key `k` of C-state `n`. -/
def Read (l : List (Nat × CsInfo)) (c : Nat) (n k : PyStr) (v : Value) : Prop :=
  ∃ cs st, (c, cs) ∈ l ∧ cs.get? n = some st ∧ st.attrs.get? k = some v

/-- The value means that the C-state is on. -/
def IsOn : Value → Bool
  | .num n => n == 0
  | .text s => s == []
  | .bool b => !b

/-- The text for a value. `True` and `False` are numbers 1 and 0. -/
def TextOf : Value → PyStr
  | .num n => PyStr.ofInt n
  | .text s => s
  | .bool b => if b then ['1'] else ['0']

/-- The blocks tell exactly what was read: every C-state with a known status once, for which CPUs it is on and off, and,
unless read-only information is skipped, the notes, every text once. -/
structure Exact (l : List (Nat × CsInfo)) (skipRo : Bool) (blocks : List Block) : Prop where
  nodup : (blocks.map (·.name)).Nodup
  names : ∀ n, n ∈ blocks.map (·.name) ↔ ∃ c v, Read l c n "disable".toList v
  status : ∀ b ∈ blocks, ∀ on c, b.Says on c ↔ ∃ v, Read l c b.name "disable".toList v ∧ on = IsOn v
  once : (l.map Prod.fst).Nodup → ∀ b ∈ blocks, (b.status.flatMap (·.2)).Nodup
  notes : ∀ b ∈ blocks, ∀ k t, (k, t) ∈ b.notes ↔
    skipRo = false ∧ k ∈ noteKeys ∧ ∃ c v, Read l c b.name k v ∧ TextOf v = t
  noteOnce : (∀ c n k v c' w, Read l c n k v → Read l c' n k w → TextOf v = TextOf w → dictKey v = dictKey w) →
    ∀ b ∈ blocks, b.notes.Nodup

/-- The C-states asked for: those with the names, or all C-states of the CPUs. -/
def Asked (files : List File) (cpus : List Nat) : Names → PyStr → Prop
  | .list l, n => ∃ m ∈ l, n = CPUIdle.upper m
  | .all, n => ∃ c ∈ cpus, NameOf files c n

end Verif.HumanCStates
