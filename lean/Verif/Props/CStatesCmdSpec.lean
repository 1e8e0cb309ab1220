import Verif.Model.CStatesCmd
import Verif.Props.HotplugCmdSpec
import Verif.Props.HumanCStatesSpec
import Verif.Lemmas.CStatesYaml

/-!
Specification for C95: what the options of the 'cstates' commands mean.
-/

namespace Verif.CStatesCmd

open CPUIdle (Names File Has NameOf NameAt upper)
open CStatesYaml (Clean)
open HumanPrint (Sys)
open HumanCStates (Block TellsAll)

/-- What the argument of an option with C-state names means: "all", or names separated by commas. -/
def MeansNames (text : PyStr) : Names → Prop
  | .all => text = "all".toList
  | .list ns => ns ≠ [] ∧ (∀ n ∈ ns, Clean n) ∧ text = PyStr.joinC ',' ns ∧ text ≠ "all".toList

/-- The C-state name is meant. -/
def Meant : Names → PyStr → Prop
  | .all, _ => True
  | .list ns, n => ∃ m ∈ ns, n = upper m

/-- C-state `j` of CPU `c` is meant, where `sel` are the selected CPUs. -/
def About (files : List File) (sel : Nat → Prop) (names : Names) (c j : Nat) : Prop :=
  sel c ∧ ∃ n, NameAt files c j n ∧ Meant names n

/-- The contents of the "disable" file. -/
def flag (enable : Bool) : PyStr := if enable then "0".toList else "1".toList

/-- The lines tell that exactly these C-states were turned on (off) for exactly the selected CPUs. -/
def TellsSet (S : Sys) (descr : PyStr) (files : List File) (sel : Nat → Prop) (y : Bool × Names) (lines : List PyStr) :
    Prop :=
  ∃ blocks : List Block, TellsAll S descr false (some "set to".toList) blocks lines ∧ (blocks.map (·.name)).Nodup ∧
    (∀ n, n ∈ blocks.map (·.name) ↔ Meant y.2 n ∧ ∃ c, sel c ∧ NameOf files c n) ∧
    ∀ b ∈ blocks, (∀ on c, b.Says on c ↔ on = y.1 ∧ sel c) ∧ b.notes = []

/-- The lines tell the status of exactly these C-states, as it is in the files, and their latencies, residencies and
descriptions. -/
def TellsStates (S : Sys) (descr : PyStr) (group : Bool) (files : List File) (sel : Nat → Prop) (names : Names)
    (lines : List PyStr) : Prop :=
  ∃ blocks : List Block, TellsAll S descr group none blocks lines ∧ (blocks.map (·.name)).Nodup ∧
    (∀ n, n ∈ blocks.map (·.name) ↔ Meant names n ∧ ∃ c, sel c ∧ NameOf files c n) ∧
    ∀ b ∈ blocks,
      (∀ on c, b.Says on c ↔ sel c ∧ ∃ j t, NameAt files c j b.name ∧ Has files c j "disable".toList t ∧
        on = (t == "0".toList || t == [])) ∧
      (b.status.flatMap (·.2)).Nodup ∧ b.notes.Nodup ∧
      ∀ k t, (k, t) ∈ b.notes ↔ k ∈ ["latency".toList, "residency".toList, "desc".toList] ∧
        ∃ c, sel c ∧ ∃ j, NameAt files c j b.name ∧ Has files c j k t

/-- '--enable' or '--disable' is given without an argument. -/
def NoArg (oargs : Dict PyStr (Option PyStr)) : Prop :=
  ∃ x ∈ oargs, (x.1 = "enable".toList ∨ x.1 = "disable".toList) ∧ (x.2 = none ∨ x.2 = some [])

/-- All the options of the command are '--enable' and '--disable'. -/
def OnlyStates (oargs : Dict PyStr (Option PyStr)) : Prop :=
  ∀ x ∈ oargs, x.1 = "enable".toList ∨ x.1 = "disable".toList

/-- What the '--enable' and '--disable' options with arguments mean, in the order of the command line. -/
def MeansOpts (oargs : Dict PyStr (Option PyStr)) (opts : List (Bool × Names)) : Prop :=
  ∃ l : List (PyStr × PyStr × Names),
    l.map (fun x => (x.1, some x.2.1)) = oargs.filter (fun x =>
      (x.1 = "enable".toList ∨ x.1 = "disable".toList) ∧ x.2 ≠ none ∧ x.2 ≠ some []) ∧
    opts = l.map (fun x => (decide (x.1 = "enable".toList), x.2.2)) ∧ ∀ x ∈ l, MeansNames x.2.1 x.2.2

/-- The '--mechanisms' option: names separated by commas. -/
def MeansMechs (text : PyStr) (ms : List PyStr) : Prop :=
  ms ≠ [] ∧ (∀ m ∈ ms, Clean m) ∧ text = PyStr.joinC ',' ms

end Verif.CStatesCmd
