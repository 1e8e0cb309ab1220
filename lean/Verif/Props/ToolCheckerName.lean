import Verif.Props.ToolChecker

/-!
C112: a message about a command, with the name of the tool given by the caller.
-/

namespace Verif.ToolChecker

open Spec PyStr

/-- **C112** (given name): when the caller gives the name of the tool, the suggestion is about this tool, whatever the command is
(even an empty one). An empty name is the same as no name. -/
theorem C112_given_name (h : Host) (ls : List Line) (cmd : PyStr) (x y : Char) (tool err : PyStr) (ho : Os h ls) (hy : isSpace y = false) :
    commandNotFound h cmd (some (y :: err)) (some (x :: tool)) =
        .ok (message h.hostmsg cmd ("The error is:\n".toList ++ indented (y.toUpper :: err))
          (suggestion (valueOf "ID".toList ls) (x :: tool))) ∧
      commandNotFound h cmd none (some (x :: tool)) =
        .ok (message h.hostmsg cmd "Command not found".toList (suggestion (valueOf "ID".toList ls) (x :: tool))) ∧
      ∀ e, commandNotFound h cmd e (some []) = commandNotFound h cmd e none := by
  obtain ⟨os, h3, h4⟩ := what_eq h (x :: tool)
  rw [← h4 ls ho]
  refine ⟨?_, ?_, fun _ => rfl⟩
  · unfold commandNotFound
    dsimp only
    rw [h3, show errText (some (y :: err)) = "The error is:\n".toList ++ indent2 (y :: err) ++ "\n".toList from rfl,
      indent2_eq hy]
    unfold message indented
    rw [show "\nTry to install the ".toList = "\n".toList ++ "Try to install the ".toList from rfl]
    simp only [List.append_assoc]
  · unfold commandNotFound
    dsimp only
    rw [h3, show errText none = "Command not found".toList ++ "\n".toList from rfl]
    unfold message
    rw [show "\nTry to install the ".toList = "\n".toList ++ "Try to install the ".toList from rfl]
    simp only [List.append_assoc]

example : commandNotFound fedoraHost " ".toList none (some "lspci".toList) = .ok
    (message fedoraHost.hostmsg " ".toList "Command not found".toList "'pciutils' OS package".toList) := by
  refine congrArg Except.ok ?_
  decide +kernel

end Verif.ToolChecker
