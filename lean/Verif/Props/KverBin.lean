import Verif.Lemmas.KverBin
import Verif.Lemmas.TopoText

namespace Verif.KverBin

open Spec

/-- C131: the version of a kernel binary is found exactly if `file` says that the file is an executable Linux kernel and names a
version, and it is the last word which follows " version ".

Missing from the full statement: that this is the version of the kernel, see the counterexamples. -/
theorem C131_binary_partial (run : Run) (path out v : PyStr) (h : run ("file -- ".toList ++ path) = .ok out) :
    getKverBin run path = .ok v ↔ Kernel (PyStr.strip out) ∧ Last (PyStr.strip out) v := by
  unfold getKverBin
  rw [h]
  dsimp only
  rw [← kernel_iff, ← last_iff]
  cases lastMatch kernelAt (PyStr.strip out) with
  | none => simp
  | some _ => cases lastMatch versionAt (PyStr.strip out) <;> simp

/-- What `file` prints for a kernel. -/
def bzImage : PyStr :=
  "/boot/vmlinuz: Linux kernel x86 boot executable bzImage, version 6.1.0-rc3+ (me@here) #1 SMP, RO-rootFS\n".toList

example : getKverBin (fun c => if c = "file -- /boot/vmlinuz".toList then .ok bzImage else .error .error) "/boot/vmlinuz".toList =
    .ok "6.1.0-rc3+".toList := by decide +kernel

/-- C131: everything else is an `Error`: the exception of the command, or the one which says what `file` printed. -/
theorem C131_binary_error (run : Run) (path : PyStr) :
    (∀ e, run ("file -- ".toList ++ path) = .error e → getKverBin run path = .error e) ∧
      ∀ out, run ("file -- ".toList ++ path) = .ok out →
        ¬ (Kernel (PyStr.strip out) ∧ ∃ v, Last (PyStr.strip out) v) → getKverBin run path = .error .error := by
  refine ⟨fun e h => by unfold getKverBin; rw [h], fun out h hn => ?_⟩
  cases hr : getKverBin run path with
  | ok v =>
    have := (C131_binary_partial run path out v h).1 hr
    exact absurd ⟨this.1, v, this.2⟩ hn
  | error e =>
    unfold getKverBin at hr
    rw [h] at hr
    dsimp only at hr
    split at hr
    · exact hr.symm
    · split at hr
      · exact hr.symm
      · cases hr

example : getKverBin (fun _ => .ok "/bin/ls: ELF 64-bit LSB pie executable x86-64, version 1 (SYSV), stripped\n".toList)
    "/bin/ls".toList = .error .error := by decide +kernel

/-- C131: it is not so that the version is the one which `file` gives right after the kind of the file: if the text of the build
has the word "version", the word after that is taken. -/
theorem C131_last_counterexample :
    getKverBin (fun _ => .ok
      "vmlinuz: Linux kernel x86 boot executable bzImage, version 5.4.0 (me@here) (gcc version 9.3.0 (GCC)) #1 SMP\n".toList)
        "vmlinuz".toList = .ok "9.3.0".toList := by decide +kernel

/-- C131: it is not so that a version at the very end of what `file` prints is found: a space has to follow. -/
theorem C131_end_counterexample :
    getKverBin (fun _ => .ok "vmlinuz: Linux kernel x86 boot executable bzImage, version 5.4.0\n".toList) "vmlinuz".toList =
      .error .error := by decide +kernel

/-- C131: the versions of the running kernel and of a source tree are what `uname` and `make` print, without the white space around
it; `makecmd` replaces only the beginning of the command; a failure of `make` is an `Error`. -/
theorem C131_printed (run : Run) (v : PyStr) (hv : ∀ c ∈ v, PyStr.isSpace c = false) (ktree m : PyStr) (hm : m ≠ []) :
    (run "uname -r".toList = .ok (v ++ ['\n']) → getKver run = .ok v) ∧
      (run ("make -C '".toList ++ ktree ++ "' --quiet -- kernelrelease".toList) = .ok (v ++ ['\n']) →
        getKverKtree run ktree none = .ok v ∧ getKverKtree run ktree (some []) = .ok v) ∧
      (run (m ++ " --quiet -- kernelrelease".toList) = .ok (v ++ ['\n']) → getKverKtree run ktree (some m) = .ok v) ∧
      (∀ e, run (m ++ " --quiet -- kernelrelease".toList) = .error e → getKverKtree run ktree (some m) = .error .error) := by
  have hs : PyStr.strip (v ++ ['\n']) = v :=
    TopoBuild.strip_newline (PyStr.stripped_of_all hv)
  have hc : "make -C '".toList ++ ktree ++ "'".toList ++ " --quiet -- kernelrelease".toList =
      "make -C '".toList ++ ktree ++ "' --quiet -- kernelrelease".toList := by
    rw [List.append_assoc]; rfl
  refine ⟨fun h => ?_, fun h => ?_, fun h => ?_, fun e h => ?_⟩
  · unfold getKver; rw [h]; dsimp only; rw [hs]
  · constructor <;> (unfold getKverKtree; dsimp only; rw [hc, h]; dsimp only; rw [hs])
  · cases m with
    | nil => exact absurd rfl hm
    | cons c m => unfold getKverKtree; dsimp only; rw [h]; dsimp only; rw [hs]
  · cases m with
    | nil => exact absurd rfl hm
    | cons c m => unfold getKverKtree; dsimp only; rw [h]

example : getKverKtree (fun c => if c = "make -C '/src' --quiet -- kernelrelease".toList then .ok "6.1.0\n".toList else .error .error)
    "/src".toList none = .ok "6.1.0".toList := by decide +kernel

end Verif.KverBin
