import Verif.Lib.Exn
import Verif.Lib.PyStr

/-!
Model of how the version of a kernel is found: of the running one (`get_kver()`), of a source tree (`get_kver_ktree()`) and of a
binary (`get_kver_bin()`). Models: pepclibs/helperlibs/KernelVersion.py:88-157, with `split=False`. What the commands print is a
parameter: a function from the command to the exception of `run_verify()` or the standard output.
-/

namespace Verif.KverBin

/-- The host: what `run_verify()` does for a command. -/
abbrev Run := PyStr → Except Exn PyStr

/-- `re.match(r".*REST", s)`: the first `.*` takes as much of the line as possible, so REST is tried from the end of the line
backwards. `f` is the match of REST at the beginning of a string. -/
def lastMatch {α : Type} (f : PyStr → Option α) : PyStr → Option α
  | [] => f []
  | c :: s =>
    if c = '\n' then f (c :: s)
    else
      match lastMatch f s with
      | some x => some x
      | none => f (c :: s)

/-- The rest of the string after the text `p`, if it begins with `p`. -/
def after (p s : PyStr) : Option PyStr := if p.isPrefixOf s then some (s.drop p.length) else none

/-- ` version ([^ ]+) .*`: the group. The group ends at the first space, and there must be one.
Models: pepclibs/helperlibs/KernelVersion.py:150. -/
def versionAt (s : PyStr) : Option PyStr :=
  match after " version ".toList s with
  | none => none
  | some t =>
    if t.takeWhile (· ≠ ' ') ≠ [] ∧ t.dropWhile (· ≠ ' ') ≠ [] then some (t.takeWhile (· ≠ ' ')) else none

/-- ` Linux kernel.* executable .*`. Models: pepclibs/helperlibs/KernelVersion.py:146. -/
def kernelAt (s : PyStr) : Option Unit :=
  match after " Linux kernel".toList s with
  | none => none
  | some t => lastMatch (fun u => (after " executable ".toList u).map fun _ => ()) t

/-- `get_kver_bin(path)`. Models: pepclibs/helperlibs/KernelVersion.py:132-157. -/
def getKverBin (run : Run) (path : PyStr) : Except Exn PyStr :=
  match run ("file -- ".toList ++ path) with
  | .error e => .error e
  | .ok out =>
    match lastMatch kernelAt (PyStr.strip out) with
    | none => .error .error
    | some _ =>
      match lastMatch versionAt (PyStr.strip out) with
      | none => .error .error
      | some v => .ok v

/-- `get_kver()`. Models: pepclibs/helperlibs/KernelVersion.py:88-102. -/
def getKver (run : Run) : Except Exn PyStr :=
  match run "uname -r".toList with
  | .error e => .error e
  | .ok out => .ok (PyStr.strip out)

/-- `get_kver_ktree(ktree, makecmd=makecmd)`. The exceptions of `run_verify()` are based on `Error`, and are replaced with `Error`.
Models: pepclibs/helperlibs/KernelVersion.py:104-130. -/
def getKverKtree (run : Run) (ktree : PyStr) (makecmd : Option PyStr) : Except Exn PyStr :=
  let mk := match makecmd with
    | none | some [] => "make -C '".toList ++ ktree ++ "'".toList
    | some m => m
  match run (mk ++ " --quiet -- kernelrelease".toList) with
  | .error _ => .error .error
  | .ok out => .ok (PyStr.strip out)

end Verif.KverBin
