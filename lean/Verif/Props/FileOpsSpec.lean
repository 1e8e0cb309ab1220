import Verif.Model.FileOps

/-! Specification of the file operations: what they are supposed to do, in terms of the kernel, and when. -/

namespace Verif.FileOps.Spec

variable {σ : Type}

/-- What Linux guarantees when nobody else changes files at the same time (on a read-only file system `unlink()` fails with
another error number for a missing file). -/
structure Laws (K : Kernel σ) : Prop where
  stat_lstat : ∀ s p st, K.stat s p = .ok st → ∃ st', K.lstat s p = .ok st'
  nolink : ∀ s p st, K.lstat s p = .ok st → st.kind ≠ .link → K.stat s p = .ok st
  missing : ∀ s p e, K.lstat s p = .error e → K.stat s p = .error e ∧ K.unlink s p = .error e
  there : ∀ s p st, K.lstat s p = .ok st → K.unlink s p ≠ .error .noent ∧ K.tree s p ≠ .error .noent
  mkdir : ∀ s p, K.mkdir s p = .error .exist ↔ ∃ st, K.lstat s p = .ok st
  mkfifo : ∀ s p, K.mkfifo s p = .error .exist ↔ ∃ st, K.lstat s p = .ok st

/-- A path without quotes, dollar signs, backslashes and line ends. -/
def PlainPath (p : PyStr) : Prop := ∀ c ∈ p, c ∉ ['\'', '"', '$', '`', '\\', '\n']

/-- `stat()` fails only because there is nothing: not because of permissions, for instance. -/
def Benign (K : Kernel σ) (s : σ) (p : PyStr) : Prop :=
  ∀ e, K.stat s p = .error e → e = .noent ∨ e = .notdir ∨ e = .loop

/-- The calls for which local and remote hosts are expected to do the same. -/
def Fine (K : Kernel σ) (s : σ) : Op → Prop
  | .pathExists p => PlainPath p ∧ Benign K s p
  | .isFile p => PlainPath p ∧ Benign K s p
  | .isDir p => PlainPath p ∧ Benign K s p
  | .isSocket p => PlainPath p ∧ Benign K s p
  | .isExe p => PlainPath p ∧ Benign K s p ∧ ∀ st, K.stat s p = .ok st → st.kind ≠ .file → K.access s p = false
  | .mtime p => PlainPath p ∧ ¬ "FileNotFoundError".toList <:+: p
  | .mkdir p _ => PlainPath p ∧ Benign K s p ∧ ∀ st, K.lstat s p = .ok st → ∃ st', K.stat s p = .ok st'
  | .mkfifo p _ => PlainPath p ∧ Benign K s p ∧ ∀ st, K.lstat s p = .ok st → ∃ st', K.stat s p = .ok st'
  | .unlink p => PlainPath p
  | .rmtree p => PlainPath p ∧ Benign K s p ∧ K.lstat s p ≠ .error .notdir ∧
      ∀ st st', K.lstat s p = .ok st → st.kind = .link → K.stat s p = .ok st' → st'.kind ≠ .dir
  | .lsdir p _ => PlainPath p ∧ Benign K s p ∧
      ∀ es, K.listdir s p = .ok es → ∀ e ∈ es, e ≠ [] ∧ ∀ c ∈ e, PyStr.isSpace c = false

/-- A file of the type is there. -/
def isKind (K : Kernel σ) (s : σ) (p : PyStr) (k : Kind) : Bool :=
  match K.stat s p with
  | .ok st => decide (st.kind = k)
  | .error _ => false

/-- The change is made, or it is an error. -/
def changed (s : σ) : Except Errno σ → σ × Except Err Val
  | .ok s' => (s', .ok .unit)
  | .error _ => (s, .error .error)

/-- Newest first, the others keep their order; see `C114_newest`. -/
def newest : List (PyStr × Stat) → List (PyStr × Stat)
  | [] => []
  | x :: l =>
    let r := newest l
    r.takeWhile (fun y => decide (x.2.ctime < y.2.ctime)) ++ x :: r.dropWhile (fun y => decide (x.2.ctime < y.2.ctime))

/-- What is in a directory: newest first. -/
def listing (K : Kernel σ) (s : σ) (p : PyStr) : Except Err Val :=
  match K.listdir s p with
  | .error _ => .error .error
  | .ok es =>
    match es.mapM fun e => (K.lstat s (joinPath p e)).toOption.map fun st => (e, st) with
    | none => .error .error
    | some l => .ok (.entries ((newest l).map fun x =>
        (x.1, joinPath p x.1, x.2.mode)))

/-- What the methods are supposed to do. -/
def expect (K : Kernel σ) (s : σ) : Op → σ × Except Err Val
  | .pathExists p => (s, .ok (.bool (K.stat s p).toOption.isSome))
  | .isFile p => (s, .ok (.bool (isKind K s p .file)))
  | .isDir p => (s, .ok (.bool (isKind K s p .dir)))
  | .isSocket p => (s, .ok (.bool (isKind K s p .socket)))
  | .isExe p => (s, .ok (.bool (isKind K s p .file && K.access s p)))
  | .mtime p => (s, match K.stat s p with
      | .ok st => .ok (.time st.mtime)
      | .error e => .error (if e = .noent then .notFound else .error))
  | .mkdir p ok =>
    match K.lstat s p with
    | .ok _ => (s, if ok then .ok .unit else .error .exists')
    | .error _ => changed s (K.mkdir s p)
  | .mkfifo p ok =>
    match K.lstat s p with
    | .ok _ => (s, if ok then .ok .unit else .error .exists')
    | .error _ => changed s (K.mkfifo s p)
  | .unlink p => changed s (K.unlink s p)
  | .rmtree p =>
    match K.lstat s p with
    | .error .noent => (s, .ok .unit)
    | .error _ => (s, .error .error)
    | .ok st => changed s (if st.kind = .dir then K.tree s p else K.unlink s p)
  | .lsdir p must =>
    (s, if must = false ∧ (K.stat s p).toOption.isSome = false then .ok (.entries []) else listing K s p)

/-- The condition holds for each of the calls when it is made. -/
def AllFine (K : Kernel σ) : σ → List Op → Prop
  | _, [] => True
  | s, op :: ops => Fine K s op ∧ AllFine K (expect K s op).1 ops

end Verif.FileOps.Spec
