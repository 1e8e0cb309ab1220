import Verif.Model.WrapSysfs
import Verif.Props.WrapFile
import Verif.Props.SysfsIO

namespace Verif.WrapFile

open Verif.SysfsIO (Path World IORes Files Ordinary St Fresh)

/-- The contents of the files. -/
def contents (s : Path → Option PyStr) (p : Path) : Option PyStr := (s p).map PyStr.strip

theorem host_files (buffered : Bool) (refuses : Path → PyStr → Option PyErr) :
    Files (hostWorld buffered refuses) contents where
  read_cont := by
    intro s p
    simp only [hostWorld]
    cases s p <;> rfl
  read_some := by
    intro s p c h
    simp only [contents, Option.map_eq_some_iff] at h
    obtain ⟨raw, h1, h2⟩ := h
    exact ⟨raw, by simp only [hostWorld, h1], h2⟩
  read_none := by
    intro s p h raw
    simp only [contents, Option.map_eq_none_iff] at h
    simp only [hostWorld, h]
    exact fun e => nomatch e
  write_other := by
    intro s p v q hq
    simp only [hostWorld]
    cases s p with
    | none => rfl
    | some c => simp [contents, hq]

/-- C129: on remote hosts, whatever values the kernel refuses, sysfs files are such that a successful write stores the value, and
a failed one changes nothing: what is proved about `SysfsIO` objects for such files (C11, C12) is about remote hosts. -/
theorem C129_remote_ordinary (refuses : Path → PyStr → Option PyErr) : Ordinary (hostWorld false refuses) contents where
  toFiles := host_files false refuses
  write_ok := by
    intro s p v h
    simp only [hostWorld] at h ⊢
    cases hs : s p with
    | none => simp [hs] at h
    | some c =>
      cases hr : refuses p v with
      | none => simp [contents, withFile, run, sysfsOps, step, write, push, sync, sysfsFile, hr, call, Op.name]
      | some e =>
        cases e <;> simp [hs, withFile, run, sysfsOps, step, write, push, sync, sysfsFile, hr, call, Op.name, translate] at h
  write_err := by
    intro s p v h
    simp only [hostWorld] at h ⊢
    cases hs : s p with
    | none => simp [contents, hs]
    | some c =>
      cases hr : refuses p v with
      | none => simp [hs, withFile, run, sysfsOps, step, write, push, sync, sysfsFile, hr, call, Op.name] at h
      | some e =>
        cases e <;>
          simp [contents, hs, withFile, run, sysfsOps, step, write, push, sync, sysfsFile, hr, call, Op.name, translate]

/-- C129: on the local host, a successful write stores the value if the kernel refuses nothing.

Missing from the full statement: values which the kernel refuses (`C129_cached_counterexample`). -/
theorem C129_local_partial (refuses : Path → PyStr → Option PyErr) (h : ∀ p v, refuses p v = none) :
    (∀ s p v, v ≠ [] → ((hostWorld true refuses).writeF s p v).2 = .ok () →
      contents ((hostWorld true refuses).writeF s p v).1 p = some (PyStr.strip v)) := by
  intro s p v hv hw
  simp only [hostWorld] at hw ⊢
  cases hs : s p with
  | none => simp [hs] at hw
  | some c => simp [contents, withFile, run, sysfsOps, step, write, push, sync, sysfsFile, h, hv, call, Op.name]

/-- C129: on all hosts, whatever values the kernel refuses: a value which is written with verification (outside of a transaction)
and without an exception is in the file. -/
theorem C129_verified (buffered : Bool) (refuses : Path → PyStr → Option PyErr) (st : St (hostWorld buffered refuses))
    (hi : st.inTransaction = false) (p : Path) (v what : PyStr) (retries : Int) (sleep : Nat)
    (hr : (SysfsIO.writeVerify st p v what retries sleep).2 = .ok ()) :
    contents (SysfsIO.writeVerify st p v what retries sleep).1.s p = some v := by
  rw [SysfsIO.writeVerify_eq_imm hi] at hr ⊢
  exact ((SysfsIO.immWrite_spec (host_files buffered refuses) st p v (some retries)).2.1 hr).2.2.2 (by simp)

/-- A new object on a host where one file exists, which holds 1 and can be 0 or 1. -/
def example1 (buffered : Bool) : St (hostWorld buffered fun _ v => if v = "0".toList ∨ v = "1".toList then none else some .other) :=
  { enabled := true, cache := [], buf := [], inTransaction := false, log := [],
    s := fun p => if p = "f".toList then some "1".toList else none }

/-- C129: on the local host, `write()` of a value which the kernel refuses ends without an exception, the file is as before, and
reading it with the same object gives the refused value (from the cache). With verification there is an exception. -/
theorem C129_cached_counterexample :
    (SysfsIO.write (example1 true) "f".toList "2".toList []).2 = .ok () ∧
      (SysfsIO.write (example1 true) "f".toList "2".toList []).1.s "f".toList = some "1".toList ∧
      (SysfsIO.read (SysfsIO.write (example1 true) "f".toList "2".toList []).1 "f".toList).2 = .ok "2".toList ∧
      (SysfsIO.writeVerify (example1 true) "f".toList "2".toList [] 0 0).2 = .error (.verify "2".toList "1".toList) ∧
      (SysfsIO.write (example1 false) "f".toList "2".toList []).2 = .error (.exn .error) := by
  decide +kernel

example : (SysfsIO.writeVerify (example1 true) "f".toList "0".toList [] 0 0).2 = .ok () := by decide +kernel

example : ((hostWorld true fun _ _ => none).writeF (fun _ => some "1".toList) "f".toList "0".toList).2 = .ok () := by decide +kernel

end Verif.WrapFile
