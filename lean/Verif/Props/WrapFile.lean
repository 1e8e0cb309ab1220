import Verif.Lemmas.WrapFile

namespace Verif.WrapFile

open Spec

variable {σ : Type}

/-- C129: a public method of a wrapped file gives the same result as without the wrapper; and if it fails, then with an exception
based on `Error`, which says whether permissions or a missing file are the reason. Only what is not an `Exception` (like
Ctrl-C) goes through. -/
theorem C129_translated {α : Type} {name : PyStr} (hn : name.head? ≠ some '_') (r : Except PyErr α) :
    (∀ a, r = .ok a → call name r = .ok a) ∧
      (r = .error .permission → call name r = .error (.project .permissionDenied)) ∧
      (r = .error .fileNotFound → call name r = .error (.project .notFound)) ∧
      (∀ e, r = .error (.project e) → call name r = .error (.project e)) ∧
      (r = .error .base → call name r = .error .base) ∧
      (∀ e, call name r = .error e → e = .base ∧ r = .error .base ∨ ∃ x, e = .project x) := by
  unfold call
  rw [if_neg hn]
  cases r with
  | ok a => simp
  | error e => cases e <;> simp [translate]

example : call "read".toList (.error .permission : Except PyErr PyStr) = .error (.project .permissionDenied) := by decide +kernel

/-- C129, for all that is done with a file, on all hosts: if the `with` statement ends without an exception and without a
warning, then the kernel got and accepted everything, in order. -/
theorem C129_silent (K : Kernel σ) (buffered : Bool) (ops : List Op) (s : σ)
    (hr : (withFile K (run K buffered ops) s).res = .ok ()) (hw : (withFile K (run K buffered ops) s).warnings = []) :
    AllWritten (asked ops) (withFile K (run K buffered ops) s) := by
  unfold withFile at *
  dsimp only at *
  cases hrun : run K buffered ops ⟨s, [], [], []⟩ with
  | mk f r =>
    rw [hrun] at hr hw
    cases hsy : sync K f with
    | mk g c =>
      simp only [hsy] at hr hw ⊢
      cases c with
      | ok u =>
        have hr : r = .ok () := hr
        subst hr
        obtain ⟨-, h2, h3, -⟩ := run_ok hrun (fun _ => rfl)
        obtain ⟨-, s2, s3⟩ := sync_ok hsy
        refine ⟨?_, s3.trans h3⟩
        show g.given.flatten = _
        rw [s2, h2]; simp
      | error e => cases e <;> simp [call, translate] at hr hw

theorem nothing_kept (K : Kernel σ) (buffered : Bool) (ops : List Op) (s : σ) (h : buffered = false ∨ Flushed ops)
    (hr : (withFile K (run K buffered ops) s).res = .ok ()) :
    AllWritten (asked ops) (withFile K (run K buffered ops) s) ∧ (withFile K (run K buffered ops) s).warnings = [] := by
  have hw : (withFile K (run K buffered ops) s).warnings = [] := by
    unfold withFile at *
    dsimp only at *
    cases hrun : run K buffered ops ⟨s, [], [], []⟩ with
    | mk f r =>
      rw [hrun] at hr
      have hres : r = .ok () := by
        revert hr
        dsimp only
        split <;> intro hr
        · exact hr
        · exact nomatch hr
        · exact hr
      subst hres
      obtain ⟨h1, -, -, h4⟩ := run_ok hrun (fun _ => rfl)
      have hp : f.pending = [] := by
        rcases h with h | h
        · exact h1 h
        · exact h4 h (.inl rfl)
      have : sync K f = (f, .ok ()) := by unfold sync; rw [if_pos hp]
      rw [this]
      rfl
  exact ⟨C129_silent K buffered ops s hr hw, hw⟩

/-- C129, remote hosts: without an exception, the kernel got and accepted everything. -/
theorem C129_remote (K : Kernel σ) (ops : List Op) (s : σ) (hr : (withFile K (run K false ops) s).res = .ok ()) :
    AllWritten (asked ops) (withFile K (run K false ops) s) := (nothing_kept K false ops s (.inl rfl) hr).1

theorem msr_flushed (vals : List PyStr) : Flushed (msrOps vals) ∧ asked (msrOps vals) = vals.flatten := by
  unfold msrOps
  induction vals with
  | nil => exact ⟨trivial, rfl⟩
  | cons v l ih => exact ⟨⟨.inl (by simp), ih.1⟩, by simp [asked, ih.2]⟩

theorem tpmi_flushed (parts : List PyStr) : Flushed (tpmiOps parts) ∧ asked (tpmiOps parts) = parts.flatten := by
  unfold tpmiOps
  induction parts with
  | nil => exact ⟨trivial, rfl⟩
  | cons v l ih => exact ⟨⟨.inr (by simp), ih.1⟩, by simp [asked, ih.2]⟩

/-- C129, MSRs, on all hosts: without an exception, all the values are written. -/
theorem C129_msr (K : Kernel σ) (buffered : Bool) (vals : List PyStr) (s : σ)
    (hr : (withFile K (run K buffered (msrOps vals)) s).res = .ok ()) :
    AllWritten vals.flatten (withFile K (run K buffered (msrOps vals)) s) := by
  rw [← (msr_flushed vals).2]
  exact (nothing_kept K buffered _ s (.inr (msr_flushed vals).1) hr).1

/-- C129, TPMI registers, on all hosts: without an exception, all the parts are written. -/
theorem C129_tpmi (K : Kernel σ) (buffered : Bool) (parts : List PyStr) (s : σ)
    (hr : (withFile K (run K buffered (tpmiOps parts)) s).res = .ok ()) :
    AllWritten parts.flatten (withFile K (run K buffered (tpmiOps parts)) s) := by
  rw [← (tpmi_flushed parts).2]
  exact (nothing_kept K buffered _ s (.inr (tpmi_flushed parts).1) hr).1

/-- C129, EPP, on remote hosts, and on the local host for a value which is written for the first time: without an exception, the
kernel accepted the value, or it refused it and the value is there.

Missing from the full statement: values which were written before, on the local host (`C129_epp_again_counterexample`). -/
theorem C129_epp_partial (K : Kernel σ) (buffered known : Bool) (hk : buffered = false ∨ known = false) (v : PyStr) (s : σ)
    (hr : (withFile K (eppBody K buffered known v) s).res = .ok ()) :
    AllWritten v (withFile K (eppBody K buffered known v) s) ∨ PyStr.strip (K.read (withFile K (eppBody K buffered known v) s).file.s) = v := by
  cases buffered with
  | false =>
    clear hk
    cases hw : K.write s v with
    | mk s' e =>
      cases e with
      | none =>
        left
        cases known <;> simp [withFile, eppBody, step, write, push, sync, hw, call, Op.name, AllWritten]
      | some e =>
        right
        cases e <;> simp [withFile, eppBody, step, write, push, sync, hw, call, Op.name, translate] at hr ⊢ <;>
          (by_cases hq : v = PyStr.strip (K.read s')
           · simp [← hq]
           · simp [hq] at hr)
  | true =>
    left
    have hk : known = false := hk.resolve_left (by simp)
    subst hk
    by_cases hv : v = []
    · subst hv
      simp [withFile, eppBody, step, write, sync, call, Op.name, AllWritten]
    · cases hw : K.write s v with
      | mk s' e =>
        cases e with
        | none => simp [withFile, eppBody, step, write, push, sync, hw, hv, call, Op.name, AllWritten]
        | some e =>
          exfalso
          revert hr
          cases hw2 : K.write s' v with
          | mk s'' e2 =>
            cases e2 with
            | none => cases e <;> simp [withFile, eppBody, step, write, push, sync, hw, hw2, hv, call, Op.name, translate]
            | some e2 =>
              cases e <;> cases e2 <;>
                simp [withFile, eppBody, step, write, push, sync, hw, hw2, hv, call, Op.name, translate]

/-- C129, one text in a sysfs file, the local host: the `with` statement never fails because of the kernel (unless with something
like Ctrl-C). If the kernel refuses the value, then there is a warning, and the code goes on as if the value was written.

Missing from the full statement: that a refused value is an error (`C129_refused_counterexample`). -/
theorem C129_sysfs_partial (K : Kernel σ) (v : PyStr) (hv : v ≠ []) (s : σ) :
    (∀ s', K.write s v = (s', none) → (withFile K (run K true (sysfsOps v)) s).res = .ok () ∧
        AllWritten v (withFile K (run K true (sysfsOps v)) s) ∧ (withFile K (run K true (sysfsOps v)) s).warnings = []) ∧
      (∀ s' e, e ≠ .base → K.write s v = (s', some e) → (withFile K (run K true (sysfsOps v)) s).res = .ok () ∧
        (withFile K (run K true (sysfsOps v)) s).file.s = s' ∧
        (withFile K (run K true (sysfsOps v)) s).warnings = [translate e]) := by
  have hc : ∀ r : Except PyErr Unit, call "close".toList r = match r with
    | .ok a => .ok a
    | .error e => .error (translate e) := by
    intro r
    have hn : ¬ "close".toList.head? = some '_' := by decide +kernel
    unfold call
    rw [if_neg hn]
    cases r <;> rfl
  have hrun : run K true (sysfsOps v) ⟨s, [], [], []⟩ = (⟨s, v, [], []⟩, .ok ()) := rfl
  have hsync : sync K ⟨s, v, [], []⟩ = push K ⟨s, v, [], []⟩ v := if_neg hv
  constructor
  · intro s' h
    have hp : push K ⟨s, v, [], []⟩ v = (⟨s', [], [v], []⟩, .ok ()) := by unfold push; simp [h]
    unfold withFile
    rw [hrun]
    dsimp only
    rw [hsync, hp, hc]
    exact ⟨rfl, ⟨by simp, rfl⟩, rfl⟩
  · intro s' e he h
    have hp : push K ⟨s, v, [], []⟩ v = (⟨s', v, [], [v]⟩, .error e) := by unfold push; simp [h]
    unfold withFile
    rw [hrun]
    dsimp only
    rw [hsync, hp, hc]
    cases e <;> first | exact absurd rfl he | exact ⟨rfl, rfl, rfl⟩

/-- A kernel with a setting which can be 0 or 1. -/
def onOff : Kernel PyStr :=
  { write := fun s v => if v = "0".toList ∨ v = "1".toList then (v, none) else (s, some .other), read := fun s => s }

/-- A kernel which refuses the value it has, as in the comment of `EPP._write_to_sysfs()`. -/
def refusesSame : Kernel PyStr := { write := fun s v => if v = s then (s, some .other) else (v, none), read := fun s => s }

/-- C129: on the local host a value which the kernel refuses is not an error: the setting is as before, and there is only a
warning. -/
theorem C129_refused_counterexample :
    (withFile onOff (run onOff true (sysfsOps "2".toList)) "1".toList).res = .ok () ∧
      (withFile onOff (run onOff true (sysfsOps "2".toList)) "1".toList).file.s = "1".toList ∧
      (withFile onOff (run onOff true (sysfsOps "2".toList)) "1".toList).warnings = [.project .error] ∧
      (withFile onOff (run onOff false (sysfsOps "2".toList)) "1".toList).res = .error (.project .error) := by
  decide +kernel

/-- C129: the workaround for kernels which refuse the current EPP value works on remote hosts, and not on the local one. -/
theorem C129_epp_counterexample :
    (withFile refusesSame (eppBody refusesSame false false "performance".toList) "performance".toList).res = .ok () ∧
      (withFile refusesSame (eppBody refusesSame true false "performance".toList) "performance".toList).res =
        .error (.project .error) := by decide +kernel

/-- C129: a value which was written before and which the kernel now refuses is not an error on the local host. -/
theorem C129_epp_again_counterexample :
    (withFile onOff (eppBody onOff true true "2".toList) "1".toList).res = .ok () ∧
      (withFile onOff (eppBody onOff true true "2".toList) "1".toList).file.s = "1".toList ∧
      (withFile onOff (eppBody onOff true false "2".toList) "1".toList).res = .error (.project .error) := by decide +kernel

example : (withFile refusesSame (eppBody refusesSame true false "powersave".toList) "performance".toList).res = .ok () := by
  decide +kernel

/-- C129: exceptions of an iteration over a file are not translated, and iterating over something which is not iterable ends
with an exception which is not based on `Error`. -/
theorem C129_iteration_counterexample :
    (next (.error .other : Except PyErr PyStr) = .error .other ∧ call "readline".toList (.error .other : Except PyErr PyStr) =
      .error (.project .error)) ∧ iter false = .error .attribute := by decide +kernel

example : (withFile onOff (run onOff true (msrOps ["0".toList, "1".toList])) []).res = .ok () ∧
    (withFile onOff (run onOff true (msrOps ["0".toList, "2".toList])) []).res = .error (.project .error) := by decide +kernel

example : (withFile onOff (run onOff true (tpmiOps ["0".toList, "1".toList])) []).res = .ok () ∧
    (withFile onOff (run onOff false (tpmiOps ["0".toList, "2".toList])) []).res = .error (.project .error) := by decide +kernel

example : onOff.write "1".toList "2".toList = ("1".toList, some .other) ∧ (withFile onOff (run onOff true [.write "0".toList]) []).warnings = [] := by
  decide +kernel

end Verif.WrapFile
