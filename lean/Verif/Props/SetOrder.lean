import Verif.Lemmas.SetOrder

/-!
C123: options take effect in the order of the command line.
-/

namespace Verif.SetOrder

variable {K : Type}

/-- Every requested change is there at the end, with the value that was given last, if files and registers are
independent. Nothing else is changed. -/
theorem C123_all_done (ops : List Op) (k : Loc → PyStr ⊕ Nat) (h : Apart ops) :
    setProps plain ops k = (fun l => lastOf l (k l) ops, true) := by
  rw [setProps_eq, writes_plain]
  have hg := fill_good ops ⟨[], []⟩ ⟨List.nodup_nil, List.nodup_nil, fun _ _ e => (nomatch e)⟩
  congr 1
  funext l
  rw [lastOf_append, lastOf_append]
  cases l with
  | file p =>
    rw [lastOf_none (.file p) _ (msrWrites _), lastOf_sysfsWrites _ _ _ hg.1]
    · by_cases hd : ∃ o ∈ ops, o.isDirect = true ∧ o.loc = .file p
      · obtain ⟨o, ho, h1, h2⟩ := hd
        have hns : ∀ x ∈ ops, x.isSysfs = true → x.loc ≠ .file p :=
          fun x hx hs e => h o ho x hx h1 hs (h2.trans e.symm)
        have hb : (fill ops ⟨[], []⟩).sysfs.get? p = none := by
          have e := fill_sval p (.inr 0) (ops.filter fun x => !x.isDirect) ⟨[], []⟩ (by
            intro x hx hdir
            rw [List.mem_filter] at hx
            rw [hdir] at hx
            exact absurd hx.2 (by decide))
          have hn : ∀ x ∈ ops.filter (fun x => !x.isDirect), x.loc ≠ .file p := by
            intro x hx
            rw [List.mem_filter] at hx
            cases x with
            | direct q v => exact absurd hx.2 (by simp [Op.isDirect])
            | sysfs q v => exact hns _ hx.1 rfl
            | msr c a v => intro e; cases e
          rw [lastOf_none _ _ _ hn] at e
          have hfe : ∀ s, fill (ops.filter fun x => !x.isDirect) s = fill ops s := by
            intro s
            exact fill_buffered ops s
          rw [hfe] at e
          unfold sval at e
          cases hx : (fill ops ⟨[], []⟩).sysfs.get? p with
          | none => rfl
          | some v => rw [hx] at e; cases e
        rw [hb]
        refine lastOf_filter _ _ _ _ ?_
        intro x hx hf
        cases x with
        | direct q v => cases hf
        | sysfs q v => exact hns _ hx rfl
        | msr c a v => intro e; cases e
      · have hnd : ∀ o ∈ ops, o.isDirect = true → o.loc ≠ .file p := fun o ho h1 h2 => hd ⟨o, ho, h1, h2⟩
        rw [lastOf_none _ _ (ops.filter Op.isDirect)]
        · exact (fill_sval p (k (.file p)) ops ⟨[], []⟩ hnd).symm
        · intro o ho
          rw [List.mem_filter] at ho
          exact hnd o ho.1 ho.2
    · intro o ho
      unfold msrWrites at ho
      obtain ⟨x, _, hx⟩ := List.mem_flatMap.1 ho
      obtain ⟨y, _, rfl⟩ := List.mem_map.1 hx
      intro e; cases e
  | reg c a =>
    rw [lastOf_none (.reg c a) _ (sysfsWrites _), lastOf_msrWrites _ _ _ _ hg.2.1 hg.2.2,
      lastOf_none _ _ (ops.filter Op.isDirect)]
    · exact (fill_mval c a (k (.reg c a)) ops ⟨[], []⟩).symm
    · intro o ho
      rw [List.mem_filter] at ho
      cases o with
      | direct q v => intro e; cases e
      | sysfs q v => exact absurd ho.2 (fun e => (nomatch e))
      | msr c a v => exact absurd ho.2 (fun e => (nomatch e))
    · intro o ho
      unfold sysfsWrites at ho
      obtain ⟨y, _, rfl⟩ := List.mem_map.1 ho
      intro e; cases e

/-- The same as the changes in the order of the command line, if files and registers are independent. -/
theorem C123_independent (ops : List Op) (k r : Loc → PyStr ⊕ Nat) (b : Bool) (h : Apart ops) :
    InOrder plain ops k r b ↔ setProps plain ops k = (r, b) := by
  rw [inOrder_iff, C123_all_done ops k h, writes_plain]

/-- Full statement (does not hold, see the counterexamples): for every kernel, the command does the same as the changes in
the order of the command line. What is missing: EPP and EPB come before everything else, registers are not changed, and no
file is changed twice. -/
theorem C123_order_partial (kern : Kernel K) (ds ss : List Op) (hd : ∀ o ∈ ds, o.isDirect = true)
    (hs : ∀ o ∈ ss, o.isSysfs = true) (hn : (ss.map Op.loc).Nodup) (k r : K) (b : Bool) :
    InOrder kern (ds ++ ss) k r b ↔ setProps kern (ds ++ ss) k = (r, b) := by
  rw [inOrder_iff, setProps_eq]
  have h1 : (ds ++ ss).filter Op.isDirect = ds := by
    rw [List.filter_append, List.filter_eq_self.2 hd, List.filter_eq_nil_iff.2, List.append_nil]
    intro o ho
    have := hs o ho
    cases o with
    | direct p v => cases this
    | sysfs p v => exact fun e => (nomatch e)
    | msr c a v => exact fun e => (nomatch e)
  obtain ⟨h2, h3⟩ := fill_sysfs ss ⟨[], []⟩ hs hn (by intro o _ p hp; cases hp)
  rw [h1, fill_append, fill_directs ds _ hd, h2, h3]
  exact Iff.rfl

/-- For every kernel: EPP and EPB files are written in the order of the command line, before everything else. If one of
these writes is refused, no other change is made at all, even those which were asked for earlier. -/
theorem C123_refused (kern : Kernel K) (ops : List Op) (k r : K)
    (h : InOrder kern (ops.filter Op.isDirect) k r false) : setProps kern ops k = (r, false) := by
  rw [inOrder_iff] at h
  rw [setProps_eq, writes_append, h]

/-! ### Counterexamples -/

/-- 'intel_pstate' in the active mode: while the governor is "performance", other values of EPP are refused. The state is
the governor and EPP. -/
def busyKernel : Kernel (PyStr × PyStr) := fun k o =>
  match o with
  | .sysfs _ v => some (v, k.2)
  | .direct _ v => if k.1 = "performance".toList ∧ v ≠ "performance".toList then none else some (k.1, v)
  | .msr _ _ _ => some k

/-- `--governor powersave --epp balance_power` fails, and leaves the governor as it was, although both changes would be
accepted in this order. -/
theorem C123_epp_counterexample : ∃ (ops : List Op) (k : PyStr × PyStr),
    ops = [.sysfs "scaling_governor".toList "powersave".toList,
      .direct "energy_performance_preference".toList "balance_power".toList] ∧
    setProps busyKernel ops k = (k, false) ∧
    InOrder busyKernel ops k ("powersave".toList, "balance_power".toList) true :=
  ⟨_, ("performance".toList, "performance".toList), rfl, by decide +kernel,
    (inOrder_iff _ _ _ _ _).2 (by decide +kernel)⟩

/-- A driver which sets the register to a value of its own when the governor is changed. The state is the governor and the
register. -/
def govKernel : Kernel (PyStr × Nat) := fun k o =>
  match o with
  | .sysfs _ v => some (v, 0x80)
  | .direct _ _ => some k
  | .msr _ _ v => some (k.1, v)

/-- `--governor powersave --epp 10 --mechanism msr`: the registers are written before the files, so that the governor,
though given first, is changed last and the value of the register is lost. -/
theorem C123_msr_counterexample : ∃ (ops : List Op) (k : PyStr × Nat),
    ops = [.sysfs "scaling_governor".toList "powersave".toList, .msr 0 0x774 10] ∧
    setProps govKernel ops k = (("powersave".toList, 0x80), true) ∧
    InOrder govKernel ops k ("powersave".toList, 10) true :=
  ⟨_, ("performance".toList, 0), rfl, by decide +kernel, (inOrder_iff _ _ _ _ _).2 (by decide +kernel)⟩

/-! ### Satisfiability -/

/-- Used in the examples. -/
def exOps : List Op := [.sysfs ['g'] ['p'], .msr 0 1 2, .direct ['e'] ['x'], .sysfs ['f'] ['1'], .sysfs ['g'] ['q'],
  .msr 1 1 3, .msr 0 1 4]

example : Apart exOps := by unfold Apart; decide

example : ∀ o ∈ [Op.direct ['e'] ['x']], o.isDirect = true := by decide

example : ([Op.sysfs ['g'] ['p'], .sysfs ['f'] ['1']].map Op.loc).Nodup := by decide

example : InOrder busyKernel (([.sysfs ['g'] "powersave".toList, .direct ['e'] ['x']] : List Op).filter Op.isDirect)
    ("performance".toList, ['y']) ("performance".toList, ['y']) false := (inOrder_iff _ _ _ _ _).2 (by decide +kernel)

example : msrWrites (fill exOps ⟨[], []⟩).msr ++ sysfsWrites (fill exOps ⟨[], []⟩).sysfs =
    [.msr 0 1 4, .msr 1 1 3, .sysfs ['g'] ['q'], .sysfs ['f'] ['1']] := by decide

end Verif.SetOrder
