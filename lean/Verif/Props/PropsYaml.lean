import Verif.Lemmas.PropsYaml

/-!
C76: restoring saved properties sets everything that was saved to the saved value, once, and nothing else.
-/

namespace Verif.PropsYaml

variable {V : Type} [DecidableEq V]

theorem Loc.cell_inj {a b : Loc} (h : a.cell = b.cell) : a = b := by
  cases a <;> cases b <;> simp only [Loc.cell, Prod.mk.injEq, reduceCtorEq, false_and, true_and, Int.ofNat_inj] at h <;>
    simp [h]

theorem nodup_readings {pnames : List PyStr} {R : PyStr → List (PV V)} (hn : pnames.Nodup)
    (h : ∀ p ∈ pnames, ((R p).map (·.loc)).Nodup) :
    ((pnames.flatMap fun p => (R p).filterMap (PV.item p)).map fun i => (i.1, i.2.1)).Nodup := by
  have h1 : ∀ (p : PyStr) (l : List (PV V)), (l.map (·.loc)).Nodup →
      ((l.filterMap (PV.item p)).map fun i => (i.1, i.2.1)).Nodup := by
    intro p l hl
    induction l with
    | nil => exact List.nodup_nil
    | cons pv l ih =>
      obtain ⟨h1, h2⟩ := List.nodup_cons.1 hl
      cases hv : pv.val with
      | none =>
        rw [List.filterMap_cons_none (by simp [PV.item, hv])]
        exact ih h2
      | some v =>
        rw [List.filterMap_cons_some (b := (p, pv.loc.cell, some v)) (by simp [PV.item, hv]), List.map_cons]
        refine List.nodup_cons.2 ⟨fun hm => h1 ?_, ih h2⟩
        obtain ⟨i, hi, he⟩ := List.mem_map.1 hm
        obtain ⟨q, hq, hqe⟩ := List.mem_filterMap.1 hi
        unfold PV.item at hqe
        cases hqv : q.val with
        | none => rw [hqv] at hqe; cases hqe
        | some u =>
          rw [hqv] at hqe
          have hi2 : i = (p, q.loc.cell, some u) := (Option.some.inj hqe).symm
          rw [hi2] at he
          have hc : q.loc.cell = pv.loc.cell := (Prod.mk.inj he).2
          exact List.mem_map.2 ⟨q, hq, Loc.cell_inj hc⟩
  induction pnames with
  | nil => exact List.nodup_nil
  | cons p pnames ih =>
    obtain ⟨n1, n2⟩ := List.nodup_cons.1 hn
    rw [List.flatMap_cons, List.map_append]
    refine List.nodup_append.2 ⟨h1 p _ (h p List.mem_cons_self), ih n2 (fun q hq => h q (List.mem_cons_of_mem _ hq)), ?_⟩
    intro a ha b hb hab
    obtain ⟨i, hi, hia⟩ := List.mem_map.1 ha
    obtain ⟨j, hj, hjb⟩ := List.mem_map.1 hb
    obtain ⟨q, hq, hj2⟩ := List.mem_flatMap.1 hj
    have e1 : ∀ (p : PyStr) (i : Item V), i ∈ (R p).filterMap (PV.item p) → i.1 = p := by
      intro p i hi
      obtain ⟨pv, _, he⟩ := List.mem_filterMap.1 hi
      unfold PV.item at he
      cases hv : pv.val with
      | none => rw [hv] at he; cases he
      | some u =>
        rw [hv] at he
        rw [← Option.some.inj he]
    have hpq : p = q := by
      rw [← e1 p i hi, ← e1 q j hj2]
      rw [← hia, ← hjb] at hab
      exact (Prod.mk.inj hab).1
    exact n1 (hpq ▸ hq)

/-- What saving and restoring does: the calls made when restoring set exactly what was read, each CPU, die or package once. -/
theorem C76_exact (props : List PyStr) (writable : PyStr → Bool) (read : PyStr → Bool → Except Exn (List (PV V)))
    (R : PyStr → List (PV V)) (hn : props.Nodup) (hR : Readings (props.filter writable) read R) :
    ∃ (f : File V) (calls : List (SetCall V)), save props writable read = .ok f ∧ restore props f = (calls, .ok ()) ∧
      (calls.flatMap SetCall.items).Perm ((props.filter writable).flatMap fun p => (R p).filterMap (PV.item p)) := by
  have hn' : (props.filter writable).Nodup := hn.filter _
  obtain ⟨aggr, a1, a2, a3⟩ := buildAggr_spec read R (props.filter writable) hR.read hR.scope hn' [] []
    (fun x hx => by cases hx) (fun _ _ h => by cases h)
  have a3' : (aggrItems aggr).Perm ((props.filter writable).flatMap fun p => (R p).filterMap (PV.item p)) := by
    simpa [aggrItems] using a3
  have hnod := (a3'.map fun i => (i.1, i.2.1)).nodup_iff.2 (nodup_readings hn' hR.once)
  obtain ⟨t1, t2⟩ := toYaml_spec aggr _ a2 (nw_of_nodup hnod) [] (fun x hx => by cases hx)
  obtain ⟨r1, r2⟩ := restoreCalls_spec (toYaml aggr []) (fun x hx => (t1 x hx).2)
  refine ⟨toYaml aggr [], (restoreCalls (toYaml aggr [])).1, by unfold save; rw [a1], ?_, ?_⟩
  · unfold restore
    rw [if_pos]
    · exact Prod.ext rfl r1
    · rw [List.all_eq_true]
      intro k hk
      obtain ⟨x, hx, rfl⟩ := List.mem_map.1 hk
      have := (t1 x hx).1
      simp only [List.append_nil, List.mem_reverse, List.mem_filter] at this
      simpa using this.1
  · rw [r2]
    refine t2.trans ?_
    simpa [fileItems] using a3'

theorem applyCalls_spec (calls : List (SetCall V)) (hn : ((calls.flatMap SetCall.items).map fun i => (i.1, i.2.1)).Nodup)
    (st : Store V) :
    (∀ i ∈ calls.flatMap SetCall.items, applyCalls calls st i.1 i.2.1 = i.2.2) ∧
    ∀ p x, (∀ i ∈ calls.flatMap SetCall.items, (i.1, i.2.1) ≠ (p, x)) → applyCalls calls st p x = st p x := by
  induction calls generalizing st with
  | nil => exact ⟨fun i hi => (by cases hi), fun p x _ => rfl⟩
  | cons c cs ih =>
    rw [List.flatMap_cons, List.map_append] at hn
    obtain ⟨n1, n2, n3⟩ := List.nodup_append.1 hn
    obtain ⟨i1, i2⟩ := ih n2 (fun p x => if p = c.pname ∧ x ∈ c.target.cells then c.val else st p x)
    rw [List.flatMap_cons, applyCalls]
    constructor
    · intro i hi
      rcases List.mem_append.1 hi with hi | hi
      · obtain ⟨x, hx, rfl⟩ := List.mem_map.1 hi
        rw [i2 _ _ ?_]
        · exact if_pos ⟨rfl, hx⟩
        · intro j hj he
          exact n3 (c.pname, x) (List.mem_map.2 ⟨_, hi, rfl⟩) (c.pname, x) (List.mem_map.2 ⟨j, hj, he⟩) rfl
      · exact i1 i hi
    · intro p x h
      rw [i2 p x (fun i hi => h i (List.mem_append_right _ hi))]
      refine if_neg ?_
      rintro ⟨rfl, hx⟩
      exact h (c.pname, x, c.val) (List.mem_append_left _ (List.mem_map.2 ⟨x, hx, rfl⟩)) rfl

/-- Restoring what was saved, from whatever the values are by then: everything that had a value when saving gets this
value, and nothing else is changed. -/
theorem C76_restore (props : List PyStr) (writable : PyStr → Bool) (read : PyStr → Bool → Except Exn (List (PV V)))
    (R : PyStr → List (PV V)) (hn : props.Nodup) (hR : Readings (props.filter writable) read R) :
    ∃ (f : File V) (calls : List (SetCall V)), save props writable read = .ok f ∧ restore props f = (calls, .ok ()) ∧
      ∀ st : Store V,
        (∀ p ∈ props, writable p = true → ∀ pv ∈ R p, ∀ v, pv.val = some v →
          applyCalls calls st p pv.loc.cell = some v) ∧
        (∀ p x, (p ∈ props → writable p = true → ∀ pv ∈ R p, pv.val ≠ none → pv.loc.cell ≠ x) →
          applyCalls calls st p x = st p x) := by
  obtain ⟨f, calls, h1, h2, h3⟩ := C76_exact props writable read R hn hR
  refine ⟨f, calls, h1, h2, fun st => ?_⟩
  obtain ⟨a1, a2⟩ := applyCalls_spec calls
    ((h3.map fun i => (i.1, i.2.1)).nodup_iff.2 (nodup_readings (hn.filter _) hR.once)) st
  constructor
  · intro p hp hw pv hpv v hv
    refine a1 (p, pv.loc.cell, some v) (h3.mem_iff.2 (List.mem_flatMap.2 ⟨p, List.mem_filter.2 ⟨hp, hw⟩, ?_⟩))
    exact List.mem_filterMap.2 ⟨pv, hpv, by simp [PV.item, hv]⟩
  · intro p x h
    refine a2 p x fun i hi he => ?_
    obtain ⟨q, hq, hi2⟩ := List.mem_flatMap.1 (h3.mem_iff.1 hi)
    obtain ⟨pv, hpv, hpe⟩ := List.mem_filterMap.1 hi2
    unfold PV.item at hpe
    cases hv : pv.val with
    | none => rw [hv] at hpe; cases hpe
    | some v =>
      rw [hv] at hpe
      rw [← Option.some.inj hpe] at he
      obtain ⟨rfl, rfl⟩ := Prod.mk.inj he
      obtain ⟨m1, m2⟩ := List.mem_filter.1 hq
      exact h m1 m2 pv hpv (by simp [hv]) rfl

/-- A property that cannot be read: nothing is saved. -/
theorem C76_failure (props : List PyStr) (writable : PyStr → Bool) (read : PyStr → Bool → Except Exn (List (PV V)))
    (p : PyStr) (hp : p ∈ props) (hw : writable p = true) (e : Exn) (he : finalRead read p = .error e) :
    ∃ e', save props writable read = .error e' := by
  have key : ∀ (pnames : List PyStr) (aggr : Aggr V), p ∈ pnames →
      ∃ e', buildAggr read true pnames aggr = .error e' := by
    intro pnames
    induction pnames with
    | nil => intro _ h; cases h
    | cons q pnames ih =>
      intro aggr hm
      have hcons : ∀ e', finalRead read q = .error e' → buildAggr read true (q :: pnames) aggr = .error e' := by
        intro e' h
        rw [buildAggr]
        unfold finalRead at h
        cases hf : read q false with
        | ok pvs => rw [hf] at h; cases h
        | error e1 =>
          rw [hf] at h
          by_cases h1 : e1 = .usePerCPU
          · subst h1
            dsimp only at h
            simp only [hf, h]
          · cases e1 <;> first | exact absurd rfl h1 | (dsimp only at h; cases h; simp only [hf])
      rcases List.mem_cons.1 hm with rfl | hm
      · exact ⟨e, hcons e he⟩
      · rw [buildAggr]
        dsimp only
        split
        · exact ⟨_, rfl⟩
        · exact ih _ hm
  obtain ⟨e', h⟩ := key (props.filter writable) [] (List.mem_filter.2 ⟨hp, hw⟩)
  exact ⟨e', by unfold save; rw [h]⟩

/-! ### An example -/

/-- The governor of four CPUs, a frequency of three dies in two packages, a per-package power limit which is not supported by
the second package, and a feature which has to be read per CPU. -/
def exRead : PyStr → Bool → Except Exn (List (PV Nat))
  | ['g'], _ => .ok [⟨.cpu 0, some 1, ['s']⟩, ⟨.cpu 1, some 2, ['s']⟩, ⟨.cpu 2, some 1, ['s']⟩, ⟨.cpu 3, some 1, ['s']⟩]
  | ['u'], _ => .ok [⟨.die 0 0, some 800, ['s']⟩, ⟨.die 0 1, some 900, ['t']⟩, ⟨.die 1 0, some 800, ['s']⟩]
  | ['p'], _ => .ok [⟨.package 0, some 5, ['m']⟩, ⟨.package 1, none, ['m']⟩]
  | ['f'], false => .error .usePerCPU
  | ['f'], true => .ok [⟨.cpu 1, some 7, ['m']⟩, ⟨.cpu 3, some 8, ['m']⟩]
  | _, _ => .error .error

def exProps : List PyStr := [['g'], ['r'], ['u'], ['p'], ['f']]

def exWritable (p : PyStr) : Bool := p != ['r']

def exR (p : PyStr) : List (PV Nat) :=
  match finalRead exRead p with
  | .ok l => l
  | .error _ => []

theorem exReadings : Readings (exProps.filter exWritable) exRead exR := by
  have hf : exProps.filter exWritable = [['g'], ['u'], ['p'], ['f']] := by decide
  rw [hf]
  constructor
  · decide
  · decide
  · intro p hp
    rcases List.mem_cons.1 hp with rfl | hp
    · exact ⟨.CPU, by decide⟩
    rcases List.mem_cons.1 hp with rfl | hp
    · exact ⟨.die, by decide⟩
    rcases List.mem_cons.1 hp with rfl | hp
    · exact ⟨.package, by decide⟩
    rcases List.mem_cons.1 hp with rfl | hp
    · exact ⟨.CPU, by decide⟩
    cases hp

example : exProps.Nodup := by decide

/-- The file, and what is done when restoring from it. -/
example : save exProps exWritable exRead = .ok
    [(['g'], [⟨some 1, .CPU, .text ['0', ',', '2', ',', '3']⟩, ⟨some 2, .CPU, .text ['1']⟩]),
     (['u'], [⟨some 800, .die, .dies [(0, ['0']), (1, ['0'])]⟩, ⟨some 900, .die, .dies [(0, ['1'])]⟩]),
     (['p'], [⟨some 5, .package, .text ['0']⟩]),
     (['f'], [⟨some 7, .CPU, .text ['1']⟩, ⟨some 8, .CPU, .text ['3']⟩])] := by decide +kernel

example : ((save exProps exWritable exRead).toOption.map (restore exProps)) = some
    ([⟨['g'], some 1, .cpus [0, 2, 3]⟩, ⟨['g'], some 2, .cpus [1]⟩,
      ⟨['u'], some 800, .dies [(0, [0]), (1, [0])]⟩, ⟨['u'], some 900, .dies [(0, [1])]⟩,
      ⟨['p'], some 5, .packages [0]⟩, ⟨['f'], some 7, .cpus [1]⟩, ⟨['f'], some 8, .cpus [3]⟩], .ok ()) := by
  decide +kernel

/-- A property that cannot be read. -/
example : finalRead exRead ['r'] = .error .error := by decide

end Verif.PropsYaml
