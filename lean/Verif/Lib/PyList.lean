/-!
Python list helpers: order-preserving de-duplication and stable sorting.
-/

namespace Verif

variable {α : Type}

/-- Insert into a sorted list, before the first element which is not smaller. -/
def insertBy (le : α → α → Bool) (x : α) : List α → List α
  | [] => [x]
  | y :: ys => if le x y then x :: y :: ys else y :: insertBy le x ys

/-- Python's `sorted()`: stable sorting. The result of a stable sort does not depend on the
algorithm, insertion sort is the simplest one. -/
def sortBy (le : α → α → Bool) : List α → List α
  | [] => []
  | x :: xs => insertBy le x (sortBy le xs)

theorem insertBy_perm (le : α → α → Bool) (x : α) (l : List α) : (insertBy le x l).Perm (x :: l) := by
  induction l with
  | nil => exact List.Perm.refl _
  | cons y ys ih =>
    unfold insertBy
    split
    · exact List.Perm.refl _
    · exact (List.Perm.cons y ih).trans (List.Perm.swap x y ys)

theorem sortBy_perm (le : α → α → Bool) (l : List α) : (sortBy le l).Perm l := by
  induction l with
  | nil => exact List.Perm.refl _
  | cons x xs ih => exact (insertBy_perm le x _).trans (List.Perm.cons x ih)

@[simp] theorem mem_sortBy {le : α → α → Bool} {l : List α} {x : α} : x ∈ sortBy le l ↔ x ∈ l :=
  (sortBy_perm le l).mem_iff

theorem insertBy_sorted {le : α → α → Bool} (tot : ∀ a b, le a b ∨ le b a)
    (tr : ∀ a b c, le a b → le b c → le a c) (x : α) {l : List α}
    (h : l.Pairwise (fun a b => le a b = true)) :
    (insertBy le x l).Pairwise (fun a b => le a b = true) := by
  induction l with
  | nil => simp [insertBy]
  | cons y ys ih =>
    rw [List.pairwise_cons] at h
    unfold insertBy
    split
    · rename_i hxy
      rw [List.pairwise_cons, List.pairwise_cons]
      refine ⟨?_, h⟩
      intro a ha
      rcases List.mem_cons.1 ha with rfl | ha
      · exact hxy
      · exact tr _ _ _ hxy (h.1 a ha)
    · rename_i hxy
      rw [List.pairwise_cons]
      refine ⟨?_, ih h.2⟩
      intro a ha
      rcases List.mem_cons.1 ((insertBy_perm le x ys).mem_iff.1 ha) with rfl | ha
      · rcases tot a y with h' | h'
        · exact absurd h' hxy
        · exact h'
      · exact h.1 a ha

theorem sortBy_sorted {le : α → α → Bool} (tot : ∀ a b, le a b ∨ le b a)
    (tr : ∀ a b c, le a b → le b c → le a c) (l : List α) :
    (sortBy le l).Pairwise (fun a b => le a b = true) := by
  induction l with
  | nil => exact List.Pairwise.nil
  | cons x xs ih => exact insertBy_sorted tot tr x ih

/-- Sorting Nats. -/
def sortNat (l : List Nat) : List Nat := sortBy (fun a b => decide (a ≤ b)) l

theorem sortNat_perm (l : List Nat) : (sortNat l).Perm l := sortBy_perm _ l

@[simp] theorem mem_sortNat {l : List Nat} {x : Nat} : x ∈ sortNat l ↔ x ∈ l := mem_sortBy

theorem sortNat_sorted (l : List Nat) : (sortNat l).Pairwise (· ≤ ·) := by
  have := sortBy_sorted (le := fun a b : Nat => decide (a ≤ b))
    (by intro a b; simp; omega) (by intro a b c; simp; omega) l
  simpa [sortNat] using this

theorem sortNat_nodup {l : List Nat} (h : l.Nodup) : (sortNat l).Nodup :=
  (sortNat_perm l).nodup_iff.2 h

variable [DecidableEq α]

/-- De-duplicate, skipping the elements in `seen`. -/
def dedupAux (seen : List α) : List α → List α
  | [] => []
  | x :: xs => if x ∈ seen then dedupAux seen xs else x :: dedupAux (x :: seen) xs

/-- `list(dict.fromkeys(elts))`: keep the first occurrence of each element.
Models: pepclibs/helperlibs/Trivial.py:282-293 `list_dedup()`. -/
def pyDedup (l : List α) : List α := dedupAux [] l

theorem mem_dedupAux {seen l : List α} {x : α} : x ∈ dedupAux seen l ↔ x ∈ l ∧ x ∉ seen := by
  induction l generalizing seen with
  | nil => simp [dedupAux]
  | cons y ys ih =>
    unfold dedupAux
    split
    · rename_i h
      rw [ih, List.mem_cons]
      constructor
      · rintro ⟨a, b⟩; exact ⟨.inr a, b⟩
      · rintro ⟨a | a, b⟩
        · subst a; exact absurd h b
        · exact ⟨a, b⟩
    · rename_i h
      rw [List.mem_cons, ih, List.mem_cons, List.mem_cons]
      constructor
      · rintro (rfl | ⟨a, b⟩)
        · exact ⟨.inl rfl, h⟩
        · exact ⟨.inr a, fun c => b (.inr c)⟩
      · rintro ⟨a | a, b⟩
        · exact .inl a
        · by_cases e : x = y
          · exact .inl e
          · exact .inr ⟨a, fun c => c.elim e b⟩

@[simp] theorem mem_pyDedup {l : List α} {x : α} : x ∈ pyDedup l ↔ x ∈ l := by
  simp [pyDedup, mem_dedupAux]

theorem nodup_dedupAux (seen l : List α) : (dedupAux seen l).Nodup := by
  induction l generalizing seen with
  | nil => simp [dedupAux]
  | cons y ys ih =>
    unfold dedupAux
    split
    · exact ih seen
    · rw [List.nodup_cons]
      refine ⟨?_, ih _⟩
      rw [mem_dedupAux]; simp

theorem nodup_pyDedup (l : List α) : (pyDedup l).Nodup := nodup_dedupAux [] l

theorem dedupAux_sublist (seen l : List α) : (dedupAux seen l).Sublist l := by
  induction l generalizing seen with
  | nil => simp [dedupAux]
  | cons y ys ih =>
    unfold dedupAux
    split
    · exact (ih seen).cons _
    · exact (ih _).cons_cons _

theorem pyDedup_sublist (l : List α) : (pyDedup l).Sublist l := dedupAux_sublist [] l

theorem dedupAux_of_nodup {seen l : List α} (h : l.Nodup) (h2 : ∀ x ∈ l, x ∉ seen) :
    dedupAux seen l = l := by
  induction l generalizing seen with
  | nil => rfl
  | cons y ys ih =>
    rw [List.nodup_cons] at h
    unfold dedupAux
    rw [if_neg (h2 y (by simp)), ih h.2]
    intro x hx hc
    rcases List.mem_cons.1 hc with rfl | hc
    · exact h.1 hx
    · exact h2 x (List.mem_cons_of_mem _ hx) hc

theorem pyDedup_of_nodup {l : List α} (h : l.Nodup) : pyDedup l = l :=
  dedupAux_of_nodup h (by simp)

theorem dedupAux_idxOf (seen l : List α) :
    (dedupAux seen l).Pairwise (fun x y => l.idxOf x < l.idxOf y) := by
  induction l generalizing seen with
  | nil => simp [dedupAux]
  | cons z zs ih =>
    have key : ∀ seen', z ∈ seen' →
        (dedupAux seen' zs).Pairwise (fun x y => (z :: zs).idxOf x < (z :: zs).idxOf y) := by
      intro seen' hz
      refine (ih seen').imp_of_mem ?_
      intro x y hx hy hxy
      have hx' : z ≠ x := fun h => (mem_dedupAux.1 hx).2 (h ▸ hz)
      have hy' : z ≠ y := fun h => (mem_dedupAux.1 hy).2 (h ▸ hz)
      rw [List.idxOf_cons, List.idxOf_cons]
      simp only [beq_eq_false_iff_ne.2 hx', beq_eq_false_iff_ne.2 hy', cond_false]
      omega
    unfold dedupAux
    split
    · rename_i hz
      exact key seen hz
    · rw [List.pairwise_cons]
      refine ⟨fun y hy => ?_, key _ (by simp)⟩
      have hy' : z ≠ y := fun h => (mem_dedupAux.1 hy).2 (by simp [h])
      rw [List.idxOf_cons, List.idxOf_cons]
      simp [beq_eq_false_iff_ne.2 hy']

/-- The result is in the order of the first occurrences. -/
theorem pyDedup_idxOf (l : List α) :
    (pyDedup l).Pairwise (fun x y => l.idxOf x < l.idxOf y) := dedupAux_idxOf [] l

end Verif
