/-!
Python dictionaries: association lists in insertion order. Re-assigning an existing key keeps its
position, like in Python.
-/

namespace Verif

/-- A Python `dict` in insertion order. -/
abbrev Dict (κ β : Type) := List (κ × β)

namespace Dict

variable {κ β : Type} [DecidableEq κ]

/-- `d.get(k)`. -/
def get? : Dict κ β → κ → Option β
  | [], _ => none
  | (k', v) :: d, k => if k' = k then some v else get? d k

/-- `d[k] = v`. -/
def set : Dict κ β → κ → β → Dict κ β
  | [], k, v => [(k, v)]
  | (k', v') :: d, k, v => if k' = k then (k, v) :: d else (k', v') :: set d k v

/-- `del d[k]` (no-op if the key is absent). -/
def erase : Dict κ β → κ → Dict κ β
  | [], _ => []
  | (k', v') :: d, k => if k' = k then erase d k else (k', v') :: erase d k

/-- The keys in insertion order. -/
def keys (d : Dict κ β) : List κ := d.map Prod.fst

@[simp] theorem get?_nil (k : κ) : get? ([] : Dict κ β) k = none := rfl

theorem get?_set (d : Dict κ β) (k k' : κ) (v : β) :
    get? (set d k v) k' = if k = k' then some v else get? d k' := by
  induction d with
  | nil => simp [set, get?]
  | cons p d ih =>
    obtain ⟨a, b⟩ := p
    unfold set
    by_cases h : a = k
    · subst h
      rw [if_pos rfl]
      by_cases h2 : a = k' <;> simp [get?, h2]
    · simp only [if_neg h, get?]
      by_cases h2 : a = k'
      · subst h2
        have : ¬ k = a := fun e => h e.symm
        simp [this]
      · simp [h2, ih]

@[simp] theorem get?_set_self (d : Dict κ β) (k : κ) (v : β) : get? (set d k v) k = some v := by
  simp [get?_set]

theorem get?_set_ne (d : Dict κ β) {k k' : κ} (v : β) (h : k ≠ k') :
    get? (set d k v) k' = get? d k' := by
  simp [get?_set, h]

theorem get?_erase (d : Dict κ β) (k k' : κ) :
    get? (erase d k) k' = if k = k' then none else get? d k' := by
  induction d with
  | nil => simp [erase]
  | cons p d ih =>
    obtain ⟨a, b⟩ := p
    unfold erase
    by_cases h : a = k
    · subst h
      rw [if_pos rfl, ih]
      by_cases h2 : a = k' <;> simp [get?, h2]
    · simp only [if_neg h, get?]
      by_cases h2 : a = k'
      · subst h2
        have : ¬ k = a := fun e => h e.symm
        simp [this]
      · simp [h2, ih]

theorem get?_eq_none_iff (d : Dict κ β) (k : κ) : get? d k = none ↔ k ∉ keys d := by
  induction d with
  | nil => simp [keys]
  | cons p d ih =>
    obtain ⟨a, b⟩ := p
    by_cases h : a = k
    · subst h; simp [get?, keys]
    · have h' : ¬ k = a := fun e => h e.symm
      simp only [get?, if_neg h, ih, keys, List.map_cons, List.mem_cons, h', false_or]

theorem mem_of_get? {d : Dict κ β} {k : κ} {v : β} (h : get? d k = some v) : (k, v) ∈ d := by
  induction d with
  | nil => simp at h
  | cons p d ih =>
    obtain ⟨a, b⟩ := p
    by_cases e : a = k
    · subst e
      simp only [get?, if_true, Option.some.injEq] at h
      subst h; simp
    · simp only [get?, if_neg e] at h
      exact List.mem_cons_of_mem _ (ih h)

theorem get?_of_mem {d : Dict κ β} (hd : (keys d).Nodup) {k : κ} {v : β} (h : (k, v) ∈ d) :
    get? d k = some v := by
  induction d with
  | nil => simp at h
  | cons p d ih =>
    obtain ⟨a, b⟩ := p
    simp only [keys, List.map_cons, List.nodup_cons] at hd
    rcases List.mem_cons.1 h with e | e
    · cases e; simp [get?]
    · have : a ≠ k := by
        intro e2; subst e2
        exact hd.1 (List.mem_map.2 ⟨_, e, rfl⟩)
      simp only [get?, if_neg this]
      exact ih hd.2 e

theorem keys_set (d : Dict κ β) (k : κ) (v : β) :
    keys (set d k v) = if k ∈ keys d then keys d else keys d ++ [k] := by
  induction d with
  | nil => simp [set, keys]
  | cons p d ih =>
    obtain ⟨a, b⟩ := p
    unfold set
    by_cases h : a = k
    · subst h; simp [keys]
    · have h' : ¬ k = a := fun e => h e.symm
      simp only [if_neg h]
      simp only [keys, List.map_cons, List.mem_cons, h', false_or] at ih ⊢
      split <;> rename_i hc <;> simp [ih, hc]

theorem nodup_keys_set {d : Dict κ β} (hd : (keys d).Nodup) (k : κ) (v : β) :
    (keys (set d k v)).Nodup := by
  rw [keys_set]
  split
  · exact hd
  · rename_i h
    rw [List.nodup_append]
    refine ⟨hd, by simp, ?_⟩
    intro a ha b hb
    simp only [List.mem_singleton] at hb
    subst hb
    intro e; subst e; exact h ha

theorem mem_keys_set (d : Dict κ β) (k k' : κ) (v : β) :
    k' ∈ keys (set d k v) ↔ k' = k ∨ k' ∈ keys d := by
  rw [keys_set]
  split
  · constructor
    · exact Or.inr
    · rintro (rfl | h) <;> assumption
  · simp [or_comm]

end Dict

end Verif
