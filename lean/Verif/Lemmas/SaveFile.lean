import Verif.Props.SaveFileSpec

/-!
Lemmas for C124.
-/

namespace Verif.SaveFile

variable {V : Type}

theorem pairs_append (a b : List (Item V)) (d : Dict PyStr V) : pairs (a ++ b) d = pairs b (pairs a d) := by
  induction a generalizing d with
  | nil => rfl
  | cons x a ih => cases x <;> simp only [List.cons_append, pairs, ih]

theorem get?_pairs_map (l d : Dict PyStr V) (h : (Dict.keys l).Nodup) (k : PyStr) :
    (pairs (l.map fun p => Item.entry p.1 p.2) d).get? k = (l.get? k).or (d.get? k) := by
  induction l generalizing d with
  | nil => simp [pairs, Dict.get?]
  | cons p l ih =>
    have h' : p.1 ∉ Dict.keys l ∧ (Dict.keys l).Nodup := by simpa [Dict.keys] using h
    rw [List.map_cons, pairs, ih _ h'.2, Dict.get?_set]
    by_cases hk : p.1 = k
    · have : Dict.get? l k = none := (Dict.get?_eq_none_iff _ _).2 (hk ▸ h'.1)
      rw [this]
      simp [Dict.get?, hk]
    · simp [Dict.get?, hk]

theorem dumpText_ne (d : Dict PyStr V) : dumpText d ≠ [] := by
  unfold dumpText
  cases d <;> simp

theorem any_map (d : Dict PyStr V) : (d.map fun p => Item.entry p.1 p.2).any Item.isBraces = false := by
  induction d with
  | nil => rfl
  | cons p d ih => simp [Item.isBraces]

theorem loadText_plain (t : List (Item V)) (h : t.any Item.isBraces = false) : loadText t = .ok (pairs t []) := by
  unfold loadText
  split
  · rfl
  · simp [Item.isBraces] at h
  · rw [h]; simp

theorem load_dump (d : Dict PyStr V) (h : (Dict.keys d).Nodup) :
    ∃ x, loadText (dumpText d) = .ok x ∧ Holds x [] d := by
  unfold dumpText
  cases d with
  | nil => exact ⟨[], rfl, fun k => rfl⟩
  | cons p d =>
    refine ⟨_, loadText_plain _ (any_map _), fun k => ?_⟩
    exact get?_pairs_map _ _ h k

theorem load_dump2 (c p : Dict PyStr V) (hc : (Dict.keys c).Nodup) (hp : (Dict.keys p).Nodup) (nc : c ≠ [])
    (np : p ≠ []) : ∃ x, loadText (dumpText c ++ dumpText p) = .ok x ∧ Holds x c p := by
  have ec : dumpText c = c.map fun p => Item.entry p.1 p.2 := by
    unfold dumpText; cases c <;> simp_all
  have ep : dumpText p = p.map fun p => Item.entry p.1 p.2 := by
    unfold dumpText; cases p <;> simp_all
  refine ⟨_, loadText_plain _ ?_, fun k => ?_⟩
  · rw [ec, ep, List.any_append, any_map, any_map]; rfl
  · rw [pairs_append, ec, ep, get?_pairs_map _ _ hp, get?_pairs_map _ _ hc]
    simp [Dict.get?]

theorem load_bad (a b : List (Item V)) (ha : a ≠ []) (hb : b ≠ []) (h : (a ++ b).any Item.isBraces = true) :
    loadText (a ++ b) = .error .error := by
  unfold loadText
  split
  · simp_all
  · rename_i e
    cases a with
    | nil => exact absurd rfl ha
    | cons x a => simp_all
  · rw [if_pos h]

end Verif.SaveFile
