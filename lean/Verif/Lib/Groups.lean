import Verif.Lib.Dict

/-!
Grouping: dictionaries mapping a value to the list of things that have this value, built with
`if val not in d: d[val] = []` and `d[val].append(x)`.
-/

namespace Verif

variable {ν κ : Type}

/-- `c` is in the group of value `f`. -/
def InGroups (d : Dict ν (List κ)) (f : ν) (c : κ) : Prop := ∃ cs, (f, cs) ∈ d ∧ c ∈ cs

theorem inGroups_cons (d : Dict ν (List κ)) (g f' : ν) (cs : List κ) (c' : κ) :
    InGroups ((g, cs) :: d) f' c' ↔ (f' = g ∧ c' ∈ cs) ∨ InGroups d f' c' := by
  simp only [InGroups, List.mem_cons, Prod.mk.injEq]
  constructor
  · rintro ⟨cs', h | h, hc⟩
    · obtain ⟨rfl, rfl⟩ := h; exact Or.inl ⟨rfl, hc⟩
    · exact Or.inr ⟨cs', h, hc⟩
  · rintro (⟨rfl, hc⟩ | ⟨cs', h, hc⟩)
    · exact ⟨cs, Or.inl ⟨rfl, rfl⟩, hc⟩
    · exact ⟨cs', Or.inr h, hc⟩

theorem inGroups_nil (f : ν) (c : κ) : ¬ InGroups ([] : Dict ν (List κ)) f c := by
  rintro ⟨_, h, _⟩; cases h

theorem inGroups_set [DecidableEq ν] (d : Dict ν (List κ)) (f f' : ν) (c c' : κ) :
    InGroups (d.set f ((d.get? f).getD [] ++ [c])) f' c' ↔ InGroups d f' c' ∨ (f' = f ∧ c' = c) := by
  induction d with
  | nil =>
    simp only [Dict.get?_nil, Option.getD_none, List.nil_append, Dict.set]
    rw [inGroups_cons]
    simp [inGroups_nil]
  | cons p d ih =>
    obtain ⟨g, cs⟩ := p
    by_cases hg : g = f
    · subst hg
      simp only [Dict.get?, if_true, Option.getD_some, Dict.set]
      rw [inGroups_cons, inGroups_cons, List.mem_append, List.mem_singleton]
      constructor
      · rintro (⟨h, h' | h'⟩ | h)
        · exact Or.inl (Or.inl ⟨h, h'⟩)
        · exact Or.inr ⟨h, h'⟩
        · exact Or.inl (Or.inr h)
      · rintro ((⟨h, h'⟩ | h) | ⟨h, h'⟩)
        · exact Or.inl ⟨h, Or.inl h'⟩
        · exact Or.inr h
        · exact Or.inl ⟨h, Or.inr h'⟩
    · simp only [Dict.get?, if_neg hg, Dict.set]
      rw [inGroups_cons, inGroups_cons, ih]
      exact or_assoc.symm

end Verif
