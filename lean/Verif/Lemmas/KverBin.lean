import Verif.Model.KverBin
import Verif.Props.KverBinSpec

/-!
Lemmas for C131.
-/

namespace Verif.KverBin

open Spec

theorem lastMatch_ne_none {α : Type} {f : PyStr → Option α} (s a t : PyStr) (e : s = a ++ t) (hn : '\n' ∉ a)
    (hf : f t ≠ none) : lastMatch f s ≠ none := by
  induction s generalizing a t with
  | nil =>
    obtain ⟨rfl, rfl⟩ := List.append_eq_nil_iff.1 e.symm
    exact hf
  | cons c s ih =>
    rw [lastMatch]
    cases a with
    | nil =>
      rw [List.nil_append] at e
      rw [e]
      split
      · exact hf
      · cases lastMatch f s <;> simp [hf]
    | cons d a =>
      rw [List.cons_append, List.cons.injEq] at e
      rw [if_neg (fun h => hn (by simp [← e.1, h]))]
      have := ih a t e.2 (fun h => hn (by simp [h])) hf
      cases h : lastMatch f s with
      | none => exact absurd h this
      | some y => simp

theorem lastMatch_some {α : Type} {f : PyStr → Option α} {s : PyStr} {x : α} (h : lastMatch f s = some x) :
    ∃ a t, s = a ++ t ∧ '\n' ∉ a ∧ f t = some x ∧
      ∀ a' t', s = a' ++ t' → '\n' ∉ a' → f t' ≠ none → a'.length ≤ a.length := by
  induction s with
  | nil =>
    refine ⟨[], [], rfl, by simp, h, ?_⟩
    intro a' t' e _ _
    have : a' = [] := (List.append_eq_nil_iff.1 e.symm).1
    simp [this]
  | cons c s ih =>
    rw [lastMatch] at h
    by_cases hc : c = '\n'
    · rw [if_pos hc] at h
      refine ⟨[], c :: s, rfl, by simp, h, ?_⟩
      intro a' t' e hn _
      cases a' with
      | nil => simp
      | cons d a' =>
        rw [List.cons_append, List.cons.injEq] at e
        exact absurd (by simp [← e.1, hc]) hn
    · rw [if_neg hc] at h
      cases hl : lastMatch f s with
      | some y =>
        rw [hl] at h
        dsimp only at h
        obtain ⟨a, t, e, hn, hf, hm⟩ := ih (hl.trans h)
        refine ⟨c :: a, t, by rw [e]; rfl, by simp [hn, Ne.symm hc], hf, ?_⟩
        intro a' t' e' hn' hf'
        cases a' with
        | nil => simp
        | cons d a' =>
          rw [List.cons_append, List.cons.injEq] at e'
          have := hm a' t' e'.2 (fun h => hn' (by simp [h])) hf'
          simp only [List.length_cons]; omega
      | none =>
        rw [hl] at h
        dsimp only at h
        refine ⟨[], c :: s, rfl, by simp, h, ?_⟩
        intro a' t' e' hn' hf'
        cases a' with
        | nil => simp
        | cons d a' =>
          exfalso
          rw [List.cons_append, List.cons.injEq] at e'
          exact lastMatch_ne_none s a' t' e'.2 (fun h => hn' (by simp [h])) hf' hl

theorem after_some {p s t : PyStr} : after p s = some t ↔ s = p ++ t := by
  unfold after
  constructor
  · intro h
    split at h
    · rename_i hp
      obtain ⟨q, rfl⟩ := List.isPrefixOf_iff_prefix.1 hp
      simp only [List.drop_left, Option.some.injEq] at h
      rw [h]
    · cases h
  · rintro rfl
    rw [if_pos (List.isPrefixOf_iff_prefix.2 ⟨t, rfl⟩), List.drop_left]

theorem versionAt_some {s w : PyStr} :
    versionAt s = some w ↔ w ≠ [] ∧ ' ' ∉ w ∧ ∃ b, s = " version ".toList ++ (w ++ ' ' :: b) := by
  unfold versionAt
  constructor
  · intro h
    cases ha : after " version ".toList s with
    | none => rw [ha] at h; cases h
    | some t =>
      rw [ha] at h
      dsimp only at h
      split at h
      · rename_i hc
        cases h
        refine ⟨hc.1, ?_, ?_⟩
        · intro hm
          have := List.all_takeWhile (p := fun c => decide (c ≠ ' ')) (l := t)
          exact absurd (List.all_eq_true.1 this _ hm) (by simp)
        · cases hd : t.dropWhile (fun c => decide (c ≠ ' ')) with
          | nil => exact absurd hd hc.2
          | cons c b =>
            have h1 := List.head_dropWhile_not (fun c => decide (c ≠ ' ')) (w := hc.2)
            have h2 : c = ' ' := by
              simp only [hd, List.head_cons] at h1
              simpa using h1
            subst h2
            exact ⟨b, by rw [after_some.1 ha, ← hd, List.takeWhile_append_dropWhile]⟩
      · cases h
  · rintro ⟨h1, h2, b, rfl⟩
    rw [after_some.2 rfl]
    dsimp only
    have hp : ∀ c ∈ w, decide (c ≠ ' ') = true := fun c hc => by
      simpa using fun (e : c = ' ') => h2 (e ▸ hc)
    have e1 : (w ++ ' ' :: b).takeWhile (fun c => decide (c ≠ ' ')) = w := by
      rw [List.takeWhile_append_of_pos hp]; simp
    have e2 : (w ++ ' ' :: b).dropWhile (fun c => decide (c ≠ ' ')) = ' ' :: b := by
      rw [List.dropWhile_append_of_pos hp]; simp
    rw [e1, e2, if_pos ⟨h1, by simp⟩]

theorem last_iff (s w : PyStr) : lastMatch versionAt s = some w ↔ Last s w := by
  have fwd : ∀ w, lastMatch versionAt s = some w → Last s w := by
    intro w h
    obtain ⟨a, t, e, hn, hf, hm⟩ := lastMatch_some h
    obtain ⟨h1, h2, b, rfl⟩ := versionAt_some.1 hf
    refine ⟨a, ⟨hn, h1, h2, b, e⟩, ?_⟩
    rintro a' w' ⟨hn', h1', h2', b', e'⟩
    exact hm a' _ e' hn' (by rw [versionAt_some.2 ⟨h1', h2', b', rfl⟩]; simp)
  refine ⟨fwd w, ?_⟩
  rintro ⟨a, ho, hm⟩
  obtain ⟨hn, h1, h2, b, e⟩ := ho
  have hne := lastMatch_ne_none s a _ e hn (f := versionAt) (by rw [versionAt_some.2 ⟨h1, h2, b, rfl⟩]; simp)
  cases hl : lastMatch versionAt s with
  | none => exact absurd hl hne
  | some y =>
    obtain ⟨a', ho', hm'⟩ := fwd y hl
    have l1 := hm a' y ho'
    have l2 := hm' a w ⟨hn, h1, h2, b, e⟩
    obtain ⟨-, h1', h2', b', e'⟩ := ho'
    obtain ⟨-, ht⟩ := List.append_inj (e'.symm.trans e) (by omega)
    have hv := versionAt_some.2 ⟨h1', h2', b', rfl⟩
    rw [ht, versionAt_some.2 ⟨h1, h2, b, rfl⟩] at hv
    exact hv.symm

theorem kernel_iff (s : PyStr) : lastMatch kernelAt s ≠ none ↔ Kernel s := by
  constructor
  · intro h
    cases hl : lastMatch kernelAt s with
    | none => exact absurd hl h
    | some u =>
      obtain ⟨a, t, e, hn, hf, -⟩ := lastMatch_some hl
      unfold kernelAt at hf
      cases ha : after " Linux kernel".toList t with
      | none => rw [ha] at hf; cases hf
      | some t' =>
        rw [ha] at hf
        dsimp only at hf
        obtain ⟨b, q, e2, hn2, hf2, -⟩ := lastMatch_some hf
        cases hx : after " executable ".toList q with
        | none => rw [hx] at hf2; cases hf2
        | some c => exact ⟨a, b, c, hn, hn2, by rw [e, after_some.1 ha, e2, after_some.1 hx]⟩
  · rintro ⟨a, b, c, hn, hn2, e⟩
    refine lastMatch_ne_none s a _ e hn ?_
    unfold kernelAt
    rw [after_some.2 rfl]
    exact lastMatch_ne_none _ b _ rfl hn2 (by rw [after_some.2 rfl]; simp)

end Verif.KverBin
