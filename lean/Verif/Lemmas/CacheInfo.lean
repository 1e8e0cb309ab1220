import Verif.Props.CacheInfoSpec
import Verif.Lemmas.PMQoSCmd
import Verif.Lemmas.EP
import Verif.Lemmas.Human

/-!
Lemmas for C130.
-/

namespace Verif.CacheInfo

open Spec

theorem letters_ok : ∀ c ∈ letters, c ∉ ['0', 'x', 'X', 'o', 'O', 'b', 'B', '_', '-', '+'] ∧ PyStr.isSpace c = false ∧
    (match Trivial.digitVal c with | some d => decide (16 ≤ d) | none => true) = true := by
  decide +kernel

theorem isInt_word {s : PyStr} {c : Char} (h : c ∈ s) (hc : c ∈ letters) : EP.isInt s = false := by
  obtain ⟨h1, h2, h3⟩ := letters_ok c hc
  have h4 : ∀ d, Trivial.digitVal c = some d → 16 ≤ d := by
    intro d hd
    rw [hd] at h3
    exact of_decide_eq_true h3
  have h5 : c ∉ ['+', '-', '_'] := by
    simp only [List.mem_cons, List.not_mem_nil, or_false, not_or] at h1 ⊢
    exact ⟨h1.2.2.2.2.2.2.2.2.2, h1.2.2.2.2.2.2.2.2.1, h1.2.2.2.2.2.2.2.1⟩
  unfold EP.isInt
  rw [PMQoSCmd.strToInt_bad h1 h2 h4 h, Human.parse10_bad h2 h5 (fun d hd => by have := h4 d hd; omega) h]
  rfl

theorem conv_means {v w : Val} (h : Means v w) : conv v = .ok w := by
  cases h with
  | number n =>
    unfold conv; dsimp only
    rw [EP.isInt_of_parse10 (EP.parse10_ofNat n), EP.parse10_ofNat]
    rfl
  | word _ c h hc =>
    unfold conv; dsimp only
    rw [isInt_word h hc]
    rfl
  | num n => rfl
  | null => rfl

theorem fill_plain (i : Attrs) (h : Plain i) : (fill i).2 = none ∧ Same i (fill i).1 := by
  induction i with
  | nil => exact ⟨rfl, trivial⟩
  | cons p r ih =>
    obtain ⟨k, v⟩ := p
    obtain ⟨w, hw⟩ := h (k, v) (by simp)
    obtain ⟨h1, h2⟩ := ih (fun q hq => h q (by simp [hq]))
    rw [fill, conv_means hw]
    exact ⟨h1, rfl, hw, h2⟩

theorem loop_ok (infos : List Attrs) (names : List Val) (hn : Named infos names) (hp : ∀ i ∈ infos, Plain i)
    (acc : Table) (hd : (acc.map Prod.fst ++ names).Nodup) :
    ∃ t, loop infos acc = (acc ++ t, none) ∧ Listed infos t := by
  induction infos generalizing names acc with
  | nil => exact ⟨[], by simp [loop], trivial⟩
  | cons i r ih =>
    cases names with
    | nil => simp [Named] at hn
    | cons n ns =>
      simp only [Named, List.map_cons, List.cons.injEq] at hn
      obtain ⟨h1, h2⟩ := fill_plain i (hp i (by simp))
      have hx : n ∉ acc.map Prod.fst := fun hm =>
        (List.nodup_append.1 hd).2.2 n hm n (by simp) rfl
      obtain ⟨t, ht, hl⟩ := ih ns hn.2 (fun j hj => hp j (by simp [hj])) (acc ++ [(n, (fill i).1)])
        (by simpa using hd)
      refine ⟨(n, (fill i).1) :: t, ?_, hn.1, h2, hl⟩
      rw [loop, hn.1]
      dsimp only
      rw [if_neg hx, h1]
      dsimp only
      rw [ht]
      simp

theorem loop_dup (infos : List Attrs) (names : List Val) (hn : Named infos names) (hp : ∀ i ∈ infos, Plain i)
    (acc : Table) (ha : (acc.map Prod.fst).Nodup) (hd : ¬ (acc.map Prod.fst ++ names).Nodup) :
    ∃ t, loop infos acc = (acc ++ t, some .error) ∧ (acc = [] → t ≠ []) := by
  induction infos generalizing names acc with
  | nil =>
    cases names with
    | nil => exact absurd (by simpa using ha) hd
    | cons n ns => simp [Named] at hn
  | cons i r ih =>
    cases names with
    | nil => simp [Named] at hn
    | cons n ns =>
      simp only [Named, List.map_cons, List.cons.injEq] at hn
      obtain ⟨h1, h2⟩ := fill_plain i (hp i (by simp))
      rw [loop, hn.1]
      dsimp only
      by_cases hx : n ∈ acc.map Prod.fst
      · rw [if_pos hx]
        exact ⟨[], by simp, fun e => by rw [e] at hx; cases hx⟩
      · rw [if_neg hx, h1]
        dsimp only
        obtain ⟨t, ht, -⟩ := ih ns hn.2 (fun j hj => hp j (by simp [hj])) (acc ++ [(n, (fill i).1)])
          (by
            rw [List.map_append, List.nodup_append]
            refine ⟨ha, by simp, ?_⟩
            intro a h b hb e
            simp only [List.map_cons, List.map_nil, List.mem_singleton] at hb
            exact hx (hb ▸ e ▸ h))
          (by simpa using hd)
        exact ⟨(n, (fill i).1) :: t, by rw [ht]; simp, fun _ => by simp⟩

theorem loop_append (pre r : List Attrs) (acc t : Table) (h : loop pre acc = (t, none)) : loop (pre ++ r) acc = loop r t := by
  induction pre generalizing acc with
  | nil =>
    simp only [loop, Prod.mk.injEq, and_true] at h
    rw [List.nil_append, h]
  | cons i q ih =>
    rw [List.cons_append, loop]
    rw [loop] at h
    cases hn : i.lookup "name".toList with
    | none => rw [hn] at h; simp at h
    | some n =>
      rw [hn] at h
      dsimp only at h ⊢
      by_cases hx : n ∈ acc.map Prod.fst
      · rw [if_pos hx] at h; simp at h
      · rw [if_neg hx] at h ⊢
        cases hf : (fill i).2 with
        | some e => rw [hf] at h; simp at h
        | none =>
          rw [hf] at h
          exact ih _ h

end Verif.CacheInfo
