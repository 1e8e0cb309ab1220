import Verif.Model.KernelVersion
import Verif.Lemmas.Trivial

/-! Helper lemmas about kernel version strings. -/

namespace Verif.KernelVersion

theorem isDigit_iff (c : Char) : isDigit c = true ↔ 48 ≤ c.toNat ∧ c.toNat ≤ 57 := by
  simp [isDigit]

theorem digitC_toNat (n : Nat) : (PyStr.digitC n).toNat = 48 + n % 10 := by
  have h : n % 10 < 10 := Nat.mod_lt _ (by decide)
  unfold PyStr.digitC
  generalize n % 10 = k at h
  match k, h with
  | 0, _ | 1, _ | 2, _ | 3, _ | 4, _ | 5, _ | 6, _ | 7, _ | 8, _ | 9, _ => decide

theorem isDigit_digitC (n : Nat) : isDigit (PyStr.digitC n) = true := by
  rw [isDigit_iff, digitC_toNat]
  have h : n % 10 < 10 := Nat.mod_lt _ (by decide)
  omega

theorem isDigit_ofNat (n : Nat) : ∀ c ∈ PyStr.ofNat n, isDigit c = true := by
  intro c hc
  fun_induction PyStr.ofNat n with
  | case1 n hn => rw [List.mem_singleton] at hc; subst hc; exact isDigit_digitC _
  | case2 n hn ih =>
    rcases List.mem_append.1 hc with h | h
    · exact ih h
    · rw [List.mem_singleton] at h; subst h; exact isDigit_digitC _

theorem toNum_ofNat (n : Nat) : toNum (PyStr.ofNat n) = n := by
  fun_induction PyStr.ofNat n with
  | case1 n hn =>
    unfold toNum
    simp only [List.foldl_cons, List.foldl_nil, digitC_toNat]
    omega
  | case2 n hn ih =>
    unfold toNum at ih ⊢
    rw [List.foldl_append, ih]
    simp only [List.foldl_cons, List.foldl_nil, digitC_toNat]
    omega

/-- The string does not continue a number. -/
def NoDigit (s : PyStr) : Prop := ∀ c, s.head? = some c → isDigit c = false

theorem digits_append {d s : PyStr} (hd : ∀ c ∈ d, isDigit c = true) (hne : d ≠ []) (hs : NoDigit s) :
    digits (d ++ s) = some (d, s) := by
  have h1 : (d ++ s).takeWhile isDigit = d := by
    rw [List.takeWhile_append_of_pos hd]
    cases s with
    | nil => simp
    | cons c s => simp [List.takeWhile, hs c rfl]
  have h2 : (d ++ s).dropWhile isDigit = s := by
    rw [List.dropWhile_append_of_pos hd]
    exact PyStr.dropWhile_eq_self hs
  unfold digits
  rw [h1, h2, if_neg hne]

theorem of_mem_takeWhile {p : Char → Bool} {s : PyStr} {c : Char} (h : c ∈ s.takeWhile p) : p c = true := by
  induction s with
  | nil => cases h
  | cons d s ih =>
    unfold List.takeWhile at h
    split at h
    · rename_i hd
      rcases List.mem_cons.1 h with h | h
      · subst h; exact hd
      · exact ih h
    · cases h

theorem digits_eq_some {s d r : PyStr} (h : digits s = some (d, r)) :
    s = d ++ r ∧ d ≠ [] ∧ (∀ c ∈ d, isDigit c = true) ∧ NoDigit r := by
  unfold digits at h
  split at h
  · cases h
  rename_i hne
  injection h with h
  injection h with h1 h2
  subst h1 h2
  refine ⟨(List.takeWhile_append_dropWhile).symm, hne, ?_, fun c hc => PyStr.head?_dropWhile hc⟩
  intro c hc
  exact of_mem_takeWhile hc

theorem digits_eq_none {s : PyStr} (h : digits s = none) : NoDigit s := by
  unfold digits at h
  split at h
  · rename_i hne
    intro c hc
    cases s with
    | nil => cases hc
    | cons d s =>
      simp only [List.head?_cons, Option.some.injEq] at hc
      subst hc
      simp only [List.takeWhile] at hne
      cases hd : isDigit d with
      | false => rfl
      | true => rw [hd] at hne; cases hne
  · cases h

theorem digits_noDigit {s : PyStr} (h : NoDigit s) : digits s = none := by
  cases hd : digits s with
  | none => rfl
  | some p =>
    obtain ⟨d, r⟩ := p
    obtain ⟨h1, h2, h3, -⟩ := digits_eq_some hd
    cases d with
    | nil => exact absurd rfl h2
    | cons c d =>
      have := h c (by rw [h1]; rfl)
      rw [h3 c List.mem_cons_self] at this
      cases this

theorem noDigit_cons {c : Char} {s : PyStr} (h : isDigit c = false) : NoDigit (c :: s) := by
  intro d hd
  simp only [List.head?_cons, Option.some.injEq] at hd
  subst hd; exact h

/-! ### The order of strings -/

theorem strLt_irrefl (a : PyStr) : strLt a a = false := by
  induction a with
  | nil => rfl
  | cons c a ih => rw [strLt, if_pos rfl]; exact ih

theorem toNat_ne {a b : Char} (h : a ≠ b) : a.toNat ≠ b.toNat := by
  intro h1
  exact h (Char.ext (UInt32.toNat_inj.1 h1))

theorem strLt_trans {a b c : PyStr} (h1 : strLt a b = true) (h2 : strLt b c = true) :
    strLt a c = true := by
  induction a generalizing b c with
  | nil =>
    cases c with
    | nil => cases b <;> simp [strLt] at h1 h2
    | cons z c => rfl
  | cons x a ih =>
    cases b with
    | nil => simp [strLt] at h1
    | cons y b =>
      cases c with
      | nil => simp [strLt] at h2
      | cons z c =>
        simp only [strLt] at h1 h2 ⊢
        by_cases hxy : x = y
        · subst hxy
          rw [if_pos rfl] at h1
          by_cases hxz : x = z
          · subst hxz
            rw [if_pos rfl] at h2
            rw [if_pos rfl]
            exact ih h1 h2
          · rw [if_neg hxz] at h2 ⊢; exact h2
        · rw [if_neg hxy] at h1
          by_cases hyz : y = z
          · subst hyz
            rw [if_neg hxy]; exact h1
          · rw [if_neg hyz] at h2
            have h3 := of_decide_eq_true h1
            have h4 := of_decide_eq_true h2
            have hxz : x ≠ z := by
              intro h; subst h; omega
            rw [if_neg hxz]
            exact decide_eq_true (by omega)

theorem strLt_connected {a b : PyStr} (h1 : strLt a b = false) (h2 : strLt b a = false) : a = b := by
  induction a generalizing b with
  | nil => cases b with
    | nil => rfl
    | cons y b => simp [strLt] at h1
  | cons x a ih => cases b with
    | nil => simp [strLt] at h2
    | cons y b =>
      simp only [strLt] at h1 h2
      by_cases hxy : x = y
      · subst hxy
        rw [if_pos rfl] at h1 h2
        rw [ih h1 h2]
      · rw [if_neg hxy] at h1
        rw [if_neg (fun h => hxy h.symm)] at h2
        have h3 := of_decide_eq_false h1
        have h4 := of_decide_eq_false h2
        have := toNat_ne hxy
        omega

end Verif.KernelVersion
