/-!
Python strings as lists of characters, and the string methods the modelled code uses.
-/

namespace Verif

/-- A Python `str`. -/
abbrev PyStr := List Char

namespace PyStr

/-- `c.isspace()`, the characters `str.strip()` removes. -/
def isSpace (c : Char) : Bool :=
  let n := c.toNat
  (9 ≤ n && n ≤ 13) || (28 ≤ n && n ≤ 32) || n == 0x85 || n == 0xa0 || n == 0x1680 ||
  (0x2000 ≤ n && n ≤ 0x200a) || n == 0x2028 || n == 0x2029 || n == 0x202f || n == 0x205f || n == 0x3000

/-- Remove the leading characters satisfying `p`. -/
def lstripBy (p : Char → Bool) (s : PyStr) : PyStr := s.dropWhile p

/-- Remove the trailing characters satisfying `p`. -/
def rstripBy (p : Char → Bool) (s : PyStr) : PyStr := (s.reverse.dropWhile p).reverse

def stripBy (p : Char → Bool) (s : PyStr) : PyStr := rstripBy p (lstripBy p s)

/-- `s.strip()`. -/
def strip (s : PyStr) : PyStr := stripBy isSpace s

/-- `s.split(c)` for a one-character separator. -/
def splitC (c : Char) : PyStr → List PyStr
  | [] => [[]]
  | x :: xs =>
    if x = c then [] :: splitC c xs
    else match splitC c xs with
      | [] => [[x]]
      | h :: t => (x :: h) :: t

/-- `c.join(parts)` for a one-character separator. -/
def joinC (c : Char) : List PyStr → PyStr
  | [] => []
  | [p] => p
  | p :: q :: ps => p ++ c :: joinC c (q :: ps)

/-- The decimal digit of `n % 10`. -/
def digitC (n : Nat) : Char := Char.ofNat (48 + n % 10)

/-- `str(n)` for a natural number. -/
def ofNat (n : Nat) : PyStr :=
  if n < 10 then [digitC n] else ofNat (n / 10) ++ [digitC n]
termination_by n

/-- `str(n)` for an integer. -/
def ofInt : Int → PyStr
  | .ofNat n => ofNat n
  | .negSucc n => '-' :: ofNat (n + 1)

/-! ### Stripping -/

theorem dropWhile_eq_self {p : Char → Bool} {s : PyStr} (h : ∀ c, s.head? = some c → p c = false) :
    s.dropWhile p = s := by
  cases s with
  | nil => rfl
  | cons c s => simp [List.dropWhile, h c rfl]

theorem head?_dropWhile {p : Char → Bool} {s : PyStr} {c : Char} (h : (s.dropWhile p).head? = some c) :
    p c = false := by
  induction s with
  | nil => simp at h
  | cons d s ih =>
    unfold List.dropWhile at h
    split at h
    · exact ih h
    · rename_i hd
      simp only [List.head?_cons, Option.some.injEq] at h
      subst h; exact hd

/-- A string with nothing to strip. -/
def Stripped (p : Char → Bool) (s : PyStr) : Prop :=
  (∀ c, s.head? = some c → p c = false) ∧ (∀ c, s.getLast? = some c → p c = false)

theorem stripBy_of_stripped {p : Char → Bool} {s : PyStr} (h : Stripped p s) : stripBy p s = s := by
  unfold stripBy lstripBy rstripBy
  rw [dropWhile_eq_self h.1, dropWhile_eq_self, List.reverse_reverse]
  intro c hc
  rw [List.head?_reverse] at hc
  exact h.2 c hc

theorem dropWhile_suffix' {p : Char → Bool} (s : PyStr) : ∃ t, s = t ++ s.dropWhile p := by
  induction s with
  | nil => exact ⟨[], rfl⟩
  | cons c s ih =>
    obtain ⟨t, ht⟩ := ih
    unfold List.dropWhile
    split
    · exact ⟨c :: t, by rw [List.cons_append, ← ht]⟩
    · exact ⟨[], rfl⟩

theorem stripped_stripBy (p : Char → Bool) (s : PyStr) : Stripped p (stripBy p s) := by
  unfold stripBy lstripBy rstripBy
  constructor
  · intro c hc
    obtain ⟨t, ht⟩ := dropWhile_suffix' (p := p) (s.dropWhile p).reverse
    have h2 : s.dropWhile p = ((s.dropWhile p).reverse.dropWhile p).reverse ++ t.reverse := by
      have := congrArg List.reverse ht
      rw [List.reverse_reverse, List.reverse_append] at this
      exact this
    cases hr : ((s.dropWhile p).reverse.dropWhile p).reverse with
    | nil => rw [hr] at hc; cases hc
    | cons d r =>
      rw [hr] at hc h2
      simp only [List.head?_cons, Option.some.injEq] at hc
      subst hc
      exact head?_dropWhile (s := s) (by rw [h2]; rfl)
  · intro c hc
    rw [List.getLast?_reverse] at hc
    exact head?_dropWhile hc

theorem stripBy_idem (p : Char → Bool) (s : PyStr) : stripBy p (stripBy p s) = stripBy p s :=
  stripBy_of_stripped (stripped_stripBy p s)

theorem strip_idem (s : PyStr) : strip (strip s) = strip s := stripBy_idem _ s

theorem stripped_of_all {p : Char → Bool} {s : PyStr} (h : ∀ c ∈ s, p c = false) : Stripped p s := by
  constructor
  · intro c hc; exact h c (List.mem_of_mem_head? hc)
  · intro c hc; exact h c (List.mem_of_mem_getLast? hc)

/-! ### Splitting and joining -/

theorem splitC_of_not_mem {c : Char} {s : PyStr} (h : c ∉ s) : splitC c s = [s] := by
  induction s with
  | nil => rfl
  | cons x s ih =>
    have hx : x ≠ c := fun e => h (by simp [e])
    have hs : c ∉ s := fun e => h (by simp [e])
    simp [splitC, hx, ih hs]

theorem splitC_append {c : Char} {s t : PyStr} (h : c ∉ s) : splitC c (s ++ c :: t) = s :: splitC c t := by
  induction s with
  | nil => simp [splitC]
  | cons x s ih =>
    have hx : x ≠ c := fun e => h (by simp [e])
    have hs : c ∉ s := fun e => h (by simp [e])
    simp [splitC, hx, ih hs]

theorem splitC_joinC {c : Char} {parts : List PyStr} (hne : parts ≠ []) (h : ∀ p ∈ parts, c ∉ p) :
    splitC c (joinC c parts) = parts := by
  induction parts with
  | nil => exact absurd rfl hne
  | cons p ps ih =>
    cases ps with
    | nil => simp [joinC, splitC_of_not_mem (h p (by simp))]
    | cons q ps =>
      rw [joinC, splitC_append (h p (by simp)), ih (by simp) (fun x hx => h x (by simp [hx]))]

theorem splitC_ne_nil (c : Char) (s : PyStr) : splitC c s ≠ [] := by
  induction s with
  | nil => simp [splitC]
  | cons x s ih =>
    unfold splitC
    split
    · simp
    · split
      · simp
      · simp

theorem not_mem_splitC {c : Char} {s p : PyStr} (h : p ∈ splitC c s) : c ∉ p := by
  induction s generalizing p with
  | nil => simp [splitC] at h; simp [h]
  | cons x s ih =>
    unfold splitC at h
    split at h
    · rcases List.mem_cons.1 h with rfl | h
      · simp
      · exact ih h
    · rename_i hx
      split at h
      · simp only [List.mem_singleton] at h
        subst h
        simpa using fun e => hx e.symm
      · rename_i h' t heq
        rcases List.mem_cons.1 h with rfl | h
        · have := ih (p := h') (by rw [heq]; simp)
          simp only [List.mem_cons, not_or]
          exact ⟨fun e => hx e.symm, this⟩
        · exact ih (by rw [heq]; simp [h])

theorem joinC_splitC (c : Char) (s : PyStr) : joinC c (splitC c s) = s := by
  induction s with
  | nil => rfl
  | cons x s ih =>
    unfold splitC
    split
    · rename_i hx
      subst hx
      cases h : splitC x s with
      | nil => exact absurd h (splitC_ne_nil x s)
      | cons q ps => rw [h] at ih; rw [joinC, ih]; rfl
    · cases h : splitC c s with
      | nil => exact absurd h (splitC_ne_nil c s)
      | cons q ps =>
        rw [h] at ih
        simp only
        cases ps with
        | nil => simp only [joinC] at ih ⊢; rw [ih]
        | cons r ps =>
          simp only [joinC, List.cons_append] at ih ⊢
          rw [ih]

/-! ### Decimal numbers -/

theorem digitC_toNat (n : Nat) : (digitC n).toNat = 48 + n % 10 := by
  have h : n % 10 < 10 := Nat.mod_lt _ (by omega)
  unfold digitC
  generalize n % 10 = m at h
  have : ∀ m, m < 10 → (Char.ofNat (48 + m)).toNat = 48 + m := by decide +kernel
  exact this m h

theorem ofNat_ne_nil (n : Nat) : ofNat n ≠ [] := by
  unfold ofNat
  split <;> simp

/-- All characters of a decimal number are decimal digits. -/
theorem ofNat_digits (n : Nat) : ∀ c ∈ ofNat n, 48 ≤ c.toNat ∧ c.toNat ≤ 57 := by
  induction n using Nat.strongRecOn with
  | _ n ih =>
    have hd : 48 ≤ (digitC n).toNat ∧ (digitC n).toNat ≤ 57 := by
      rw [digitC_toNat]
      have : n % 10 < 10 := Nat.mod_lt _ (by omega)
      omega
    unfold ofNat
    split
    · intro c hc
      simp only [List.mem_singleton] at hc
      subst hc; exact hd
    · intro c hc
      rcases List.mem_append.1 hc with hc | hc
      · exact ih (n / 10) (by omega) c hc
      · simp only [List.mem_singleton] at hc
        subst hc; exact hd

/-- A positive number does not start with "0". -/
theorem ofNat_head (n : Nat) (h : 0 < n) : ∀ c, (ofNat n).head? = some c → c.toNat ≠ 48 := by
  induction n using Nat.strongRecOn with
  | _ n ih =>
    intro c hc
    unfold ofNat at hc
    split at hc
    · rename_i hlt
      simp only [List.head?_cons, Option.some.injEq] at hc
      subst hc
      rw [digitC_toNat, Nat.mod_eq_of_lt hlt]; omega
    · have hh : (ofNat (n / 10) ++ [digitC n]).head? = (ofNat (n / 10)).head? := by
        cases hl : ofNat (n / 10) with
        | nil => exact absurd hl (ofNat_ne_nil _)
        | cons d l => rfl
      rw [hh] at hc
      exact ih (n / 10) (by omega) (by omega) c hc

theorem ofNat_not_mem (n : Nat) {c : Char} (h : c.toNat < 48 ∨ 57 < c.toNat) : c ∉ ofNat n := by
  intro hm
  have := ofNat_digits n c hm
  omega

end PyStr

end Verif
