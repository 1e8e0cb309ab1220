import Verif.Lemmas.KernelVersion

/-!
C46: kernel version comparison is a consistent order.
-/

namespace Verif.KernelVersion

/-! ### Specification -/

/-- A non-empty string of decimal digits. -/
def Number (s : PyStr) : Prop := s ≠ [] ∧ ∀ c ∈ s, c ∈ "0123456789".toList

/-- What the version numbers mean: `a` is older than `b` if its major number is smaller, or, for equal
major numbers, its minor number, then its stable number. A release candidate is older than the
release, release candidates are ordered by number. Otherwise, the local version strings decide, which
are compared character by character. -/
inductive Older : SplitKver → SplitKver → Prop
  | major {a b} : a.major < b.major → Older a b
  | minor {a b} : a.major = b.major → a.minor < b.minor → Older a b
  | stable {a b} : a.major = b.major → a.minor = b.minor → a.stable < b.stable → Older a b
  | rcRelease {a b n} : a.major = b.major → a.minor = b.minor → a.stable = b.stable →
      a.rc = some n → b.rc = none → Older a b
  | rc {a b n m} : a.major = b.major → a.minor = b.minor → a.stable = b.stable →
      a.rc = some n → b.rc = some m → n < m → Older a b
  | localPrefix {a b c s} : a.major = b.major → a.minor = b.minor → a.stable = b.stable →
      a.rc = b.rc → b.localver = a.localver ++ c :: s → Older a b
  | localChar {a b p c d s t} : a.major = b.major → a.minor = b.minor → a.stable = b.stable →
      a.rc = b.rc → a.localver = p ++ c :: s → b.localver = p ++ d :: t → c.toNat < d.toNat → Older a b

/-- How the numbers of a version are written: the stable number may be omitted if it is 0. -/
inductive Writes : PyStr → Nat → Nat → Nat → Prop
  | three (a b c : Nat) : Writes (PyStr.ofNat a ++ '.' :: (PyStr.ofNat b ++ '.' :: PyStr.ofNat c)) a b c
  | two (a b : Nat) : Writes (PyStr.ofNat a ++ '.' :: PyStr.ofNat b) a b 0

/-- A local version that cannot be confused with a continuation of the version: one line which begins
with neither a digit, nor a dot, nor "-rc". -/
def LocalVer (s : PyStr) : Prop :=
  '\n' ∉ s ∧ (∀ c, s.head? = some c → c ≠ '.' ∧ c ∉ "0123456789".toList) ∧ ¬ "-rc".toList <+: s

/-- A string which can follow the numbers of a version without becoming a part of them: one line which
begins with neither a digit nor a dot. -/
def Follows (s : PyStr) : Prop :=
  '\n' ∉ s ∧ ∀ c, s.head? = some c → c ≠ '.' ∧ c ∉ "0123456789".toList

/-! ### Lemmas -/

theorem mem_digits {c : Char} : c ∈ "0123456789".toList ↔ isDigit c = true := by
  rw [isDigit_iff]
  constructor
  · intro h
    have : ∀ c ∈ "0123456789".toList, 48 ≤ c.toNat ∧ c.toNat ≤ 57 := by decide +kernel
    exact this c h
  · intro h
    have h1 : c = Char.ofNat c.toNat := (Char.ofNat_toNat c).symm
    have h2 : ∀ n, n < 10 → Char.ofNat (48 + n) ∈ "0123456789".toList := by decide +kernel
    rw [h1]
    have := h2 (c.toNat - 48) (by omega)
    rwa [Nat.add_sub_cancel' h.1] at this

theorem strLt_iff (a b : PyStr) : strLt a b = true ↔
    (∃ c s, b = a ++ c :: s) ∨ ∃ p c d s t, a = p ++ c :: s ∧ b = p ++ d :: t ∧ c.toNat < d.toNat := by
  induction a generalizing b with
  | nil =>
    cases b with
    | nil => simp [strLt]
    | cons y b => simp [strLt]
  | cons x a ih =>
    cases b with
    | nil => simp [strLt]
    | cons y b =>
      rw [strLt]
      by_cases hxy : x = y
      · subst hxy
        rw [if_pos rfl, ih]
        constructor
        · rintro (⟨c, s, rfl⟩ | ⟨p, c, d, s, t, rfl, rfl, h⟩)
          · exact .inl ⟨c, s, rfl⟩
          · exact .inr ⟨x :: p, c, d, s, t, rfl, rfl, h⟩
        · rintro (⟨c, s, h⟩ | ⟨p, c, d, s, t, h1, h2, h⟩)
          · simp only [List.cons_append, List.cons.injEq, true_and] at h
            exact .inl ⟨c, s, h⟩
          · cases p with
            | nil =>
              simp only [List.nil_append, List.cons.injEq] at h1 h2
              rw [← h1.1, ← h2.1] at h
              omega
            | cons z p =>
              simp only [List.cons_append, List.cons.injEq] at h1 h2
              exact .inr ⟨p, c, d, s, t, h1.2, h2.2, h⟩
      · rw [if_neg hxy]
        constructor
        · intro h
          exact .inr ⟨[], x, y, a, b, rfl, rfl, of_decide_eq_true h⟩
        · rintro (⟨c, s, h⟩ | ⟨p, c, d, s, t, h1, h2, h⟩)
          · simp only [List.cons_append, List.cons.injEq] at h
            exact absurd h.1.symm hxy
          · cases p with
            | nil =>
              simp only [List.nil_append, List.cons.injEq] at h1 h2
              rw [h1.1, h2.1]
              exact decide_eq_true h
            | cons z p =>
              simp only [List.cons_append, List.cons.injEq] at h1 h2
              exact absurd (h1.1.trans h2.1.symm) hxy

theorem lt_iff (a b : SplitKver) : lt a b = true ↔ Older a b := by
  obtain ⟨a1, a2, a3, a4, a5⟩ := a
  obtain ⟨b1, b2, b3, b4, b5⟩ := b
  unfold lt
  dsimp only
  constructor
  · intro h
    split at h
    · exact .major (of_decide_eq_true h)
    rename_i h1
    have h1 : a1 = b1 := Decidable.not_not.1 h1
    split at h
    · exact .minor h1 (of_decide_eq_true h)
    rename_i h2
    have h2 : a2 = b2 := Decidable.not_not.1 h2
    split at h
    · exact .stable h1 h2 (of_decide_eq_true h)
    rename_i h3
    have h3 : a3 = b3 := Decidable.not_not.1 h3
    split at h
    · cases a4 with
      | none => simp [rcLt] at h
      | some n => cases b4 with
        | none => exact .rcRelease h1 h2 h3 rfl rfl
        | some m => exact .rc h1 h2 h3 rfl rfl (of_decide_eq_true h)
    rename_i h4
    have h4 : a4 = b4 := Decidable.not_not.1 h4
    rcases (strLt_iff a5 b5).1 h with ⟨c, s, h5⟩ | ⟨p, c, d, s, t, h5, h6, h7⟩
    · exact .localPrefix h1 h2 h3 h4 h5
    · exact .localChar h1 h2 h3 h4 h5 h6 h7
  · intro h
    cases h with
    | major h => rw [if_pos (Nat.ne_of_lt h)]; exact decide_eq_true h
    | minor h1 h =>
      rw [if_neg (not_not_intro h1), if_pos (Nat.ne_of_lt h)]; exact decide_eq_true h
    | stable h1 h2 h =>
      rw [if_neg (not_not_intro h1), if_neg (not_not_intro h2), if_pos (Nat.ne_of_lt h)]
      exact decide_eq_true h
    | rcRelease h1 h2 h3 h4 h5 =>
      rw [if_neg (not_not_intro h1), if_neg (not_not_intro h2), if_neg (not_not_intro h3)]
      dsimp only at h4 h5
      rw [h4, h5, if_pos (by simp)]
      rfl
    | rc h1 h2 h3 h4 h5 h6 =>
      rw [if_neg (not_not_intro h1), if_neg (not_not_intro h2), if_neg (not_not_intro h3)]
      dsimp only at h4 h5
      rw [h4, h5, if_pos (by intro h; injection h; omega)]
      exact decide_eq_true h6
    | localPrefix h1 h2 h3 h4 h5 =>
      rw [if_neg (not_not_intro h1), if_neg (not_not_intro h2), if_neg (not_not_intro h3),
        if_neg (not_not_intro h4)]
      exact (strLt_iff _ _).2 (.inl ⟨_, _, h5⟩)
    | localChar h1 h2 h3 h4 h5 h6 h7 =>
      rw [if_neg (not_not_intro h1), if_neg (not_not_intro h2), if_neg (not_not_intro h3),
        if_neg (not_not_intro h4)]
      exact (strLt_iff _ _).2 (.inr ⟨_, _, _, _, _, h5, h6, h7⟩)

theorem older_irrefl (a : SplitKver) : ¬ Older a a := by
  intro h
  have := (lt_iff a a).2 h
  unfold lt at this
  simp [strLt_irrefl] at this

theorem older_trans {a b c : SplitKver} (h1 : Older a b) (h2 : Older b c) : Older a c := by
  rw [← lt_iff] at h1 h2 ⊢
  obtain ⟨a1, a2, a3, a4, a5⟩ := a
  obtain ⟨b1, b2, b3, b4, b5⟩ := b
  obtain ⟨c1, c2, c3, c4, c5⟩ := c
  unfold lt at *
  dsimp only at *
  by_cases e1 : a1 = b1
  · subst e1
    by_cases f1 : a1 = c1
    · subst f1
      simp only [ne_eq, not_true_eq_false, if_false] at h1 h2 ⊢
      by_cases e2 : a2 = b2
      · subst e2
        by_cases f2 : a2 = c2
        · subst f2
          simp only [not_true_eq_false, if_false] at h1 h2 ⊢
          by_cases e3 : a3 = b3
          · subst e3
            by_cases f3 : a3 = c3
            · subst f3
              simp only [not_true_eq_false, if_false] at h1 h2 ⊢
              by_cases e4 : a4 = b4
              · subst e4
                by_cases f4 : a4 = c4
                · subst f4
                  simp only [not_true_eq_false, if_false] at h1 h2 ⊢
                  exact strLt_trans h1 h2
                · rw [if_pos f4] at h2 ⊢; exact h2
              · rw [if_pos e4] at h1
                by_cases f4 : b4 = c4
                · subst f4
                  rw [if_pos e4]; exact h1
                · rw [if_pos f4] at h2
                  cases a4 <;> cases b4 <;> cases c4 <;> simp [rcLt] at h1 h2 ⊢
                  rename_i x y z
                  have : x < z := by omega
                  rw [if_neg (by omega)]
                  exact this
            · rw [if_pos f3] at h2 ⊢; exact h2
          · rw [if_pos e3] at h1
            by_cases f3 : b3 = c3
            · subst f3; rw [if_pos e3]; exact h1
            · rw [if_pos f3] at h2
              have := of_decide_eq_true h1
              have := of_decide_eq_true h2
              rw [if_pos (by omega)]; exact decide_eq_true (by omega)
        · rw [if_pos f2] at h2 ⊢; exact h2
      · rw [if_pos e2] at h1
        by_cases f2 : b2 = c2
        · subst f2; rw [if_pos e2]; exact h1
        · rw [if_pos f2] at h2
          have := of_decide_eq_true h1
          have := of_decide_eq_true h2
          rw [if_pos (by omega)]; exact decide_eq_true (by omega)
    · rw [if_pos f1] at h2 ⊢; exact h2
  · rw [if_pos e1] at h1
    by_cases f1 : b1 = c1
    · subst f1; rw [if_pos e1]; exact h1
    · rw [if_pos f1] at h2
      have := of_decide_eq_true h1
      have := of_decide_eq_true h2
      rw [if_pos (by omega)]; exact decide_eq_true (by omega)

theorem older_connected {a b : SplitKver} (h1 : ¬ Older a b) (h2 : ¬ Older b a) : a = b := by
  rw [← lt_iff, Bool.not_eq_true] at h1 h2
  obtain ⟨a1, a2, a3, a4, a5⟩ := a
  obtain ⟨b1, b2, b3, b4, b5⟩ := b
  unfold lt at *
  dsimp only at *
  by_cases e1 : a1 = b1
  · subst e1
    by_cases e2 : a2 = b2
    · subst e2
      by_cases e3 : a3 = b3
      · subst e3
        by_cases e4 : a4 = b4
        · subst e4
          simp only [ne_eq, not_true_eq_false, if_false] at h1 h2
          rw [strLt_connected h1 h2]
        · simp only [ne_eq, not_true_eq_false, if_false] at h1 h2
          rw [if_pos e4] at h1
          rw [if_pos (fun h => e4 h.symm)] at h2
          cases a4 <;> cases b4 <;> simp [rcLt] at h1 h2 e4
          omega
      · simp only [ne_eq, not_true_eq_false, if_false] at h1 h2
        rw [if_pos e3] at h1
        rw [if_pos (fun h => e3 h.symm)] at h2
        have := of_decide_eq_false h1
        have := of_decide_eq_false h2
        omega
    · simp only [ne_eq, not_true_eq_false, if_false] at h1 h2
      rw [if_pos e2] at h1
      rw [if_pos (fun h => e2 h.symm)] at h2
      have := of_decide_eq_false h1
      have := of_decide_eq_false h2
      omega
  · rw [if_pos e1] at h1
    rw [if_pos (fun h => e1 h.symm)] at h2
    have := of_decide_eq_false h1
    have := of_decide_eq_false h2
    omega

theorem noDigit_local {s : PyStr} (h : LocalVer s) : NoDigit s := by
  intro c hc
  have h1 := (h.2.1 c hc).2
  rw [mem_digits] at h1
  exact Bool.eq_false_iff.2 h1

theorem restOfLine_eq {s : PyStr} (h : '\n' ∉ s) : restOfLine s = s := by
  unfold restOfLine
  induction s with
  | nil => rfl
  | cons c s ih =>
    rw [List.mem_cons, not_or] at h
    have hc : c ≠ '\n' := fun e => h.1 e.symm
    simp only [List.takeWhile, decide_eq_true hc, ih h.2]

theorem fetchRc_local {s : PyStr} (h : LocalVer s) : fetchRc s = (none, s) := by
  unfold fetchRc
  split
  · rename_i t
    exact absurd ⟨t, rfl⟩ h.2.2
  · rfl

theorem fetchRc_rc {s : PyStr} (n : Nat) (h : LocalVer s) :
    fetchRc ('-' :: 'r' :: 'c' :: (PyStr.ofNat n ++ s)) = (some n, s) := by
  unfold fetchRc
  simp only [digits_append (isDigit_ofNat n) (PyStr.ofNat_ne_nil n) (noDigit_local h), toNum_ofNat,
    restOfLine_eq h.1]

theorem splitKver_writes {v t : PyStr} {a b c : Nat} (h : Writes v a b c) (hd : NoDigit t)
    (hdot : t.head? ≠ some '.') (hn : '\n' ∉ t) :
    splitKver (v ++ t) = .ok ⟨a, b, c, (fetchRc t).1, (fetchRc t).2⟩ := by
  have nd : ∀ s, NoDigit ('.' :: s) := fun s => noDigit_cons (by decide)
  cases h with
  | three a b c =>
    unfold splitKver
    simp only [List.append_assoc, List.cons_append,
      digits_append (isDigit_ofNat a) (PyStr.ofNat_ne_nil a) (nd _),
      digits_append (isDigit_ofNat b) (PyStr.ofNat_ne_nil b) (nd _), fetchStable,
      digits_append (isDigit_ofNat c) (PyStr.ofNat_ne_nil c) hd, toNum_ofNat, restOfLine_eq hn]
  | two a b =>
    have hs : fetchStable t = (0, t) := by
      unfold fetchStable
      split
      · exact absurd rfl hdot
      · rfl
    unfold splitKver
    simp only [List.append_assoc, List.cons_append,
      digits_append (isDigit_ofNat a) (PyStr.ofNat_ne_nil a) (nd _),
      digits_append (isDigit_ofNat b) (PyStr.ofNat_ne_nil b) hd, toNum_ofNat, hs, restOfLine_eq hn]

theorem local_head {s : PyStr} (h : LocalVer s) : s.head? ≠ some '.' := by
  intro h1
  exact (h.2.1 _ h1).1 rfl

theorem kverLt_ok {x y : PyStr} {b : Bool} (h : kverLt x y = .ok b) :
    ∃ a c, splitKver x = .ok a ∧ splitKver y = .ok c ∧ b = lt a c := by
  unfold kverLt at h
  split at h
  · cases h
  rename_i a ha
  split at h
  · cases h
  rename_i c hc
  injection h with h
  exact ⟨a, c, ha, hc, h.symm⟩

/-! ### Properties -/

/-- C46: the parser accepts exactly the strings which begin with two numbers separated with a dot. -/
theorem C46_accepts (s : PyStr) :
    (∃ v, splitKver s = .ok v) ↔ ∃ a b rest, Number a ∧ Number b ∧ s = a ++ '.' :: (b ++ rest) := by
  have num : ∀ {d : PyStr}, d ≠ [] → (∀ c ∈ d, isDigit c = true) → Number d :=
    fun h1 h2 => ⟨h1, fun c hc => mem_digits.2 (h2 c hc)⟩
  constructor
  · rintro ⟨v, hv⟩
    unfold splitKver at hv
    split at hv
    · rename_i d1 t1 hd1
      split at hv
      · rename_i d2 t2 hd2
        obtain ⟨e1, n1, a1, -⟩ := digits_eq_some hd1
        obtain ⟨e2, n2, a2, -⟩ := digits_eq_some hd2
        exact ⟨d1, d2, t2, num n1 a1, num n2 a2, by rw [e1, e2]⟩
      · cases hv
    · cases hv
  · rintro ⟨a, b, rest, ⟨na, ha⟩, ⟨nb, hb⟩, rfl⟩
    have ha : ∀ c ∈ a, isDigit c = true := fun c hc => mem_digits.1 (ha c hc)
    have hb : ∀ c ∈ b, isDigit c = true := fun c hc => mem_digits.1 (hb c hc)
    unfold splitKver
    simp only [digits_append ha na (noDigit_cons (by decide) : NoDigit ('.' :: _))]
    cases hd : digits (b ++ rest) with
    | some p => exact ⟨_, rfl⟩
    | none =>
      have := digits_eq_none hd
      cases b with
      | nil => exact absurd rfl nb
      | cons c b =>
        have h1 := this c rfl
        rw [hb c List.mem_cons_self] at h1
        cases h1

example : splitKver "5.13".toList = .ok ⟨5, 13, 0, none, []⟩ := by decide +kernel
example : splitKver "v5.13".toList = .error .error := by decide +kernel

/-- C46: a version is parsed into the numbers it is written with; the stable number may be omitted,
the release candidate number and the local version are recognised. -/
theorem C46_components {v l : PyStr} {a b c : Nat} (n : Nat) (h : Writes v a b c) (hl : LocalVer l) :
    splitKver (v ++ l) = .ok ⟨a, b, c, none, l⟩ ∧
    splitKver (v ++ ("-rc".toList ++ (PyStr.ofNat n ++ l))) = .ok ⟨a, b, c, some n, l⟩ := by
  constructor
  · rw [splitKver_writes h (noDigit_local hl) (local_head hl) hl.1, fetchRc_local hl]
  · have e : "-rc".toList ++ (PyStr.ofNat n ++ l) = '-' :: 'r' :: 'c' :: (PyStr.ofNat n ++ l) := rfl
    rw [e, splitKver_writes h (noDigit_cons (by decide)) (by simp), fetchRc_rc n hl]
    intro hm
    simp only [List.mem_cons, List.mem_append] at hm
    rcases hm with hm | hm | hm | hm | hm
    · exact absurd hm (by decide)
    · exact absurd hm (by decide)
    · exact absurd hm (by decide)
    · exact absurd (isDigit_ofNat n _ hm) (by decide)
    · exact hl.1 hm

example : Writes "6.1.12".toList 6 1 12 ∧ LocalVer "-build0".toList := by
  have e : "6.1.12".toList = PyStr.ofNat 6 ++ '.' :: (PyStr.ofNat 1 ++ '.' :: PyStr.ofNat 12) := by
    decide +kernel
  refine ⟨by rw [e]; exact .three 6 1 12, by decide +kernel, ?_, ?_⟩
  · intro c hc
    have : c = '-' := by simpa using hc.symm
    subst this
    decide
  · decide +kernel

/-- C46: `kver_lt()` decides the order of versions, for all strings the parser accepts. -/
theorem C46_order {x y : PyStr} {a b : SplitKver} (hx : splitKver x = .ok a) (hy : splitKver y = .ok b) :
    (kverLt x y = .ok true ↔ Older a b) ∧ (kverLt x y = .ok false ↔ ¬ Older a b) := by
  unfold kverLt
  simp only [hx, hy, Except.ok.injEq]
  rw [← lt_iff]
  exact ⟨Iff.rfl, by rw [Bool.not_eq_true]⟩

/-- C46: irreflexive. -/
theorem C46_irreflexive {x : PyStr} {a : SplitKver} (hx : splitKver x = .ok a) : kverLt x x = .ok false :=
  (C46_order hx hx).2.2 (older_irrefl a)

/-- C46: transitive. -/
theorem C46_transitive {x y z : PyStr} (h1 : kverLt x y = .ok true) (h2 : kverLt y z = .ok true) :
    kverLt x z = .ok true := by
  obtain ⟨a, b, ha, hb, -⟩ := kverLt_ok h1
  obtain ⟨b', c, hb', hc, -⟩ := kverLt_ok h2
  rw [hb] at hb'
  injection hb' with hb'
  subst hb'
  exact (C46_order ha hc).1.2 (older_trans ((C46_order ha hb).1.1 h1) ((C46_order hb hc).1.1 h2))

/-- C46: versions with different components are ordered one way or the other, never both; versions
with the same components in neither way. -/
theorem C46_total {x y : PyStr} {a b : SplitKver} (hx : splitKver x = .ok a) (hy : splitKver y = .ok b) :
    (a ≠ b → (kverLt x y = .ok true ∧ kverLt y x = .ok false) ∨
      (kverLt x y = .ok false ∧ kverLt y x = .ok true)) ∧
    (a = b → kverLt x y = .ok false ∧ kverLt y x = .ok false) := by
  have asymm : ∀ {a b : SplitKver}, Older a b → ¬ Older b a :=
    fun h1 h2 => older_irrefl _ (older_trans h1 h2)
  constructor
  · intro hne
    by_cases h1 : Older a b
    · exact .inl ⟨(C46_order hx hy).1.2 h1, (C46_order hy hx).2.2 (asymm h1)⟩
    · by_cases h2 : Older b a
      · exact .inr ⟨(C46_order hx hy).2.2 h1, (C46_order hy hx).1.2 h2⟩
      · exact absurd (older_connected h1 h2) hne
  · rintro rfl
    exact ⟨(C46_order hx hy).2.2 (older_irrefl _), (C46_order hy hx).2.2 (older_irrefl _)⟩

/-- C46: `kver_ge()` is the negation, and both refuse the same strings. -/
theorem C46_ge (x y : PyStr) :
    (kverGe x y = .ok true ↔ kverLt x y = .ok false) ∧ (kverGe x y = .ok false ↔ kverLt x y = .ok true) ∧
    ∀ e, kverGe x y = .error e ↔ kverLt x y = .error e := by
  unfold kverGe
  cases kverLt x y with
  | error e => simp
  | ok b => cases b <;> simp

/-- C46: a release candidate precedes its release (with any local versions) and the release
candidates with larger numbers. -/
theorem C46_rc {v w l m : PyStr} {a b c : Nat} (n k : Nat) (hv : Writes v a b c) (hw : Writes w a b c)
    (hl : LocalVer l) (hm : LocalVer m) :
    kverLt (v ++ ("-rc".toList ++ (PyStr.ofNat n ++ l))) (w ++ m) = .ok true ∧
    kverLt (w ++ m) (v ++ ("-rc".toList ++ (PyStr.ofNat n ++ l))) = .ok false ∧
    (n < k → kverLt (v ++ ("-rc".toList ++ (PyStr.ofNat n ++ l)))
      (w ++ ("-rc".toList ++ (PyStr.ofNat k ++ m))) = .ok true) := by
  have h1 := (C46_components n hv hl).2
  have h2 := (C46_components n hw hm).1
  have h3 := (C46_components k hw hm).2
  have o : Older ⟨a, b, c, some n, l⟩ ⟨a, b, c, none, m⟩ := .rcRelease rfl rfl rfl rfl rfl
  refine ⟨(C46_order h1 h2).1.2 o, (C46_order h2 h1).2.2 (fun h => older_irrefl _ (older_trans o h)), ?_⟩
  intro h
  exact (C46_order h1 h3).1.2 (.rc rfl rfl rfl rfl rfl h)

/-- C46: the numbers are compared as numbers, whatever follows them. -/
theorem C46_numbers {v w s t : PyStr} {a b c a' b' c' : Nat} (hv : Writes v a b c) (hw : Writes w a' b' c')
    (hs : Follows s) (ht : Follows t)
    (h : a < a' ∨ (a = a' ∧ (b < b' ∨ (b = b' ∧ c < c')))) :
    kverLt (v ++ s) (w ++ t) = .ok true ∧ kverLt (w ++ t) (v ++ s) = .ok false := by
  have nd : ∀ {s : PyStr}, Follows s → NoDigit s := fun h c hc =>
    Bool.eq_false_iff.2 (fun h1 => (h.2 c hc).2 (mem_digits.2 h1))
  have h1 := splitKver_writes hv (nd hs) (fun e => (hs.2 _ e).1 rfl) hs.1
  have h2 := splitKver_writes hw (nd ht) (fun e => (ht.2 _ e).1 rfl) ht.1
  have o : Older ⟨a, b, c, (fetchRc s).1, (fetchRc s).2⟩ ⟨a', b', c', (fetchRc t).1, (fetchRc t).2⟩ := by
    rcases h with h | ⟨h, h' | ⟨h', h''⟩⟩
    · exact .major h
    · exact .minor h h'
    · exact .stable h h' h''
  exact ⟨(C46_order h1 h2).1.2 o, (C46_order h2 h1).2.2 (fun h => older_irrefl _ (older_trans o h))⟩

example : kverLt "5.9.16-build0".toList "5.13-rc1".toList = .ok true := by decide +kernel
example : kverLt "5.13-rc1+".toList "5.13.0-generic".toList = .ok true := by decide +kernel
example : kverLt "5.13.0".toList "5.13".toList = .ok false := by decide +kernel
example : kverGe "6.1".toList "5.13".toList = .ok true := by decide +kernel

end Verif.KernelVersion
