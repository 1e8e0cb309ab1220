import Verif.Model.Trivial

/-!
Lemmas about number lists.
-/

namespace Verif.Trivial

open PyStr

/-! ### Decimal numbers -/

theorem digitVal_digitC (n : Nat) : digitVal (digitC n) = some (n % 10) := by
  unfold digitVal
  have h : n % 10 < 10 := Nat.mod_lt _ (by omega)
  simp only [digitC_toNat]
  rw [if_pos (by omega)]
  congr 1; omega

theorem digitC_ne_underscore (n : Nat) : digitC n ≠ '_' := by
  intro h
  have h1 := digitC_toNat n
  rw [h] at h1
  have : n % 10 < 10 := Nat.mod_lt _ (by omega)
  have h2 : ('_' : Char).toNat = 95 := by decide
  omega

theorem parseDigits_append_digit (b acc : Nat) (last : Bool) (s : PyStr) (n v : Nat) (hb : 10 ≤ b)
    (h : parseDigits b acc last s = some v) :
    parseDigits b acc last (s ++ [digitC n]) = some (v * b + n % 10) := by
  induction s generalizing acc last with
  | nil =>
    unfold parseDigits at h
    split at h
    · cases h
      have : n % 10 < b := by have := Nat.mod_lt n (show 0 < 10 by omega); omega
      simp [parseDigits, digitC_ne_underscore, digitVal_digitC, this]
    · cases h
  | cons c s ih =>
    simp only [List.cons_append]
    unfold parseDigits at h ⊢
    split at h
    · rename_i hc
      rw [if_pos hc]
      split at h
      · rename_i hl
        rw [if_pos hl]; exact ih _ _ h
      · cases h
    · rename_i hc
      rw [if_neg hc]
      cases hd : digitVal c with
      | none => rw [hd] at h; cases h
      | some d =>
        rw [hd] at h
        simp only at h ⊢
        split at h
        · rename_i hlt
          rw [if_pos hlt]; exact ih _ _ h
        · cases h

theorem parseDigits_ofNat (n : Nat) : parseDigits 10 0 false (ofNat n) = some n := by
  induction n using Nat.strongRecOn with
  | _ n ih =>
    unfold ofNat
    split
    · rename_i h
      simp [parseDigits, digitC_ne_underscore, digitVal_digitC, Nat.mod_eq_of_lt h, h]
    · rename_i h
      rw [parseDigits_append_digit 10 0 false _ n (n / 10) (by omega) (ih (n / 10) (by omega))]
      congr 1; omega

theorem ofNat_zero : ofNat 0 = ['0'] := by decide +kernel

theorem parseAuto_of_head {s : PyStr} (h : ∀ c, s.head? = some c → c.toNat ≠ 48) :
    parseAuto s = parseDigits 10 0 false s := by
  cases s with
  | nil => rfl
  | cons c s =>
    have hc : c ≠ '0' := fun e => h c rfl (by rw [e]; decide)
    unfold parseAuto
    split <;> simp_all

theorem parseAuto_ofNat (n : Nat) : parseAuto (ofNat n) = some n := by
  by_cases h : n = 0
  · subst h; rw [ofNat_zero]; decide +kernel
  · rw [parseAuto_of_head (ofNat_head n (by omega)), parseDigits_ofNat]

theorem ofNat_not_space (n : Nat) : ∀ c ∈ ofNat n, isSpace c = false := by
  intro c hc
  have h := ofNat_digits n c hc
  unfold isSpace
  simp only [Bool.or_eq_false_iff, Bool.and_eq_false_iff, decide_eq_false_iff_not, beq_eq_false_iff_ne]
  omega

theorem strip_ofNat (n : Nat) : strip (ofNat n) = ofNat n :=
  stripBy_of_stripped (stripped_of_all (ofNat_not_space n))

theorem strToInt_ofNat (n : Nat) : strToInt (ofNat n) = .ok (n : Int) := by
  unfold strToInt
  rw [strip_ofNat]
  cases h : ofNat n with
  | nil => exact absurd h (ofNat_ne_nil n)
  | cons c s =>
    have h1 : c ≠ '-' := fun e => ofNat_not_mem n (c := '-') (by decide) (by rw [h, e]; simp)
    have h2 : c ≠ '+' := fun e => ofNat_not_mem n (c := '+') (by decide) (by rw [h, e]; simp)
    have h3 := parseAuto_ofNat n
    rw [h] at h3
    split
    · rename_i heq
      exact absurd (List.cons.inj heq).1 h1
    · rename_i heq
      exact absurd (List.cons.inj heq).1 h2
    · rw [h3]; rfl

/-! ### Parsing elements -/

theorem parseElts_append {xs ys : List PyStr} {a b : List Int} (h1 : parseElts xs = .ok a)
    (h2 : parseElts ys = .ok b) : parseElts (xs ++ ys) = .ok (a ++ b) := by
  induction xs generalizing a with
  | nil => cases h1; exact h2
  | cons x xs ih =>
    unfold parseElts at h1
    rw [List.cons_append]
    unfold parseElts
    cases hx : parseElt x with
    | error e => rw [hx] at h1; cases h1
    | ok l =>
      rw [hx] at h1
      simp only at h1 ⊢
      cases hr : parseElts xs with
      | error e => rw [hr] at h1; cases h1
      | ok r =>
        rw [hr] at h1
        cases h1
        rw [ih hr, List.append_assoc]

theorem parseElt_ofNat (n : Nat) : parseElt (ofNat n) = .ok [(n : Int)] := by
  unfold parseElt
  have : (ofNat n).contains '-' = false := by
    simpa using ofNat_not_mem n (c := '-') (by decide)
  rw [this, strToInt_ofNat]; rfl

theorem parseElt_range (a b : Nat) (h : a ≤ b) :
    parseElt (ofNat a ++ '-' :: ofNat b) = .ok (intRange a b) := by
  unfold parseElt
  have ha : '-' ∉ ofNat a := ofNat_not_mem a (by decide)
  have hb : '-' ∉ ofNat b := ofNat_not_mem b (by decide)
  have h1 : (ofNat a ++ '-' :: ofNat b).contains '-' = true := by simp
  rw [h1, splitC_append ha, splitC_of_not_mem hb]
  have e1 : (ofNat a).isEmpty = false := by
    cases h : ofNat a with
    | nil => exact absurd h (ofNat_ne_nil a)
    | cons c s => rfl
  have e2 : (ofNat b).isEmpty = false := by
    cases h : ofNat b with
    | nil => exact absurd h (ofNat_ne_nil b)
    | cons c s => rfl
  have hgt : ¬ ((a : Int) > (b : Int)) := by omega
  simp [e1, e2, strToInt_ofNat, hgt]

/-! ### Groups -/

/-- Consecutive numbers. -/
inductive Run : List Int → Prop
  | one (x : Int) : Run [x]
  | cons (x : Int) {l : List Int} : Run ((x + 1) :: l) → Run (x :: (x + 1) :: l)

theorem groups_spec (idx : Int) (l : List Int) :
    (groups idx l).flatten = l ∧ (∀ g ∈ groups idx l, Run g) ∧
    (∀ x t, l = x :: t → ∃ g gs, groups idx l = (x :: g) :: gs) := by
  induction l generalizing idx with
  | nil => exact ⟨rfl, by simp [groups], by simp⟩
  | cons x l ih =>
    cases l with
    | nil =>
      refine ⟨rfl, ?_, ?_⟩
      · intro g hg
        simp only [groups, List.mem_singleton] at hg
        subst hg; exact Run.one x
      · intro y t h
        cases h
        exact ⟨[], [], rfl⟩
    | cons y l =>
      obtain ⟨h1, h2, h3⟩ := ih (idx + 1)
      unfold groups
      split
      · rename_i hk
        obtain ⟨g, gs, hg⟩ := h3 y l rfl
        rw [hg] at h1 h2 ⊢
        have hy : y = x + 1 := by omega
        refine ⟨?_, ?_, ?_⟩
        · simpa using h1
        · intro g' hg'
          rcases List.mem_cons.1 hg' with rfl | hg'
          · have := h2 (y :: g) (by simp)
            subst hy
            exact Run.cons x this
          · exact h2 g' (by simp [hg'])
        · intro x' t h
          cases h
          exact ⟨_, _, rfl⟩
      · refine ⟨by simpa using h1, ?_, ?_⟩
        · intro g' hg'
          rcases List.mem_cons.1 hg' with rfl | hg'
          · exact Run.one x
          · exact h2 g' hg'
        · intro x' t h
          cases h
          exact ⟨_, _, rfl⟩

theorem Run.ne_nil {g : List Int} (h : Run g) : g ≠ [] := by cases h <;> simp

theorem intRange_cons {a b : Int} (h : a ≤ b) : intRange a b = a :: intRange (a + 1) b := by
  unfold intRange
  have : (b - a + 1).toNat = (b - (a + 1) + 1).toNat + 1 := by omega
  rw [this, List.range_succ_eq_map]
  simp only [List.map_cons, List.map_map]
  congr 1
  · simp
  · apply List.map_congr_left
    intro i _
    simp only [Function.comp]
    omega

theorem run_eq {g : List Int} (h : Run g) :
    g.headD 0 ≤ g.getLastD 0 ∧ g = intRange (g.headD 0) (g.getLastD 0) := by
  induction h with
  | one x =>
    refine ⟨by simp, ?_⟩
    simp [intRange]
  | @cons x l h ih =>
    have e1 : (x :: (x + 1) :: l).getLastD 0 = ((x + 1) :: l).getLastD 0 := by
      simp [List.getLastD, List.getLast_cons]
    rw [e1]
    simp only [List.headD_cons] at ih ⊢
    refine ⟨by omega, ?_⟩
    rw [intRange_cons (by omega), ← ih.2]

theorem getLastD_mem {g : List Int} (h : g ≠ []) : g.getLastD 0 ∈ g := by
  cases g with
  | nil => exact absurd rfl h
  | cons x l =>
    simp only [List.getLastD]
    exact List.getLast_mem _

theorem headD_mem {g : List Int} (h : g ≠ []) : g.headD 0 ∈ g := by
  cases g with
  | nil => exact absurd rfl h
  | cons x l => simp

theorem ofInt_nonneg {x : Int} (h : 0 ≤ x) : ofInt x = ofNat x.toNat := by
  obtain ⟨n, rfl⟩ := Int.eq_ofNat_of_zero_le h
  rfl

theorem parseElts_ofInts (l : List Int) (h : ∀ x ∈ l, 0 ≤ x) : parseElts (l.map ofInt) = .ok l := by
  induction l with
  | nil => rfl
  | cons x l ih =>
    have hx := h x (by simp)
    simp only [List.map_cons]
    unfold parseElts
    rw [ofInt_nonneg hx, parseElt_ofNat, ih (fun y hy => h y (by simp [hy]))]
    simp [Int.toNat_of_nonneg hx]

theorem parseElts_groupStrs {g : List Int} (hr : Run g) (h : ∀ x ∈ g, 0 ≤ x) :
    parseElts (groupStrs g) = .ok g := by
  unfold groupStrs
  split
  · obtain ⟨h1, h2⟩ := run_eq hr
    have e1 := h _ (headD_mem hr.ne_nil)
    have e2 := h _ (getLastD_mem hr.ne_nil)
    rw [ofInt_nonneg e1, ofInt_nonneg e2]
    unfold parseElts
    rw [parseElt_range _ _ (by omega)]
    simp only [parseElts, List.append_nil]
    rw [Int.toNat_of_nonneg e1, Int.toNat_of_nonneg e2, ← h2]
  · exact parseElts_ofInts g h

theorem parseElts_groups {gs : List (List Int)} (hr : ∀ g ∈ gs, Run g) (h : ∀ g ∈ gs, ∀ x ∈ g, 0 ≤ x) :
    parseElts (gs.flatMap groupStrs) = .ok gs.flatten := by
  induction gs with
  | nil => rfl
  | cons g gs ih =>
    rw [List.flatMap_cons, List.flatten_cons]
    exact parseElts_append (parseElts_groupStrs (hr g (by simp)) (h g (by simp)))
      (ih (fun g hg => hr g (by simp [hg])) (fun g hg => h g (by simp [hg])))

/-! ### Lines -/

/-- A string of digits and dashes that starts and ends with a digit. -/
def Plain (s : PyStr) : Prop :=
  s ≠ [] ∧ ∀ c ∈ s, (48 ≤ c.toNat ∧ c.toNat ≤ 57) ∨ c = '-'

theorem plain_ofInt {x : Int} (h : 0 ≤ x) : Plain (ofInt x) := by
  rw [ofInt_nonneg h]
  exact ⟨ofNat_ne_nil _, fun c hc => Or.inl (ofNat_digits _ c hc)⟩

theorem plain_groupStrs {g : List Int} (hr : g ≠ []) (h : ∀ x ∈ g, 0 ≤ x) :
    ∀ s ∈ groupStrs g, Plain s := by
  unfold groupStrs
  split
  · intro s hs
    simp only [List.mem_singleton] at hs
    subst hs
    obtain ⟨_, h1⟩ := plain_ofInt (h _ (headD_mem hr))
    obtain ⟨_, h2⟩ := plain_ofInt (h _ (getLastD_mem hr))
    refine ⟨by simp, fun c hc => ?_⟩
    rcases List.mem_append.1 hc with hc | hc
    · exact h1 c hc
    · rcases List.mem_cons.1 hc with rfl | hc
      · exact Or.inr rfl
      · exact h2 c hc
  · intro s hs
    obtain ⟨x, hx, rfl⟩ := List.mem_map.1 hs
    exact plain_ofInt (h x hx)

theorem Plain.not_mem {s : PyStr} (h : Plain s) {c : Char} (hc : c.toNat < 48 ∨ 57 < c.toNat)
    (hc2 : c ≠ '-') : c ∉ s := by
  intro hm
  rcases h.2 c hm with h | h
  · omega
  · exact hc2 h

theorem Plain.strip {s : PyStr} (h : Plain s) : PyStr.strip s = s := by
  refine stripBy_of_stripped (stripped_of_all fun c hc => ?_)
  rcases h.2 c hc with h | h
  · unfold isSpace
    simp only [Bool.or_eq_false_iff, Bool.and_eq_false_iff, decide_eq_false_iff_not, beq_eq_false_iff_ne]
    omega
  · subst h; decide

theorem joinC_head {sep : Char} {parts : List PyStr} (hne : parts ≠ []) (h : ∀ p ∈ parts, Plain p)
    {c : Char} (hc : (joinC sep parts).head? = some c) : ∃ p ∈ parts, c ∈ p := by
  cases parts with
  | nil => exact absurd rfl hne
  | cons p ps =>
    refine ⟨p, by simp, ?_⟩
    cases hp : p with
    | nil => exact absurd hp (h p (by simp)).1
    | cons d s =>
      subst hp
      cases ps with
      | nil =>
        simp only [joinC, List.head?_cons, Option.some.injEq] at hc
        simp [hc]
      | cons q ps =>
        simp only [joinC, List.cons_append, List.head?_cons, Option.some.injEq] at hc
        simp [hc]

theorem joinC_last {sep : Char} {parts : List PyStr} (hne : parts ≠ []) (h : ∀ p ∈ parts, Plain p)
    {c : Char} (hc : (joinC sep parts).getLast? = some c) : ∃ p ∈ parts, c ∈ p := by
  induction parts with
  | nil => exact absurd rfl hne
  | cons p ps ih =>
    cases ps with
    | nil => exact ⟨p, by simp, List.mem_of_mem_getLast? (by simpa [joinC] using hc)⟩
    | cons q ps =>
      have hne2 : joinC sep (q :: ps) ≠ [] := by
        have := (h q (by simp)).1
        cases ps with
        | nil => simpa [joinC] using this
        | cons r ps => simp [joinC]
      have : (joinC sep (p :: q :: ps)).getLast? = (joinC sep (q :: ps)).getLast? := by
        simp only [joinC]
        rw [List.getLast?_append]
        cases hj : joinC sep (q :: ps) with
        | nil => exact absurd hj hne2
        | cons d s => simp [List.getLast?_cons]
      rw [this] at hc
      obtain ⟨p', hp', hcp⟩ := ih (by simp) (fun x hx => h x (by simp [hx])) hc
      exact ⟨p', by simp [hp'], hcp⟩

/-- Splitting a line made of plain elements gives the elements back. -/
theorem splitCsvLine_join {parts : List PyStr} (h : ∀ p ∈ parts, Plain p) (dedup : Bool) :
    splitCsvLine (joinC ',' parts) ',' dedup = if dedup then pyDedup parts else parts := by
  by_cases hne : parts = []
  · subst hne
    cases dedup <;> decide +kernel
  · unfold splitCsvLine
    have hcomma : ∀ p ∈ parts, ',' ∉ p := fun p hp => (h p hp).not_mem (by decide) (by decide)
    have hs : stripBy (· == ',') (joinC ',' parts) = joinC ',' parts := by
      refine stripBy_of_stripped ⟨fun c hc => ?_, fun c hc => ?_⟩
      · obtain ⟨p, hp, hcp⟩ := joinC_head hne h hc
        exact beq_eq_false_iff_ne.2 fun e => hcomma p hp (e ▸ hcp)
      · obtain ⟨p, hp, hcp⟩ := joinC_last hne h hc
        exact beq_eq_false_iff_ne.2 fun e => hcomma p hp (e ▸ hcp)
    have hf : parts.filter (fun v => !v.isEmpty) = parts := by
      rw [List.filter_eq_self]
      intro p hp
      have := (h p hp).1
      cases p <;> simp_all
    have hm : parts.map strip = parts := by
      conv => rhs; rw [← List.map_id parts]
      exact List.map_congr_left (fun p hp => (h p hp).strip)
    simp only [hs, splitC_joinC hne hcomma, hf, hm, listDedup]

theorem splitC_snoc (c : Char) (s : PyStr) : splitC c (s ++ [c]) = splitC c s ++ [[]] := by
  induction s with
  | nil => simp [splitC]
  | cons x s ih =>
    simp only [List.cons_append, splitC]
    split
    · rw [ih]; rfl
    · rw [ih]
      cases h : splitC c s with
      | nil => exact absurd h (splitC_ne_nil c s)
      | cons p ps => simp

theorem filter_splitC_lstrip (c : Char) (s : PyStr) :
    (splitC c (lstripBy (· == c) s)).filter (fun v => !v.isEmpty) =
      (splitC c s).filter (fun v => !v.isEmpty) := by
  induction s with
  | nil => rfl
  | cons x s ih =>
    unfold lstripBy List.dropWhile
    split
    · rename_i hx
      have hx : x = c := by simpa using hx
      conv => rhs; unfold splitC
      rw [if_pos hx]
      simpa [lstripBy] using ih
    · rfl

theorem filter_splitC_rstrip (c : Char) (s : PyStr) :
    (splitC c (rstripBy (· == c) s)).filter (fun v => !v.isEmpty) =
      (splitC c s).filter (fun v => !v.isEmpty) := by
  unfold rstripBy
  have : ∀ t : PyStr, (splitC c (t.dropWhile (· == c)).reverse).filter (fun v => !v.isEmpty) =
      (splitC c t.reverse).filter (fun v => !v.isEmpty) := by
    intro t
    induction t with
    | nil => rfl
    | cons x t ih =>
      unfold List.dropWhile
      split
      · rename_i hx
        have hx : x = c := by simpa using hx
        subst hx
        rw [List.reverse_cons, splitC_snoc, List.filter_append]
        simpa using ih
      · rfl
  have := this s.reverse
  rwa [List.reverse_reverse] at this

/-- Stripping the separators does not change the non-empty elements. -/
theorem splitCsvLine_eq (line : PyStr) (sep : Char) :
    splitCsvLine line sep false = ((splitC sep line).filter (fun v => !v.isEmpty)).map strip := by
  simp only [splitCsvLine, stripBy, filter_splitC_rstrip, filter_splitC_lstrip, Bool.false_eq_true,
    if_false]

theorem splitCsvLine_dedup (line : PyStr) (sep : Char) :
    splitCsvLine line sep true = pyDedup (splitCsvLine line sep false) := rfl

theorem ofNat_inj {a b : Nat} (h : ofNat a = ofNat b) : a = b := by
  have h1 := parseDigits_ofNat a
  rw [h, parseDigits_ofNat] at h1
  exact (Option.some.inj h1).symm

theorem parseElts_canonical {l : List PyStr} (h : ∀ v ∈ l, ∃ n, v = ofNat n) (hn : l.Nodup) :
    ∃ r, parseElts l = .ok r ∧ r.Nodup ∧ ∀ x, x ∈ r ↔ ∃ n : Nat, x = n ∧ ofNat n ∈ l := by
  induction l with
  | nil => exact ⟨[], rfl, List.nodup_nil, by simp⟩
  | cons v l ih =>
    rw [List.nodup_cons] at hn
    obtain ⟨n, rfl⟩ := h v (by simp)
    obtain ⟨r, h1, h2, h3⟩ := ih (fun v hv => h v (by simp [hv])) hn.2
    refine ⟨(n : Int) :: r, ?_, ?_, ?_⟩
    · unfold parseElts
      rw [parseElt_ofNat, h1]; rfl
    · rw [List.nodup_cons]
      refine ⟨fun hm => ?_, h2⟩
      obtain ⟨m, hm1, hm2⟩ := (h3 _).1 hm
      have : n = m := by omega
      subst this
      exact hn.1 hm2
    · intro x
      rw [List.mem_cons, h3]
      constructor
      · rintro (rfl | ⟨m, hm1, hm2⟩)
        · exact ⟨n, rfl, by simp⟩
        · exact ⟨m, hm1, by simp [hm2]⟩
      · rintro ⟨m, hm1, hm2⟩
        rcases List.mem_cons.1 hm2 with h | h
        · exact Or.inl (by rw [hm1, ofNat_inj h])
        · exact Or.inr ⟨m, hm1, h⟩

end Verif.Trivial
