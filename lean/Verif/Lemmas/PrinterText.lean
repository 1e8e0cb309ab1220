import Verif.Model.PrinterText
import Verif.Props.PrinterTextSpec
import Verif.Props.Trivial
import Verif.Props.Topology

/-!
Helper lemmas for C78.
-/

namespace Verif.PrinterText

open CPUInfo
open PropsYaml (rangifyN)

/-- Texts of numbers and ranges. -/
def NumText (s : PyStr) : Prop := ∀ c ∈ s, (48 ≤ c.toNat ∧ c.toNat ≤ 57) ∨ c = '-' ∨ c = ','

theorem numText_rangify (l : List Nat) : NumText (rangifyN l) := by
  unfold rangifyN Trivial.rangify
  have hg := Trivial.groups_spec 0 (sortBy (fun a b : Int => decide (a ≤ b)) (l.map Int.ofNat))
  generalize hgs : Trivial.groups 0 (sortBy (fun a b : Int => decide (a ≤ b)) (l.map Int.ofNat)) = gs at hg
  have hpl : ∀ p ∈ gs.flatMap Trivial.groupStrs, Trivial.Plain p := by
    intro p hp
    obtain ⟨g, hgm, hpg⟩ := List.mem_flatMap.1 hp
    refine Trivial.plain_groupStrs (hg.2.1 g hgm).ne_nil (fun x hx => ?_) p hpg
    have : x ∈ sortBy (fun a b : Int => decide (a ≤ b)) (l.map Int.ofNat) := by
      rw [← hg.1]; exact List.mem_flatten.2 ⟨g, hgm, hx⟩
    rw [mem_sortBy] at this
    obtain ⟨n, _, rfl⟩ := List.mem_map.1 this
    exact Int.natCast_nonneg n
  generalize gs.flatMap Trivial.groupStrs = parts at hpl
  induction parts with
  | nil => intro c hc; cases hc
  | cons p ps ih =>
    cases ps with
    | nil =>
      intro c hc
      rcases (hpl p (by simp)).2 c hc with h | h
      · exact Or.inl h
      · exact Or.inr (Or.inl h)
    | cons q ps =>
      intro c hc
      rcases List.mem_append.1 hc with h | h
      · rcases (hpl p (by simp)).2 c h with h | h
        · exact Or.inl h
        · exact Or.inr (Or.inl h)
      · rcases List.mem_cons.1 h with rfl | h
        · exact Or.inr (Or.inr rfl)
        · exact ih (fun p hp => hpl p (by simp [hp])) c h

theorem NumText.no_space {s : PyStr} (h : NumText s) : ' ' ∉ s := by
  intro hm
  rcases h _ hm with h | h | h
  · have : (' ' : Char).toNat = 32 := by decide
    omega
  · cases h
  · cases h

theorem ints_rangify (l : List Nat) : ∃ r, ints (rangifyN l) = some r ∧ r.Perm l := by
  obtain ⟨r, h1, h2, _⟩ := Trivial.C23_rangify_roundtrip l
  refine ⟨r, ?_, h2⟩
  unfold ints rangifyN
  rw [h1]
  simp [List.map_map, Function.comp_def]

theorem split_words {l : List PyStr} (hne : l ≠ []) (h : ∀ w ∈ l, ' ' ∉ w) : PyStr.splitC ' ' (words l) = l :=
  PyStr.splitC_joinC hne h

/-- Words without numbers. -/
theorem no_space_lits : ∀ w ∈ ["all".toList, "CPU".toList, "CPUs".toList, "(package".toList, "(packages".toList,
    "package".toList, "packages".toList, "die".toList, "dies".toList, "in".toList, "with".toList, "step".toList,
    "-".toList], ' ' ∉ w := by decide +kernel

theorem sameSet_iff {a b : List Nat} : sameSet a b = true ↔ ∀ n, n ∈ a ↔ n ∈ b := by
  unfold sameSet
  simp only [Bool.and_eq_true, List.all_eq_true, List.contains_iff_mem]
  exact ⟨fun ⟨h1, h2⟩ n => ⟨h1 n, h2 n⟩, fun h => ⟨fun n => (h n).1, fun n => (h n).2⟩⟩

theorem sameSet_false {a b : List Nat} (h : ¬ ∀ n, n ∈ a ↔ n ∈ b) : sameSet a b = false := by
  rw [← Bool.not_eq_true, sameSet_iff]
  exact h

/-- The words of a printed text. -/
theorem split2 {a b : PyStr} (ha : ' ' ∉ a) (hb : ' ' ∉ b) : PyStr.splitC ' ' (words [a, b]) = [a, b] :=
  split_words (by simp) (by simp [ha, hb])

theorem split4 {a b c d : PyStr} (ha : ' ' ∉ a) (hb : ' ' ∉ b) (hc : ' ' ∉ c) (hd : ' ' ∉ d) :
    PyStr.splitC ' ' (words [a, b, c, d]) = [a, b, c, d] :=
  split_words (by simp) (by simp [ha, hb, hc, hd])

theorem no_space_paren {s : PyStr} (h : ' ' ∉ s) : ' ' ∉ s ++ [')'] := by
  intro hm
  rcases List.mem_append.1 hm with hm | hm
  · exact h hm
  · exact absurd hm (by decide)

/-! ### Dies -/

/-- The dies of package `p`: the die numbers of its lines. -/
theorem diesCount_ok {i : Info} {p : Nat} (hp : p ≠ NA ∧ ∃ t ∈ i.topology, t.package = p) :
    ∃ r, packageToDies i p = .ok r ∧ getDiesCount i p = .ok r.length ∧ r.Nodup := by
  have h : ∃ r, packageToDies i p = .ok r := by
    unfold packageToDies
    rw [getLevelNums_isOk]
    refine ⟨by simp [Level.idx], ?_⟩
    rintro l hl n hn
    cases hl
    rw [List.mem_singleton] at hn
    subst hn
    exact hp
  obtain ⟨r, hr⟩ := h
  refine ⟨r, hr, ?_, nodup_getLevelNums hr⟩
  unfold getDiesCount
  rw [show getLevelNums i .die .package (.nums [p]) .die = .ok r from hr]

theorem length_le_of_subset {a b : List Nat} (ha : a.Nodup) (h : ∀ n ∈ a, n ∈ b) : a.length ≤ b.length := by
  induction a generalizing b with
  | nil => simp
  | cons x xs ih =>
    obtain ⟨h1, h2⟩ := List.nodup_cons.1 ha
    have hx := h x (by simp)
    have := ih h2 (b := b.erase x) fun n hn => (List.mem_erase_of_ne (by rintro rfl; exact h1 hn)).2 (h n (by simp [hn]))
    rw [List.length_erase_of_mem hx] at this
    have : 0 < b.length := List.length_pos_of_mem hx
    simp only [List.length_cons]
    omega

/-- A part of the dies has the same length only if it is all of them. -/
theorem same_of_length {a b : List Nat} (ha : a.Nodup) (h : ∀ n ∈ a, n ∈ b) (hl : a.length = b.length) :
    ∀ n, n ∈ a ↔ n ∈ b := by
  refine fun n => ⟨h n, fun hb => ?_⟩
  by_cases hn : n ∈ a
  · exact hn
  · have := length_le_of_subset (a := n :: a) (b := b) (List.nodup_cons.2 ⟨hn, ha⟩) (by
      intro m hm
      rcases List.mem_cons.1 hm with rfl | hm
      · exact hb
      · exact h m hm)
    simp only [List.length_cons] at this
    omega

theorem ints_ofNat (p : Nat) : ints (PyStr.ofNat p) = some [p] := by
  have hpl : Trivial.Plain (PyStr.ofNat p) := Trivial.plain_ofInt (Int.natCast_nonneg p)
  have h := Trivial.splitCsvLine_join (parts := [PyStr.ofNat p]) (by simpa using hpl) false
  have hj : PyStr.joinC ',' [PyStr.ofNat p] = PyStr.ofNat p := rfl
  rw [hj] at h
  unfold ints Trivial.splitCsvLineInt
  rw [h, if_neg (by simp)]
  have : Trivial.parseElts [PyStr.ofNat p] = .ok [(p : Int)] := by
    have := Trivial.parseElts_ofInts [(p : Int)] (by simp)
    exact this
  rw [this]
  simp

theorem takeWhile_no_comma {s : PyStr} (h : ',' ∉ s) : s.takeWhile (· != ',') = s := by
  induction s with
  | nil => rfl
  | cons c s ih =>
    simp only [List.mem_cons, not_or] at h
    rw [List.takeWhile_cons_of_pos, ih h.2]
    simpa using fun e => h.1 e.symm

theorem takeWhile_comma {s : PyStr} (h : ',' ∉ s) (t : PyStr) : (s ++ ',' :: t).takeWhile (· != ',') = s := by
  induction s with
  | nil => simp
  | cons c s ih =>
    simp only [List.mem_cons, not_or] at h
    rw [List.cons_append, List.takeWhile_cons_of_pos, ih h.2]
    simpa using fun e => h.1 e.symm

theorem comma_not_mem_ofNat (p : Nat) : ',' ∉ PyStr.ofNat p := PyStr.ofNat_not_mem p (by decide)

theorem readNum_ofNat (p : Nat) : readNum (PyStr.ofNat p) = some p := by
  unfold readNum
  rw [takeWhile_no_comma (comma_not_mem_ofNat p), ints_ofNat]

theorem readNum_comma (p : Nat) : readNum (PyStr.ofNat p ++ [',']) = some p := by
  unfold readNum
  rw [takeWhile_comma (comma_not_mem_ofNat p), ints_ofNat]

/-- The words of an item, and reading them. -/
theorem dieItem_spec (dies : Nat → List Nat) (pkg : Nat) (ds : List Nat) (hn : ds.Nodup) (hs : ∀ n ∈ ds, n ∈ dies pkg) :
    ∃ a b, dieItem pkg ds (dies pkg).length = [a, b, "in".toList, "package".toList, PyStr.ofNat pkg] ∧
      ' ' ∉ a ∧ ' ' ∉ b ∧ ∀ (e : PyStr) (rest : List PyStr) (r : List (Nat × Nat)), readNum e = some pkg →
        readItems dies rest = some r →
        ∃ l : List Nat, readItems dies (a :: b :: "in".toList :: "package".toList :: e :: rest) =
          some (l.map (pkg, ·) ++ r) ∧ ∀ n, n ∈ l ↔ n ∈ ds := by
  unfold dieItem
  by_cases h : ds.length = (dies pkg).length
  · rw [if_pos h]
    refine ⟨_, _, rfl, no_space_lits _ (by decide +kernel), no_space_lits _ (by decide +kernel), ?_⟩
    intro e rest r he hr
    refine ⟨dies pkg, ?_, fun n => (same_of_length hn hs h n).symm⟩
    rw [readItems, if_pos ⟨rfl, rfl⟩, he, hr]
    exact if_pos ⟨rfl, rfl⟩
  · rw [if_neg h]
    obtain ⟨l, hl, hlp⟩ := ints_rangify ds
    refine ⟨_, _, rfl, ?_, (numText_rangify ds).no_space, ?_⟩
    · split <;> exact no_space_lits _ (by decide +kernel)
    intro e rest r he hr
    refine ⟨l, ?_, fun n => hlp.mem_iff⟩
    have key : ∀ a : PyStr, a ≠ "all".toList → (a = "die".toList ∨ a = "dies".toList) →
        readItems dies (a :: rangifyN ds :: "in".toList :: "package".toList :: e :: rest) = some (l.map (pkg, ·) ++ r) := by
      intro a ha ha2
      rw [readItems, if_pos ⟨rfl, rfl⟩, he, hr]
      dsimp only
      rw [if_neg (fun hh => ha hh.1), if_pos ha2, hl]
    split
    · exact key _ (by decide +kernel) (Or.inl rfl)
    · exact key _ (by decide +kernel) (Or.inr rfl)

/-- The words of a list of dies, and reading them. -/
theorem dieItems_spec {i : Info} {packages : List Nat} (hpk : ∀ p ∈ packages, p ≠ NA ∧ ∃ t ∈ i.topology, t.package = p)
    {dies : Nat → List Nat} (hd : ∀ p ∈ packages, packageToDies i p = .ok (dies p)) (d : Dict Nat (List Nat))
    (hds : ∀ x ∈ d, x.1 ∈ packages ∧ x.2.Nodup ∧ ∀ n ∈ x.2, n ∈ dies x.1) (hne : d ≠ []) :
    ∃ items ws l, dieItems i d = .ok items ∧ joinComma (items.map words) = words ws ∧ (∀ w ∈ ws, ' ' ∉ w) ∧
      (∃ a b c, ws = a :: b :: "in".toList :: "package".toList :: c) ∧ 4 < ws.length ∧ items ≠ [] ∧
      readItems dies ws = some l ∧ ∀ p n, (p, n) ∈ l ↔ ∃ ds, (p, ds) ∈ d ∧ n ∈ ds := by
  induction d with
  | nil => exact absurd rfl hne
  | cons x d ih =>
    obtain ⟨pkg, ds⟩ := x
    obtain ⟨h1, h2, h3⟩ := hds (pkg, ds) (by simp)
    dsimp only at h1 h2 h3
    obtain ⟨a, b, e1, sa, sb, hrd⟩ := dieItem_spec dies pkg ds h2 h3
    obtain ⟨r, hr, hcnt, _⟩ := diesCount_ok (hpk pkg h1)
    rw [hd pkg h1] at hr
    cases hr
    have sin := no_space_lits "in".toList (by decide +kernel)
    have spk := no_space_lits "package".toList (by decide +kernel)
    have hpn : ' ' ∉ PyStr.ofNat pkg := PyStr.ofNat_not_mem pkg (by decide)
    rw [dieItems, hcnt]
    dsimp only
    cases d with
    | nil =>
      obtain ⟨l, hl, hlm⟩ := hrd (PyStr.ofNat pkg) [] [] (readNum_ofNat pkg) rfl
      refine ⟨[dieItem pkg ds (dies pkg).length], _, _, rfl, by rw [e1]; rfl, ?_, ⟨a, b, _, rfl⟩, by simp, by simp, hl, ?_⟩
      · intro w hw
        simp only [List.mem_cons, List.not_mem_nil, or_false] at hw
        rcases hw with rfl | rfl | rfl | rfl | rfl <;> assumption
      · intro p n
        simp only [List.append_nil, List.mem_map, Prod.mk.injEq, List.mem_singleton]
        constructor
        · rintro ⟨m, hm, rfl, rfl⟩
          exact ⟨ds, ⟨rfl, rfl⟩, (hlm m).1 hm⟩
        · rintro ⟨_, ⟨rfl, rfl⟩, hm⟩
          exact ⟨n, (hlm n).2 hm, rfl, rfl⟩
    | cons y d =>
      obtain ⟨items, ws, l', i1, i2, i3, ⟨a', b', c', i4⟩, i5, i6, i7, i8⟩ :=
        ih (fun x hx => hds x (by simp [hx])) (by simp)
      rw [i1]
      obtain ⟨l, hl, hlm⟩ := hrd (PyStr.ofNat pkg ++ [',']) ws l' (readNum_comma pkg) i7
      refine ⟨dieItem pkg ds (dies pkg).length :: items, _, _, rfl, ?_, ?_, ⟨a, b, _, rfl⟩, by simp, by simp, hl, ?_⟩
      · cases items with
        | nil => exact absurd rfl i6
        | cons it items =>
          rw [List.map_cons, List.map_cons, joinComma, ← List.map_cons, i2, e1, i4]
          simp only [words, PyStr.joinC, List.append_assoc, List.cons_append, List.nil_append]
      · intro w hw
        simp only [List.mem_cons] at hw
        rcases hw with rfl | rfl | rfl | rfl | rfl | hw
        · exact sa
        · exact sb
        · exact sin
        · exact spk
        · intro hm
          rcases List.mem_append.1 hm with hm | hm
          · exact hpn hm
          · exact absurd hm (by decide)
        · exact i3 w hw
      · intro p n
        rw [List.mem_append, i8]
        simp only [List.mem_map, Prod.mk.injEq]
        constructor
        · rintro (⟨m, hm, rfl, rfl⟩ | ⟨ds', h, h'⟩)
          · exact ⟨ds, by simp, (hlm m).1 hm⟩
          · exact ⟨ds', List.mem_cons_of_mem _ h, h'⟩
        · rintro ⟨ds', h, h'⟩
          rcases List.mem_cons.1 h with h | h
          · cases h
            exact Or.inl ⟨n, (hlm n).2 h', rfl, rfl⟩
          · exact Or.inr ⟨ds', h, h'⟩

/-- Whether all dies of the packages are there. -/
theorem allDies_spec {i : Info} {packages : List Nat} (hpk : ∀ p ∈ packages, p ≠ NA ∧ ∃ t ∈ i.topology, t.package = p)
    {dies : Nat → List Nat} (hd : ∀ p ∈ packages, packageToDies i p = .ok (dies p)) (d : Dict Nat (List Nat))
    (hds : ∀ x ∈ d, x.1 ∈ packages) (b : Bool) :
    ∃ r, allDies i d b = .ok r ∧ (r = true ↔ b = true ∧ ∀ x ∈ d, x.2.length = (dies x.1).length) := by
  induction d generalizing b with
  | nil => exact ⟨b, rfl, by simp⟩
  | cons x d ih =>
    obtain ⟨pkg, ds⟩ := x
    have h1 := hds (pkg, ds) (by simp)
    obtain ⟨r, hr, hcnt, _⟩ := diesCount_ok (hpk pkg h1)
    rw [hd pkg h1] at hr
    cases hr
    rw [allDies, hcnt]
    dsimp only
    obtain ⟨r, hr, hrt⟩ := ih (fun x hx => hds x (by simp [hx])) (if ds.length ≠ (dies pkg).length then false else b)
    refine ⟨r, hr, hrt.trans ?_⟩
    simp only [List.mem_cons, forall_eq_or_imp]
    by_cases h : ds.length = (dies pkg).length
    · rw [if_neg (by simpa using h)]
      simp [h]
    · rw [if_pos h]
      simp [h]

/-! ### Lists -/

/-- The words of a comma-separated list. -/
def commaWords : List PyStr → List PyStr
  | [] => []
  | [a] => [a]
  | a :: b :: l => (a ++ [',']) :: commaWords (b :: l)

theorem commaWords_ne_nil {a : PyStr} {l : List PyStr} : commaWords (a :: l) ≠ [] := by
  cases l <;> simp [commaWords]

theorem joinComma_eq (l : List PyStr) : joinComma l = words (commaWords l) := by
  induction l with
  | nil => rfl
  | cons a l ih =>
    cases l with
    | nil => rfl
    | cons b l =>
      rw [joinComma, ih, commaWords]
      unfold words
      cases h : commaWords (b :: l) with
      | nil => exact absurd h commaWords_ne_nil
      | cons c cs => simp [PyStr.joinC]

theorem mem_commaWords {l : List PyStr} {w : PyStr} (h : w ∈ commaWords l) : ∃ a ∈ l, w = a ∨ w = a ++ [','] := by
  induction l with
  | nil => cases h
  | cons a l ih =>
    cases l with
    | nil => exact ⟨a, by simp, Or.inl (by simpa [commaWords] using h)⟩
    | cons b l =>
      rw [commaWords] at h
      rcases List.mem_cons.1 h with rfl | h
      · exact ⟨a, by simp, Or.inr rfl⟩
      · obtain ⟨x, hx, hw⟩ := ih h
        exact ⟨x, by simp [hx], hw⟩

theorem mapM_commaWords (fmt : Int → PyStr) (rd : PyStr → Option Int) (val : List Int)
    (hin : ∀ v ∈ val, rd (fmt v) = some v ∧ ' ' ∉ fmt v ∧ ',' ∉ fmt v) :
    (commaWords (val.map fmt)).mapM (fun w => rd (w.takeWhile (· != ','))) = some val := by
  induction val with
  | nil => rfl
  | cons a val ih =>
    obtain ⟨h1, _, h3⟩ := hin a (by simp)
    have ih := ih fun v hv => hin v (by simp [hv])
    cases val with
    | nil => simp [commaWords, takeWhile_no_comma h3, h1]
    | cons b val =>
      simp only [List.map_cons] at ih ⊢
      rw [commaWords, List.mapM_cons, ih, takeWhile_comma h3, h1]
      rfl

theorem read_plain (fmt : Int → PyStr) (rd : PyStr → Option Int) (val : List Int) (hne : val ≠ [])
    (hin : ∀ v ∈ val, rd (fmt v) = some v ∧ ' ' ∉ fmt v ∧ ',' ∉ fmt v) (hd : rd ['-'] = none) :
    readList rd (joinComma (val.map fmt)) = some val := by
  rw [joinComma_eq]
  unfold readList
  have hsp : PyStr.splitC ' ' (words (commaWords (val.map fmt))) = commaWords (val.map fmt) := by
    refine split_words ?_ ?_
    · cases val with
      | nil => exact absurd rfl hne
      | cons a val => exact commaWords_ne_nil
    · intro w hw
      obtain ⟨a, ha, hw⟩ := mem_commaWords hw
      obtain ⟨v, hv, rfl⟩ := List.mem_map.1 ha
      rcases hw with rfl | rfl
      · exact (hin v hv).2.1
      · intro h
        rcases List.mem_append.1 h with h | h
        · exact (hin v hv).2.1 h
        · exact absurd h (by decide)
  rw [hsp]
  dsimp only
  rw [if_neg]
  · exact mapM_commaWords fmt rd val hin
  · intro h
    obtain ⟨a, ha, hw⟩ := mem_commaWords (List.mem_of_getElem? h)
    obtain ⟨v, hv, rfl⟩ := List.mem_map.1 ha
    rcases hw with hw | hw
    · have := (hin v hv).1
      rw [← hw, hd] at this
      cases this
    · have := congrArg List.getLast? hw
      rw [List.getLast?_concat] at this
      exact absurd this (by decide)

theorem sameStep_spec {step a : Int} {l : List Int} (h : sameStep step (a :: l) = true) :
    a :: l = (List.range (l.length + 1)).map fun n : Nat => a + n * step := by
  induction l generalizing a with
  | nil => simp
  | cons b l ih =>
    rw [sameStep] at h
    split at h
    · cases h
    · rename_i hb
      have hb : b = a + step := by omega
      rw [List.length_cons, List.range_succ_eq_map, List.map_cons, List.map_map, ih h]
      congr 1
      · simp
      · refine List.map_congr_left fun n _ => ?_
        simp only [Function.comp, Nat.succ_eq_add_one, Int.natCast_add, Int.add_mul, hb]
        omega

theorem detect_length {val : List Int} {k : Nat} (h : ¬ noStep (detectProgression val k) = true) : k ≤ val.length := by
  unfold detectProgression at h
  split at h
  · exact absurd rfl h
  · omega

/-- A progression that was found. -/
theorem detect_spec {val : List Int} {k : Nat} (h : ¬ noStep (detectProgression val k) = true) :
    ∃ step, detectProgression val k = some step ∧ step ≠ 0 ∧ ∀ a m, val = a :: m →
      a :: m = progression a ((a :: m).getLastD 0) step ∧ ∃ x ∈ a :: m, ∃ y ∈ a :: m, step = y - x := by
  cases hd : detectProgression val k with
  | none => rw [hd] at h; exact absurd rfl h
  | some step =>
    have h0 : step ≠ 0 := by
      rintro rfl
      rw [hd] at h
      exact h rfl
    refine ⟨step, rfl, h0, ?_⟩
    rintro a m rfl
    unfold detectProgression at hd
    split at hd
    · cases hd
    cases m with
    | nil => cases hd
    | cons b m =>
      dsimp only at hd
      split at hd
      · rename_i hs
        have hst : b - a = step := Option.some.inj hd
        rw [hst] at hs
        have hm := sameStep_spec hs
        refine ⟨?_, a, by simp, b, by simp, hst.symm⟩
        have hl : (a :: b :: m).getLastD 0 = a + ((m.length + 1 : Nat) : Int) * step := by
          rw [hm, List.getLastD_eq_getLast?, List.length_cons, List.range_succ, List.map_append]
          simp
        unfold progression
        rw [hl]
        have : a + ((m.length + 1 : Nat) : Int) * step - a = ((m.length + 1 : Nat) : Int) * step := by omega
        rw [this, Int.mul_ediv_cancel _ h0]
        have h2 : (((m.length + 1 : Nat) : Int) + 1).toNat = (b :: m).length + 1 := by
          simp only [List.length_cons]
          omega
        rw [h2]
        exact hm
      · cases hd

theorem strToInt_ofInt (v : Int) : Trivial.strToInt (PyStr.ofInt v) = .ok v := by
  cases v with
  | ofNat n => exact Trivial.strToInt_ofNat n
  | negSucc n =>
    have hs : PyStr.strip ('-' :: PyStr.ofNat (n + 1)) = '-' :: PyStr.ofNat (n + 1) := by
      refine PyStr.stripBy_of_stripped (PyStr.stripped_of_all fun c hc => ?_)
      rcases List.mem_cons.1 hc with rfl | hc
      · decide
      · exact Trivial.ofNat_not_space _ c hc
    show Trivial.strToInt ('-' :: PyStr.ofNat (n + 1)) = _
    unfold Trivial.strToInt
    rw [hs]
    split
    · rename_i heq
      rw [← (List.cons.inj heq).2, Trivial.parseAuto_ofNat]
      rfl
    · rename_i heq
      exact absurd (List.cons.inj heq).1 (by decide)
    · rename_i h1 _
      exact absurd rfl (h1 _)

theorem ofInt_no (v : Int) : ' ' ∉ PyStr.ofInt v ∧ ',' ∉ PyStr.ofInt v := by
  cases v with
  | ofNat n => exact ⟨PyStr.ofNat_not_mem n (by decide), PyStr.ofNat_not_mem n (by decide)⟩
  | negSucc n =>
    constructor
    · intro h
      rcases List.mem_cons.1 h with h | h
      · cases h
      · exact PyStr.ofNat_not_mem _ (by decide) h
    · intro h
      rcases List.mem_cons.1 h with h | h
      · cases h
      · exact PyStr.ofNat_not_mem _ (by decide) h

end Verif.PrinterText
