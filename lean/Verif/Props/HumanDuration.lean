import Verif.Props.Human

/-!
C58: human-readable durations.
-/

namespace Verif.Human

open PyStr

theorem flatMap_dropLast (qs : List Piece) (h : qs ≠ []) :
    qs.flatMap Piece.text = timeText qs.dropLast (qs.getLast h).pre (qs.getLast h).n [] (qs.getLast h).post
      (qs.getLast h).unit [] := by
  have := List.dropLast_concat_getLast h
  conv => lhs; rw [← this]
  unfold timeText
  rw [List.flatMap_append, decText_nil]
  simp [Piece.text]

/-- **C67.** Whole amounts of time are added up. -/
theorem C67_whole (fl : Rat → Rat) (hf : IsRounding fl) (qs : List Piece) (hne : qs ≠ [])
    (hqs : ∀ p ∈ qs, Blank p.pre ∧ Blank p.post)
    (hu : (qs.map (·.unit)).Sublist ['d', 'D', 'h', 'H', 'm', 'M', 's']) (hn : (qs.map Piece.secs).sum ≤ 2 ^ 45) :
    parseHuman fl (qs.flatMap Piece.text) ['s'] none true = .ok (.int ((qs.map Piece.secs).sum : Nat)) := by
  have hcat := List.dropLast_concat_getLast hne
  rw [flatMap_dropLast qs hne]
  refine C67_int fl hf _ _ _ [] _ _ [] .none .default
    (fun p hp => hqs p (List.dropLast_subset _ hp)) (hqs _ (List.getLast_mem hne)).1 (hqs _ (List.getLast_mem hne)).2
    (by intro c hc; cases hc) ?_ (by simp) _ hn ?_
  · rw [← hcat, List.map_append] at hu
    exact hu
  · unfold timeTotal Target.val
    conv => rhs; rw [← hcat]
    rw [List.map_append, List.sum_append]
    unfold decVal fracVal Piece.secs
    simp

/-- The pieces of a text like "1h 2m 3s". -/
def spaced : List (Nat × Char) → List Piece
  | [] => []
  | a :: l => ⟨[], a.1, [], a.2⟩ :: l.map fun b => ⟨[' '], b.1, [], b.2⟩

theorem flat_spaced (a : Nat × Char) (l : List (Nat × Char)) :
    (a :: l).flatMap (fun p => ofNat p.1 ++ [p.2, ' ']) = (spaced (a :: l)).flatMap Piece.text ++ [' '] := by
  have key : ∀ l : List (Nat × Char), l.flatMap (fun p => ' ' :: (ofNat p.1 ++ [p.2])) ++ [' '] =
      ' ' :: l.flatMap (fun p => ofNat p.1 ++ [p.2, ' ']) := by
    intro l
    induction l with
    | nil => rfl
    | cons b l ih =>
      rw [List.flatMap_cons, List.flatMap_cons, List.append_assoc, ih]
      simp
  unfold spaced
  rw [List.flatMap_cons, List.flatMap_cons, List.append_assoc]
  have : (l.map fun b => (⟨[' '], b.1, [], b.2⟩ : Piece)).flatMap Piece.text =
      l.flatMap (fun p => ' ' :: (ofNat p.1 ++ [p.2])) := by
    rw [List.flatMap_map]
    congr 1
    funext b
    simp [Piece.text]
  rw [this, List.append_assoc, key]
  simp [Piece.text]

theorem spaced_last (a : Nat × Char) (l : List (Nat × Char)) (P : Char → Prop) (h : ∀ b ∈ a :: l, P b.2) :
    ∀ c, ((spaced (a :: l)).flatMap Piece.text).getLast? = some c → P c := by
  intro c hc
  have hne : spaced (a :: l) ≠ [] := by simp [spaced]
  have hcat := List.dropLast_concat_getLast hne
  rw [← hcat, List.flatMap_append] at hc
  have : ([(spaced (a :: l)).getLast hne] : List Piece).flatMap Piece.text =
    ((spaced (a :: l)).getLast hne).pre ++ ofNat ((spaced (a :: l)).getLast hne).n ++ ((spaced (a :: l)).getLast hne).post ++
      [((spaced (a :: l)).getLast hne).unit] := by
    simp [Piece.text]
  rw [this, ← List.append_assoc, List.getLast?_concat] at hc
  injection hc with hc
  subst hc
  have hm := List.getLast_mem hne
  generalize (spaced (a :: l)).getLast hne = q at hm
  unfold spaced at hm
  rcases List.mem_cons.1 hm with rfl | hm
  · exact h a List.mem_cons_self
  · rw [List.mem_map] at hm
    obtain ⟨b, hb, rfl⟩ := hm
    exact h b (List.mem_cons_of_mem _ hb)

theorem strip_spaced (a : Nat × Char) (l : List (Nat × Char)) (h : ∀ b ∈ a :: l, isSpace b.2 = false) :
    strip ((a :: l).flatMap (fun p => ofNat p.1 ++ [p.2, ' '])) = (spaced (a :: l)).flatMap Piece.text := by
  rw [flat_spaced]
  have hsp : spaced (a :: l) = ⟨[], a.1, [], a.2⟩ :: l.map fun b => ⟨[' '], b.1, [], b.2⟩ := rfl
  refine strip_pad (x := []) (s := (spaced (a :: l)).flatMap Piece.text) (y := [' ']) (by simp) (by decide)
    ⟨?_, spaced_last a l _ h⟩ ?_
  · intro c hc
    rw [hsp, List.flatMap_cons] at hc
    have : c ∈ ofNat a.1 := by
      unfold Piece.text at hc
      cases he : ofNat a.1 with
      | nil => exact absurd he (ofNat_ne_nil _)
      | cons d r =>
        simp only [he, List.nil_append, List.append_nil, List.cons_append, List.head?_cons, Option.some.injEq] at hc
        rw [← hc]; exact List.mem_cons_self
    exact Trivial.ofNat_not_space _ c this
  · rw [hsp]
    simp [Piece.text]

theorem spaced_units (l : List (Nat × Char)) : (spaced l).map (·.unit) = l.map (·.2) := by
  cases l with
  | nil => rfl
  | cons a l => simp [spaced, List.map_map, Function.comp_def]

theorem spaced_secs (l : List (Nat × Char)) :
    ((spaced l).map Piece.secs).sum = (l.map fun p => p.1 * timeVal p.2).sum := by
  cases l with
  | nil => rfl
  | cons a l => simp [spaced, List.map_map, Function.comp_def, Piece.secs]

/-- The parts that are not zero. -/
def nonZero (l : List (Nat × Char)) : List (Nat × Char) := l.filter fun p => p.1 != 0

theorem nonZero_sum (l : List (Nat × Char)) (f : Char → Nat) :
    ((nonZero l).map fun p => p.1 * f p.2).sum = (l.map fun p => p.1 * f p.2).sum := by
  induction l with
  | nil => rfl
  | cons a l ih =>
    unfold nonZero at ih ⊢
    rw [List.filter_cons]
    by_cases h : a.1 = 0
    · simp only [h, bne_self_eq_false, Bool.false_eq_true, if_false, List.map_cons, List.sum_cons, Nat.zero_mul, Nat.zero_add]
      exact ih
    · rw [if_pos (by simpa using h), List.map_cons, List.map_cons, List.sum_cons, List.sum_cons, ih]

theorem nonZero_flat (l : List (Nat × Char)) :
    (nonZero l).flatMap (fun p => ofNat p.1 ++ [p.2, ' ']) =
      l.flatMap (fun p => if p.1 ≠ 0 then ofNat p.1 ++ [p.2, ' '] else []) := by
  induction l with
  | nil => rfl
  | cons a l ih =>
    unfold nonZero at ih ⊢
    rw [List.filter_cons, List.flatMap_cons, ← ih]
    by_cases h : a.1 = 0
    · rw [if_neg (by simpa using h), if_neg (by simpa using h), List.nil_append]
    · rw [if_pos (by simpa using h), if_pos h, List.flatMap_cons]

theorem parse_nonZero (fl : Rat → Rat) (hf : IsRounding fl) (l : List (Nat × Char))
    (hu : (l.map (·.2)).Sublist timeOrder) (h0 : (l.map fun p => p.1 * timeVal p.2).sum ≠ 0)
    (hn : (l.map fun p => p.1 * timeVal p.2).sum ≤ 2 ^ 45) :
    parseHuman fl (strip (l.flatMap (fun p => if p.1 ≠ 0 then ofNat p.1 ++ [p.2, ' '] else []))) ['s'] none true =
      .ok (.int ((l.map fun p => p.1 * timeVal p.2).sum : Nat)) := by
  rw [← nonZero_flat]
  rw [← nonZero_sum] at h0 hn ⊢
  have hsub : ((nonZero l).map (·.2)).Sublist timeOrder := List.Sublist.trans (List.Sublist.map _ List.filter_sublist) hu
  generalize nonZero l = k at h0 hn hsub
  cases k with
  | nil => exact absurd rfl h0
  | cons a l =>
    rw [strip_spaced a l (fun b hb => by
      have : b.2 ∈ timeOrder := hsub.subset (List.mem_map_of_mem hb)
      exact (by decide : ∀ c ∈ timeOrder, isSpace c = false) _ this)]
    rw [← spaced_secs] at hn ⊢
    refine C67_whole fl hf _ (by simp [spaced]) ?_ (by rw [spaced_units]; exact hsub) hn
    have hb0 : Blank [] := by unfold Blank; decide
    have hb1 : Blank [' '] := by unfold Blank; decide
    intro p hp
    unfold spaced at hp
    rcases List.mem_cons.1 hp with rfl | hp
    · exact ⟨hb0, hb0⟩
    · rw [List.mem_map] at hp
      obtain ⟨b, _, rfl⟩ := hp
      exact ⟨hb1, hb0⟩

/-- The text of a duration shorter than a day. -/
theorem duration_short (fl : Rat → Rat) (n : Nat) (s : Bool) (h1 : 1 ≤ n) (h2 : n < 86400) :
    duration fl n s = .ok (strip (([(n / 3600, 'h'), (n / 60 % 60, 'm')] ++
      (if s = true ∨ n < 60 then [(n % 60, 's')] else [])).flatMap
        (fun p => if p.1 ≠ 0 then ofNat p.1 ++ [p.2, ' '] else []))) := by
  unfold duration
  rw [if_neg (by omega)]
  have e1 : (n : Int).natAbs = n := rfl
  have e2 : n / 60 / 60 = n / 3600 := by omega
  have e3 : n / 3600 / 24 = 0 := by omega
  have e4 : n / 3600 % 24 = n / 3600 := by omega
  dsimp only
  rw [e1, e2, e3, e4, if_neg (by simp), if_neg (by omega)]
  generalize n / 3600 = h
  generalize n / 60 % 60 = m
  generalize n % 60 = k
  by_cases hs : s = true ∨ n < 60
  · simp only [hs, if_true, true_and]
    simp
  · simp only [hs, if_false, false_and]
    simp

/-- **C58.** The text of a duration from one second to less than one day is parsed back as the same number of
seconds. -/
theorem C58_round_trip (fl : Rat → Rat) (hf : IsRounding fl) (n : Nat) (h1 : 1 ≤ n) (h2 : n < 86400) :
    ∃ text, duration fl n true = .ok text ∧ parseHuman fl text ['s'] none true = .ok (.int n) := by
  refine ⟨_, duration_short fl n true h1 h2, ?_⟩
  rw [if_pos (.inl rfl)]
  have e : (([(n / 3600, 'h'), (n / 60 % 60, 'm')] ++ [(n % 60, 's')]).map fun p => p.1 * timeVal p.2).sum = n := by
    have t1 : timeVal 'h' = 3600 := by decide
    have t2 : timeVal 'm' = 60 := by decide
    have t3 : timeVal 's' = 1 := by decide
    simp only [List.cons_append, List.nil_append, List.map_cons, List.map_nil, List.sum_cons, List.sum_nil, t1, t2, t3]
    omega
  have h := parse_nonZero fl hf ([(n / 3600, 'h'), (n / 60 % 60, 'm')] ++ [(n % 60, 's')]) (by
    show (['h', 'm', 's'] : List Char).Sublist timeOrder
    decide) (by rw [e]; omega) (by rw [e]; omega)
  rw [h, e]

/-- **C58.** Without seconds, the text of a duration from one minute to less than one day is parsed back as the
duration rounded down to a whole number of minutes. Shorter durations are still exact. -/
theorem C58_minutes (fl : Rat → Rat) (hf : IsRounding fl) (n : Nat) (h1 : 1 ≤ n) (h2 : n < 86400) :
    ∃ text, duration fl n false = .ok text ∧
      parseHuman fl text ['s'] none true = .ok (.int (if n < 60 then n else n - n % 60 : Nat)) := by
  refine ⟨_, duration_short fl n false h1 h2, ?_⟩
  have t1 : timeVal 'h' = 3600 := by decide
  have t2 : timeVal 'm' = 60 := by decide
  have t3 : timeVal 's' = 1 := by decide
  by_cases h60 : n < 60
  · rw [if_pos (.inr h60), if_pos h60]
    have e : (([(n / 3600, 'h'), (n / 60 % 60, 'm')] ++ [(n % 60, 's')]).map fun p => p.1 * timeVal p.2).sum = n := by
      simp only [List.cons_append, List.nil_append, List.map_cons, List.map_nil, List.sum_cons, List.sum_nil, t1, t2, t3]
      omega
    have h := parse_nonZero fl hf ([(n / 3600, 'h'), (n / 60 % 60, 'm')] ++ [(n % 60, 's')]) (by
      show (['h', 'm', 's'] : List Char).Sublist timeOrder
      decide) (by rw [e]; omega) (by rw [e]; omega)
    rw [h, e]
  · rw [if_neg (by simp [h60]), if_neg h60, List.append_nil]
    have e : (([(n / 3600, 'h'), (n / 60 % 60, 'm')] : List (Nat × Char)).map fun p => p.1 * timeVal p.2).sum =
        n - n % 60 := by
      simp only [List.map_cons, List.map_nil, List.sum_cons, List.sum_nil, t1, t2]
      omega
    have h := parse_nonZero fl hf [(n / 3600, 'h'), (n / 60 % 60, 'm')] (by
      show (['h', 'm'] : List Char).Sublist timeOrder
      decide) (by rw [e]; omega) (by rw [e]; omega)
    rw [h, e]

example (fl : Rat → Rat) (hf : IsRounding fl) :
    (∃ text, duration fl (5045 : Nat) true = .ok text ∧ parseHuman fl text ['s'] none true = .ok (.int 5045)) ∧
    (∃ text, duration fl (5045 : Nat) false = .ok text ∧ parseHuman fl text ['s'] none true = .ok (.int 5040)) :=
  ⟨C58_round_trip fl hf 5045 (by omega) (by omega), C58_minutes fl hf 5045 (by omega) (by omega)⟩

/-! ### Days -/

theorem splitSpecs_a {ν : Type} (specs : List (Char × ν)) (h : ∀ u ∈ specs, u.1 ≠ 'a') (q : PyStr) :
    (∃ l r, splitSpecs (specs.map fun u => ([u.1], u.2)) q = .ok (l, r)) ∧
    (splitSpecs (specs.map fun u => ([u.1], u.2)) ('a' :: q) = .ok ([], 'a' :: q) ∨
    ∃ w sc l r, splitSpecs (specs.map fun u => ([u.1], u.2)) ('a' :: q) = .ok (('a' :: w, sc) :: l, r)) := by
  induction specs generalizing q with
  | nil => exact ⟨⟨_, _, rfl⟩, .inl rfl⟩
  | cons u specs ih =>
    obtain ⟨c, sc⟩ := u
    have ih := ih fun u hu => h u (List.mem_cons_of_mem _ hu)
    rw [List.map_cons, splitSpecs, splitSpecs, if_neg (by simp), if_neg (by simp)]
    have hc : 'a' ≠ c := fun e => h (c, sc) List.mem_cons_self e.symm
    refine ⟨?_, ?_⟩
    · cases splitOnce [c] q with
      | none => exact (ih q).1
      | some ab =>
        obtain ⟨l, r, hl⟩ := (ih ab.2).1
        exact ⟨(ab.1, sc) :: l, r, by dsimp only; rw [hl]⟩
    · have e : splitOnce [c] ('a' :: q) = (splitOnce [c] q).map fun p => ('a' :: p.1, p.2) := by
        rw [splitOnce, dropPre_ne hc]
      rw [e]
      cases splitOnce [c] q with
      | none => exact (ih q).2
      | some ab =>
        right
        obtain ⟨l, r, hl⟩ := (ih ab.2).1
        exact ⟨ab.1, sc, l, r, by dsimp only [Option.map]; rw [hl]⟩

theorem parse10_a (w : PyStr) : EP.parse10 ('a' :: w) = .error .pyValueError :=
  parse10_bad (c := 'a') (by decide) (by decide) (fun d hd => by
    rw [show Trivial.digitVal 'a' = some 10 by decide] at hd
    cases hd; exact le_refl _) List.mem_cons_self

theorem parseFloat_a (fl : Rat → Rat) (w : PyStr) : parseFloat fl ('a' :: w) = none := by
  unfold parseFloat
  have hs : ∃ r, strip ('a' :: w) = 'a' :: r := by
    unfold strip stripBy lstripBy rstripBy
    rw [List.dropWhile, show isSpace 'a' = false by decide]
    dsimp only
    rw [List.reverse_cons]
    have : ∀ l : PyStr, ∃ r, ((l ++ ['a']).dropWhile isSpace).reverse = 'a' :: r := by
      intro l
      induction l with
      | nil => exact ⟨[], by decide⟩
      | cons c l ih =>
        rw [List.cons_append, List.dropWhile]
        split
        · exact ih
        · exact ⟨(c :: l).reverse, by simp⟩
    exact this _
  obtain ⟨r, hr⟩ := hs
  rw [hr, dropUnders, if_neg (by decide), if_neg (fun h => absurd h.1 (by decide))]
  cases dropUnders 'a' r with
  | none => rfl
  | some k =>
    dsimp only [Option.map]
    have e : signPart ('a' :: k) = (false, 'a' :: k) := rfl
    rw [e]
    unfold parseUnsigned
    rw [if_neg, if_neg]
    · unfold parseDec
      have h1 : ('a' :: k).takeWhile isDig = [] := rfl
      have h2 : fracPart (('a' :: k).dropWhile isDig) = ([], 'a' :: k) := rfl
      rw [h1, h2, if_pos ⟨rfl, rfl⟩]
      rfl
    · intro h
      rw [List.map_cons] at h
      injection h with h1 _
      exact absurd h1 (by decide)
    · intro h
      rw [List.map_cons] at h
      rcases List.mem_cons.1 h with h | h
      · injection h with h1 _
        exact absurd h1 (by decide)
      · rcases List.mem_cons.1 h with h | h
        · injection h with h1 _
          exact absurd h1 (by decide)
        · cases h

theorem amounts_a (fl : Rat → Rat) (w : PyStr) (sc : Num) (l : List (PyStr × Num)) :
    amounts fl (('a' :: w, sc) :: l) = .error .error := by
  cases l with
  | nil => rw [amounts, parseFloat_a]
  | cons t ts => rw [amounts, parse10_a]

/-- A text starting with a number of days as `duration()` writes it. -/
theorem parse_days (fl : Rat → Rat) (d : Nat) (L : List (Nat × Char)) :
    parseHuman fl (ofNat d ++ [' ', 'd', 'a', 'y', 's'] ++ L.flatMap (fun p => ' ' :: (ofNat p.1 ++ [p.2]))) ['s'] none
      true = .error .error := by
  let ps : List (PyStr × Char × Unit) :=
    (ofNat d ++ [' '], 'd', ()) :: (['a', 'y'], 's', ()) :: L.map fun p => (' ' :: ofNat p.1, p.2, ())
  have htext : ofNat d ++ [' ', 'd', 'a', 'y', 's'] ++ L.flatMap (fun p => ' ' :: (ofNat p.1 ++ [p.2])) =
      piecesText ps [] := by
    have hL' : ∀ l : List (Nat × Char), l.flatMap (fun p => ' ' :: (ofNat p.1 ++ [p.2])) =
        piecesText (l.map fun p => (' ' :: ofNat p.1, p.2, ())) [] := by
      intro l
      induction l with
      | nil => rfl
      | cons p l ih =>
        rw [List.flatMap_cons, ih]
        show _ = (' ' :: ofNat p.1) ++ p.2 :: piecesText (l.map fun p => (' ' :: ofNat p.1, p.2, ())) []
        simp
    rw [hL']
    show _ = (ofNat d ++ [' ']) ++ 'd' :: (['a', 'y'] ++ 's' :: piecesText (L.map fun p => (' ' :: ofNat p.1, p.2, ())) [])
    simp
  have hd : 'd' ∉ ofNat d := ofNat_not_mem d (by decide)
  generalize hR : L.flatMap (fun p => ' ' :: (ofNat p.1 ++ [p.2])) = R at htext
  have hnum : isNum fl (ofNat d ++ [' ', 'd', 'a', 'y', 's'] ++ R) = false :=
    isNum_bad (c := 'd') (by decide) fl (by simp)
  have hsplit : splitSpecs (prepare fl ['s']).1 (ofNat d ++ [' ', 'd', 'a', 'y', 's'] ++ R) =
      splitSpecs (timeSpecs.map fun u => ([u.1], u.2)) (ofNat d ++ [' ', 'd', 'a', 'y', 's'] ++ R) := by
    rw [prepare_s]
    apply splitSpecs_append
    intro e he
    rw [List.mem_map] at he
    obtain ⟨q, hq, rfl⟩ := he
    have hlet : isLetter q.1 = true ∧ q.1 ≠ 'a' ∧ q.1 ≠ 'y' := by
      have : ((siTable fl).all fun e => isLetter e.1 && e.1 != 'a' && e.1 != 'y') = true := rfl
      have := List.all_eq_true.1 this q hq
      simp only [Bool.and_eq_true, bne_iff_ne] at this
      exact ⟨this.1.1, this.1.2, this.2⟩
    have hnd : ∀ n, q.1 ∉ ofNat n := by
      intro n hm
      have := isDig_ofNat hm
      unfold isLetter at hlet
      rw [this] at hlet
      exact absurd hlet.1 (by simp)
    have hns : q.1 ≠ ' ' := by
      intro h
      rw [h] at hlet
      exact absurd hlet.1 (by decide)
    refine ⟨by simp, ?_⟩
    rw [htext]
    refine (splitOnce_pair ps [] ?_ (by simp)).1
    intro p hp
    rcases List.mem_cons.1 hp with rfl | hp
    · refine ⟨by simp [hnd d, hns], by simp, ?_⟩
      cases hh : ofNat d with
      | nil => exact absurd hh (ofNat_ne_nil d)
      | cons c r =>
        have := isDig_ofNat (n := d) (c := c) (by rw [hh]; exact List.mem_cons_self)
        simp only [List.cons_append, List.head?_cons, ne_eq, Option.some.injEq]
        exact isDig_ne this (by decide)
    · rcases List.mem_cons.1 hp with rfl | hp
      · exact ⟨by simp [hlet.2.1, hlet.2.2], by simp, by simp⟩
      · rw [List.mem_map] at hp
        obtain ⟨b, _, rfl⟩ := hp
        exact ⟨by simp [hnd b.1, hns], by simp, by simp⟩
  have htok : tokenize fl (ofNat d ++ [' ', 'd', 'a', 'y', 's'] ++ R) (prepare fl ['s']).1 (prepare fl ['s']).2 =
      .error .error := by
    unfold tokenize
    rw [hsplit]
    have e1 : (timeSpecs.map fun u => ([u.1], u.2)) = (['d'], Num.int (timeVal 'd')) ::
      (timeSpecs.tail.map fun u => ([u.1], u.2)) := rfl
    have e2 : ofNat d ++ [' ', 'd', 'a', 'y', 's'] ++ R = (ofNat d ++ [' ']) ++ 'd' :: ('a' :: 'y' :: 's' :: R) := by simp
    rw [e1, e2, splitSpecs, if_neg (by simp), splitOnce_char (by simp [hd])]
    dsimp only
    obtain ⟨_, h | ⟨w, sc, l, r, h⟩⟩ := splitSpecs_a timeSpecs.tail (by decide) ('y' :: 's' :: R)
    · rw [h]
      dsimp only
      rw [if_pos]
      intro h0
      have := mem_strip (s := 'a' :: 'y' :: 's' :: R) List.mem_cons_self (by decide)
      rw [h0] at this
      cases this
    · rw [h]
      dsimp only
      split
      · rfl
      · split
        · rfl
        · rw [amounts]
          split
          · rfl
          · rw [amounts_a]
  unfold parseHuman
  have hsep : separate fl ['s'] = (none, ['s']) := rfl
  rw [hsep]
  have htu : targetUnit fl ['s'] none = (none, ['s']) := rfl
  dsimp only
  rw [htu, if_neg (by simp), hnum]
  dsimp only [Bool.false_eq_true]
  rw [if_neg (by simp), htok]

/-- **C58.** The text of a duration of one day or more cannot be parsed: it has "days" in it, which is not a unit
`parse_human()` knows. -/
theorem C58_days (fl : Rat → Rat) (n : Nat) (s : Bool) (h : 86400 ≤ n) :
    ∃ text, duration fl n s = .ok text ∧ parseHuman fl text ['s'] none true = .error .error := by
  have key : ∀ (d : Nat) (l : List (Nat × Char)), (∀ p ∈ l, isSpace p.2 = false) →
      strip (ofNat d ++ [' ', 'd', 'a', 'y', 's', ' '] ++ l.flatMap (fun p => ofNat p.1 ++ [p.2, ' '])) =
        ofNat d ++ [' ', 'd', 'a', 'y', 's'] ++ l.flatMap (fun p => ' ' :: (ofNat p.1 ++ [p.2])) := by
    intro d l hl
    have h1 : ∀ l : List (Nat × Char), l.flatMap (fun p => ' ' :: (ofNat p.1 ++ [p.2])) ++ [' '] =
        ' ' :: l.flatMap (fun p => ofNat p.1 ++ [p.2, ' ']) := by
      intro l
      induction l with
      | nil => rfl
      | cons b l ih =>
        rw [List.flatMap_cons, List.flatMap_cons, List.append_assoc, ih]
        simp
    have h2 : ofNat d ++ [' ', 'd', 'a', 'y', 's', ' '] ++ l.flatMap (fun p => ofNat p.1 ++ [p.2, ' ']) =
        [] ++ (ofNat d ++ [' ', 'd', 'a', 'y', 's'] ++ l.flatMap (fun p => ' ' :: (ofNat p.1 ++ [p.2]))) ++ [' '] := by
      rw [List.nil_append, List.append_assoc (ofNat d ++ [' ', 'd', 'a', 'y', 's']), h1]
      simp
    rw [h2]
    refine strip_pad (by simp) (by decide) ⟨?_, ?_⟩ (by simp)
    · intro c hc
      cases hh : ofNat d with
      | nil => exact absurd hh (ofNat_ne_nil d)
      | cons x r =>
        rw [hh] at hc
        simp only [List.cons_append, List.head?_cons, Option.some.injEq] at hc
        subst hc
        exact Trivial.ofNat_not_space d x (by rw [hh]; exact List.mem_cons_self)
    · intro c hc
      rcases List.eq_nil_or_concat l with rfl | ⟨l', b, rfl⟩
      · rw [List.flatMap_nil, List.append_nil, show [' ', 'd', 'a', 'y', 's'] = [' ', 'd', 'a', 'y'] ++ ['s'] from rfl,
          ← List.append_assoc, List.getLast?_concat] at hc
        injection hc with hc
        subst hc
        decide
      · rw [List.concat_eq_append, List.flatMap_append] at hc
        have e : ([b] : List (Nat × Char)).flatMap (fun p => ' ' :: (ofNat p.1 ++ [p.2])) =
          (' ' :: ofNat b.1) ++ [b.2] := by simp
        rw [e, ← List.append_assoc, ← List.append_assoc, List.getLast?_concat] at hc
        injection hc with hc
        subst hc
        exact hl b (by simp)
  let L : List (Nat × Char) := nonZero ([(n / 3600 % 24, 'h'), (n / 60 % 60, 'm')] ++
    (if s = true ∨ n < 60 then [(n % 60, 's')] else []))
  have hL : ∀ p ∈ L, p.2 ∈ ['h', 'm', 's'] := by
    intro p hp
    have hp := (List.mem_filter.1 hp).1
    rcases List.mem_append.1 hp with hp | hp
    · simp only [List.mem_cons, List.not_mem_nil, or_false] at hp
      rcases hp with rfl | rfl <;> simp
    · split at hp
      · rw [List.mem_singleton] at hp; subst hp; simp
      · cases hp
  refine ⟨_, ?_, parse_days fl (n / 86400) L⟩
  rw [← key (n / 86400) L (fun p hp => (by decide : ∀ c ∈ ['h', 'm', 's'], isSpace c = false) _ (hL p hp))]
  show _ = Except.ok (strip (ofNat (n / 86400) ++ [' ', 'd', 'a', 'y', 's', ' '] ++ (nonZero _).flatMap _))
  rw [nonZero_flat]
  unfold duration
  rw [if_neg (by omega)]
  have e1 : (n : Int).natAbs = n := rfl
  have e2 : n / 60 / 60 = n / 3600 := by omega
  have e3 : n / 3600 / 24 = n / 86400 := by omega
  dsimp only
  rw [e1, e2, e3, if_neg (by omega), if_pos (by omega)]
  generalize n / 3600 % 24 = h
  generalize n / 60 % 60 = m
  generalize n % 60 = k
  generalize n / 86400 = d
  by_cases hs : s = true ∨ n < 60
  · simp only [hs, if_true, true_and]
    simp
  · simp only [hs, if_false, false_and]
    simp

-- "2 days 3h".
example (fl : Rat → Rat) :
    ∃ text, duration fl (183600 : Nat) true = .ok text ∧ parseHuman fl text ['s'] none true = .error .error :=
  C58_days fl 183600 true (by omega)

/-- **C58.** The sign of a negative duration is lost for all but the first unit: the text of -3900 seconds,
"-1h 5m", is parsed as -3300 seconds. -/
theorem C58_negative_counterexample :
    duration (fun x => x) (-3900) true = .ok "-1h 5m".toList ∧
    parseHuman (fun x => x) "-1h 5m".toList ['s'] none true = .ok (.int (-3300)) := by
  constructor <;> decide +kernel

end Verif.Human
