import Verif.Lemmas.HumanVal

/-!
Texts with units: from the text to the tokens.
-/

namespace Verif.Human

open PyStr

theorem mid_of {y : Rat} (h0 : 0 ≤ y) (h1 : y = 0 ∨ 1 / 2 ^ 200 ≤ y) (h2 : y ≤ 2 ^ 200) : Mid y := by
  rcases h1 with h1 | h1
  · exact .inl h1
  · exact .inr (by rw [abs_of_nonneg h0]; exact ⟨h1, h2⟩)

theorem decVal_low {i : Nat} {ds : List (Fin 10)} (hd : ds.length ≤ 20) :
    decVal i ds = 0 ∨ 1 / 2 ^ 70 ≤ decVal i ds := by
  rcases decVal_lower i ds with h | h
  · exact .inl h
  · right
    refine le_trans ?_ h
    have : (10 : Rat) ^ ds.length ≤ 10 ^ 20 := pow_le_pow_right₀ (by norm_num) hd
    have h2 : (1 : Rat) / 10 ^ 20 ≤ 1 / 10 ^ ds.length := one_div_le_one_div_of_le (by positivity) this
    exact le_trans (by norm_num) h2

/-- A decimal number times a scaler. -/
theorem tokVal_dec {fl : Rat → Rat} (hf : IsRounding fl) {i : Nat} {ds : List (Fin 10)} (hd : ds.length ≤ 20)
    {s : Num} {S : Rat} (hs : Scaler fl s S) (hS1 : 1 / 2 ^ 30 ≤ S) (hS2 : S ≤ 2 ^ 60)
    (hb : decVal i ds * S ≤ 2 ^ 110) :
    TokVal fl (decNum fl i ds, s) (decVal i ds * S) := by
  have hS0 : 0 < S := lt_of_lt_of_le (by norm_num) hS1
  have hV0 := decVal_nonneg i ds
  have hV : decVal i ds ≤ 2 ^ 140 := by
    have h1 : decVal i ds * (1 / 2 ^ 30) ≤ decVal i ds * S := mul_le_mul_of_nonneg_left hS1 hV0
    have h2 : decVal i ds * (1 / 2 ^ 30) ≤ 2 ^ 110 := le_trans h1 hb
    norm_num at h2 ⊢
    linarith
  have hlow := decVal_low (i := i) hd
  have mV : Mid (decVal i ds) := mid_of hV0 (hlow.imp id fun h => le_trans (by norm_num) h)
    (le_trans hV (by norm_num))
  have mS : Mid S := mid_of hS0.le (.inr (le_trans (by norm_num) hS1)) (le_trans hS2 (by norm_num))
  have hVS0 : 0 ≤ decVal i ds * S := mul_nonneg hV0 hS0.le
  have mVS : Mid (decVal i ds * S) := by
    refine mid_of hVS0 ?_ (le_trans hb (by norm_num))
    rcases hlow with h | h
    · left; rw [h, zero_mul]
    · right
      have := mul_le_mul h hS1 (by norm_num) hV0
      exact le_trans (by norm_num) this
  exact ⟨mulNum_approx hf i ds hs mV mS mVS, hVS0, mVS⟩

/-- The characters of an amount with blanks. -/
theorem mem_amount {x y : PyStr} (hx : Blank x) (hy : Blank y) {i : Nat} {ds : List (Fin 10)} {c : Char}
    (h : c ∈ x ++ decText i ds ++ y) : isDig c = true ∨ isSpace c = true ∨ c = '.' := by
  rcases List.mem_append.1 h with h | h
  · rcases List.mem_append.1 h with h | h
    · exact .inr (.inl (hx c h))
    · rcases mem_decText h with h | h
      · exact .inl h
      · exact .inr (.inr h)
  · exact .inr (.inl (hy c h))

/-- Characters that are not in amounts. -/
def isLetter (c : Char) : Bool := !isDig c && !isSpace c && c != '.'

theorem not_mem_amount {x y : PyStr} (hx : Blank x) (hy : Blank y) {i : Nat} {ds : List (Fin 10)} {c : Char}
    (h : isLetter c = true) : c ∉ x ++ decText i ds ++ y := by
  intro hm
  unfold isLetter at h
  simp only [Bool.and_eq_true, Bool.not_eq_true', bne_iff_ne] at h
  rcases mem_amount hx hy hm with k | k | k
  · rw [h.1.1] at k; cases k
  · rw [h.1.2] at k; cases k
  · exact h.2 k

theorem specs_letters (fl : Rat → Rat) (u : Unit') :
    ((prepare fl u.text).1.all fun e => e.1.head?.all isLetter) = true := by
  cases u <;> rfl

theorem split_single (fl : Rat → Rat) (u : Unit') (p : Prefix) :
    ∃ s, splitSpecs (prepare fl u.text).1 (p.text ++ u.text) = .ok ([([], s)], []) ∧ Scaler fl s p.val := by
  cases u <;> cases p
  all_goals first
    | exact ⟨_, rfl, .inl ⟨_, rfl, by norm_num [Prefix.val]⟩⟩
    | exact ⟨_, rfl, .inr (by norm_num [Prefix.val])⟩

theorem tokenize_single (fl : Rat → Rat) (u : Unit') (p : Prefix) (x y : PyStr) (hx : Blank x) (hy : Blank y)
    (i : Nat) (ds : List (Fin 10)) :
    ∃ s, tokenize fl (x ++ decText i ds ++ y ++ (p.text ++ u.text)) (prepare fl u.text).1 (prepare fl u.text).2 =
      .ok [(decNum fl i ds, s)] ∧ Scaler fl s p.val := by
  obtain ⟨s, h1, h2⟩ := split_single fl u p
  refine ⟨s, ?_, h2⟩
  have h3 := splitSpecs_single (prepare fl u.text).1 (x ++ decText i ds ++ y) (p.text ++ u.text) _ (by
    intro e he c hc
    have := List.all_eq_true.1 (specs_letters fl u) e he
    rw [hc] at this
    exact not_mem_amount hx hy this) h1 (by simp) (by simp)
  unfold tokenize
  rw [h3]
  dsimp only [List.map]
  rw [if_neg (by rw [strip_blank (by simp)]; simp), if_neg (by simp)]
  exact amounts_last fl x y hx hy i ds s

theorem bad_unit (u : Unit') : ∃ c ∈ u.text, BadChar c := by
  cases u
  · exact ⟨'z', by decide, by decide⟩
  · exact ⟨'s', by decide, by decide⟩
  · exact ⟨'W', by decide, by decide⟩

theorem isNum_dec (fl : Rat → Rat) (x y : PyStr) (hx : Blank x) (hy : Blank y) (i : Nat) (ds : List (Fin 10)) :
    isNum fl (x ++ decText i ds ++ y) = true := by
  unfold isNum
  rw [parseFloat_dec fl x y hx hy]
  split <;> rfl

/-! ### Several units of time -/

/-- The specifiers of time without an SI prefix. -/
def timeSpecs : List (Char × Num) := timeOrder.map fun c => (c, .int (timeVal c))

theorem prepare_s (fl : Rat → Rat) :
    prepare fl ['s'] = ((siTable fl).map (fun e => ([e.1, 's'], e.2)) ++ timeSpecs.map (fun u => ([u.1], u.2)), true) :=
  rfl

def pieceTok (p : Piece) : PyStr × Char × Num := (p.pre ++ ofNat p.n ++ p.post, p.unit, .int (timeVal p.unit))

/-- The text of whole amounts of time, a last amount that may be a fraction, and blanks at the end. -/
def timeText (ps : List Piece) (x : PyStr) (i : Nat) (ds : List (Fin 10)) (y : PyStr) (c : Char) (tail : PyStr) : PyStr :=
  ps.flatMap Piece.text ++ (x ++ decText i ds ++ y) ++ [c] ++ tail

def lastTok (x : PyStr) (i : Nat) (ds : List (Fin 10)) (y : PyStr) (c : Char) : PyStr × Char × Num :=
  (x ++ decText i ds ++ y, c, .int (timeVal c))

theorem timeText_eq (ps : List Piece) (x : PyStr) (i : Nat) (ds : List (Fin 10)) (y : PyStr) (c : Char) (tail : PyStr) :
    timeText ps x i ds y c tail = piecesText (ps.map pieceTok ++ [lastTok x i ds y c]) tail := by
  unfold timeText
  induction ps with
  | nil => simp [piecesText, lastTok]
  | cons p ps ih =>
    rw [List.flatMap_cons, List.map_cons, List.cons_append]
    have e : piecesText (pieceTok p :: (ps.map pieceTok ++ [lastTok x i ds y c])) tail =
      (p.pre ++ ofNat p.n ++ p.post) ++ p.unit :: piecesText (ps.map pieceTok ++ [lastTok x i ds y c]) tail := rfl
    rw [e, ← ih]
    simp [Piece.text]

theorem decText_nil (n : Nat) : decText n [] = ofNat n := by unfold decText; simp

theorem timeSpecs_letter : ∀ u ∈ timeSpecs, isLetter u.1 = true := by
  intro u hu
  unfold timeSpecs at hu
  rw [List.mem_map] at hu
  obtain ⟨c, hc, rfl⟩ := hu
  exact (by decide : ∀ c ∈ timeOrder, isLetter c = true) c hc

theorem isLetter_of_space {c : Char} (h : isSpace c = true) : isLetter c = false := by
  unfold isLetter; rw [h]; simp

/-- The properties of an amount used for splitting. -/
theorem amount_ok {x y : PyStr} (hx : Blank x) (hy : Blank y) (i : Nat) (ds : List (Fin 10)) (a b : Char)
    (ha : isLetter a = true) (hb : isLetter b = true) :
    a ∉ (x ++ decText i ds ++ y) ∧ (x ++ decText i ds ++ y) ≠ [] ∧ (x ++ decText i ds ++ y).head? ≠ some b := by
  refine ⟨not_mem_amount hx hy ha, ?_, ?_⟩
  · intro h
    exact decText_ne_nil i ds (List.append_eq_nil_iff.1 (List.append_eq_nil_iff.1 h).1).2
  · intro h
    exact not_mem_amount hx hy hb (List.mem_of_mem_head? h)

theorem split_time (fl : Rat → Rat) (ps : List Piece) (x : PyStr) (i : Nat) (ds : List (Fin 10)) (y : PyStr) (c : Char)
    (tail : PyStr) (hps : ∀ p ∈ ps, Blank p.pre ∧ Blank p.post) (hx : Blank x) (hy : Blank y) (ht : Blank tail)
    (hu : (ps.map (·.unit) ++ [c]).Sublist timeOrder) :
    splitSpecs (prepare fl ['s']).1 (timeText ps x i ds y c tail) =
      .ok (ps.map (fun p => (p.pre ++ ofNat p.n ++ p.post, .int (timeVal p.unit))) ++
        [(x ++ decText i ds ++ y, .int (timeVal c))], tail) := by
  have hall : ∀ q ∈ ps.map pieceTok ++ [lastTok x i ds y c], ∃ x' i' ds' y', Blank x' ∧ Blank y' ∧
      q.1 = x' ++ decText i' ds' ++ y' := by
    intro q hq
    rcases List.mem_append.1 hq with hq | hq
    · rw [List.mem_map] at hq
      obtain ⟨p, hp, rfl⟩ := hq
      exact ⟨p.pre, p.n, [], p.post, (hps p hp).1, (hps p hp).2, by rw [decText_nil]; rfl⟩
    · rw [List.mem_singleton] at hq
      subst hq
      exact ⟨x, i, ds, y, hx, hy, rfl⟩
  have htail : ∀ a, isLetter a = true → a ∉ tail := by
    intro a ha hm
    rw [isLetter_of_space (ht a hm)] at ha; cases ha
  rw [timeText_eq, prepare_s]
  dsimp only
  rw [splitSpecs_append]
  · have h := splitSpecs_pieces timeSpecs (ps.map pieceTok ++ [lastTok x i ds y c]) tail (by
        have h1 := hu.map (fun c => (c, Num.int (timeVal c)))
        unfold timeSpecs
        rw [List.map_append, List.map_map] at h1
        rw [List.map_append, List.map_map]
        exact h1) (by decide) (by
        intro q hq u hu
        obtain ⟨x', i', ds', y', h1, h2, h3⟩ := hall q hq
        rw [h3]
        exact not_mem_amount h1 h2 (timeSpecs_letter u hu)) (fun u hu => htail _ (timeSpecs_letter u hu))
    rw [h]
    congr 2
    rw [List.map_append, List.map_map]
    rfl
  · intro e he
    rw [List.mem_map] at he
    obtain ⟨q, hq, rfl⟩ := he
    have hlet : isLetter q.1 = true := by
      have : ((siTable fl).all fun e => isLetter e.1) = true := rfl
      exact List.all_eq_true.1 this q hq
    refine ⟨by simp, (splitOnce_pair _ tail ?_ ⟨htail _ hlet, ?_⟩).1⟩
    · intro q' hq'
      obtain ⟨x', i', ds', y', h1, h2, h3⟩ := hall q' hq'
      rw [h3]
      exact amount_ok h1 h2 i' ds' _ _ hlet (by decide)
    · intro h
      exact htail 's' (by decide) (List.mem_of_mem_head? h)

theorem amounts_time (fl : Rat → Rat) (ps : List Piece) (x : PyStr) (i : Nat) (ds : List (Fin 10)) (y : PyStr) (c : Char)
    (hps : ∀ p ∈ ps, Blank p.pre ∧ Blank p.post) (hx : Blank x) (hy : Blank y) :
    amounts fl (ps.map (fun p => (p.pre ++ ofNat p.n ++ p.post, .int (timeVal p.unit))) ++
        [(x ++ decText i ds ++ y, .int (timeVal c))]) =
      .ok (ps.map (fun p => (.int p.n, .int (timeVal p.unit))) ++ [(decNum fl i ds, .int (timeVal c))]) := by
  induction ps with
  | nil => exact amounts_last fl x y hx hy i ds _
  | cons p ps ih =>
    rw [List.map_cons, List.cons_append]
    rw [amounts_cons fl p.pre p.post (hps p List.mem_cons_self).1 (hps p List.mem_cons_self).2 p.n _ _ (by simp) _
      (ih fun q hq => hps q (List.mem_cons_of_mem _ hq))]
    rfl

theorem tokenize_time (fl : Rat → Rat) (ps : List Piece) (x : PyStr) (i : Nat) (ds : List (Fin 10)) (y : PyStr) (c : Char)
    (tail : PyStr) (hps : ∀ p ∈ ps, Blank p.pre ∧ Blank p.post) (hx : Blank x) (hy : Blank y) (ht : Blank tail)
    (hu : (ps.map (·.unit) ++ [c]).Sublist timeOrder) :
    tokenize fl (timeText ps x i ds y c tail) (prepare fl ['s']).1 (prepare fl ['s']).2 =
      .ok (ps.map (fun p => (.int p.n, .int (timeVal p.unit))) ++ [(decNum fl i ds, .int (timeVal c))]) := by
  unfold tokenize
  rw [split_time fl ps x i ds y c tail hps hx hy ht hu]
  dsimp only
  rw [if_neg (by rw [strip_blank ht]; simp), if_neg (by rw [prepare_s]; simp)]
  exact amounts_time fl ps x i ds y c hps hx hy

theorem timeVal_bounds (c : Char) : 1 / 2 ^ 30 ≤ ((timeVal c : Nat) : Rat) ∧ ((timeVal c : Nat) : Rat) ≤ 2 ^ 60 := by
  unfold timeVal
  split
  · norm_num
  · split
    · norm_num
    · split <;> norm_num

/-- What the text stands for, in seconds. -/
def timeTotal (ps : List Piece) (i : Nat) (ds : List (Fin 10)) (c : Char) : Rat :=
  ((ps.map Piece.secs).sum : Nat) + decVal i ds * timeVal c

theorem tokVals_time {fl : Rat → Rat} (hf : IsRounding fl) (ps : List Piece) (i : Nat) (ds : List (Fin 10)) (c : Char)
    (hd : ds.length ≤ 20) (hb : timeTotal ps i ds c ≤ 2 ^ 110) :
    List.Forall₂ (TokVal fl)
      (ps.map (fun p => (Num.int p.n, Num.int (timeVal p.unit))) ++ [(decNum fl i ds, Num.int (timeVal c))])
      (ps.map (fun p => (p.secs : Rat)) ++ [decVal i ds * timeVal c]) ∧
    (ps.map (fun p => (p.secs : Rat)) ++ [decVal i ds * timeVal c]).sum = timeTotal ps i ds c := by
  have hl0 : 0 ≤ decVal i ds * (timeVal c : Nat) := mul_nonneg (decVal_nonneg i ds) (Nat.cast_nonneg _)
  induction ps with
  | nil =>
    unfold timeTotal at hb ⊢
    simp only [List.map_nil, List.sum_nil, Nat.cast_zero, zero_add] at hb ⊢
    refine ⟨.cons (tokVal_dec hf hd (.inl ⟨_, rfl, by push_cast; rfl⟩) (timeVal_bounds c).1 (timeVal_bounds c).2 hb)
      .nil, by simp⟩
  | cons p ps ih =>
    have e : timeTotal (p :: ps) i ds c = p.secs + timeTotal ps i ds c := by
      unfold timeTotal
      rw [List.map_cons, List.sum_cons]; push_cast; ring
    have h0 : (0 : Rat) ≤ p.secs := Nat.cast_nonneg _
    have h1 : 0 ≤ timeTotal ps i ds c := by unfold timeTotal; positivity
    rw [e] at hb ⊢
    obtain ⟨i1, i2⟩ := ih (by linarith)
    refine ⟨?_, ?_⟩
    · rw [List.map_cons, List.map_cons, List.cons_append, List.cons_append]
      refine .cons ?_ i1
      have hv : decVal p.n [] * (timeVal p.unit : Nat) = p.secs := by
        unfold decVal fracVal Piece.secs; push_cast; ring
      have := tokVal_dec hf (i := p.n) (ds := []) (S := (timeVal p.unit : Nat)) (by simp)
        (.inl ⟨(timeVal p.unit : Int), rfl, by push_cast; rfl⟩) (timeVal_bounds p.unit).1 (timeVal_bounds p.unit).2
        (by rw [hv]; linarith)
      rw [hv] at this
      exact this
    · rw [List.map_cons, List.cons_append, List.sum_cons, i2]

end Verif.Human
