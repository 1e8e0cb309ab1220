import Verif.Lemmas.HumanText

/-!
C58, C67, C68: values with units.
-/

namespace Verif.Human

open PyStr

theorem timeTotal_low {ps : List Piece} {i : Nat} {ds : List (Fin 10)} {c : Char} (hd : ds.length ≤ 20) :
    timeTotal ps i ds c = 0 ∨ 1 / 2 ^ 100 ≤ timeTotal ps i ds c := by
  unfold timeTotal
  have h0 := decVal_nonneg i ds
  have hk : (0 : Rat) ≤ ((ps.map Piece.secs).sum : Nat) := Nat.cast_nonneg _
  have ht := (timeVal_bounds c).1
  rcases decVal_low (i := i) hd with h | h
  · rw [h, zero_mul, add_zero]
    generalize (ps.map Piece.secs).sum = k
    cases k with
    | zero => left; simp
    | succ k =>
      right
      have : (0 : Rat) ≤ (k : Rat) := Nat.cast_nonneg _
      push_cast
      refine le_trans (by norm_num : (1 : Rat) / 2 ^ 100 ≤ 1) (by linarith)
  · right
    have := mul_le_mul h ht (by norm_num) h0
    refine le_trans (le_trans (by norm_num) this) (by linarith)

theorem Target.val_bounds (t : Target) : 1 / 2 ^ 30 ≤ t.val ∧ t.val ≤ 2 ^ 60 := by
  cases t with
  | default => norm_num [Target.val]
  | unit p => exact p.val_bounds

theorem mid_target {V : Rat} (t : Target) (h0 : 0 ≤ V) (h1 : V = 0 ∨ 1 / 2 ^ 100 ≤ V) (h2 : V ≤ 2 ^ 110) :
    Mid (V / t.val) := by
  have hb := t.val_bounds
  have hp := t.val_pos
  refine mid_of (div_nonneg h0 hp.le) ?_ ?_
  · rcases h1 with h1 | h1
    · left; rw [h1, zero_div]
    · right
      rw [le_div_iff₀ hp]
      refine le_trans (le_trans (mul_le_mul_of_nonneg_left hb.2 (by norm_num)) ?_) h1
      norm_num
  · rw [div_le_iff₀ hp]
    refine le_trans h2 (le_trans ?_ (mul_le_mul_of_nonneg_left hb.1 (by norm_num)))
    norm_num

theorem parse_time (fl : Rat → Rat) (hf : IsRounding fl) (ps : List Piece) (x : PyStr) (i : Nat) (ds : List (Fin 10))
    (y : PyStr) (c : Char) (tail : PyStr) (pu : Prefix) (t : Target) (integer : Bool)
    (hps : ∀ p ∈ ps, Blank p.pre ∧ Blank p.post)
    (hx : Blank x) (hy : Blank y) (ht : Blank tail) (hu : (ps.map (·.unit) ++ [c]).Sublist timeOrder)
    (hd : ds.length ≤ 20) (hb : timeTotal ps i ds c ≤ 2 ^ 110) :
    ∃ r, Approx (32 / 2 ^ 52) r (timeTotal ps i ds c / t.val) ∧
      parseHuman fl (timeText ps x i ds y c tail) (pu.text ++ ['s']) (t.arg .s) integer =
        if integer then .ok (.int (pyRound r)) else .ok (.flt (.fin r)) := by
  have hc : c ∈ timeOrder := hu.subset (List.mem_append_right _ List.mem_cons_self)
  have hbad : BadChar c := (by decide : ∀ c ∈ timeOrder, BadChar c) c hc
  have hnum : isNum fl (timeText ps x i ds y c tail) = false := isNum_bad hbad fl (by unfold timeText; simp)
  obtain ⟨hv, hs⟩ := tokVals_time hf ps i ds c hd hb
  have h0 : 0 ≤ timeTotal ps i ds c := by
    have := decVal_nonneg i ds
    unfold timeTotal; positivity
  have hlen := hu.length_le
  have := parseHuman_toks hf (timeText ps x i ds y c tail) (timeText ps x i ds y c tail) pu .s t integer _ _
    (by rw [hnum]; rfl) (tokenize_time fl ps x i ds y c tail hps hx hy ht hu) hv (by
      simp only [List.length_append, List.length_map, List.length_cons, List.length_nil] at hlen ⊢
      have : timeOrder.length = 7 := rfl
      omega) (by rw [hs]; exact le_trans hb (by norm_num)) (by
      rw [hs]; exact mid_target t h0 (timeTotal_low hd) hb)
  rw [hs] at this
  exact this

theorem approx_int {r : Rat} {V : Rat} {n : Nat} (h : Approx (32 / 2 ^ 52) r V) (hV : V = n) (hn : n ≤ 2 ^ 45) :
    pyRound r = n := by
  subst hV
  apply h.round (n := (n : Int))
  have h0 : (0 : Rat) ≤ n := Nat.cast_nonneg n
  have h1 : (n : Rat) ≤ 35184372088832 := by exact_mod_cast hn
  have : (((n : Nat) : Int) : Rat) = n := by push_cast; rfl
  rw [this, abs_of_nonneg h0]
  norm_num
  linarith

/-- **C67.** A duration made of whole amounts of days, hours, minutes and seconds in this order, each of them
optional, the units in lower or upper case, with any blanks around the numbers, the last amount possibly being
a decimal fraction, is parsed as the sum, in the target unit, if that is a whole number (up to 2^45). -/
theorem C67_int (fl : Rat → Rat) (hf : IsRounding fl) (ps : List Piece) (x : PyStr) (i : Nat) (ds : List (Fin 10))
    (y : PyStr) (c : Char) (tail : PyStr) (pu : Prefix) (t : Target)
    (hps : ∀ p ∈ ps, Blank p.pre ∧ Blank p.post) (hx : Blank x) (hy : Blank y) (ht : Blank tail)
    (hu : (ps.map (·.unit) ++ [c]).Sublist ['d', 'D', 'h', 'H', 'm', 'M', 's']) (hd : ds.length ≤ 20)
    (n : Nat) (hn : n ≤ 2 ^ 45) (hV : timeTotal ps i ds c = n * t.val) :
    parseHuman fl (timeText ps x i ds y c tail) (pu.text ++ ['s']) (t.arg .s) true = .ok (.int n) := by
  have hb : timeTotal ps i ds c ≤ 2 ^ 110 := by
    have h1 : (n : Rat) ≤ 2 ^ 45 := by exact_mod_cast hn
    rw [hV]
    refine le_trans (mul_le_mul h1 t.val_bounds.2 t.val_pos.le (by norm_num)) (by norm_num)
  obtain ⟨r, h1, h2⟩ := parse_time fl hf ps x i ds y c tail pu t true hps hx hy ht hu hd hb
  rw [h2, if_pos rfl, approx_int h1 (by rw [hV]; field_simp [t.val_pos.ne']) hn]

/-- **C67.** If the number is not rounded to an integer the relative error of the result is at most 2^-47. -/
theorem C67_float (fl : Rat → Rat) (hf : IsRounding fl) (ps : List Piece) (x : PyStr) (i : Nat) (ds : List (Fin 10))
    (y : PyStr) (c : Char) (tail : PyStr) (pu : Prefix) (t : Target)
    (hps : ∀ p ∈ ps, Blank p.pre ∧ Blank p.post) (hx : Blank x) (hy : Blank y) (ht : Blank tail)
    (hu : (ps.map (·.unit) ++ [c]).Sublist ['d', 'D', 'h', 'H', 'm', 'M', 's']) (hd : ds.length ≤ 20)
    (hb : timeTotal ps i ds c ≤ 2 ^ 110) :
    ∃ r, parseHuman fl (timeText ps x i ds y c tail) (pu.text ++ ['s']) (t.arg .s) false = .ok (.flt (.fin r)) ∧
      |r - timeTotal ps i ds c / t.val| ≤ (timeTotal ps i ds c / t.val) / 2 ^ 47 := by
  obtain ⟨r, h1, h2⟩ := parse_time fl hf ps x i ds y c tail pu t false hps hx hy ht hu hd hb
  refine ⟨r, by rw [h2]; rfl, ?_⟩
  have h0 : 0 ≤ timeTotal ps i ds c / t.val := by
    have := decVal_nonneg i ds
    have := t.val_pos
    unfold timeTotal; positivity
  unfold Approx at h1
  rw [abs_of_nonneg h0] at h1
  refine le_trans h1 (le_of_eq ?_)
  ring

-- "1d 2h 1.5m": 86400 + 7200 + 90 seconds.
example (fl : Rat → Rat) (hf : IsRounding fl) :
    parseHuman fl "1d 2h 1.5m".toList "s".toList none true = .ok (.int 93690) := by
  have h := C67_int fl hf [⟨[], 1, [], 'd'⟩, ⟨[' '], 2, [], 'h'⟩] [' '] 1 [5] [] 'm' [] .none .default
    (by intro p hp; simp only [List.mem_cons, List.not_mem_nil, or_false] at hp; rcases hp with rfl | rfl <;>
          exact ⟨by unfold Blank; decide, by unfold Blank; decide⟩)
    (by unfold Blank; decide) (by unfold Blank; decide) (by unfold Blank; decide) (by decide) (by decide) 93690 (by norm_num)
    (by decide +kernel)
  rw [show timeText [⟨[], 1, [], 'd'⟩, ⟨[' '], 2, [], 'h'⟩] [' '] 1 [5] [] 'm' [] = "1d 2h 1.5m".toList by
    decide +kernel] at h
  exact h

theorem parse_si (fl : Rat → Rat) (hf : IsRounding fl) (u : Unit') (pu p : Prefix) (t : Target) (x y hval : PyStr) (i : Nat)
    (ds : List (Fin 10)) (integer : Bool) (hx : Blank x) (hy : Blank y) (hd : ds.length ≤ 20)
    (hb : decVal i ds * p.val ≤ 2 ^ 110)
    (hv : hval = x ++ decText i ds ++ y ++ (p.text ++ u.text) ∨ (hval = x ++ decText i ds ++ y ∧ p = pu)) :
    ∃ r, Approx (32 / 2 ^ 52) r (decVal i ds * p.val / t.val) ∧
      parseHuman fl hval (pu.text ++ u.text) (t.arg u) integer =
        if integer then .ok (.int (pyRound r)) else .ok (.flt (.fin r)) := by
  obtain ⟨s, h1, h2⟩ := tokenize_single fl u p x y hx hy i ds
  have htv := tokVal_dec hf hd h2 p.val_bounds.1 p.val_bounds.2 hb
  have h0 : 0 ≤ decVal i ds * p.val := mul_nonneg (decVal_nonneg i ds) p.val_pos.le
  have hlow : decVal i ds * p.val = 0 ∨ 1 / 2 ^ 100 ≤ decVal i ds * p.val := by
    rcases decVal_low (i := i) hd with h | h
    · left; rw [h, zero_mul]
    · right
      exact le_trans (by norm_num) (mul_le_mul h p.val_bounds.1 (by norm_num) (decVal_nonneg i ds))
  have := parseHuman_toks hf hval (x ++ decText i ds ++ y ++ (p.text ++ u.text)) pu u t integer _ [decVal i ds * p.val]
    (by
      rcases hv with rfl | ⟨rfl, rfl⟩
      · obtain ⟨c, hc, hbad⟩ := bad_unit u
        rw [isNum_bad hbad fl (by
          rw [List.mem_append]; right; rw [List.mem_append]; right; exact hc)]
        rfl
      · rw [isNum_dec fl x y hx hy, if_pos rfl]
        have : p.text.head?.toList = p.text := by cases p <;> rfl
        rw [this, List.append_assoc (x ++ decText i ds ++ y)])
    h1 (.cons htv .nil) (by simp) (by simp only [List.sum_cons, List.sum_nil, add_zero]; exact le_trans hb (by norm_num))
    (by simp only [List.sum_cons, List.sum_nil, add_zero]; exact mid_target t h0 hlow hb)
  simp only [List.sum_cons, List.sum_nil, add_zero] at this
  exact this

/-- **C68.** A decimal number with up to 20 digits after the point followed by a unit with an SI prefix is parsed
exactly if it is a whole number of target units (up to 2^45), whatever unit plain numbers have. -/
theorem C68_int (fl : Rat → Rat) (hf : IsRounding fl) (u : Unit') (pu p : Prefix) (t : Target) (x y : PyStr) (i : Nat)
    (ds : List (Fin 10)) (hx : Blank x) (hy : Blank y) (hd : ds.length ≤ 20) (n : Nat) (hn : n ≤ 2 ^ 45)
    (hV : decVal i ds * p.val = n * t.val) :
    parseHuman fl (x ++ decText i ds ++ y ++ (p.text ++ u.text)) (pu.text ++ u.text) (t.arg u) true = .ok (.int n) := by
  have hb : decVal i ds * p.val ≤ 2 ^ 110 := by
    have h1 : (n : Rat) ≤ 2 ^ 45 := by exact_mod_cast hn
    rw [hV]
    refine le_trans (mul_le_mul h1 t.val_bounds.2 t.val_pos.le (by norm_num)) (by norm_num)
  obtain ⟨r, h1, h2⟩ := parse_si fl hf u pu p t x y _ i ds true hx hy hd hb (.inl rfl)
  rw [h2, if_pos rfl, approx_int h1 (by rw [hV]; field_simp [t.val_pos.ne']) hn]

/-- **C68.** A plain number is in the unit the caller says, including its SI prefix. -/
theorem C68_plain (fl : Rat → Rat) (hf : IsRounding fl) (u : Unit') (pu : Prefix) (t : Target) (x y : PyStr) (i : Nat)
    (ds : List (Fin 10)) (hx : Blank x) (hy : Blank y) (hd : ds.length ≤ 20) (n : Nat) (hn : n ≤ 2 ^ 45)
    (hV : decVal i ds * pu.val = n * t.val) :
    parseHuman fl (x ++ decText i ds ++ y) (pu.text ++ u.text) (t.arg u) true = .ok (.int n) := by
  have hb : decVal i ds * pu.val ≤ 2 ^ 110 := by
    have h1 : (n : Rat) ≤ 2 ^ 45 := by exact_mod_cast hn
    rw [hV]
    refine le_trans (mul_le_mul h1 t.val_bounds.2 t.val_pos.le (by norm_num)) (by norm_num)
  obtain ⟨r, h1, h2⟩ := parse_si fl hf u pu pu t x y _ i ds true hx hy hd hb (.inr ⟨rfl, rfl⟩)
  rw [h2, if_pos rfl, approx_int h1 (by rw [hV]; field_simp [t.val_pos.ne']) hn]

/-- **C68.** If the number is not rounded to an integer the relative error of the result is at most 2^-47. -/
theorem C68_float (fl : Rat → Rat) (hf : IsRounding fl) (u : Unit') (pu p : Prefix) (t : Target) (x y : PyStr) (i : Nat)
    (ds : List (Fin 10)) (hx : Blank x) (hy : Blank y) (hd : ds.length ≤ 20) (hb : decVal i ds * p.val ≤ 2 ^ 110) :
    ∃ r, parseHuman fl (x ++ decText i ds ++ y ++ (p.text ++ u.text)) (pu.text ++ u.text) (t.arg u) false =
        .ok (.flt (.fin r)) ∧
      |r - decVal i ds * p.val / t.val| ≤ (decVal i ds * p.val / t.val) / 2 ^ 47 := by
  obtain ⟨r, h1, h2⟩ := parse_si fl hf u pu p t x y _ i ds false hx hy hd hb (.inl rfl)
  refine ⟨r, by rw [h2]; rfl, ?_⟩
  have h0 : 0 ≤ decVal i ds * p.val / t.val :=
    div_nonneg (mul_nonneg (decVal_nonneg i ds) p.val_pos.le) t.val_pos.le
  unfold Approx at h1
  rw [abs_of_nonneg h0] at h1
  refine le_trans h1 (le_of_eq ?_)
  ring

-- "2.4 GHz" is 2400 megahertz, "1.5" milliseconds are 1500 microseconds.
example (fl : Rat → Rat) (hf : IsRounding fl) :
    parseHuman fl "2.4 GHz".toList "Hz".toList (some "MHz".toList) true = .ok (.int 2400) ∧
    parseHuman fl "1.5".toList "ms".toList (some "us".toList) true = .ok (.int 1500) := by
  have h1 := C68_int fl hf .Hz .none .giga (.unit .mega) [] [' '] 2 [4] (by unfold Blank; decide)
    (by unfold Blank; decide) (by decide) 2400 (by norm_num) (by decide +kernel)
  have h2 := C68_plain fl hf .s .milli (.unit .micro) [] [] 1 [5] (by unfold Blank; decide)
    (by unfold Blank; decide) (by decide) 1500 (by norm_num) (by decide +kernel)
  rw [show [] ++ decText 2 [4] ++ [' '] ++ (Prefix.giga.text ++ Unit'.Hz.text) = "2.4 GHz".toList by
    decide +kernel] at h1
  rw [show [] ++ decText 1 [5] ++ [] = "1.5".toList by decide +kernel] at h2
  exact ⟨h1, h2⟩

end Verif.Human
