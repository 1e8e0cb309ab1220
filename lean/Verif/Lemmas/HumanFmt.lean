import Verif.Lemmas.HumanText

/-!
Lemmas about the texts `num2si()` produces.
-/

namespace Verif.Human

open PyStr

/-! ### Decimal digits -/

/-- The last `n` decimal digits of `m`. -/
def dsOf : Nat → Nat → List (Fin 10)
  | 0, _ => []
  | n + 1, m => dsOf n (m / 10) ++ [⟨m % 10, Nat.mod_lt _ (by omega)⟩]

theorem dsOf_length (n m : Nat) : (dsOf n m).length = n := by
  induction n generalizing m with
  | zero => rfl
  | succ n ih => rw [dsOf, List.length_append, ih]; rfl

theorem digitC_mod (m : Nat) : digitC (m % 10) = digitC m := by
  unfold digitC; rw [Nat.mod_mod]

theorem padded_eq (n m : Nat) : padded n m = (dsOf n m).map fun d => digitC d.val := by
  induction n generalizing m with
  | zero => rfl
  | succ n ih => rw [padded, dsOf, List.map_append, ih, List.map_singleton, digitC_mod]

theorem fracVal_concat (l : List (Fin 10)) (d : Fin 10) :
    fracVal (l ++ [d]) = fracVal l + d.val / 10 ^ (l.length + 1) := by
  induction l with
  | nil => simp [fracVal]
  | cons e l ih =>
    rw [List.cons_append, fracVal, fracVal, ih, List.length_cons, pow_succ (10 : Rat) (l.length + 1)]
    field_simp
    ring

theorem fracVal_dsOf (n m : Nat) : fracVal (dsOf n m) = ((m % 10 ^ n : Nat) : Rat) / 10 ^ n := by
  induction n generalizing m with
  | zero => simp [dsOf, fracVal, Nat.mod_one]
  | succ n ih =>
    rw [dsOf, fracVal_concat, ih, dsOf_length]
    have e : m % 10 ^ (n + 1) = m / 10 % 10 ^ n * 10 + m % 10 := by
      rw [Nat.pow_succ, Nat.mul_comm (10 ^ n) 10, Nat.mod_mul]
      omega
    rw [e]
    push_cast
    rw [pow_succ]
    field_simp

/-! ### Rounding -/

theorem pyRound_nonneg {x : Rat} (h : 0 ≤ x) : 0 ≤ pyRound x := by
  have h1 := (_root_.abs_le.1 (pyRound_near x)).1
  have h2 : (-1 : Rat) < (pyRound x : Rat) := by linarith
  have h3 : ((-1 : Int) : Rat) < (pyRound x : Rat) := by push_cast; exact h2
  have := Int.cast_lt.1 h3
  omega

theorem rstripBy_concat_pos {p : Char → Bool} {s : PyStr} {c : Char} (h : p c = true) :
    rstripBy p (s ++ [c]) = rstripBy p s := by
  unfold rstripBy
  rw [List.reverse_append, List.reverse_singleton, List.singleton_append, List.dropWhile, h]

theorem rstripBy_concat_neg {p : Char → Bool} {s : PyStr} {c : Char} (h : p c = false) :
    rstripBy p (s ++ [c]) = s ++ [c] := by
  unfold rstripBy
  rw [List.reverse_append, List.reverse_singleton, List.singleton_append, List.dropWhile, h]
  simp

theorem rstripBy_ofNat {p : Char → Bool} (n : Nat) (h : ∀ c, isDig c = true → p c = false) :
    rstripBy p (ofNat n) = ofNat n := by
  rcases List.eq_nil_or_concat (ofNat n) with h0 | ⟨l, c, h0⟩
  · exact absurd h0 (ofNat_ne_nil n)
  · have hc : isDig c = true := isDig_ofNat (n := n) (by rw [h0]; simp)
    rw [h0, List.concat_eq_append]
    exact rstripBy_concat_neg (h c hc)

theorem digitC_zero : ∀ d : Fin 10, (digitC d.val == '0') = true ↔ d = 0 := by decide +kernel

/-- Removing the trailing zeroes does not change the value. -/
theorem rstrip_zeroes (i : Nat) (ds : List (Fin 10)) :
    ∃ ds', rstripBy (· == '.') (rstripBy (· == '0') (ofNat i ++ '.' :: ds.map fun d => digitC d.val)) = decText i ds' ∧
      fracVal ds' = fracVal ds ∧ ds'.length ≤ ds.length := by
  have hdot : ∀ c, isDig c = true → (c == '.') = false := by
    intro c hc
    exact beq_eq_false_iff_ne.2 (isDig_ne hc (by decide))
  induction ds using List.reverseRecOn with
  | nil =>
    refine ⟨[], ?_, rfl, le_refl _⟩
    rw [List.map_nil, rstripBy_concat_neg (by decide), rstripBy_concat_pos (by decide), decText_nil,
      rstripBy_ofNat i hdot]
  | append_singleton ds d ih =>
    have e : ofNat i ++ '.' :: (ds ++ [d]).map (fun d => digitC d.val) =
        (ofNat i ++ '.' :: ds.map fun d => digitC d.val) ++ [digitC d.val] := by simp
    rw [e]
    by_cases hd : d = 0
    · rw [rstripBy_concat_pos (p := (· == '0')) ((digitC_zero d).2 hd)]
      obtain ⟨ds', h1, h2, h3⟩ := ih
      refine ⟨ds', h1, ?_, by rw [List.length_append]; omega⟩
      rw [h2, fracVal_concat, hd]
      simp
    · have h0 : (digitC d.val == '0') = false := by
        rw [Bool.eq_false_iff]; exact fun h => hd ((digitC_zero d).1 h)
      rw [rstripBy_concat_neg (p := (· == '0')) h0, rstripBy_concat_neg (p := (· == '.')) (hdot _ (isDig_digitC _))]
      refine ⟨ds ++ [d], ?_, rfl, le_refl _⟩
      unfold decText
      rw [if_neg (by simp), e]

/-- The text of a number is a decimal number close to it. -/
theorem fmtVal_dec (decp : Nat) (zeroes : Bool) {x : Rat} (hx : 0 ≤ x) :
    ∃ i ds, fmtVal decp zeroes x = decText i ds ∧ ds.length ≤ decp ∧
      decVal i ds = (pyRound (x * 10 ^ decp) : Rat) / 10 ^ decp := by
  have hk : 0 ≤ pyRound (x * 10 ^ decp) := pyRound_nonneg (by positivity)
  obtain ⟨k, hk⟩ := Int.eq_ofNat_of_zero_le hk
  have hval : ((k / 10 ^ decp : Nat) : Rat) + ((k % 10 ^ decp : Nat) : Rat) / 10 ^ decp = (k : Rat) / 10 ^ decp := by
    have h := Nat.div_add_mod k (10 ^ decp)
    have h2 : (k : Rat) = 10 ^ decp * ((k / 10 ^ decp : Nat) : Rat) + ((k % 10 ^ decp : Nat) : Rat) := by
      exact_mod_cast h.symm
    generalize ((k / 10 ^ decp : Nat) : Rat) = a at h2 ⊢
    generalize ((k % 10 ^ decp : Nat) : Rat) = b at h2 ⊢
    rw [h2]
    field_simp
  have hfix : fmtFixed decp x = ofNat (k / 10 ^ decp) ++
      (if decp = 0 then [] else '.' :: (dsOf decp k).map fun d => digitC d.val) := by
    unfold fmtFixed
    rw [abs_of_nonneg hx, hk, if_neg (not_lt.2 hx)]
    dsimp only
    rw [padded_eq]
    simp
  unfold fmtVal
  rw [hfix, hk]
  dsimp only
  cases decp with
  | zero =>
    rw [if_pos rfl, List.append_nil, if_neg]
    · refine ⟨k / 10 ^ 0, [], by rw [decText_nil], by simp, ?_⟩
      unfold decVal fracVal
      simp
    · rintro ⟨_, h⟩
      exact ofNat_not_mem _ (by decide) h
  | succ n =>
    rw [if_neg (by omega : ¬ n + 1 = 0)]
    by_cases hz : zeroes = true
    · rw [if_pos ⟨hz, by simp⟩]
      obtain ⟨ds', h1, h2, h3⟩ := rstrip_zeroes (k / 10 ^ (n + 1)) (dsOf (n + 1) k)
      refine ⟨_, ds', h1, by rw [dsOf_length] at h3; exact h3, ?_⟩
      unfold decVal
      rw [h2, fracVal_dsOf, hval]
      push_cast
      rfl
    · rw [if_neg (fun h => hz h.1)]
      refine ⟨k / 10 ^ (n + 1), dsOf (n + 1) k, ?_, by rw [dsOf_length], ?_⟩
      · unfold decText
        rw [if_neg (by rw [← List.length_eq_zero_iff, dsOf_length]; omega)]
      · unfold decVal
        rw [fracVal_dsOf, hval]
        push_cast
        rfl

/-- A number that is not zero has a digit other than zero. -/
theorem any_digit {i : Nat} {ds : List (Fin 10)} (h : decVal i ds ≠ 0) :
    (decText i ds).any (fun c => isDig c && c != '0') = true := by
  apply Classical.byContradiction
  intro hn
  apply h
  have hall : ∀ c ∈ decText i ds, isDig c = true → c = '0' := by
    intro c hc hd
    apply Classical.byContradiction
    intro h0
    apply hn
    rw [List.any_eq_true]
    exact ⟨c, hc, by rw [hd, Bool.true_and]; exact bne_iff_ne.2 h0⟩
  have hz : ∀ s : PyStr, (∀ c ∈ s, c = '0') → digitsVal 0 s = 0 := by
    intro s hs
    induction s with
    | nil => rfl
    | cons c s ih =>
      rw [digitsVal_cons, hs c List.mem_cons_self]
      exact ih fun d hd => hs d (List.mem_cons_of_mem _ hd)
  have hi : i = 0 := by
    rw [← digitsVal_ofNat i]
    apply hz
    intro c hc
    exact hall c (by unfold decText; exact List.mem_append_left _ hc) (isDig_ofNat hc)
  have hds : ∀ d ∈ ds, d = 0 := by
    intro d hd
    have : digitC d.val ∈ decText i ds := by
      unfold decText
      rw [if_neg (List.ne_nil_of_mem hd)]
      exact List.mem_append_right _ (List.mem_cons_of_mem _ (List.mem_map_of_mem (f := fun d : Fin 10 => digitC d.val) hd))
    have := hall _ this (isDig_digitC _)
    exact (digitC_zero d).1 (by rw [this]; rfl)
  have hf : ∀ l : List (Fin 10), (∀ d ∈ l, d = 0) → fracVal l = 0 := by
    intro l hl
    induction l with
    | nil => rfl
    | cons d l ih =>
      rw [fracVal, ih fun e he => hl e (List.mem_cons_of_mem _ he), hl d List.mem_cons_self]
      simp
  unfold decVal
  rw [hi, hf ds hds]
  simp

/-! ### The loops over the prefixes -/

/-- The prefixes of the list are 1000 times larger each. -/
def ChainUp : Rat → List Prefix → Prop
  | _, [] => True
  | B, q :: qs => q.val = 1000 * B ∧ ChainUp q.val qs

/-- The prefixes of the list are 1000 times smaller each. -/
def ChainDown : Rat → List Prefix → Prop
  | _, [] => True
  | B, q :: qs => B = 1000 * q.val ∧ ChainDown q.val qs

theorem approx_ge {c w V a : Rat} (h : Approx c w V) (hV : 0 ≤ V) (hc : c ≤ 1 / 1000) (hw : a ≤ w) :
    a * (999 / 1000) ≤ V := by
  unfold Approx at h
  rw [abs_of_nonneg hV] at h
  have h1 := (_root_.abs_le.1 h).2
  have h2 : c * V ≤ 1 / 1000 * V := mul_le_mul_of_nonneg_right hc hV
  nlinarith

theorem approx_nonneg {c w V : Rat} (h : Approx c w V) (hV : 0 ≤ V) (hc : c ≤ 1 / 2) : 0 ≤ w := by
  unfold Approx at h
  rw [abs_of_nonneg hV] at h
  have h1 := (_root_.abs_le.1 h).1
  have h2 : c * V ≤ 1 / 2 * V := mul_le_mul_of_nonneg_right hc hV
  linarith

theorem largeLoop_spec {fl : Rat → Rat} (hf : IsRounding fl) (qs : List Prefix) (hq : ∀ q ∈ qs, q ≠ .none) (B w v : Rat)
    (k : Nat) (hB : 0 < B) (hch : ChainUp B qs) (hne : qs ≠ []) (hw : Approx (k / 2 ^ 52) w (v / B))
    (hk : k + qs.length ≤ 6) (hlow : 999 ≤ v / B) (hhi : v / B ≤ 2 ^ 110) :
    ∃ P w', P ∈ qs ∧ largeLoop fl (qs.map fun q => q.text.headD ' ') w = (w', P.text.head?) ∧
      Approx (6 / 2 ^ 52) w' (v / P.val) ∧ 999 / 1000 ≤ v / P.val := by
  induction qs generalizing B w k with
  | nil => exact absurd rfl hne
  | cons q qs ih =>
    obtain ⟨hc1, hc2⟩ := hch
    have hkr : ((k : Nat) : Rat) + 1 ≤ 6 := by
      rw [List.length_cons] at hk
      exact_mod_cast (by omega : k + 1 ≤ 6)
    have hk0 : (0 : Rat) ≤ k := Nat.cast_nonneg k
    have hv1 : v / q.val = v / B / 1000 := by rw [hc1]; field_simp
    have hpos : 999 / 1000 ≤ v / q.val := by rw [hv1]; linarith
    have hm : Mid (v / q.val) := mid_of (by linarith) (.inr (le_trans (by norm_num) hpos)) (by
      rw [hv1]
      refine le_trans (by linarith : v / B / 1000 ≤ v / B) (le_trans hhi (by norm_num)))
    have hcc : (k : Rat) / 2 ^ 52 ≤ 1 / 2 := by
      rw [div_le_iff₀ (by positivity)]; norm_num; linarith
    have h1 : Approx (((k + 1 : Nat) : Rat) / 2 ^ 52) (fl (w / 1000)) (v / q.val) := by
      have h2 : Approx (k / 2 ^ 52) (w / 1000) (v / q.val) := by
        rw [hv1]
        unfold Approx at hw ⊢
        rw [← sub_div, abs_div, abs_div, abs_of_pos (by norm_num : (0 : Rat) < 1000), ← mul_div_assoc]
        exact div_le_div_of_nonneg_right hw (by norm_num)
      refine (h2.fl hf hcc hm).mono (le_of_eq ?_)
      push_cast; ring
    have h6 : Approx (6 / 2 ^ 52) (fl (w / 1000)) (v / q.val) :=
      h1.mono (div_le_div_of_nonneg_right (by push_cast; exact hkr) (by positivity))
    have hqt : some (q.text.headD ' ') = q.text.head? := by
      have := hq q List.mem_cons_self
      cases q <;> first | rfl | exact absurd rfl this
    cases qs with
    | nil =>
      refine ⟨q, fl (w / 1000), List.mem_cons_self, ?_, h6, hpos⟩
      rw [List.map_cons, List.map_nil, largeLoop, hqt]
    | cons q2 qs =>
      rw [List.map_cons, largeLoop.eq_3 _ _ _ _ (by simp)]
      by_cases hlt : |fl (w / 1000)| < 1000
      · rw [if_pos hlt]
        exact ⟨q, _, List.mem_cons_self, by rw [hqt], h6, hpos⟩
      · rw [if_neg hlt]
        have hnn := approx_nonneg h6 (by linarith) (by norm_num)
        rw [abs_of_nonneg hnn, not_lt] at hlt
        have hge := approx_ge h6 (by linarith) (by norm_num) hlt
        obtain ⟨P, w', j1, j2, j3, j4⟩ := ih (fun q hq' => hq q (List.mem_cons_of_mem _ hq')) q.val (fl (w / 1000)) (k + 1)
          q.val_pos hc2 (by simp) h1 (by rw [List.length_cons] at hk; omega) (by linarith)
          (by rw [hv1]; linarith)
        exact ⟨P, w', List.mem_cons_of_mem _ j1, j2, j3, j4⟩

theorem smallLoop_spec {fl : Rat → Rat} (hf : IsRounding fl) (qs : List Prefix) (hq : ∀ q ∈ qs, q ≠ .none) (B w v : Rat)
    (k : Nat) (hB : 0 < B) (hch : ChainDown B qs) (hne : qs ≠ []) (hw : Approx (k / 2 ^ 52) w (v / B))
    (hk : k + qs.length ≤ 3) (hlow : ∀ q ∈ qs, 1 / 2 ^ 110 ≤ v / q.val) (hlast : ∀ h, 1 ≤ v / (qs.getLast h).val)
    (hhi : v / B ≤ 2) :
    ∃ P w', P ∈ qs ∧ smallLoop fl (qs.map fun q => q.text.headD ' ') w = (w', P.text.head?) ∧
      Approx (6 / 2 ^ 52) w' (v / P.val) ∧ 999 / 1000 ≤ v / P.val := by
  induction qs generalizing B w k with
  | nil => exact absurd rfl hne
  | cons q qs ih =>
    obtain ⟨hc1, hc2⟩ := hch
    have hkr : ((k : Nat) : Rat) + 1 ≤ 6 := by
      rw [List.length_cons] at hk
      exact_mod_cast (by omega : k + 1 ≤ 6)
    have hk0 : (0 : Rat) ≤ k := Nat.cast_nonneg k
    have hqp := q.val_pos
    have hv1 : v / q.val = v / B * 1000 := by rw [hc1]; field_simp
    have hpos0 : 1 / 2 ^ 110 ≤ v / q.val := hlow q List.mem_cons_self
    have hpos : 0 ≤ v / q.val := le_trans (by norm_num) hpos0
    have hm : Mid (v / q.val) := mid_of hpos (.inr (le_trans (by norm_num) hpos0)) (by
      rw [hv1]
      refine le_trans (by linarith : v / B * 1000 ≤ 2000) (by norm_num))
    have hcc : (k : Rat) / 2 ^ 52 ≤ 1 / 2 := by
      rw [div_le_iff₀ (by positivity)]; norm_num; linarith
    have h1 : Approx (((k + 1 : Nat) : Rat) / 2 ^ 52) (fl (w * 1000)) (v / q.val) := by
      have h2 : Approx (k / 2 ^ 52) (w * 1000) (v / q.val) := by
        rw [hv1]
        unfold Approx at hw ⊢
        rw [← sub_mul, abs_mul, abs_mul, abs_of_pos (by norm_num : (0 : Rat) < 1000), ← mul_assoc]
        exact mul_le_mul_of_nonneg_right hw (by norm_num)
      refine (h2.fl hf hcc hm).mono (le_of_eq ?_)
      push_cast; ring
    have h6 : Approx (6 / 2 ^ 52) (fl (w * 1000)) (v / q.val) :=
      h1.mono (div_le_div_of_nonneg_right (by push_cast; exact hkr) (by positivity))
    have hqt : some (q.text.headD ' ') = q.text.head? := by
      have := hq q List.mem_cons_self
      cases q <;> first | rfl | exact absurd rfl this
    have hnn := approx_nonneg h6 hpos (by norm_num)
    cases qs with
    | nil =>
      refine ⟨q, fl (w * 1000), List.mem_cons_self, ?_, h6, ?_⟩
      · rw [List.map_cons, List.map_nil, smallLoop, hqt]
      · have := hlast (by simp)
        rw [List.getLast_singleton] at this
        linarith
    | cons q2 qs =>
      rw [List.map_cons, smallLoop.eq_3 _ _ _ _ (by simp)]
      by_cases hlt : 1 ≤ |fl (w * 1000)|
      · rw [if_pos hlt]
        rw [abs_of_nonneg hnn] at hlt
        have hge := approx_ge h6 hpos (by norm_num) hlt
        exact ⟨q, _, List.mem_cons_self, by rw [hqt], h6, by linarith⟩
      · rw [if_neg hlt]
        rw [abs_of_nonneg hnn, not_le] at hlt
        have hle : v / q.val ≤ 2 := by
          unfold Approx at h6
          rw [abs_of_nonneg hpos] at h6
          have := (_root_.abs_le.1 h6).1
          norm_num at this
          linarith
        obtain ⟨P, w', j1, j2, j3, j4⟩ := ih (fun q hq' => hq q (List.mem_cons_of_mem _ hq')) q.val (fl (w * 1000)) (k + 1)
          q.val_pos hc2 (by simp) h1 (by rw [List.length_cons] at hk; omega)
          (fun q hq' => hlow q (List.mem_cons_of_mem _ hq')) (fun h => hlast (by simp)) hle
        exact ⟨P, w', List.mem_cons_of_mem _ j1, j2, j3, j4⟩

end Verif.Human
