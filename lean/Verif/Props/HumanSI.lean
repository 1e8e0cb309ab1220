import Verif.Lemmas.HumanFmt
import Verif.Props.Human

/-!
C69: numbers printed with SI prefixes.
-/

namespace Verif.Human

open PyStr

theorem separate_unit (fl : Rat → Rat) (u : Unit') : separate fl u.text = (none, u.text) := by
  cases u <;> rfl

theorem text_head {P : Prefix} (h : P ≠ .none) : ∃ c, P.text = [c] := by
  cases P <;> first | exact ⟨_, rfl⟩ | exact absurd rfl h

/-- The text is a decimal number, a separator, a prefix and the unit; the decimal number is close to the value
divided by the prefix. -/
theorem num2si_text (fl : Rat → Rat) (hf : IsRounding fl) (u : Unit') (v : Rat) (decp : Nat) (sep : PyStr) (zeroes : Bool)
    (hd : decp ≤ 8) (h1 : 1 / 10 ^ 9 ≤ v) (h2 : v ≤ 2 ^ 100) :
    ∃ (P : Prefix) (w : Rat) (i : Nat) (ds : List (Fin 10)), num2si fl v u.text decp sep zeroes = .ok (decText i ds ++ sep ++ (P.text ++ u.text)) ∧ ds.length ≤ decp ∧
      decVal i ds = (pyRound (w * 10 ^ decp) : Rat) / 10 ^ decp ∧ 0 ≤ w ∧
      Approx (6 / 2 ^ 52) w (v / P.val) ∧ 999 / 1000 ≤ v / P.val := by
  have hv0 : 0 < v := lt_of_lt_of_le (by norm_num) h1
  have hun : u.text ≠ [] := by cases u <;> simp [Unit'.text]
  unfold num2si
  rw [if_neg (by omega), if_neg (fun h => hun h.2), separate_unit]
  dsimp only
  rw [abs_of_pos hv0]
  by_cases hmid : 1 ≤ v ∧ v < 1000
  · rw [if_pos hmid]
    obtain ⟨i, ds, e1, e2, e3⟩ := fmtVal_dec decp zeroes hv0.le
    refine ⟨.none, v, i, ds, ?_, e2, e3, hv0.le, ?_, ?_⟩
    · rw [e1]; simp [Prefix.text]
    · unfold Approx
      simp only [Prefix.val, div_one, sub_self, abs_zero]
      positivity
    · simp only [Prefix.val, div_one]; linarith
  · rw [if_neg hmid]
    have key : ∃ P w', P ≠ Prefix.none ∧
        (if 500 < v then largeLoop fl ['k', 'M', 'G', 'T', 'P', 'E'] v
        else if v < 1 then smallLoop fl ['m', 'u', 'n'] v else (v, none)) = (w', P.text.head?) ∧
        Approx (6 / 2 ^ 52) w' (v / P.val) ∧ 999 / 1000 ≤ v / P.val := by
      by_cases hlt : 1 ≤ v
      · have hbig : 1000 ≤ v := by
          apply Classical.byContradiction; intro h; exact hmid ⟨hlt, not_le.1 h⟩
        rw [if_pos (by linarith)]
        have := largeLoop_spec hf [.kilo, .mega, .giga, .tera, .peta, .exa] (by decide) 1 v v 0 (by norm_num)
          (by norm_num [ChainUp, Prefix.val]) (by simp) (by unfold Approx; simp) (by simp) (by rw [div_one]; linarith)
          (by rw [div_one]; refine le_trans h2 (by norm_num))
        obtain ⟨P, w', j1, j2, j3, j4⟩ := this
        refine ⟨P, w', ?_, j2, j3, j4⟩
        rintro rfl
        exact absurd j1 (by decide)
      · rw [if_neg (by linarith), if_pos (not_le.1 hlt)]
        have := smallLoop_spec hf [.milli, .micro, .nano] (by decide) 1 v v 0 (by norm_num)
          (by norm_num [ChainDown, Prefix.val]) (by simp) (by unfold Approx; simp) (by simp) (by
            intro q hq
            have hq1 : q.val ≤ 1 := by
              have : q = .milli ∨ q = .micro ∨ q = .nano := by simpa using hq
              rcases this with rfl | rfl | rfl <;> norm_num [Prefix.val]
            rw [le_div_iff₀ q.val_pos]
            have : (1 / 2 ^ 110 : Rat) * q.val ≤ 1 / 2 ^ 110 * 1 := mul_le_mul_of_nonneg_left hq1 (by norm_num)
            refine le_trans this (le_trans (by norm_num) h1)) (by
            intro h
            have e : ([.milli, .micro, .nano] : List Prefix).getLast h = .nano := rfl
            rw [e, le_div_iff₀ (Prefix.val_pos _), one_mul]
            exact h1) (by rw [div_one]; linarith)
        obtain ⟨P, w', j1, j2, j3, j4⟩ := this
        refine ⟨P, w', ?_, j2, j3, j4⟩
        rintro rfl
        exact absurd j1 (by decide)
    obtain ⟨P, w', k1, k2, k3, k4⟩ := key
    have hnn : 0 ≤ w' := approx_nonneg k3 (by linarith) (by norm_num)
    obtain ⟨i, ds, e1, e2, e3⟩ := fmtVal_dec decp zeroes hnn
    refine ⟨P, w', i, ds, ?_, e2, e3, hnn, k3, k4⟩
    obtain ⟨c, hc⟩ := text_head k1
    rw [k2, hc]
    dsimp only [List.head?]
    rw [e1, any_digit]
    · simp
    · rw [e3]
      have hw : 9 / 10 ≤ w' := by
        unfold Approx at k3
        rw [abs_of_nonneg (by linarith : 0 ≤ v / P.val)] at k3
        have := (_root_.abs_le.1 k3).1
        norm_num at this
        linarith
      have h10 : (1 : Rat) ≤ 10 ^ decp := one_le_pow₀ (by norm_num)
      have hx : 9 / 10 ≤ w' * 10 ^ decp := by nlinarith
      have hr := (_root_.abs_le.1 (pyRound_near (w' * 10 ^ decp))).1
      have : (0 : Rat) < pyRound (w' * 10 ^ decp) := by linarith
      positivity

/-- **C69.** A value printed with an SI prefix and read back is the same value up to the printed precision: with
`decp` digits after the decimal point the relative error is at most 10^-`decp`. -/
theorem C69_round_trip (fl : Rat → Rat) (hf : IsRounding fl) (u : Unit') (v : Rat) (decp : Nat) (sep : PyStr)
    (zeroes : Bool) (hs : Blank sep) (hd : decp ≤ 8) (h1 : 1 / 10 ^ 9 ≤ v) (h2 : v ≤ 2 ^ 100) :
    ∃ text r, num2si fl v u.text decp sep zeroes = .ok text ∧
      parseHuman fl text u.text none false = .ok (.flt (.fin r)) ∧ |r - v| ≤ v / 10 ^ decp := by
  obtain ⟨P, w, i, ds, e1, e2, e3, e4, e5, e6⟩ := num2si_text fl hf u v decp sep zeroes hd h1 h2
  have hv0 : 0 < v := lt_of_lt_of_le (by norm_num) h1
  have hP := P.val_pos
  have h10 : (0 : Rat) < 10 ^ decp := by positivity
  -- The decimal number is close to the quotient.
  have hK : |decVal i ds - w| ≤ 1 / 2 / 10 ^ decp := by
    have := pyRound_near (w * 10 ^ decp)
    have e : decVal i ds - w = ((pyRound (w * 10 ^ decp) : Rat) - w * 10 ^ decp) / 10 ^ decp := by
      rw [e3]; field_simp
    rw [e, abs_div, abs_of_pos h10]
    exact div_le_div_of_nonneg_right this h10.le
  have hq0 : 0 ≤ v / P.val := by linarith
  have hw : |w - v / P.val| ≤ 6 / 2 ^ 52 * (v / P.val) := by
    unfold Approx at e5; rwa [abs_of_nonneg hq0] at e5
  have hvq : v / P.val * P.val = v := div_mul_cancel₀ v hP.ne'
  have hPv : P.val ≤ 1001 / 999 * v := by
    have := mul_le_mul_of_nonneg_right e6 hP.le
    rw [hvq] at this
    linarith
  -- Hence also the product is close to the value.
  have hKP : |decVal i ds * P.val - v| ≤ v * (1001 / 1998 / 10 ^ decp + 6 / 2 ^ 52) := by
    have e : decVal i ds * P.val - v = (decVal i ds - w) * P.val + (w - v / P.val) * P.val := by
      rw [sub_mul, sub_mul, hvq]; ring
    rw [e]
    refine le_trans (abs_add_le _ _) ?_
    rw [abs_mul, abs_mul, abs_of_pos hP]
    have a1 := mul_le_mul_of_nonneg_right hK hP.le
    have a2 := mul_le_mul_of_nonneg_right hw hP.le
    rw [mul_assoc, hvq] at a2
    have a3 : 1 / 2 / 10 ^ decp * P.val ≤ 1 / 2 / 10 ^ decp * (1001 / 999 * v) :=
      mul_le_mul_of_nonneg_left hPv (by positivity)
    have e2 : 1 / 2 / 10 ^ decp * (1001 / 999 * v) = v * (1001 / 1998 / 10 ^ decp) := by field_simp; norm_num
    rw [mul_add]
    linarith
  have hpow8 : (10 : Rat) ^ decp ≤ 10 ^ 8 := pow_le_pow_right₀ (by norm_num) hd
  have hinv : (1 : Rat) / 10 ^ 8 ≤ 1 / 10 ^ decp := one_div_le_one_div_of_le h10 hpow8
  have hinv1 : (1 : Rat) / 10 ^ decp ≤ 1 := by
    rw [div_le_one h10]; exact one_le_pow₀ (by norm_num)
  have e7 : (1001 : Rat) / 1998 / 10 ^ decp = 1001 / 1998 * (1 / 10 ^ decp) := by ring
  generalize hD : (1 : Rat) / 10 ^ decp = D at *
  rw [e7] at hKP
  have hle : decVal i ds * P.val ≤ 2 * v := by
    have := (_root_.abs_le.1 hKP).2
    have b : v * (1001 / 1998 * D + 6 / 2 ^ 52) ≤ v * 1 :=
      mul_le_mul_of_nonneg_left (by norm_num; linarith) hv0.le
    linarith
  obtain ⟨r, r1, r2⟩ := C68_float fl hf u .none P .default [] sep i ds (by intro c hc; cases hc) hs (by omega)
    (le_trans hle (le_trans (mul_le_mul_of_nonneg_left h2 (by norm_num)) (by norm_num)))
  refine ⟨_, r, e1, ?_, ?_⟩
  · exact r1
  · have r3 : |r - decVal i ds * P.val| ≤ 2 * v / 2 ^ 47 := by
      have : Target.default.val = 1 := rfl
      rw [this, div_one] at r2
      exact le_trans r2 (div_le_div_of_nonneg_right hle (by positivity))
    have e : r - v = (r - decVal i ds * P.val) + (decVal i ds * P.val - v) := by ring
    have hfin : v / 10 ^ decp = v * D := by rw [← hD]; ring
    rw [e, hfin]
    refine le_trans (abs_add_le _ _) (le_trans (add_le_add r3 hKP) ?_)
    have : 2 * v / 2 ^ 47 + v * (1001 / 1998 * D + 6 / 2 ^ 52) = v * (2 / 2 ^ 47 + (1001 / 1998 * D + 6 / 2 ^ 52)) := by ring
    rw [this]
    refine mul_le_mul_of_nonneg_left ?_ hv0.le
    norm_num at hinv ⊢
    linarith

/-- **C69.** Zero is printed without a prefix, and read back as zero. -/
theorem C69_zero (fl : Rat → Rat) (hf : IsRounding fl) (u : Unit') (decp : Nat) (sep : PyStr) (hs : Blank sep)
    (hd : decp ≤ 8) :
    num2si fl 0 u.text decp sep true = .ok ('0' :: (sep ++ u.text)) ∧
      parseHuman fl ('0' :: (sep ++ u.text)) u.text none false = .ok (.flt (.fin 0)) := by
  constructor
  · have hun : u.text ≠ [] := by cases u <;> simp [Unit'.text]
    have hfix : fmtVal decp true 0 = ['0'] := by
      have : ∀ d ≤ 8, fmtVal d true 0 = ['0'] := by decide +kernel
      exact this decp hd
    have h0 : fl 0 = 0 := hf.zero
    unfold num2si
    rw [if_neg (by omega), if_neg (fun h => hun h.2), separate_unit]
    dsimp only
    rw [if_neg (by norm_num), if_neg (by norm_num), if_pos (by norm_num)]
    have hl : smallLoop fl ['m', 'u', 'n'] 0 = (0, some 'n') := by
      have h1 : ¬ (1 : Rat) ≤ 0 := by norm_num
      simp [smallLoop, h0, h1]
    rw [hl]
    dsimp only
    rw [hfix, if_neg (by decide), if_pos hun]
    rfl
  · obtain ⟨r, r1, r2⟩ := C68_float fl hf u .none .none .default [] sep 0 [] (by intro c hc; cases hc) hs (by simp)
      (by norm_num [decVal, fracVal])
    have hr : r = 0 := by
      norm_num [decVal, fracVal] at r2
      exact r2
    rw [hr, show decText 0 [] = ['0'] by decide +kernel] at r1
    exact r1

-- 2.45 GHz, and 55 milliwatts with "0.05" as the value. Concrete values to satisfy the hypotheses.
example (fl : Rat → Rat) (hf : IsRounding fl) :
    ∃ text r, num2si fl 2450000000 "Hz".toList 2 [] false = .ok text ∧
      parseHuman fl text "Hz".toList none false = .ok (.flt (.fin r)) ∧ |r - 2450000000| ≤ 2450000000 / 10 ^ 2 :=
  C69_round_trip fl hf .Hz 2450000000 2 [] false (by intro c hc; cases hc) (by norm_num) (by norm_num) (by norm_num)

example : num2si id 2450000000 "Hz".toList 2 [] false = .ok "2.45GHz".toList := by decide +kernel

example : num2si id (1 / 20) "W".toList 1 [' '] true = .ok "50 mW".toList := by decide +kernel

/-- Five kilohertz are printed as five hertz: the prefix of the unit is lost for numbers from 1 to 999. -/
theorem C69_prefix_counterexample : num2si id 5 "kHz".toList 1 [] false = .ok "5.0Hz".toList := by decide +kernel

end Verif.Human
