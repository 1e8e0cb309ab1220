import Verif.Model.Human
import Mathlib.Tactic.NormNum
import Mathlib.Tactic.Ring
import Mathlib.Tactic.FieldSimp
import Mathlib.Tactic.Positivity

/-!
Error bounds of chains of floating point operations.
-/

namespace Verif.Human

/-- `x` approximates `y` with the relative error `c`. -/
def Approx (c x y : Rat) : Prop := |x - y| ≤ c * |y|

theorem Approx.refl (y : Rat) : Approx 0 y y := by
  unfold Approx; rw [sub_self, abs_zero, zero_mul]

theorem Approx.mono {c d x y : Rat} (h : Approx c x y) (hcd : c ≤ d) : Approx d x y :=
  le_trans h (mul_le_mul_of_nonneg_right hcd (abs_nonneg y))

/-- Numbers that do not overflow or underflow, with a large margin. -/
def Mid (y : Rat) : Prop := y = 0 ∨ (1 / 2 ^ 200 ≤ |y| ∧ |y| ≤ 2 ^ 200)

theorem Approx.le_two {c x y : Rat} (h : Approx c x y) (hc : c ≤ 1 / 2) : |x| ≤ 2 * |y| ∧ |y| / 2 ≤ |x| := by
  unfold Approx at h
  have h0 := abs_nonneg y
  have h1 : c * |y| ≤ 1 / 2 * |y| := mul_le_mul_of_nonneg_right hc h0
  have h2 := abs_sub_abs_le_abs_sub x y
  have h3 := abs_sub_abs_le_abs_sub y x
  rw [abs_sub_comm y x] at h3
  constructor <;> linarith

/-- Rounding adds 2^-52 to the relative error. -/
theorem Approx.fl {fl : Rat → Rat} (hf : IsRounding fl) {c x y : Rat} (h : Approx c x y) (hc : c ≤ 1 / 2)
    (hy : Mid y) : Approx (c + 1 / 2 ^ 52) (fl x) y := by
  obtain ⟨h1, h2⟩ := h.le_two hc
  unfold Approx at h ⊢
  rcases hy with rfl | ⟨hlo, hhi⟩
  · rw [abs_zero, mul_zero] at h1
    have hx : x = 0 := by
      rw [← abs_eq_zero]; exact le_antisymm h1 (abs_nonneg x)
    rw [hx, hf.zero, sub_self, abs_zero, mul_zero]
  have e := hf.rel x (by
      refine le_trans ?_ h2
      have : (1 : Rat) / 2 ^ 1022 ≤ 1 / 2 ^ 200 / 2 := by
        rw [div_div, ← pow_succ]
        exact one_div_le_one_div_of_le (by positivity) (pow_le_pow_right₀ (by norm_num) (by norm_num))
      exact this.trans (div_le_div_of_nonneg_right hlo (by norm_num))) (by
      refine le_trans h1 ?_
      have : (2 : Rat) * 2 ^ 200 ≤ 2 ^ 1023 := by
        rw [mul_comm, ← pow_succ]
        exact pow_le_pow_right₀ (by norm_num) (by norm_num)
      exact (mul_le_mul_of_nonneg_left hhi (by norm_num)).trans this)
  have e2 : |x| / 2 ^ 53 ≤ 1 / 2 ^ 52 * |y| := by
    have : |x| / 2 ^ 53 ≤ (2 * |y|) / 2 ^ 53 := div_le_div_of_nonneg_right h1 (by positivity)
    refine le_trans this (le_of_eq ?_)
    rw [show (2 : Rat) ^ 53 = 2 * 2 ^ 52 from pow_succ' 2 52]
    generalize hp : (2 : Rat) ^ 52 = p
    have : (0 : Rat) < p := by rw [← hp]; positivity
    field_simp
  calc |fl x - y| = |(fl x - x) + (x - y)| := by congr 1; ring
    _ ≤ |fl x - x| + |x - y| := abs_add_le _ _
    _ ≤ 1 / 2 ^ 52 * |y| + c * |y| := add_le_add (le_trans e e2) h
    _ = (c + 1 / 2 ^ 52) * |y| := by ring

theorem Approx.mul {c d x y s t : Rat} (h : Approx c x y) (h' : Approx d s t) (hc : c ≤ 1) :
    Approx (c + 2 * d) (x * s) (y * t) := by
  unfold Approx at h h' ⊢
  have hy := abs_nonneg y
  have ht := abs_nonneg t
  have hx : |x| ≤ 2 * |y| := by
    have := abs_sub_abs_le_abs_sub x y
    have h1 : c * |y| ≤ 1 * |y| := mul_le_mul_of_nonneg_right hc hy
    linarith
  calc |x * s - y * t| = |x * (s - t) + (x - y) * t| := by congr 1; ring
    _ ≤ |x * (s - t)| + |(x - y) * t| := abs_add_le _ _
    _ = |x| * |s - t| + |x - y| * |t| := by rw [abs_mul, abs_mul]
    _ ≤ (2 * |y|) * (d * |t|) + (c * |y|) * |t| :=
      add_le_add (mul_le_mul hx h' (abs_nonneg _) (by positivity)) (mul_le_mul_of_nonneg_right h ht)
    _ = (c + 2 * d) * |y * t| := by rw [abs_mul]; ring

theorem Approx.abs_le {c x y : Rat} (h : Approx c x y) (hc : c ≤ 1 / 2) (hy : Mid y) : |x| ≤ 2 ^ 201 := by
  have h1 := (h.le_two hc).1
  rcases hy with rfl | ⟨_, hhi⟩
  · rw [abs_zero, mul_zero] at h1
    exact le_trans h1 (by positivity)
  · have e : (2 : Rat) ^ 201 = 2 ^ 200 * 2 := pow_succ 2 200
    rw [e]; linarith

theorem big_gt : (2 : Rat) ^ 201 < big := by
  unfold big
  have h1 : (2 : Rat) ^ 970 ≤ 2 ^ 1023 := pow_le_pow_right₀ (by norm_num) (by norm_num)
  have h2 : (2 : Rat) ^ 201 < 2 ^ 1023 := pow_lt_pow_right₀ (by norm_num) (by norm_num)
  rw [show (2 : Rat) ^ 1024 = 2 * 2 ^ 1023 from pow_succ' 2 1023]
  generalize (2 : Rat) ^ 1023 = p at h1 h2
  generalize (2 : Rat) ^ 970 = q at h1
  linarith

theorem mkFlt_fin {fl : Rat → Rat} {x : Rat} (h : |x| ≤ 2 ^ 201) : mkFlt fl x = .fin (fl x) := by
  have := abs_le.1 h
  unfold mkFlt
  rw [if_neg (by linarith [big_gt]), if_neg (by linarith [big_gt])]

theorem ofInt_ok {fl : Rat → Rat} {v : Int} (h : |(v : Rat)| ≤ 2 ^ 201) : ofInt fl v = .ok (fl v) := by
  have := abs_le.1 h
  unfold ofInt
  rw [if_neg]
  intro hc
  rcases hc with hc | hc <;> linarith [big_gt]

/-- A number approximated closely enough is what rounding to the nearest integer gives. -/
theorem Approx.round {c x : Rat} {n : Int} (h : Approx c x n) (hc : c * |(n : Rat)| < 1 / 2) :
    pyRound x = n := pyRound_eq x n (lt_of_le_of_lt h hc)

theorem Approx.add {c x y r : Rat} (h : Approx c x y) (hr : 0 ≤ r) (hy : 0 ≤ y) (hc : 0 ≤ c) :
    Approx c (r + x) (r + y) := by
  unfold Approx at h ⊢
  rw [add_sub_add_left_eq_sub]
  refine le_trans h (mul_le_mul_of_nonneg_left ?_ hc)
  rw [abs_of_nonneg hy, abs_of_nonneg (by linarith)]; linarith

theorem Approx.add' {c x y r s : Rat} (h : Approx c x y) (h' : Approx c r s) (hs : 0 ≤ s) (hy : 0 ≤ y) :
    Approx c (r + x) (s + y) := by
  unfold Approx at h h' ⊢
  calc |r + x - (s + y)| = |(r - s) + (x - y)| := by congr 1; ring
    _ ≤ |r - s| + |x - y| := abs_add_le _ _
    _ ≤ c * |s| + c * |y| := add_le_add h' h
    _ = c * |s + y| := by
      rw [abs_of_nonneg hy, abs_of_nonneg hs, abs_of_nonneg (by linarith : 0 ≤ s + y)]; ring

end Verif.Human
