import Mathlib.Tactic.Linarith
import Mathlib.Algebra.Order.Field.Rat
import Mathlib.Data.Rat.Floor

/-!
Python's floating point numbers as rational numbers. The result of an operation is the exact result,
rounded. How it is rounded is a parameter: the theorems only use the bound on the relative error of the
IEEE 754 double precision format.
-/

namespace Verif

/-- `fl` rounds to double precision numbers: the relative error is at most 2^-53, unless the number is too
small or too big. -/
structure IsRounding (fl : Rat → Rat) : Prop where
  zero : fl 0 = 0
  rel : ∀ x : Rat, 1 / 2 ^ 1022 ≤ |x| → |x| ≤ 2 ^ 1023 → |fl x - x| ≤ |x| / 2 ^ 53

/-- `round(x)`: to the nearest integer, half to even. -/
def pyRound (x : Rat) : Int :=
  let f := x.floor
  if x - f < 1 / 2 then f
  else if 1 / 2 < x - f then f + 1
  else if f % 2 = 0 then f else f + 1

theorem pyRound_near (x : Rat) : |(pyRound x : Rat) - x| ≤ 1 / 2 := by
  have h1 : (x.floor : Rat) ≤ x := by
    have := Int.floor_le x
    exact this
  have h2 : x < (x.floor : Rat) + 1 := by
    have := Int.lt_floor_add_one x
    exact this
  rw [abs_le]
  unfold pyRound
  dsimp only
  split
  · constructor <;> linarith
  · split
    · push_cast; constructor <;> linarith
    · split
      · constructor <;> linarith
      · push_cast; constructor <;> linarith

/-- An integer that is closer than a half is what the number is rounded to. -/
theorem pyRound_eq (x : Rat) (n : Int) (h : |x - n| < 1 / 2) : pyRound x = n := by
  have h1 := abs_le.1 (pyRound_near x)
  have h2 := abs_lt.1 h
  have h3 : ((pyRound x : Rat) - n) < 1 := by linarith [h1.1, h1.2, h2.1, h2.2]
  have h4 : (-1 : Rat) < (pyRound x : Rat) - n := by linarith [h1.1, h1.2, h2.1, h2.2]
  have h5 : ((pyRound x - n : Int) : Rat) < ((1 : Int) : Rat) := by push_cast; exact h3
  have h6 : ((-1 : Int) : Rat) < ((pyRound x - n : Int) : Rat) := by push_cast; exact h4
  have h5 := Int.cast_lt.1 h5
  have h6 := Int.cast_lt.1 h6
  omega

-- Half to even.
example : pyRound (5 / 2) = 2 ∧ pyRound (7 / 2) = 4 ∧ pyRound (-5 / 2) = -2 ∧ pyRound (13 / 5) = 3 := by
  decide +kernel

-- There are roundings other than the identity function.
example : IsRounding (fun x => x) ∧ IsRounding (fun x => x + x / 2 ^ 53) := by
  refine ⟨⟨rfl, fun x _ _ => ?_⟩, ⟨by norm_num, fun x _ _ => ?_⟩⟩
  · rw [sub_self, abs_zero]; positivity
  · rw [add_sub_cancel_left, abs_div, abs_of_pos (by positivity : (0 : Rat) < 2 ^ 53)]

end Verif
