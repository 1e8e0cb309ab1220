import Mathlib.Data.Int.Bitwise
import Mathlib.Tactic.Ring
import Mathlib.Tactic.Positivity

/-!
Helper lemmas about the bits of (possibly negative) integers. Python integers are infinite two's
complement numbers, `Int.testBit` reads one bit of such a number.
-/

namespace Verif

/-- Python `a << n` for `n ≥ 0`. -/
def shl (a : Int) (n : Nat) : Int := a * 2 ^ n

/-- Python `a >> n` for `n ≥ 0` (floor division by a power of two). -/
def shr (a : Int) (n : Nat) : Int := a / 2 ^ n

theorem int_ext_testBit {a b : Int} (h : ∀ k, a.testBit k = b.testBit k) : a = b := by
  have key : ∀ m n : Nat, ∃ k, m.testBit k = false ∧ n.testBit k = false := by
    intro m n
    refine ⟨m + n, ?_, ?_⟩
    · exact Nat.testBit_lt_two_pow (Nat.lt_of_le_of_lt (Nat.le_add_right m n) Nat.lt_two_pow_self)
    · exact Nat.testBit_lt_two_pow (Nat.lt_of_le_of_lt (Nat.le_add_left n m) Nat.lt_two_pow_self)
  cases a with
  | ofNat m =>
    cases b with
    | ofNat n => congr 1; exact Nat.eq_of_testBit_eq h
    | negSucc n =>
      obtain ⟨k, h1, h2⟩ := key m n
      have := h k
      simp [Int.testBit, h1, h2] at this
  | negSucc m =>
    cases b with
    | ofNat n =>
      obtain ⟨k, h1, h2⟩ := key m n
      have := h k
      simp [Int.testBit, h1, h2] at this
    | negSucc n =>
      congr 1
      refine Nat.eq_of_testBit_eq fun k => ?_
      have := h k
      simpa [Int.testBit] using this

theorem testBit_shl (a : Int) (n k : Nat) :
    (shl a n).testBit k = (decide (n ≤ k) && a.testBit (k - n)) := by
  unfold shl
  cases a with
  | ofNat m =>
    have e : Int.ofNat m * 2 ^ n = ((m * 2 ^ n : Nat) : Int) := by push_cast; rfl
    rw [e]
    show (m * 2 ^ n).testBit k = (decide (n ≤ k) && m.testBit (k - n))
    rw [Nat.testBit_mul_two_pow]
  | negSucc m =>
    have e : Int.negSucc m * 2 ^ n = Int.negSucc (2 ^ n * m + (2 ^ n - 1)) := by
      have h1 : 1 ≤ 2 ^ n := Nat.one_le_two_pow
      rw [Int.negSucc_eq, Int.negSucc_eq]
      push_cast [h1]
      ring
    rw [e]
    show (!(2 ^ n * m + (2 ^ n - 1)).testBit k) = (decide (n ≤ k) && !m.testBit (k - n))
    have h1 : 2 ^ n - 1 < 2 ^ n := Nat.sub_lt (Nat.two_pow_pos n) (by decide)
    rw [Nat.testBit_two_pow_mul_add _ h1, Nat.testBit_two_pow_sub_one]
    by_cases h : k < n
    · have : ¬ n ≤ k := by omega
      simp [h, this]
    · have : n ≤ k := by omega
      simp [h, this]

theorem testBit_shr (a : Int) (n k : Nat) : (shr a n).testBit k = a.testBit (n + k) := by
  unfold shr
  cases a with
  | ofNat m =>
    have e : Int.ofNat m / 2 ^ n = ((m / 2 ^ n : Nat) : Int) := by push_cast; rfl
    rw [e]
    show (m / 2 ^ n).testBit k = m.testBit (n + k)
    rw [Nat.testBit_div_two_pow, Nat.add_comm]
  | negSucc m =>
    have h1 : 1 ≤ 2 ^ n := Nat.one_le_two_pow
    have e : Int.negSucc m / 2 ^ n = Int.negSucc (m / 2 ^ n) := by
      have : (0 : Int) < 2 ^ n := by positivity
      rw [Int.negSucc_ediv _ this, Int.negSucc_eq]
      push_cast
      rfl
    rw [e]
    show (!(m / 2 ^ n).testBit k) = (!m.testBit (n + k))
    rw [Nat.testBit_div_two_pow, Nat.add_comm]

/-- The mask `(1 << n) - 1`. -/
def onesMask (n : Nat) : Int := shl 1 n - 1

theorem onesMask_eq (n : Nat) : onesMask n = ((2 ^ n - 1 : Nat) : Int) := by
  have h1 : 1 ≤ 2 ^ n := Nat.one_le_two_pow
  unfold onesMask shl
  push_cast [h1]
  ring

theorem testBit_onesMask (n k : Nat) : (onesMask n).testBit k = decide (k < n) := by
  rw [onesMask_eq]
  show (2 ^ n - 1).testBit k = decide (k < n)
  rw [Nat.testBit_two_pow_sub_one]

/-- A non-negative number not above the mask has no bits at or above `n`. -/
theorem testBit_of_le_mask {v : Int} {n k : Nat} (h0 : 0 ≤ v) (h : v ≤ onesMask n) (hk : n ≤ k) :
    v.testBit k = false := by
  obtain ⟨m, rfl⟩ := Int.eq_ofNat_of_zero_le h0
  rw [onesMask_eq] at h
  have h1 : 1 ≤ 2 ^ n := Nat.one_le_two_pow
  have h2 : m < 2 ^ n := by omega
  show m.testBit k = false
  exact Nat.testBit_lt_two_pow (Nat.lt_of_lt_of_le h2 (Nat.pow_le_pow_right (by decide) hk))

/-- A number whose bits at or above `n` are all zero lies in `[0, 2^n)`. -/
theorem range_of_testBit {a : Int} {n : Nat} (h : ∀ k, n ≤ k → a.testBit k = false) :
    0 ≤ a ∧ a < 2 ^ n := by
  cases a with
  | ofNat m =>
    refine ⟨Int.natCast_nonneg m, ?_⟩
    have : m < 2 ^ n := Nat.lt_pow_two_of_testBit m h
    show (m : Int) < 2 ^ n
    exact_mod_cast this
  | negSucc m =>
    exfalso
    have h1 := h (m + n) (by omega)
    have h2 : m.testBit (m + n) = false :=
      Nat.testBit_lt_two_pow (Nat.lt_of_le_of_lt (Nat.le_add_right m n) Nat.lt_two_pow_self)
    simp [Int.testBit, h2] at h1

theorem testBit_of_range {a : Int} {n k : Nat} (h0 : 0 ≤ a) (h : a < 2 ^ n) (hk : n ≤ k) :
    a.testBit k = false := by
  refine testBit_of_le_mask h0 ?_ hk
  unfold onesMask shl
  omega

end Verif
