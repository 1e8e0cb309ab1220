import Verif.Model.Bits

/-!
C01, C02, C03: bit-field reads and writes.
-/

namespace Verif.Bits

/-! ### Specification -/

/-- Bit number `k` belongs to the range `(msb, lsb)`. -/
def InRange (bits : BitRange) (k : Nat) : Prop := bits.2 ≤ (k : Int) ∧ (k : Int) ≤ bits.1

/-- Two ranges have no bit in common. -/
def Disjoint (a b : BitRange) : Prop := a.1 < b.2 ∨ b.1 < a.2

/-- Width of a range. -/
def width (bits : BitRange) : Nat := (bits.1 - bits.2 + 1).toNat

/-- The number a field value stands for: all bits of the range set, or the given integer. -/
def numOf (bits : BitRange) : FieldVal → Option Int
  | .allOnes => some (2 ^ width bits - 1)
  | .num v => some v
  | .notInt => none

/-! ### Lemmas -/

theorem normalizeBits_ok {bits b : BitRange} (h : normalizeBits bits = .ok b) :
    b = bits ∧ bits.2 ≤ bits.1 ∧ bits.1 - bits.2 + 1 ≤ 64 := by
  unfold normalizeBits regbits at h
  split at h
  · cases h
  · dsimp only at h
    split at h
    · cases h
    · cases h
      exact ⟨rfl, by omega, by omega⟩

theorem onesMask_width (bits : BitRange) : onesMask (width bits) = 2 ^ width bits - 1 := by
  unfold onesMask shl; ring

/-- Everything there is to know about a successful `setBits`. -/
theorem setBits_ok {reg r : Int} {bits : BitRange} {val : FieldVal}
    (h : setBits reg bits val = .ok r) :
    ∃ v, numOf bits val = some v ∧ v ≤ 2 ^ width bits - 1 ∧ bits.2 ≤ bits.1 ∧
      bits.1 - bits.2 + 1 ≤ 64 ∧ 0 ≤ bits.2 ∧
      r = Int.lor (Int.land reg (Int.lnot (shl (onesMask (width bits)) bits.2.toNat)))
            (shl v bits.2.toNat) := by
  unfold setBits at h
  split at h
  · cases h
  · rename_i b hb
    obtain ⟨rfl, h1, h2⟩ := normalizeBits_ok hb
    dsimp only at h
    split at h
    · cases h
    · rename_i v hv
      split at h
      · cases h
      · rename_i hle
        split at h
        · cases h
        · rename_i hneg
          cases h
          refine ⟨v, ?_, ?_, h1, h2, by omega, rfl⟩
          · cases val with
            | allOnes =>
              simp only [fieldNum, Except.ok.injEq] at hv
              rw [numOf, ← onesMask_width, ← hv]; rfl
            | num w => simp only [fieldNum, Except.ok.injEq] at hv; rw [numOf, hv]
            | notInt => simp [fieldNum] at hv
          · rw [← onesMask_width]; unfold width; omega

theorem testBit_setBits {reg r v : Int} {bits : BitRange} {val : FieldVal}
    (h : setBits reg bits val = .ok r) (hv : numOf bits val = some v) (h0 : 0 ≤ v) (k : Nat) :
    r.testBit k = if bits.2 ≤ (k : Int) ∧ (k : Int) ≤ bits.1 then v.testBit (k - bits.2.toNat)
      else reg.testBit k := by
  obtain ⟨v', hv', hle, h1, h2, h3, rfl⟩ := setBits_ok h
  rw [hv] at hv'
  obtain rfl : v = v' := by simpa using hv'
  rw [Int.testBit_lor, Int.testBit_land, Int.testBit_lnot, testBit_shl, testBit_shl,
    testBit_onesMask]
  have hw : (width bits : Int) = bits.1 - bits.2 + 1 := by unfold width; omega
  by_cases hk : bits.2 ≤ (k : Int)
  · have e1 : bits.2.toNat ≤ k := by omega
    by_cases hk2 : (k : Int) ≤ bits.1
    · have e2 : k - bits.2.toNat < width bits := by omega
      simp [hk, hk2, e1, e2]
    · have e2 : ¬ k - bits.2.toNat < width bits := by omega
      have e3 : v.testBit (k - bits.2.toNat) = false :=
        testBit_of_le_mask h0 (by rw [onesMask_width]; exact hle) (by omega)
      simp [hk2, e2, e3]
  · have e1 : ¬ bits.2.toNat ≤ k := by omega
    simp [hk, e1]

/-! ### Properties -/

/-- **C01.** Whenever `set_bits()` accepts a range and a non-negative value (or "all ones"), reading
the same range back gives exactly that value, and every bit outside of the range is unchanged. -/
theorem C01_get_set_bits (reg r v : Int) (bits : BitRange) (val : FieldVal)
    (h : setBits reg bits val = .ok r) (hv : numOf bits val = some v) (h0 : 0 ≤ v) :
    getBits r bits = .ok v ∧ ∀ k : Nat, ¬ InRange bits k → r.testBit k = reg.testBit k := by
  constructor
  · obtain ⟨v', hv', hle, h1, h2, h3, -⟩ := setBits_ok h
    rw [hv] at hv'
    obtain rfl : v = v' := by simpa using hv'
    have hn : normalizeBits bits = .ok bits := by
      unfold normalizeBits regbits
      rw [if_neg (by omega)]
      dsimp only
      rw [if_neg (by omega)]
    unfold getBits
    rw [hn]
    dsimp only
    rw [if_neg (by omega)]
    congr 1
    refine int_ext_testBit fun k => ?_
    rw [Int.testBit_land, testBit_shr, testBit_onesMask, testBit_setBits h hv h0]
    have hw : (width bits : Int) = bits.1 - bits.2 + 1 := by unfold width; omega
    by_cases hk : k < (bits.1 - bits.2 + 1).toNat
    · rw [if_pos (by omega)]
      simp [hk]
    · have e : v.testBit k = false :=
        testBit_of_le_mask h0 (by rw [onesMask_width]; exact hle) (by unfold width; omega)
      simp [hk, e]
  · intro k hk
    unfold InRange at hk
    rw [testBit_setBits h hv h0, if_neg hk]

/-- **C01** (nothing useful is refused): every range inside of the register together with every
value that fits is accepted. -/
theorem C01_set_bits_accepts (reg v : Int) (bits : BitRange) (h0 : 0 ≤ bits.2)
    (h1 : bits.2 ≤ bits.1) (h2 : bits.1 ≤ 63) (hv : v < 2 ^ width bits) :
    ∃ r, setBits reg bits (.num v) = .ok r := by
  have hn : normalizeBits bits = .ok bits := by
    unfold normalizeBits regbits
    rw [if_neg (by omega)]
    dsimp only
    rw [if_neg (by omega)]
  unfold setBits
  rw [hn]
  dsimp only [fieldNum]
  have : ¬ v > onesMask (bits.1 - bits.2 + 1).toNat := by
    have := onesMask_width bits
    unfold width at this hv
    omega
  rw [if_neg this, if_neg (by omega)]
  exact ⟨_, rfl⟩

/-- The hypotheses of C01 are met by EPP bits of a HWP request register value. -/
example : ∃ r, setBits 0x80ff0108 (31, 24) (.num 0x40) = .ok r ∧
    numOf (31, 24) (.num 0x40) = some 0x40 := ⟨0x40ff0108, by decide +kernel, rfl⟩

/-- **C02** is false of the code: a negative value is accepted and every bit above the range becomes
set (the result is not even a 64-bit number any more). -/
theorem C02_set_bits_counterexample_negative :
    ∃ r, setBits 0x0f (7, 4) (.num (-1)) = .ok r ∧ r = -1 ∧
      ∃ k : Nat, ¬ InRange (7, 4) k ∧ r.testBit k ≠ Int.testBit 0x0f k := by
  refine ⟨-1, by decide +kernel, rfl, 8, ?_, by decide +kernel⟩
  unfold InRange; omega

/-- **C02** is false of the code: a range above bit 63 is accepted and the result does not fit into
64 bits. -/
theorem C02_set_bits_counterexample_range :
    ∃ r, setBits 0 (64, 64) (.num 1) = .ok r ∧ ¬ r < 2 ^ 64 :=
  ⟨2 ^ 64, by decide +kernel, by decide +kernel⟩

/-- **C02** (partial). Full property: *for all* ranges and integer values `set_bits()` either
refuses or changes only bits inside of the range and stays within 64 bits. Proved here: for
non-negative values and ranges within the register. Missing (false of the code): negative values and
ranges reaching above bit 63, see the counterexamples. -/
theorem C02_set_bits_confined_partial (reg : Int) (bits : BitRange) (val : FieldVal)
    (hreg0 : 0 ≤ reg) (hreg : reg < 2 ^ 64) (hmsb : bits.1 ≤ 63)
    (hval : ∀ v, val = .num v → 0 ≤ v) :
    match setBits reg bits val with
    | .error _ => True
    | .ok r => (∀ k : Nat, ¬ InRange bits k → r.testBit k = reg.testBit k) ∧
               0 ≤ r ∧ r < 2 ^ 64 := by
  split
  · trivial
  · rename_i r h
    obtain ⟨v, hv, hle, h1, h2, h3, -⟩ := setBits_ok h
    have h0 : 0 ≤ v := by
      cases val with
      | allOnes =>
        simp only [numOf, Option.some.injEq] at hv
        have : (0 : Int) < 2 ^ width bits := by positivity
        omega
      | num w => simp only [numOf, Option.some.injEq] at hv; subst hv; exact hval _ rfl
      | notInt => simp [numOf] at hv
    refine ⟨(C01_get_set_bits reg r v bits val h hv h0).2, ?_⟩
    refine range_of_testBit fun k hk => ?_
    rw [testBit_setBits h hv h0, if_neg (by omega)]
    exact testBit_of_range hreg0 hreg hk

/-- **C02** (refusals): values that do not fit, reversed ranges and ranges wider than a register are
refused. -/
theorem C02_set_bits_refuses (reg v : Int) (bits : BitRange)
    (h : v ≥ 2 ^ width bits ∨ bits.1 < bits.2 ∨ bits.1 - bits.2 ≥ 64) :
    setBits reg bits (.num v) = .error .error := by
  unfold setBits normalizeBits regbits
  by_cases h1 : bits.1 < bits.2
  · simp [h1]
  · simp only [if_neg h1]
    by_cases h2 : bits.1 - bits.2 + 1 > 64
    · simp [h2]
    · simp only [if_neg h2, fieldNum]
      have hv : v ≥ 2 ^ width bits := by
        rcases h with h | h | h
        · exact h
        · exact absurd h h1
        · omega
      have := onesMask_width bits
      unfold width at this hv
      rw [if_pos (by omega)]

example : (15 : Int) < 2 ^ 64 ∧ setBits 0x1f (3, 0) (.num 16) = .error .error := by decide +kernel

/-- **C03.** Writes to disjoint ranges commute, and a write does not change what is read from a
disjoint range. -/
theorem C03_disjoint_fields (reg : Int) (a b : BitRange) (va vb : FieldVal) (na nb ra rb : Int)
    (hab : Disjoint a b)
    (ha : setBits reg a va = .ok ra) (hna : numOf a va = some na) (hna0 : 0 ≤ na)
    (hb : setBits reg b vb = .ok rb) (hnb : numOf b vb = some nb) (hnb0 : 0 ≤ nb) :
    (∃ r, setBits ra b vb = .ok r ∧ setBits rb a va = .ok r) ∧ getBits rb a = getBits reg a := by
  have acc : ∀ (reg reg' r : Int) (bits : BitRange) (val : FieldVal),
      setBits reg bits val = .ok r → ∃ r', setBits reg' bits val = .ok r' := by
    intro reg reg' r bits val h
    unfold setBits at h ⊢
    split at h
    · cases h
    · dsimp only at h ⊢
      split at h
      · cases h
      · split at h
        · cases h
        · rename_i hle
          split at h
          · cases h
          · rename_i hneg
            exact ⟨_, by rw [if_neg hle, if_neg hneg]⟩
  obtain ⟨r1, hr1⟩ := acc reg ra rb b vb hb
  obtain ⟨r2, hr2⟩ := acc reg rb ra a va ha
  obtain ⟨_, _, _, ha1, ha2, ha3, -⟩ := setBits_ok ha
  unfold Disjoint at hab
  constructor
  · refine ⟨r1, hr1, ?_⟩
    rw [hr2]
    congr 1
    refine int_ext_testBit fun k => ?_
    rw [testBit_setBits hr2 hna hna0, testBit_setBits hr1 hnb hnb0, testBit_setBits hb hnb hnb0,
      testBit_setBits ha hna hna0]
    obtain ⟨_, _, _, hb1, hb2, hb3, -⟩ := setBits_ok hb
    split <;> split <;> first | rfl | omega
  · unfold getBits
    split
    · rfl
    · rename_i bits hbits
      obtain ⟨rfl, h1, h2⟩ := normalizeBits_ok hbits
      dsimp only
      split
      · rfl
      · congr 1
        refine int_ext_testBit fun k => ?_
        rw [Int.testBit_land, Int.testBit_land, testBit_shr, testBit_shr, testBit_onesMask,
          testBit_setBits hb hnb hnb0]
        by_cases hk : k < (bits.1 - bits.2 + 1).toNat
        · rw [if_neg (by omega)]
        · simp [hk]

/-- The hypotheses of C03 hold for the min. and max. performance fields of a HWP request. -/
example : Disjoint (7, 0) (15, 8) ∧ setBits 0x80ff0108 (7, 0) (.num 5) = .ok 0x80ff0105 ∧
    setBits 0x80ff0108 (15, 8) .allOnes = .ok 0x80ffff08 := by
  refine ⟨?_, by decide +kernel, by decide +kernel⟩
  unfold Disjoint; omega

end Verif.Bits
