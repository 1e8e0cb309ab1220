import Verif.Lemmas.HWP
import Verif.Model.Power

/-!
C40: RAPL package power limits.
-/

namespace Verif.Power

open Verif.Bits (BitRange InRange getBits)
open Verif.RegFile (Reg Reg64 EnvWF Uniform)

/-! ### Specification -/

/-- The platform: CPUs sharing the register also share the TDP, which is a 15-bit number of units. -/
structure Plat (E : Env) : Prop where
  env : EnvWF E.regs
  tdp : ∀ a c, E.regs.same a c = true → E.tdp a = E.tdp c
  tdp0 : ∀ c, 0 ≤ E.tdp c

/-- Proper register contents. -/
structure Regs (E : Env) (R : Reg) : Prop where
  uniform : Uniform E.regs R
  range : ∀ c, 0 ≤ R c ∧ R c < 2 ^ 64

/-- The limits of CPU `c` read back as `n1` and `n2` power units. -/
def Reads (E : Env) (R : Reg) (c : Nat) (n1 n2 : Int) : Prop :=
  getLimit E true [c] R = .ok [(c, .num n1 E.units)] ∧
  getLimit E false [c] R = .ok [(c, .num n2 E.units)]

/-- PPL1 of CPU `c` is not above PPL2. -/
def Ordered (E : Env) (R : Reg) (c : Nat) : Prop := ∀ n1 n2, Reads E R c n1 n2 → n1 ≤ n2

/-- PPL1 of CPU `c` is between 1/8 of TDP, less one power unit, and 2 * TDP. PPL2 is between 1/8 of TDP,
less one power unit, and 5 * TDP. -/
def Bounded (E : Env) (R : Reg) (c : Nat) (first : Bool) : Prop :=
  ∀ n1 n2, Reads E R c n1 n2 →
    let n := if first then n1 else n2
    E.tdp c < 8 * (n + 1) ∧ n ≤ (if first then 2 else 5) * E.tdp c

/-! ### Proofs -/

theorem limitField (first : Bool) : RegFile.Field (limitBits first) := by
  unfold RegFile.Field; cases first <;> decide

theorem limit_width (first : Bool) : (2 : Int) ^ Bits.width (limitBits first) = 2 ^ 15 := by
  cases first <;> decide

theorem limit_disjoint (first : Bool) : Bits.Disjoint (limitBits first) (limitBits (!first)) := by
  unfold Bits.Disjoint; cases first <;> decide

/-- The raw value of a limit. -/
def raw (R : Reg) (first : Bool) (c : Nat) : Int := HWP.fieldOf (R c) (limitBits first)

theorem getLimit_eq (E : Env) (first : Bool) (cpus : List Nat) (R : Reg) :
    getLimit E first cpus R = .ok (cpus.map fun c => (c, .num (raw R first c) E.units)) := by
  unfold getLimit
  rw [RegFile.readBits_ok _ R cpus _ (fun c _ => HWP.getBits_fieldOf (limitField first) (R c))]
  simp [raw, Function.comp_def]

theorem reads_iff (E : Env) (R : Reg) (c : Nat) (n1 n2 : Int) :
    Reads E R c n1 n2 ↔ raw R true c = n1 ∧ raw R false c = n2 := by
  unfold Reads
  rw [getLimit_eq, getLimit_eq]
  simp

theorem raw_range (R : Reg) (first : Bool) (c : Nat) : 0 ≤ raw R first c :=
  (RegFile.field_range (limitField first) (HWP.getBits_fieldOf (limitField first) (R c))).1

/-- What an accepted value looks like, in power units. -/
theorem validate_ok {E : Env} {first : Bool} {m : Int} {k : Nat} {R : Reg} {cpus : List Nat}
    (h : validate E first (.num m k) R cpus = .ok ()) :
    ∀ c ∈ cpus,
      (first = true → m * 2 ^ E.units ≤ raw R false c * 2 ^ k) ∧
      (first = false → raw R true c * 2 ^ k ≤ m * 2 ^ E.units) ∧
      m * 2 ^ E.units ≤ E.tdp c * (if first then 2 else 5) * 2 ^ k ∧
      E.tdp c * 2 ^ k ≤ m * (8 * 2 ^ E.units) := by
  induction cpus with
  | nil => intro c hc; cases hc
  | cons a cpus ih =>
    unfold validate at h
    rw [HWP.getBits_fieldOf (limitField _)] at h
    dsimp only at h
    by_cases h1 : (first && (Float.num m k).gtFrac (HWP.fieldOf (R a) (limitBits !first)) (2 ^ E.units)) = true
    · rw [if_pos h1] at h; cases h
    · rw [if_neg h1] at h
      by_cases h2 : (!first && (Float.num m k).ltFrac (HWP.fieldOf (R a) (limitBits !first)) (2 ^ E.units)) = true
      · rw [if_pos h2] at h; cases h
      · rw [if_neg h2] at h
        by_cases h3 : ((Float.num m k).gtFrac (E.tdp a * (if first then 2 else 5)) (2 ^ E.units) ||
            (Float.num m k).ltFrac (E.tdp a) (8 * 2 ^ E.units)) = true
        · rw [if_pos h3] at h; cases h
        · rw [if_neg h3] at h
          intro c hc
          rcases List.mem_cons.1 hc with rfl | hc
          · simp only [Float.gtFrac, Float.ltFrac, Bool.or_eq_true, decide_eq_true_eq, not_or] at h1 h2 h3
            refine ⟨?_, ?_, ?_, ?_⟩
            · rintro rfl
              simp at h1
              exact h1
            · rintro rfl
              simp at h2
              exact h2
            · have := h3.1; omega
            · have := h3.2; omega
          · exact ih h c hc

theorem validate_special {E : Env} {first : Bool} {R : Reg} {cpus : List Nat} {val : Float}
    (hne : cpus ≠ []) (h : validate E first val R cpus = .ok ()) : ∀ neg, val ≠ .inf neg := by
  rintro neg rfl
  cases cpus with
  | nil => exact hne rfl
  | cons a cpus =>
    unfold validate at h
    rw [HWP.getBits_fieldOf (limitField _)] at h
    cases first <;> cases neg <;> simp [Float.gtFrac, Float.ltFrac] at h

theorem floor_units {m : Int} {k u : Nat} (h0 : 0 ≤ m) :
    (Int.tdiv (m * 2 ^ u) (2 ^ k)) * 2 ^ k ≤ m * 2 ^ u ∧
    m * 2 ^ u < (Int.tdiv (m * 2 ^ u) (2 ^ k) + 1) * 2 ^ k := by
  have hk : (0 : Int) < 2 ^ k := Int.pow_pos (by decide)
  have hu : (0 : Int) < 2 ^ u := Int.pow_pos (by decide)
  have hm : 0 ≤ m * 2 ^ u := Int.mul_nonneg h0 (by omega)
  rw [Int.tdiv_eq_ediv_of_nonneg hm]
  constructor
  · exact Int.ediv_mul_le _ (by omega)
  · exact Int.lt_ediv_add_one_mul_self _ hk

/-- The effect of a request on one CPU. -/
theorem setPpl_effect {E : Env} (w : Plat E) {R : Reg} (hR : Regs E R) (first : Bool) (val : Float)
    (cpus : List Nat) :
    Regs E (setPpl E first val cpus R).1 ∧
    (∀ c, (∀ f, raw (setPpl E first val cpus R).1 f c = raw R f c) ∨
      (raw (setPpl E first val cpus R).1 (!first) c = raw R (!first) c ∧
       ∃ a ∈ cpus, E.regs.same a c = true ∧ ∃ m k, val = .num m k ∧ 0 ≤ m ∧
        validate E first val R cpus = .ok () ∧
        raw (setPpl E first val cpus R).1 first c = Int.tdiv (m * 2 ^ E.units) (2 ^ k))) ∧
    ((setPpl E first val cpus R).2 = .ok () → ∀ c ∈ cpus, ∃ m k, val = .num m k ∧ 0 ≤ m ∧
        validate E first val R cpus = .ok () ∧
        raw (setPpl E first val cpus R).1 first c = Int.tdiv (m * 2 ^ E.units) (2 ^ k)) := by
  unfold setPpl
  cases hv : validate E first val R cpus with
  | error e => exact ⟨hR, (fun c => Or.inl fun f => rfl), fun h => by cases h⟩
  | ok u =>
    dsimp only
    unfold writeLimit
    cases val with
    | nan => exact ⟨hR, (fun c => Or.inl fun f => rfl), fun h => by cases h⟩
    | inf neg => exact ⟨hR, (fun c => Or.inl fun f => rfl), fun h => by cases h⟩
    | num m k =>
      dsimp only [toUnits]
      generalize hn : Int.tdiv (m * 2 ^ E.units) (2 ^ k) = n
      obtain ⟨k1, k2, k3, k4, _, _⟩ := RegFile.writeBits_field E.regs w.env (limitField first) n cpus R
        hR.uniform hR.range
      have hm : ∀ c ∈ cpus, 0 ≤ m := by
        intro c hc
        have h := (validate_ok hv c hc).2.2.2
        rcases Int.lt_or_le m 0 with hm | hm
        · exfalso
          have h1 : 0 ≤ E.tdp c * 2 ^ k := Int.mul_nonneg (w.tdp0 c) (Int.le_of_lt (Int.pow_pos (by decide)))
          have h2 : m * (8 * 2 ^ E.units) < 0 :=
            Int.mul_neg_of_neg_of_pos hm (Int.mul_pos (by decide) (Int.pow_pos (by decide)))
          omega
        · exact hm
      refine ⟨⟨k1, k2⟩, ?_, ?_⟩
      · intro c
        rcases k3 c with h | ⟨_, ⟨a, ha, hac⟩, h⟩
        · left; intro f; unfold raw; rw [h]
        · right
          refine ⟨?_, a, ha, hac, m, k, rfl, hm a ha, rfl, ?_⟩
          · unfold raw
            exact HWP.fieldOf_eq (limitField _)
              ((h.other (limitField _) (limit_disjoint first)).trans (HWP.getBits_fieldOf (limitField _) _))
          · rw [hn]; exact HWP.fieldOf_eq (limitField _) h.1
      · intro hok c hc
        have h := (k4 hok c hc c (w.env.refl c)).2
        exact ⟨m, k, rfl, hm c hc, rfl, by rw [hn]; exact HWP.fieldOf_eq (limitField _) h.1⟩

/-- C40: after a limit has been set successfully, the limit which is read back from every requested CPU is
not above the requested value and less than one power unit below it. -/
theorem C40_round_trip (E : Env) (w : Plat E) (R : Reg) (hR : Regs E R) (first : Bool) (val : Float)
    (cpus : List Nat) (hok : (setPpl E first val cpus R).2 = .ok ()) :
    ∃ f : Nat → Int,
      getLimit E first cpus (setPpl E first val cpus R).1 = .ok (cpus.map fun c => (c, .num (f c) E.units)) ∧
      ∀ c ∈ cpus, ∃ m k, val = .num m k ∧
        f c * 2 ^ k ≤ m * 2 ^ E.units ∧ m * 2 ^ E.units < (f c + 1) * 2 ^ k := by
  refine ⟨_, getLimit_eq E first cpus _, ?_⟩
  intro c hc
  obtain ⟨m, k, rfl, hm, _, h⟩ := (setPpl_effect w hR first val cpus).2.2 hok c hc
  rw [h]
  exact ⟨m, k, rfl, floor_units hm⟩

/-- C40: a request never changes the other limit, and changes nothing of the CPUs which do not share the
register with one of the requested CPUs. -/
theorem C40_others (E : Env) (w : Plat E) (R : Reg) (hR : Regs E R) (first : Bool) (val : Float)
    (cpus : List Nat) (c : Nat) :
    getLimit E (!first) [c] (setPpl E first val cpus R).1 = getLimit E (!first) [c] R ∧
    ((∀ a ∈ cpus, E.regs.same a c = false) →
      getLimit E first [c] (setPpl E first val cpus R).1 = getLimit E first [c] R) := by
  simp only [getLimit_eq, List.map_cons, List.map_nil]
  rcases (setPpl_effect w hR first val cpus).2.1 c with h | ⟨h, a, ha, hac, _⟩
  · exact ⟨by rw [h], fun _ => by rw [h]⟩
  · refine ⟨by rw [h], fun hno => ?_⟩
    rw [hno a ha] at hac; cases hac

theorem raw_same {E : Env} {R : Reg} (hR : Regs E R) {a c : Nat} (h : E.regs.same a c = true) (f : Bool) :
    raw R f a = raw R f c := by
  unfold raw
  rw [hR.uniform a c h]

theorem le_of_mul_pow {a b : Int} {k : Nat} (h : a * 2 ^ k ≤ b * 2 ^ k) : a ≤ b :=
  Int.le_of_mul_le_mul_right h (Int.pow_pos (by decide))

theorem lt_of_mul_pow {a b : Int} {k : Nat} (h : a * 2 ^ k < b * 2 ^ k) : a < b :=
  Int.lt_of_mul_lt_mul_right h (Int.le_of_lt (Int.pow_pos (by decide)))

theorem ordered_iff (E : Env) (R : Reg) (c : Nat) : Ordered E R c ↔ raw R true c ≤ raw R false c := by
  constructor
  · intro h; exact h _ _ ((reads_iff E R c _ _).2 ⟨rfl, rfl⟩)
  · intro h n1 n2 hr
    obtain ⟨rfl, rfl⟩ := (reads_iff E R c _ _).1 hr
    exact h

theorem bounded_iff (E : Env) (R : Reg) (c : Nat) (first : Bool) :
    Bounded E R c first ↔
      E.tdp c < 8 * (raw R first c + 1) ∧ raw R first c ≤ (if first then 2 else 5) * E.tdp c := by
  constructor
  · intro h
    have := h _ _ ((reads_iff E R c _ _).2 ⟨rfl, rfl⟩)
    cases first <;> exact this
  · intro h n1 n2 hr
    obtain ⟨rfl, rfl⟩ := (reads_iff E R c _ _).1 hr
    cases first <;> exact h

theorem setPpl_ordered {E : Env} (w : Plat E) {R : Reg} (hR : Regs E R) (first : Bool) (val : Float)
    (cpus : List Nat) {c : Nat} (h : Ordered E R c) : Ordered E (setPpl E first val cpus R).1 c := by
  rw [ordered_iff] at *
  rcases (setPpl_effect w hR first val cpus).2.1 c with h1 | ⟨h1, a, ha, hac, m, k, rfl, hm, hv, h2⟩
  · rw [h1, h1]; exact h
  · obtain ⟨v1, v2, _, _⟩ := validate_ok hv a ha
    obtain ⟨f1, f2⟩ := floor_units (k := k) (u := E.units) hm
    rw [← h2] at f1 f2
    cases first
    · have v2 := v2 rfl
      rw [raw_same hR hac] at v2
      rw [show raw _ true c = raw R true c from h1]
      have := lt_of_mul_pow (Int.lt_of_le_of_lt v2 f2)
      omega
    · have v1 := v1 rfl
      rw [raw_same hR hac] at v1
      rw [show raw _ false c = raw R false c from h1]
      exact le_of_mul_pow (Int.le_trans f1 v1)

theorem setPpl_bounded {E : Env} (w : Plat E) {R : Reg} (hR : Regs E R) (first : Bool) (val : Float)
    (cpus : List Nat) {c : Nat} (which : Bool) :
    (Bounded E R c which → Bounded E (setPpl E first val cpus R).1 c which) ∧
    ((setPpl E first val cpus R).2 = .ok () → c ∈ cpus → Bounded E (setPpl E first val cpus R).1 c first) := by
  have key : ∀ a m k, a ∈ cpus → E.regs.same a c = true → val = .num m k → 0 ≤ m →
      validate E first val R cpus = .ok () →
      raw (setPpl E first val cpus R).1 first c = Int.tdiv (m * 2 ^ E.units) (2 ^ k) →
      Bounded E (setPpl E first val cpus R).1 c first := by
    rintro a m k ha hac rfl hm hv h2
    obtain ⟨_, _, v3, v4⟩ := validate_ok hv a ha
    obtain ⟨f1, f2⟩ := floor_units (k := k) (u := E.units) hm
    rw [← h2] at f1 f2
    rw [w.tdp a c hac] at v3 v4
    rw [bounded_iff]
    constructor
    · apply lt_of_mul_pow (k := k)
      have e1 : m * (8 * 2 ^ E.units) = 8 * (m * 2 ^ E.units) := by
        rw [← Int.mul_assoc, Int.mul_comm m 8, Int.mul_assoc]
      have e2 : 8 * (raw (setPpl E first (.num m k) cpus R).1 first c + 1) * 2 ^ k =
          8 * ((raw (setPpl E first (.num m k) cpus R).1 first c + 1) * 2 ^ k) := by
        rw [Int.mul_assoc]
      rw [e2]
      omega
    · apply le_of_mul_pow (k := k)
      rw [Int.mul_comm (if first = true then (2 : Int) else 5)]
      exact Int.le_trans f1 v3
  constructor
  · intro hb
    rcases (setPpl_effect w hR first val cpus).2.1 c with h1 | ⟨h1, a, ha, hac, m, k, e, hm, hv, h2⟩
    · rw [bounded_iff] at *
      rw [h1]; exact hb
    · by_cases hw : which = first
      · subst hw
        exact key a m k ha hac e hm hv h2
      · have hw : which = !first := by cases which <;> cases first <;> simp_all
        subst hw
        rw [bounded_iff] at *
        rw [h1]; exact hb
  · intro hok hc
    obtain ⟨m, k, e, hm, hv, h2⟩ := (setPpl_effect w hR first val cpus).2.2 hok c hc
    exact key c m k hc (w.env.refl c) e hm hv h2

/-- C40: whatever sequence of requests is made, accepted or not, PPL1 <= PPL2 is kept on every CPU. -/
theorem C40_order (E : Env) (w : Plat E) (R : Reg) (hR : Regs E R) (qs : List Request) (c : Nat)
    (h : Ordered E R c) : Ordered E (run E qs R) c := by
  induction qs generalizing R with
  | nil => exact h
  | cons q qs ih =>
    exact ih _ (setPpl_effect w hR q.first q.val q.cpus).1 (setPpl_ordered w hR q.first q.val q.cpus h)

/-- C40: a limit set successfully is within the TDP-relative bounds up to one power unit, and stays there
whatever requests follow. The lower bound of the stored value is not exact, see the counterexample. -/
theorem C40_bounds_partial (E : Env) (w : Plat E) (R : Reg) (hR : Regs E R) (first : Bool) (val : Float)
    (cpus : List Nat) (hok : (setPpl E first val cpus R).2 = .ok ()) (qs : List Request) (c : Nat)
    (hc : c ∈ cpus) : Bounded E (run E qs (setPpl E first val cpus R).1) c first := by
  have h0 : Bounded E (setPpl E first val cpus R).1 c first :=
    (setPpl_bounded w hR first val cpus first).2 hok hc
  have hR0 := (setPpl_effect w hR first val cpus).1
  generalize (setPpl E first val cpus R).1 = R1 at *
  clear hok hR
  induction qs generalizing R1 with
  | nil => exact h0
  | cons q qs ih =>
    exact ih _ ((setPpl_bounded w hR0 q.first q.val q.cpus first).1 h0)
      (setPpl_effect w hR0 q.first q.val q.cpus).1

/-- C40: which values are accepted: exactly those within the bounds and on the right side of the other
limit, for every requested CPU, and which fit into the register field. -/
theorem C40_accepts (E : Env) (w : Plat E) (R : Reg) (hR : Regs E R) (first : Bool) (m : Int) (k : Nat)
    (cpus : List Nat) (hw : ∀ c ∈ cpus, E.regs.wfail c = none)
    (h : ∀ c ∈ cpus, ∀ n1 n2, Reads E R c n1 n2 →
      (if first then m * 2 ^ E.units ≤ n2 * 2 ^ k else n1 * 2 ^ k ≤ m * 2 ^ E.units) ∧
      m * 2 ^ E.units ≤ E.tdp c * (if first then 2 else 5) * 2 ^ k ∧
      E.tdp c * 2 ^ k ≤ m * (8 * 2 ^ E.units))
    (hm : 0 ≤ m) (hfit : m * 2 ^ E.units < 2 ^ 15 * 2 ^ k) :
    (setPpl E first (.num m k) cpus R).2 = .ok () := by
  have hv : validate E first (.num m k) R cpus = .ok () := by
    clear hw
    induction cpus with
    | nil => rfl
    | cons a cpus ih =>
      unfold validate
      rw [HWP.getBits_fieldOf (limitField _)]
      dsimp only
      obtain ⟨h1, h2, h3⟩ := h a (by simp) _ _ ((reads_iff E R a _ _).2 ⟨rfl, rfl⟩)
      have ih := ih (fun c hc => h c (by simp [hc]))
      have g3 : ((Float.num m k).gtFrac (E.tdp a * (if first then 2 else 5)) (2 ^ E.units) ||
          (Float.num m k).ltFrac (E.tdp a) (8 * 2 ^ E.units)) = false := by
        simp only [Float.gtFrac, Float.ltFrac, Bool.or_eq_false_iff, decide_eq_false_iff_not]
        constructor <;> omega
      cases first
      · rw [if_neg (by simp)]
        have : (Float.num m k).ltFrac (HWP.fieldOf (R a) (limitBits !false)) (2 ^ E.units) = false := by
          simp only [Float.ltFrac, decide_eq_false_iff_not]
          have : HWP.fieldOf (R a) (limitBits !false) * 2 ^ k ≤ m * 2 ^ E.units := h1
          omega
        rw [if_neg (by rw [this]; simp)]
        rw [if_neg (by simpa using g3)]
        exact ih
      · have : (Float.num m k).gtFrac (HWP.fieldOf (R a) (limitBits !true)) (2 ^ E.units) = false := by
          simp only [Float.gtFrac, decide_eq_false_iff_not]
          have : m * 2 ^ E.units ≤ HWP.fieldOf (R a) (limitBits !true) * 2 ^ k := h1
          omega
        rw [if_neg (by rw [this]; simp), if_neg (by simp)]
        rw [if_neg (by simpa using g3)]
        exact ih
  unfold setPpl
  rw [hv]
  dsimp only
  unfold writeLimit toUnits
  dsimp only
  obtain ⟨_, _, _, _, k5, _⟩ := RegFile.writeBits_field E.regs w.env (limitField first)
    (Int.tdiv (m * 2 ^ E.units) (2 ^ k)) cpus R hR.uniform hR.range
  obtain ⟨f1, f2⟩ := floor_units (k := k) (u := E.units) hm
  refine k5 hw ?_ ?_
  · exact Int.tdiv_nonneg (Int.mul_nonneg hm (Int.le_of_lt (Int.pow_pos (by decide))))
      (Int.le_of_lt (Int.pow_pos (by decide)))
  · rw [limit_width]
    exact lt_of_mul_pow (k := k) (by omega)

/-- C40: out of range values, values on the wrong side of the other limit and values which do not fit into
the field are refused and nothing is written. Infinity and "not a number" are never written either. -/
theorem C40_refuses (E : Env) (w : Plat E) (R : Reg) (hR : Regs E R) (first : Bool) (val : Float)
    (cpus : List Nat)
    (h : (∃ c ∈ cpus, ∀ m k, val = .num m k → ∀ n1 n2, Reads E R c n1 n2 →
        ¬ ((if first then m * 2 ^ E.units ≤ n2 * 2 ^ k else n1 * 2 ^ k ≤ m * 2 ^ E.units) ∧
          m * 2 ^ E.units ≤ E.tdp c * (if first then 2 else 5) * 2 ^ k ∧
          E.tdp c * 2 ^ k ≤ m * (8 * 2 ^ E.units))) ∨
      (cpus ≠ [] ∧ ∀ m k, val = .num m k → 2 ^ 15 * 2 ^ k ≤ m * 2 ^ E.units)) :
    ∃ e, setPpl E first val cpus R = (R, .error e) := by
  unfold setPpl
  cases hv : validate E first val R cpus with
  | error e => exact ⟨e, rfl⟩
  | ok u =>
    dsimp only
    unfold writeLimit
    cases val with
    | nan => exact ⟨_, rfl⟩
    | inf neg => exact ⟨_, rfl⟩
    | num m k =>
      rcases h with ⟨c, hc, h⟩ | ⟨hne, h⟩
      · exfalso
        apply h m k rfl _ _ ((reads_iff E R c _ _).2 ⟨rfl, rfl⟩)
        obtain ⟨v1, v2, v3, v4⟩ := validate_ok hv c hc
        refine ⟨?_, v3, v4⟩
        cases first
        · exact v2 rfl
        · exact v1 rfl
      · dsimp only [toUnits]
        have hbig := h m k rfl
        have hm : 0 ≤ m := by
          rcases Int.lt_or_le m 0 with hm | hm
          · exfalso
            have h1 : m * 2 ^ E.units < 0 := Int.mul_neg_of_neg_of_pos hm (Int.pow_pos (by decide))
            have h2 : (0 : Int) < 2 ^ 15 * 2 ^ k := Int.mul_pos (by decide) (Int.pow_pos (by decide))
            omega
          · exact hm
        obtain ⟨_, f2⟩ := floor_units (k := k) (u := E.units) hm
        obtain ⟨_, _, _, _, _, k6⟩ := RegFile.writeBits_field E.regs w.env (limitField first)
          (Int.tdiv (m * 2 ^ E.units) (2 ^ k)) cpus R hR.uniform hR.range
        have h3 := lt_of_mul_pow (Int.lt_of_le_of_lt hbig f2)
        obtain ⟨e1, e, e2⟩ := k6 hne (by rw [limit_width]; omega)
        exact ⟨e, Prod.ext e1 e2⟩

/-! ### A concrete case -/

/-- Two packages with two CPUs each, power units of 1/8 Watt and a TDP of 205 Watts. -/
def exEnv : Env := ⟨⟨fun a b => a / 2 == b / 2, fun _ => none⟩, 3, fun _ => 205 * 8⟩

theorem exPlat : Plat exEnv := by
  refine ⟨⟨?_, ?_, ?_⟩, fun _ _ _ => rfl, fun _ => (show (0 : Int) ≤ 205 * 8 by decide)⟩
  · intro c; simp [exEnv]
  · intro c d h; simp [exEnv] at *; omega
  · intro a b c h h'; simp [exEnv] at *; omega

/-- PPL1 is 205 W and PPL2 is 250 W. -/
def exReg : Reg := fun _ => 205 * 8 + 250 * 8 * 2 ^ 32

theorem exRegs : Regs exEnv exReg := ⟨fun _ _ _ => rfl, fun _ =>
  (show (0 : Int) ≤ 205 * 8 + 250 * 8 * 2 ^ 32 ∧ (205 * 8 + 250 * 8 * 2 ^ 32 : Int) < 2 ^ 64 by decide)⟩

/-- 200.3 W (a binary fraction close to it) is stored as 200.25 W. -/
example : (setPpl exEnv true (.num 205107 10) [0, 1] exReg).2 = .ok () ∧
    getLimit exEnv true [0, 1, 2] (setPpl exEnv true (.num 205107 10) [0, 1] exReg).1 =
      .ok [(0, .num 1602 3), (1, .num 1602 3), (2, .num 1640 3)] := by
  constructor <;> decide +kernel

example : Ordered exEnv exReg 0 := by
  rw [ordered_iff]; decide +kernel

/-- PPL1 above PPL2 and PPL2 below PPL1 are refused. -/
example : (setPpl exEnv true (.num 251 0) [0] exReg).2 = .error .error ∧
    (setPpl exEnv false (.num 204 0) [0] exReg).2 = .error .error := by
  constructor <;> decide +kernel

/-- C40: a value equal to the lower bound, 1/8 of TDP, is accepted and stored as less than that. -/
theorem C40_bounds_counterexample :
    ∃ (E : Env) (R : Reg) (val : Float) (n1 n2 : Int), Plat E ∧ Regs E R ∧
      (setPpl E true val [0] R).2 = .ok () ∧ Reads E (setPpl E true val [0] R).1 0 n1 n2 ∧
      ¬ (E.tdp 0 ≤ 8 * n1) := by
  refine ⟨{ exEnv with tdp := fun _ => 205 * 8 + 1 }, exReg, .num 1641 6, 205, 2000, ?_,
    ⟨exRegs.uniform, exRegs.range⟩, ?_, ?_, ?_⟩
  · exact ⟨exPlat.env, fun _ _ _ => rfl, fun _ => (show (0 : Int) ≤ 205 * 8 + 1 by decide)⟩
  · decide +kernel
  · rw [reads_iff]
    constructor <;> decide +kernel
  · decide

/-- C40: "nan", which the tool accepts as a number, passes the validation and ends in a `ValueError`
instead of an error message; nothing is written. -/
theorem C40_nan_counterexample (E : Env) (R : Reg) (first : Bool) (cpus : List Nat) :
    validate E first .nan R cpus = .ok () ∧
    setPpl E first .nan cpus R = (R, .error .pyValueError) := by
  have h : validate E first .nan R cpus = .ok () := by
    induction cpus with
    | nil => rfl
    | cons a cpus ih =>
      unfold validate
      rw [HWP.getBits_fieldOf (limitField _)]
      simpa [Float.gtFrac, Float.ltFrac] using ih
  refine ⟨h, ?_⟩
  unfold setPpl
  rw [h]
  rfl

end Verif.Power
