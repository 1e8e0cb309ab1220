import Verif.Lemmas.HumanNum

/-!
The value `parse_human()` computes from the tokens.
-/

namespace Verif.Human

open PyStr

/-- An `int` that is exact or a `float` with a small relative error. -/
def NumApprox (c : Rat) (x : Num) (V : Rat) : Prop :=
  match x with
  | .int v => (v : Rat) = V
  | .flt (.fin r) => Approx c r V
  | .flt _ => False

/-- A scaler: an exact `int` or a rounded `float` literal. -/
def Scaler (fl : Rat → Rat) (s : Num) (S : Rat) : Prop :=
  (∃ k : Int, s = .int k ∧ (k : Rat) = S) ∨ s = .flt (.fin (fl S))

theorem Mid.abs_le {y : Rat} (h : Mid y) : |y| ≤ 2 ^ 201 := by
  rcases h with rfl | ⟨_, h⟩
  · rw [abs_zero]; positivity
  · exact h.trans (by norm_num)

theorem Approx.fl0 {fl : Rat → Rat} (hf : IsRounding fl) {y : Rat} (hy : Mid y) : Approx (1 / 2 ^ 52) (fl y) y := by
  have := (Approx.refl y).fl hf (by norm_num) hy
  rwa [zero_add] at this

theorem Scaler.float {fl : Rat → Rat} (hf : IsRounding fl) {s : Num} {S : Rat} (h : Scaler fl s S) (hS : Mid S) :
    ∃ y, Approx (1 / 2 ^ 52) y S ∧ ((∃ k, s = .int k ∧ ofInt fl k = .ok y) ∨ s = .flt (.fin y)) := by
  rcases h with ⟨k, rfl, rfl⟩ | rfl
  · exact ⟨fl k, Approx.fl0 hf hS, .inl ⟨k, rfl, ofInt_ok hS.abs_le⟩⟩
  · exact ⟨fl S, Approx.fl0 hf hS, .inr rfl⟩

theorem mulNum_approx {fl : Rat → Rat} (hf : IsRounding fl) (i : Nat) (ds : List (Fin 10)) {s : Num} {S : Rat}
    (h : Scaler fl s S) (hV : Mid (decVal i ds)) (hS : Mid S) (hVS : Mid (decVal i ds * S)) :
    ∃ x, mulNum fl (decNum fl i ds) s = .ok x ∧ NumApprox (4 / 2 ^ 52) x (decVal i ds * S) := by
  obtain ⟨y, hy, hs⟩ := h.float hf hS
  have hm : ∀ x, Approx (1 / 2 ^ 52) x (decVal i ds) →
      mkFlt fl (x * y) = .fin (fl (x * y)) ∧ Approx (4 / 2 ^ 52) (fl (x * y)) (decVal i ds * S) := by
    intro x hx
    have h1 := hx.mul hy (by norm_num)
    refine ⟨mkFlt_fin (h1.abs_le (by norm_num) hVS), ?_⟩
    exact (h1.fl hf (by norm_num) hVS).mono (by norm_num)
  unfold decNum
  by_cases hd : ds = []
  · subst hd
    rw [if_pos rfl]
    have e : decVal i [] = ((i : Int) : Rat) := by unfold decVal fracVal; push_cast; ring
    rw [e] at hV hVS hm ⊢
    rcases h with ⟨k, rfl, rfl⟩ | rfl
    · exact ⟨_, rfl, by unfold NumApprox; push_cast; rfl⟩
    · rcases hs with ⟨k, hk, _⟩ | hs
      · cases hk
      · injection hs with hs
        injection hs with hs
        obtain ⟨h1, h2⟩ := hm (fl (i : Int)) (Approx.fl0 hf hV)
        rw [hs]
        refine ⟨.flt (.fin (fl (fl (i : Int) * y))), ?_, h2⟩
        rw [mulNum, ofInt_ok hV.abs_le]
        dsimp only
        rw [h1]
  · rw [if_neg hd, mkFlt_fin hV.abs_le]
    obtain ⟨h1, h2⟩ := hm (fl (decVal i ds)) (Approx.fl0 hf hV)
    refine ⟨.flt (.fin (fl (fl (decVal i ds) * y))), ?_, h2⟩
    rcases hs with ⟨k, rfl, hk⟩ | rfl
    · rw [mulNum, hk]
      dsimp only
      rw [h1]
    · rw [mulNum, h1]

theorem addNum_approx {fl : Rat → Rat} (hf : IsRounding fl) {c r S V : Rat} {x : Num} (hc : 1 / 2 ^ 52 ≤ c)
    (hc2 : c ≤ 1 / 2) (hr : Approx c r S) (hx : NumApprox c x V) (hS : 0 ≤ S) (hV : 0 ≤ V) (mV : Mid V)
    (mSV : Mid (S + V)) : ∃ r', addNum fl (.fin r) x = .ok (.fin r') ∧ Approx (c + 1 / 2 ^ 52) r' (S + V) := by
  have key : ∀ y, Approx c y V → mkFlt fl (r + y) = .fin (fl (r + y)) ∧
      Approx (c + 1 / 2 ^ 52) (fl (r + y)) (S + V) := by
    intro y hy
    have h1 := hy.add' hr hS hV
    exact ⟨mkFlt_fin (h1.abs_le hc2 mSV), h1.fl hf hc2 mSV⟩
  cases x with
  | int v =>
    have hv : (v : Rat) = V := hx
    subst hv
    obtain ⟨h1, h2⟩ := key (fl v) ((Approx.fl0 hf mV).mono hc)
    refine ⟨_, ?_, h2⟩
    rw [addNum, ofInt_ok mV.abs_le]
    dsimp only
    rw [h1]
  | flt y =>
    cases y with
    | fin y =>
      obtain ⟨h1, h2⟩ := key y hx
      exact ⟨_, by rw [addNum, h1], h2⟩
    | inf n => exact absurd hx id
    | nan => exact absurd hx id

theorem mid_add {a b : Rat} (ha : 0 ≤ a) (hb : 0 ≤ b) (h1 : Mid a) (h2 : Mid b) (h : a + b ≤ 2 ^ 200) :
    Mid (a + b) := by
  rcases h1 with rfl | ⟨h1, _⟩
  · rwa [zero_add]
  · right
    rw [abs_of_nonneg ha] at h1
    rw [abs_of_nonneg (by linarith)]
    exact ⟨by linarith, h⟩

/-- What a token stands for. -/
def TokVal (fl : Rat → Rat) (t : Num × Num) (V : Rat) : Prop :=
  (∃ x, mulNum fl t.1 t.2 = .ok x ∧ NumApprox (4 / 2 ^ 52) x V) ∧ 0 ≤ V ∧ Mid V

theorem NumApprox.mono {c d V : Rat} {x : Num} (h : NumApprox c x V) (hcd : c ≤ d) : NumApprox d x V := by
  cases x with
  | int v => exact h
  | flt y =>
    cases y with
    | fin y => exact Approx.mono h hcd
    | inf n => exact absurd h id
    | nan => exact absurd h id

theorem sum_nonneg' {l : List Rat} (h : ∀ x ∈ l, 0 ≤ x) : 0 ≤ l.sum := by
  induction l with
  | nil => exact le_refl _
  | cons x l ih =>
    rw [List.sum_cons]
    have := h x List.mem_cons_self
    have := ih fun y hy => h y (List.mem_cons_of_mem _ hy)
    linarith

theorem sumToks_approx {fl : Rat → Rat} (hf : IsRounding fl) (toks : List (Num × Num)) (Vs : List Rat)
    (h : List.Forall₂ (TokVal fl) toks Vs) (k : Nat) (r S : Rat) (hr : Approx ((4 + k) / 2 ^ 52) r S)
    (hS : 0 ≤ S) (mS : Mid S) (hk : k + toks.length ≤ 12) (htot : S + Vs.sum ≤ 2 ^ 200) :
    ∃ r', sumToks fl (.fin r) toks = .ok (.fin r') ∧ Approx (16 / 2 ^ 52) r' (S + Vs.sum) := by
  induction h generalizing k r S with
  | nil =>
    refine ⟨r, rfl, ?_⟩
    rw [List.sum_nil, add_zero]
    refine hr.mono (div_le_div_of_nonneg_right ?_ (by positivity))
    have : (k : Rat) ≤ 12 := by exact_mod_cast (by simpa using hk)
    linarith
  | @cons t V toks Vs ht hts ih =>
    obtain ⟨v, s⟩ := t
    obtain ⟨⟨x, hx, hxa⟩, hV, mV⟩ := ht
    have hnn : ∀ x ∈ Vs, 0 ≤ x := by
      clear ih hk htot
      induction hts with
      | nil => intro x hx; cases hx
      | cons h _ ih =>
        intro x hx
        rcases List.mem_cons.1 hx with rfl | hx
        · exact h.2.1
        · exact ih x hx
    have hsum := sum_nonneg' hnn
    rw [List.sum_cons] at htot ⊢
    rw [List.length_cons] at hk
    have mSV := mid_add hS hV mS mV (by linarith)
    have hk' : (k : Rat) ≤ 12 := by exact_mod_cast (by omega : k ≤ 12)
    have hk0 : (0 : Rat) ≤ k := by positivity
    obtain ⟨r', h1, h2⟩ := addNum_approx hf (c := (4 + k) / 2 ^ 52) (by
        apply div_le_div_of_nonneg_right _ (by positivity); linarith) (by
        rw [div_le_iff₀ (by positivity)]; norm_num; linarith) hr
      (hxa.mono (div_le_div_of_nonneg_right (by linarith) (by positivity))) hS hV mV mSV
    obtain ⟨r'', h3, h4⟩ := ih (k + 1) r' (S + V) (by
        refine h2.mono (le_of_eq ?_)
        push_cast
        ring) (by linarith) mSV (by omega) (by linarith)
    refine ⟨r'', ?_, ?_⟩
    · rw [sumToks]
      dsimp only at hx
      rw [hx]
      dsimp only
      rw [h1]
      exact h3
    · rwa [add_assoc] at h4

theorem Approx.inv {d s t : Rat} (h : Approx d s t) (ht : 0 < t) (hd : d ≤ 1 / 2) : Approx (2 * d) (1 / s) (1 / t) := by
  have hs : t / 2 ≤ s := by
    unfold Approx at h
    rw [abs_of_pos ht] at h
    have := (_root_.abs_le.1 h).1
    have h2 : d * t ≤ 1 / 2 * t := mul_le_mul_of_nonneg_right hd ht.le
    linarith
  have hs0 : 0 < s := by linarith
  unfold Approx at h ⊢
  rw [abs_of_pos ht] at h
  have e : 1 / s - 1 / t = -((s - t) / (s * t)) := by field_simp; ring
  rw [e, abs_neg, abs_div, abs_of_pos (mul_pos hs0 ht), abs_of_pos (by positivity : 0 < 1 / t),
    div_le_iff₀ (mul_pos hs0 ht)]
  have h3 : 2 * d * (1 / t) * (s * t) = 2 * d * s := by field_simp
  rw [h3]
  have hd0 : 0 ≤ d := by
    by_contra hneg
    rw [not_le] at hneg
    have : d * t < 0 := mul_neg_of_neg_of_pos hneg ht
    have := abs_nonneg (s - t)
    linarith
  have : d * t ≤ 2 * d * s := by
    have := mul_le_mul_of_nonneg_left hs (by linarith : 0 ≤ 2 * d)
    linarith
  linarith

theorem divNum_approx {fl : Rat → Rat} (hf : IsRounding fl) {r y : Rat} {s : Num} {S : Rat} (h : Scaler fl s S)
    (hr : Approx (16 / 2 ^ 52) r y) (mS : Mid S) (hS : 0 < S) (m : Mid (y / S)) :
    ∃ r', divNum fl (.fin r) s = .ok (.fin r') ∧ Approx (32 / 2 ^ 52) r' (y / S) := by
  obtain ⟨z, hz, hs⟩ := h.float hf mS
  have h1 := hr.mul (hz.inv hS (by norm_num)) (by norm_num)
  rw [mul_one_div r z, mul_one_div y S] at h1
  have h2 := mkFlt_fin (fl := fl) (h1.abs_le (by norm_num) m)
  refine ⟨fl (r / z), ?_, (h1.fl hf (by norm_num) m).mono (by norm_num)⟩
  rcases hs with ⟨k, rfl, hk⟩ | rfl
  · rw [divNum, hk]
    dsimp only
    rw [h2]
  · rw [divNum, h2]

theorem siScaler_prefix (fl : Rat → Rat) (p : Prefix) (c : Char) (h : p.text = [c]) :
    ∃ s, siScaler fl c = some s ∧ Scaler fl s p.val := by
  cases p <;> (cases h)
  · exact ⟨_, rfl, .inl ⟨_, rfl, by norm_num [Prefix.val]⟩⟩
  · exact ⟨_, rfl, .inl ⟨_, rfl, by norm_num [Prefix.val]⟩⟩
  · exact ⟨_, rfl, .inl ⟨_, rfl, by norm_num [Prefix.val]⟩⟩
  · exact ⟨_, rfl, .inl ⟨_, rfl, by norm_num [Prefix.val]⟩⟩
  · exact ⟨_, rfl, .inl ⟨_, rfl, by norm_num [Prefix.val]⟩⟩
  · exact ⟨_, rfl, .inl ⟨_, rfl, by norm_num [Prefix.val]⟩⟩
  · exact ⟨_, rfl, .inr (by norm_num [Prefix.val])⟩
  · exact ⟨_, rfl, .inr (by norm_num [Prefix.val])⟩
  · exact ⟨_, rfl, .inr (by norm_num [Prefix.val])⟩

theorem Prefix.val_bounds (p : Prefix) : 1 / 2 ^ 30 ≤ p.val ∧ p.val ≤ 2 ^ 60 := by
  cases p <;> norm_num [Prefix.val]

theorem Prefix.val_pos (p : Prefix) : 0 < p.val :=
  lt_of_lt_of_le (by positivity) p.val_bounds.1

theorem Prefix.val_mid (p : Prefix) : Mid p.val := by
  right
  rw [abs_of_pos p.val_pos]
  exact ⟨le_trans (by norm_num) p.val_bounds.1, le_trans p.val_bounds.2 (by norm_num)⟩

theorem separate_text (fl : Rat → Rat) (p : Prefix) (u : Unit') :
    separate fl (p.text ++ u.text) = (p.text.head?, u.text) := by
  cases p <;> cases u <;> rfl

/-- The target unit: the default one, or an explicit one. -/
inductive Target where
  | default
  | unit (p : Prefix)

def Target.arg (u : Unit') : Target → Option PyStr
  | .default => none
  | .unit p => some (p.text ++ u.text)

def Target.val : Target → Rat
  | .default => 1
  | .unit p => p.val

def Target.char : Target → Option Char
  | .default => none
  | .unit p => p.text.head?

theorem Target.val_pos (t : Target) : 0 < t.val := by
  cases t with
  | default => exact zero_lt_one
  | unit p => exact p.val_pos

/-- From the tokens to the result. -/
theorem parseHuman_toks {fl : Rat → Rat} (hf : IsRounding fl) (hval hval' : PyStr) (pu : Prefix) (u : Unit') (t : Target)
    (integer : Bool) (toks : List (Num × Num)) (Vs : List Rat)
    (hv : (if isNum fl hval then hval ++ pu.text.head?.toList ++ u.text else hval) = hval')
    (ht : tokenize fl hval' (prepare fl u.text).1 (prepare fl u.text).2 = .ok toks)
    (h : List.Forall₂ (TokVal fl) toks Vs) (hl : toks.length ≤ 12) (hsum : Vs.sum ≤ 2 ^ 200)
    (hm : Mid (Vs.sum / t.val)) :
    ∃ r, Approx (32 / 2 ^ 52) r (Vs.sum / t.val) ∧
      parseHuman fl hval (pu.text ++ u.text) (t.arg u) integer =
        if integer then .ok (.int (pyRound r)) else .ok (.flt (.fin r)) := by
  obtain ⟨r0, h1, h2⟩ := sumToks_approx hf toks Vs h 0 0 0 ((Approx.refl 0).mono (by norm_num)) (le_refl 0)
    (.inl rfl) (by omega) (by rw [zero_add]; exact hsum)
  rw [zero_add] at h2
  have fin : ∃ r, Approx (32 / 2 ^ 52) r (Vs.sum / t.val) ∧ toTarget fl (.fin r0) t.char = .ok (.fin r) := by
    cases t with
    | default =>
      exact ⟨r0, by rw [Target.val, div_one]; exact h2.mono (by norm_num), rfl⟩
    | unit p =>
      cases hp : p.text with
      | nil =>
        have hval : p.val = 1 := by cases p <;> first | rfl | cases hp
        rw [Target.char, hp]
        exact ⟨r0, by rw [Target.val, hval, div_one]; exact h2.mono (by norm_num), rfl⟩
      | cons c cs =>
        have hcs : cs = [] := by cases p <;> cases hp <;> rfl
        subst hcs
        obtain ⟨s, hs, hsc⟩ := siScaler_prefix fl p c hp
        obtain ⟨r', h3, h4⟩ := divNum_approx hf hsc h2 p.val_mid p.val_pos hm
        rw [Target.char, hp]
        refine ⟨r', h4, ?_⟩
        unfold toTarget
        dsimp only [List.head?]
        rw [hs]
        exact h3
  have harg : targetUnit fl u.text (t.arg u) = (t.char, u.text) := by
    cases t with
    | default => rfl
    | unit p =>
      cases p <;> cases u <;> rfl
  obtain ⟨r, hr1, hr2⟩ := fin
  refine ⟨r, hr1, ?_⟩
  unfold parseHuman
  rw [separate_text]
  dsimp only
  rw [harg, hv, ht]
  dsimp only
  rw [if_neg (by simp), h1]
  dsimp only
  rw [hr2]
  cases integer <;> rfl

end Verif.Human
