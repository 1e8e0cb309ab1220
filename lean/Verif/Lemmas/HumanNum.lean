import Verif.Lemmas.Human
import Verif.Props.HumanSpec

/-!
Lemmas about the texts of decimal numbers.
-/

namespace Verif.Human

open PyStr

theorem isDig_digitC (n : Nat) : isDig (digitC n) = true := by
  unfold isDig
  rw [digitC_toNat]
  have := Nat.mod_lt n (by omega : 10 > 0)
  simp; omega

theorem isDig_ofNat {n : Nat} {c : Char} (h : c ∈ ofNat n) : isDig c = true := by
  have := ofNat_digits n c h
  unfold isDig
  simp; omega

theorem digitsVal_nil (a : Nat) : digitsVal a [] = a := rfl

theorem digitsVal_cons (a : Nat) (c : Char) (s : PyStr) :
    digitsVal a (c :: s) = digitsVal (a * 10 + (c.toNat - 48)) s := by
  unfold digitsVal
  rw [List.foldl_cons]

theorem digitsVal_append (a : Nat) (s t : PyStr) : digitsVal a (s ++ t) = digitsVal (digitsVal a s) t := by
  unfold digitsVal
  rw [List.foldl_append]

theorem digitsVal_ofNat (n : Nat) : digitsVal 0 (ofNat n) = n := by
  induction n using Nat.strongRecOn with
  | _ n ih =>
    unfold ofNat
    split
    · rw [digitsVal_cons, digitsVal_nil, digitC_toNat]; omega
    · rw [digitsVal_append, ih (n / 10) (by omega), digitsVal_cons, digitsVal_nil, digitC_toNat]; omega

/-- The digits of the fraction. -/
theorem digitsVal_frac (a : Nat) (ds : List (Fin 10)) :
    (digitsVal a (ds.map fun d => digitC d.val) : Rat) = (a + fracVal ds) * 10 ^ ds.length := by
  induction ds generalizing a with
  | nil => simp [digitsVal_nil, fracVal]
  | cons d ds ih =>
    rw [List.map_cons, digitsVal_cons, ih, digitC_toNat, fracVal, List.length_cons, pow_succ]
    have : (d.val % 10 : Nat) = d.val := Nat.mod_eq_of_lt d.isLt
    rw [this]
    have e : a * 10 + (48 + d.val - 48) = a * 10 + d.val := by omega
    rw [e]
    push_cast
    field_simp
    ring

theorem fracVal_nonneg (ds : List (Fin 10)) : 0 ≤ fracVal ds := by
  induction ds with
  | nil => exact le_refl _
  | cons d ds ih => rw [fracVal]; positivity

theorem decVal_nonneg (i : Nat) (ds : List (Fin 10)) : 0 ≤ decVal i ds := by
  have := fracVal_nonneg ds
  unfold decVal; positivity

/-- A number with `n` digits after the point is zero or not too small. -/
theorem decVal_lower (i : Nat) (ds : List (Fin 10)) : decVal i ds = 0 ∨ 1 / 10 ^ ds.length ≤ decVal i ds := by
  have h := digitsVal_frac i ds
  have e : decVal i ds = (digitsVal i (ds.map fun d => digitC d.val) : Rat) / 10 ^ ds.length := by
    rw [h]; unfold decVal; field_simp
  rw [e]
  generalize digitsVal i (ds.map fun d => digitC d.val) = k
  cases k with
  | zero => left; simp
  | succ k =>
    right
    apply div_le_div_of_nonneg_right _ (by positivity)
    push_cast
    have : (0 : Rat) ≤ k := by positivity
    linarith

theorem dropUnders_id {s : PyStr} (h : '_' ∉ s) (prev : Char) (hp : prev ≠ '_') : dropUnders prev s = some s := by
  induction s generalizing prev with
  | nil => rw [dropUnders, if_neg hp]
  | cons c s ih =>
    have hc : c ≠ '_' := fun e => h (by rw [e]; exact List.mem_cons_self)
    rw [dropUnders, if_neg hc, if_neg fun k => hp k.1, ih (fun k => h (List.mem_cons_of_mem _ k)) c hc]
    rfl

theorem takeWhile_append_of_all {p : Char → Bool} {x y : PyStr} (hx : ∀ c ∈ x, p c = true)
    (hy : ∀ c, y.head? = some c → p c = false) : (x ++ y).takeWhile p = x ∧ (x ++ y).dropWhile p = y := by
  induction x with
  | nil =>
    cases y with
    | nil => exact ⟨rfl, rfl⟩
    | cons c y =>
      have := hy c rfl
      constructor
      · rw [List.nil_append, List.takeWhile, this]
      · rw [List.nil_append, List.dropWhile, this]
  | cons d x ih =>
    have hd := hx d List.mem_cons_self
    obtain ⟨h1, h2⟩ := ih fun c hc => hx c (List.mem_cons_of_mem _ hc)
    constructor
    · rw [List.cons_append, List.takeWhile, hd]
      simp only [h1]
    · rw [List.cons_append, List.dropWhile, hd]
      exact h2

theorem fracPart_dec (ds : List (Fin 10)) :
    fracPart (if ds = [] then [] else '.' :: ds.map fun d => digitC d.val) = (ds.map fun d => digitC d.val, []) := by
  cases ds with
  | nil => rfl
  | cons d ds =>
    rw [if_neg (by simp), fracPart]
    generalize hl : (d :: ds).map (fun d => digitC d.val) = l
    have hall : ∀ c ∈ l, isDig c = true := by
      intro c hc
      rw [← hl, List.mem_map] at hc
      obtain ⟨e, _, rfl⟩ := hc
      exact isDig_digitC _
    have := takeWhile_append_of_all (y := []) hall (fun c hc => by cases hc)
    rw [List.append_nil] at this
    rw [this.1, this.2]

theorem parseDec_decText (i : Nat) (ds : List (Fin 10)) : parseDec (decText i ds) = some (decVal i ds) := by
  unfold parseDec decText
  have ht := takeWhile_append_of_all (p := isDig) (x := ofNat i)
    (y := if ds = [] then [] else '.' :: ds.map fun d => digitC d.val) (fun c hc => isDig_ofNat hc)
    (fun c hc => by
      split at hc
      · cases hc
      · cases hc; decide)
  rw [ht.1, ht.2, fracPart_dec]
  dsimp only
  rw [if_neg (fun h => ofNat_ne_nil i h.1)]
  rw [parseExp]
  dsimp only
  rw [Option.some.injEq, digitsVal_append, digitsVal_ofNat, List.length_map]
  have h := digitsVal_frac i ds
  generalize digitsVal i (ds.map fun d => digitC d.val) = m at h
  unfold scale10 decVal
  cases hn : ds.length with
  | zero =>
    rw [hn, pow_zero, mul_one] at h
    simp [h]
  | succ n =>
    rw [hn] at h
    rw [if_neg (by omega)]
    have : (-((0 : Int) - ((n + 1 : Nat) : Int))).toNat = n + 1 := by omega
    rw [this, h]
    field_simp

/-- The characters of a decimal number. -/
theorem mem_decText {i : Nat} {ds : List (Fin 10)} {c : Char} (h : c ∈ decText i ds) : isDig c = true ∨ c = '.' := by
  unfold decText at h
  rcases List.mem_append.1 h with h | h
  · exact .inl (isDig_ofNat h)
  · split at h
    · cases h
    · rcases List.mem_cons.1 h with h | h
      · exact .inr h
      · rw [List.mem_map] at h
        obtain ⟨d, _, rfl⟩ := h
        exact .inl (isDig_digitC _)

theorem not_space_of_dig {c : Char} (h : isDig c = true ∨ c = '.') : isSpace c = false := by
  rcases h with h | rfl
  · unfold isDig at h
    simp only [Bool.and_eq_true, decide_eq_true_eq] at h
    unfold isSpace
    generalize c.toNat = n at h
    simp only [Bool.or_eq_false_iff, Bool.and_eq_false_iff, decide_eq_false_iff_not, beq_eq_false_iff_ne]
    omega
  · decide

theorem decText_ne_nil (i : Nat) (ds : List (Fin 10)) : decText i ds ≠ [] := by
  unfold decText
  intro h
  exact ofNat_ne_nil i (List.append_eq_nil_iff.1 h).1

theorem decText_head (i : Nat) (ds : List (Fin 10)) : ∃ c r, decText i ds = c :: r ∧ isDig c = true := by
  unfold decText
  cases h : ofNat i with
  | nil => exact absurd h (ofNat_ne_nil i)
  | cons c r => exact ⟨c, _, rfl, isDig_ofNat (n := i) (by rw [h]; exact List.mem_cons_self)⟩

theorem strip_decText (x y : PyStr) (hx : Blank x) (hy : Blank y) (i : Nat) (ds : List (Fin 10)) :
    strip (x ++ decText i ds ++ y) = decText i ds :=
  strip_pad hx hy (stripped_of_all fun _ hc => not_space_of_dig (mem_decText hc)) (decText_ne_nil i ds)

theorem isDig_ne {c d : Char} (h : isDig c = true) (hd : isDig d = false) : c ≠ d := by
  intro e; rw [e, hd] at h; cases h

theorem signPart_dig {c : Char} {r : PyStr} (h : isDig c = true) : signPart (c :: r) = (false, c :: r) := by
  unfold signPart
  split
  · rename_i heq; injection heq with h1 _; exact absurd h1 (isDig_ne h (by decide))
  · rename_i heq; injection heq with h1 _; exact absurd h1 (isDig_ne h (by decide))
  · rfl

theorem toLower_dig {c : Char} (h : isDig c = true) : c.toLower = c := by
  unfold isDig at h
  simp only [Bool.and_eq_true, decide_eq_true_eq] at h
  unfold Char.toLower
  split
  · rename_i hc
    exfalso
    have h1 : 65 ≤ c.toNat := hc.1
    omega
  · rfl

theorem parseFloat_dec (fl : Rat → Rat) (x y : PyStr) (hx : Blank x) (hy : Blank y) (i : Nat) (ds : List (Fin 10)) :
    parseFloat fl (x ++ decText i ds ++ y) = some (mkFlt fl (decVal i ds)) := by
  unfold parseFloat
  rw [strip_decText x y hx hy, dropUnders_id (fun h => by
    rcases mem_decText h with h | h
    · exact absurd h (by decide)
    · exact absurd h (by decide)) ' ' (by decide)]
  dsimp only
  obtain ⟨c, r, hr, hc⟩ := decText_head i ds
  rw [hr, signPart_dig hc]
  unfold parseUnsigned
  have hl : (c :: r).map Char.toLower = c :: r.map Char.toLower := by rw [List.map_cons, toLower_dig hc]
  rw [hl, if_neg, if_neg, ← hr, parseDec_decText]
  · rfl
  · intro h
    injection h with h1 _
    exact absurd h1 (isDig_ne hc (by decide))
  · intro h
    unfold infNames at h
    rcases List.mem_cons.1 h with h | h
    · injection h with h1 _
      exact absurd h1 (isDig_ne hc (by decide))
    · rcases List.mem_cons.1 h with h | h
      · injection h with h1 _
        exact absurd h1 (isDig_ne hc (by decide))
      · cases h

theorem parse10_nat (x y : PyStr) (hx : Blank x) (hy : Blank y) (n : Nat) :
    EP.parse10 (x ++ ofNat n ++ y) = .ok n := by
  have hs := strip_decText x y hx hy n []
  have e : decText n [] = ofNat n := by unfold decText; simp
  rw [e] at hs
  unfold EP.parse10
  rw [hs]
  have hh : ∀ c r, ofNat n = c :: r → isDig c = true := fun c r h =>
    isDig_ofNat (n := n) (by rw [h]; exact List.mem_cons_self)
  dsimp only
  split
  · rename_i v hv
    split at hv
    · rename_i cs heq; exact absurd (hh _ _ heq) (by decide)
    · rename_i cs heq; exact absurd (hh _ _ heq) (by decide)
    · rw [Trivial.parseDigits_ofNat] at hv
      cases hv; rfl
  · rename_i hv
    split at hv
    · rename_i cs heq; exact absurd (hh _ _ heq) (by decide)
    · rename_i cs heq; exact absurd (hh _ _ heq) (by decide)
    · rw [Trivial.parseDigits_ofNat] at hv
      cases hv

theorem parseAuto_dot {s : PyStr} (h : '.' ∈ s) : Trivial.parseAuto s = none := by
  have hv : ∀ b d, Trivial.digitVal '.' = some d → b ≤ d := fun b d hd => by
    rw [show Trivial.digitVal '.' = none by decide] at hd; cases hd
  have key : ∀ b acc last q, '.' ∈ q → Trivial.parseDigits b acc last q = none := fun b acc last q hq =>
    parseDigits_bad (by decide) (hv b) q acc last hq
  have sk : ∀ q : PyStr, '.' ∈ q → '.' ∈ Trivial.skipUnderscore q := by
    intro q hq
    unfold Trivial.skipUnderscore
    split
    · exact (List.mem_cons.1 hq).resolve_left (by decide)
    · exact hq
  have tl : ∀ (a : Char) (q : PyStr), a ≠ '.' → '.' ∈ a :: q → '.' ∈ q := fun a q ha hq =>
    (List.mem_cons.1 hq).resolve_left fun e => ha e.symm
  unfold Trivial.parseAuto
  split
  · exact key _ _ _ _ (sk _ (tl _ _ (by decide) (tl _ _ (by decide) h)))
  · exact key _ _ _ _ (sk _ (tl _ _ (by decide) (tl _ _ (by decide) h)))
  · exact key _ _ _ _ (sk _ (tl _ _ (by decide) (tl _ _ (by decide) h)))
  · exact key _ _ _ _ (sk _ (tl _ _ (by decide) (tl _ _ (by decide) h)))
  · exact key _ _ _ _ (sk _ (tl _ _ (by decide) (tl _ _ (by decide) h)))
  · exact key _ _ _ _ (sk _ (tl _ _ (by decide) (tl _ _ (by decide) h)))
  · rw [key _ _ _ _ (tl _ _ (by decide) h)]
  · exact key _ _ _ _ h

theorem isInt_dot {s : PyStr} (h : '.' ∈ s) : EP.isInt s = false := by
  have hp : EP.parse10 s = .error .pyValueError :=
    parse10_bad (c := '.') (by decide) (by decide) (fun d hd => by
      rw [show Trivial.digitVal '.' = none by decide] at hd; cases hd) h
  have hm := mem_strip h (by decide : isSpace '.' = false)
  have hs : Trivial.strToInt s = .error .badFormat := by
    unfold Trivial.strToInt
    generalize strip s = r at hm
    have tl : ∀ (a : Char) (q : PyStr), a ≠ '.' → '.' ∈ a :: q → '.' ∈ q := fun a q ha hq =>
      (List.mem_cons.1 hq).resolve_left fun e => ha e.symm
    dsimp only
    split
    · rename_i v hv
      split at hv
      · rw [parseAuto_dot (tl _ _ (by decide) hm)] at hv; cases hv
      · rw [parseAuto_dot (tl _ _ (by decide) hm)] at hv; cases hv
      · rw [parseAuto_dot hm] at hv; cases hv
    · rfl
  unfold EP.isInt
  rw [hs, hp]
  rfl

/-- The last amount: an integer or a floating point number. -/
def decNum (fl : Rat → Rat) (i : Nat) (ds : List (Fin 10)) : Num :=
  if ds = [] then .int i else .flt (mkFlt fl (decVal i ds))

theorem amounts_last (fl : Rat → Rat) (x y : PyStr) (hx : Blank x) (hy : Blank y) (i : Nat) (ds : List (Fin 10))
    (sc : Num) : amounts fl [(x ++ decText i ds ++ y, sc)] = .ok [(decNum fl i ds, sc)] := by
  unfold amounts
  rw [parseFloat_dec fl x y hx hy]
  dsimp only
  cases ds with
  | nil =>
    have e : decText i [] = ofNat i := by unfold decText; simp
    have hp := parse10_nat x y hx hy i
    have hi : EP.isInt (x ++ decText i [] ++ y) = true := by
      unfold EP.isInt
      rw [e, hp]
      simp [Except.isOk']
    rw [if_pos hi, e, hp]
    rfl
  | cons d ds =>
    rw [if_neg]
    · rfl
    · rw [isInt_dot]
      · simp
      · unfold decText; simp

theorem amounts_cons (fl : Rat → Rat) (x y : PyStr) (hx : Blank x) (hy : Blank y) (n : Nat) (sc : Num)
    (l : List (PyStr × Num)) (hl : l ≠ []) (l' : List (Num × Num)) (h : amounts fl l = .ok l') :
    amounts fl ((x ++ ofNat n ++ y, sc) :: l) = .ok ((.int n, sc) :: l') := by
  cases l with
  | nil => exact absurd rfl hl
  | cons t ts =>
    rw [amounts, parse10_nat x y hx hy, h]

end Verif.Human
