import Verif.Props.PMQoSCmdSpec
import Verif.Props.Human
import Verif.Props.PMQoS
import Verif.Lemmas.TpmiSpecFile

/-!
Lemmas for C98.
-/

namespace Verif.PMQoSCmd

open PyStr
open CPUInfo OpTarget
open Human (Flt Num Blank decText decVal Prefix Piece timeVal)
open HumanPrint (Val)
open PropsBase (Mech PropDesc)
open PropsTarget (readCpus Local)
open PropsCmd (Contract)
open PMQoS (Files Kernel writeInt)

/-! ### Values -/

theorem parseDigits_bad {c : Char} {b : Nat} (h1 : c ≠ '_') (h2 : ∀ d, Trivial.digitVal c = some d → b ≤ d) {s : PyStr}
    (hc : c ∈ s) : ∀ acc last, Trivial.parseDigits b acc last s = none := by
  induction s with
  | nil => cases hc
  | cons a s ih =>
    intro acc last
    unfold Trivial.parseDigits
    rcases List.mem_cons.1 hc with rfl | hc
    · rw [if_neg h1]
      cases hd : Trivial.digitVal c with
      | none => rfl
      | some d =>
        dsimp only
        rw [if_neg (by have := h2 d hd; omega)]
    · split
      · split
        · exact ih hc _ _
        · rfl
      · split
        · split
          · exact ih hc _ _
          · rfl
        · rfl

theorem mem_skipUnderscore {c : Char} (h : c ≠ '_') {s : PyStr} (hc : c ∈ s) : c ∈ Trivial.skipUnderscore s := by
  unfold Trivial.skipUnderscore
  split
  · rcases List.mem_cons.1 hc with rfl | hc
    · exact absurd rfl h
    · exact hc
  · exact hc

theorem parseAuto_bad {c : Char} (h : c ∉ ['0', 'x', 'X', 'o', 'O', 'b', 'B', '_'])
    (h2 : ∀ d, Trivial.digitVal c = some d → 16 ≤ d) {s : PyStr} (hc : c ∈ s) : Trivial.parseAuto s = none := by
  simp only [List.mem_cons, List.not_mem_nil, or_false, not_or] at h
  have hu := h.2.2.2.2.2.2.2
  have tail : ∀ {a b : Char} {cs : PyStr}, c ∈ a :: b :: cs → c ≠ a → c ≠ b → c ∈ cs := by
    intro a b cs hm ha hb
    simp only [List.mem_cons] at hm
    tauto
  have k : ∀ b, b ≤ 16 → ∀ d, Trivial.digitVal c = some d → b ≤ d := fun b hb d hd => le_trans hb (h2 d hd)
  unfold Trivial.parseAuto
  split
  · exact parseDigits_bad hu (k 16 (by decide)) (mem_skipUnderscore hu (tail hc h.1 h.2.1)) _ _
  · exact parseDigits_bad hu (k 16 (by decide)) (mem_skipUnderscore hu (tail hc h.1 h.2.2.1)) _ _
  · exact parseDigits_bad hu (k 8 (by decide)) (mem_skipUnderscore hu (tail hc h.1 h.2.2.2.1)) _ _
  · exact parseDigits_bad hu (k 8 (by decide)) (mem_skipUnderscore hu (tail hc h.1 h.2.2.2.2.1)) _ _
  · exact parseDigits_bad hu (k 2 (by decide)) (mem_skipUnderscore hu (tail hc h.1 h.2.2.2.2.2.1)) _ _
  · exact parseDigits_bad hu (k 2 (by decide)) (mem_skipUnderscore hu (tail hc h.1 h.2.2.2.2.2.2.1)) _ _
  · rename_i cs _ _ _ _ _ _
    have : c ∈ cs := by
      rcases List.mem_cons.1 hc with e | hc
      · exact absurd e h.1
      · exact hc
    rw [parseDigits_bad hu (k 10 (by decide)) this]
  · exact parseDigits_bad hu (k 10 (by decide)) hc _ _

theorem strToInt_bad {c : Char} (h : c ∉ ['0', 'x', 'X', 'o', 'O', 'b', 'B', '_', '-', '+']) (hs : isSpace c = false)
    (h2 : ∀ d, Trivial.digitVal c = some d → 16 ≤ d) {s : PyStr} (hc : c ∈ s) :
    Trivial.strToInt s = .error .badFormat := by
  have hm := Human.mem_strip hc hs
  have h' : c ∉ ['0', 'x', 'X', 'o', 'O', 'b', 'B', '_'] := by
    simp only [List.mem_cons, List.not_mem_nil, or_false, not_or] at h ⊢; tauto
  have hp : c ≠ '-' ∧ c ≠ '+' := by
    simp only [List.mem_cons, List.not_mem_nil, or_false, not_or] at h; tauto
  unfold Trivial.strToInt
  dsimp only
  generalize strip s = t at hm
  split
  · rename_i v heq
    split at heq
    · rename_i cs
      rw [parseAuto_bad h' h2 (by rcases List.mem_cons.1 hm with e | hm; exact absurd e hp.1; exact hm)] at heq
      cases heq
    · rename_i cs
      rw [parseAuto_bad h' h2 (by rcases List.mem_cons.1 hm with e | hm; exact absurd e hp.2; exact hm)] at heq
      cases heq
    · rw [parseAuto_bad h' h2 hm] at heq
      cases heq
  · rfl

/-- A text with such a character is not a number. -/
theorem numText_bad (E : Env) {c : Char} (hc : c ∈ ['h', 'H', 'm', 'M', 's']) {t : PyStr} (h : c ∈ t) :
    numText E t = none := by
  have hb : Human.BadChar c := (by decide : ∀ c ∈ ['h', 'H', 'm', 'M', 's'], Human.BadChar c) c hc
  have h1 : c ∉ ['0', 'x', 'X', 'o', 'O', 'b', 'B', '_', '-', '+'] ∧ isSpace c = false ∧
      (match Trivial.digitVal c with | some d => decide (16 ≤ d) | none => true) = true :=
    (by decide : ∀ c ∈ ['h', 'H', 'm', 'M', 's'], c ∉ ['0', 'x', 'X', 'o', 'O', 'b', 'B', '_', '-', '+'] ∧
      isSpace c = false ∧ (match Trivial.digitVal c with | some d => decide (16 ≤ d) | none => true) = true) c hc
  unfold numText
  rw [strToInt_bad h1.1 h1.2.1 (fun d hd => by have := h1.2.2; rw [hd] at this; simpa using this) h,
    Human.parseFloat_bad hb E.fl h]
  rfl

theorem numText_plain (E : Env) {x y : PyStr} (hx : Blank x) (hy : Blank y) (n : Nat) :
    numText E (x ++ ofNat n ++ y) = some (ofNat n) := by
  have h : ofNat n = decText n [] := by unfold decText; simp
  have : Trivial.strToInt (x ++ ofNat n ++ y) = .ok (n : Int) := by
    rw [← Tpmi.strToInt_strip, h, Human.strip_decText x y hx hy, ← h, Trivial.strToInt_ofNat]
  unfold numText
  rw [this]
  rfl

/-- A number close to a whole number of microseconds is converted to it. -/
theorem toUs_near {fl : Rat → Rat} (hf : IsRounding fl) {r : Rat} {n : Nat} (hn : n ≤ 2 ^ 44)
    (h : Human.Approx (32 / 2 ^ 52) r (n / 1000000)) : toUs fl (.fin r) = .ok n := by
  have hm : Human.Mid (n : Rat) := by
    by_cases h0 : n = 0
    · left; rw [h0]; norm_num
    · right
      have h1 : (1 : Rat) ≤ n := by exact_mod_cast Nat.one_le_iff_ne_zero.2 h0
      have h2 : (n : Rat) ≤ 2 ^ 44 := by exact_mod_cast hn
      rw [abs_of_nonneg (by linarith)]
      exact ⟨le_trans (by norm_num) h1, le_trans h2 (by norm_num)⟩
  have hy : Human.Approx (1 / 2 ^ 52) (fl ((1000000 : Int) : Rat)) 1000000 := by
    have := (Human.Approx.refl (1000000 : Rat)).fl hf (by norm_num) (.inr ⟨by norm_num, by norm_num⟩)
    rw [zero_add] at this
    exact_mod_cast this
  have hmul := h.mul hy (by norm_num)
  have e1 : ((n : Rat) / 1000000) * 1000000 = n := by field_simp
  rw [e1] at hmul
  have hb := hmul.abs_le (by norm_num) hm
  unfold toUs Human.mulNum
  dsimp only
  rw [Human.ofInt_ok (by norm_num)]
  dsimp only
  rw [Human.mkFlt_fin hb]
  have hr := hmul.fl hf (by norm_num) hm
  unfold Human.roundFlt
  dsimp only
  rw [Human.Approx.round (n := (n : Int)) (c := (32 / 2 ^ 52 + 2 * (1 / 2 ^ 52) + 1 / 2 ^ 52)) (by exact_mod_cast hr) (by
    have h2 : (n : Rat) ≤ 17592186044416 := by exact_mod_cast hn
    have h0 : (0 : Rat) ≤ n := Nat.cast_nonneg n
    rw [show ((n : Int) : Rat) = n by norm_cast, abs_of_nonneg h0]
    norm_num
    linarith)]

/-- What the option stands for is what is written. -/
theorem stands_us (E : Env) (hf : IsRounding E.fl) {t : PyStr} {n : Nat} (h : Stands t n) (hn : n ≤ 2 ^ 44) {x : PyStr}
    (hx : PropsCmd.Means (cls E) latency t x) :
    ∃ r, norm E (.str x) = .ok (.num (.fin r)) ∧ toUs E.fl (.fin r) = .ok n := by
  have hb : (n : Rat) / 1000000 ≤ 2 ^ 110 := by
    have h2 : (n : Rat) ≤ 17592186044416 := by exact_mod_cast hn
    norm_num
    linarith
  have fin : ∀ (z : PyStr) (V : Rat), (∃ c ∈ z, Human.BadChar c) → V = n / 1000000 →
      (∃ r, Human.Approx (32 / 2 ^ 52) r (V / 1) ∧ Human.parseHuman E.fl z ['s'] none false = .ok (.flt (.fin r))) →
      ∃ r, norm E (.str z) = .ok (.num (.fin r)) ∧ toUs E.fl (.fin r) = .ok n := by
    rintro z V ⟨c, hc, hbad⟩ hV ⟨r, h1, h2⟩
    refine ⟨r, ?_, toUs_near hf hn (by rw [div_one, hV] at h1; exact h1)⟩
    unfold norm
    dsimp only
    rw [if_neg (by rw [Human.isNum_bad hbad E.fl hc]; simp), h2]
  have hs : Human.BadChar 's' := by decide
  cases h with
  | plain a b n h1 h2 =>
    have hx' : x = ofNat n ++ "us".toList := hx.2 _ _ rfl (numText_plain E h1 h2 n)
    subst hx'
    refine fin _ (decVal n [] * Prefix.micro.val) ⟨'s', by simp, hs⟩ ?_ ?_
    · simp only [decVal, Human.fracVal, Prefix.val]; norm_num; ring
    · obtain ⟨r, k1, k2⟩ := Human.parse_si E.fl hf .s .none .micro .default [] [] _ n [] false
        (fun _ h => by cases h) (fun _ h => by cases h) (by decide) (by
          refine le_trans (le_of_eq ?_) hb
          simp only [decVal, Human.fracVal, Prefix.val]; norm_num; ring) (.inl rfl)
      refine ⟨r, k1, ?_⟩
      have e : ([] : PyStr) ++ decText n [] ++ [] ++ (Prefix.micro.text ++ Human.Unit'.s.text) = ofNat n ++ "us".toList := by
        unfold decText
        simp [Prefix.text, Human.Unit'.text]
      rw [e] at k2
      exact k2
  | unit a b i ds p n h1 h2 h3 h4 =>
    have hx' : x = a ++ decText i ds ++ b ++ (p.text ++ ['s']) :=
      hx.1 (.inr (numText_bad E (c := 's') (by decide) (by simp)))
    subst hx'
    refine fin _ _ ⟨'s', by simp, hs⟩ h4 ?_
    obtain ⟨r, k1, k2⟩ := Human.parse_si E.fl hf .s .none p .default a b _ i ds false h1 h2 h3 (by rw [h4]; exact hb)
      (.inl rfl)
    exact ⟨r, k1, k2⟩
  | time ps a b tail i ds c n h1 h2 h3 h4 h5 h6 h7 h8 h9 =>
    have hc : c ∈ ['d', 'D', 'h', 'H', 'm', 'M', 's'] := h5.subset (List.mem_append_right _ List.mem_cons_self)
    have hc' : c ∈ ['h', 'H', 'm', 'M', 's'] := by
      simp only [List.mem_cons, List.not_mem_nil, or_false] at hc ⊢; tauto
    have hx' : x = ps.flatMap Piece.text ++ (a ++ decText i ds ++ b) ++ [c] ++ tail :=
      hx.1 (.inr (numText_bad E hc' (by simp)))
    subst hx'
    refine fin _ _ ⟨c, by simp, (by decide : ∀ c ∈ ['h', 'H', 'm', 'M', 's'], Human.BadChar c) c hc'⟩ h9 ?_
    obtain ⟨r, k1, k2⟩ := Human.parse_time E.fl hf ps a i ds b c tail .none .default false h1 h2 h3 h4 h5 h8
      (by unfold Human.timeTotal; rw [h9]; exact hb)
    exact ⟨r, k1, k2⟩

/-! ### The files -/

/-- What the system has for a property and a CPU: the text in the file, and how many times it was written. -/
def hw (p : PyStr) (s : St) (c : Nat) : Option PyStr × Nat :=
  if p = latency then ((s.files c).map strip, s.writes c) else (none, 0)

/-- And with what is to be written. -/
def held (p : PyStr) (s : St) (c : Nat) : Option PyStr × Nat :=
  if p = latency then (text s c, s.writes c + if (s.buf.get? c).isSome then 1 else 0) else (none, 0)

def rd (E : Env) (p : PyStr) (_ : Mech) (_ : Nat) (x : Option PyStr × Nat) : Except Exn (Option (Val Flt)) :=
  readCpu E p x.1

/-- What is right after setting. -/
def Right (E : Env) (p : PyStr) (_ : Nat) (v : Val Flt) (x : Option PyStr × Nat) : Prop :=
  p = latency ∧ ∃ f us, v = .num f ∧ toUs E.fl f = .ok us ∧ x.1 = some (ofInt us)

/-- The invariant: `F` tells which files there are. -/
def Inv (F : Files) (s : St) : Prop := s.buf.keys.Nodup ∧ ∀ c, (s.files c).isSome = (F c).isSome

theorem addAll_get (us : Int) (l : List Nat) (b : Dict Nat Int) (c : Nat) :
    (addAll us l b).get? c = if c ∈ l then some us else b.get? c := by
  unfold addAll
  induction l generalizing b with
  | nil => rfl
  | cons d l ih =>
    rw [List.foldl_cons, ih]
    by_cases h : c ∈ l
    · rw [if_pos h, if_pos (List.mem_cons_of_mem _ h)]
    · rw [if_neg h, Dict.get?_set]
      by_cases hd : d = c
      · rw [if_pos hd, if_pos (by rw [hd]; exact List.mem_cons_self)]
      · rw [if_neg hd, if_neg (by
          intro hm
          rcases List.mem_cons.1 hm with e | hm
          · exact hd e.symm
          · exact h hm)]

theorem addAll_nodup (us : Int) (l : List Nat) (b : Dict Nat Int) (h : b.keys.Nodup) : (addAll us l b).keys.Nodup := by
  unfold addAll
  induction l generalizing b with
  | nil => exact h
  | cons d l ih => exact ih _ (Dict.nodup_keys_set h d us)

theorem addAll_mem (us : Int) (l : List Nat) (b : Dict Nat Int) (hb : b.keys.Nodup) {c : Nat} {u : Int}
    (h : (c, u) ∈ addAll us l b) : (c ∈ l ∧ u = us) ∨ (c, u) ∈ b := by
  have := Dict.get?_of_mem (addAll_nodup us l b hb) h
  rw [addAll_get] at this
  split at this
  · rename_i hc; cases this; exact .inl ⟨hc, rfl⟩
  · exact .inr (Dict.mem_of_get? this)

/-- Setting: what changes. -/
theorem set_cases (E : Env) (p : PyStr) (m : Mech) (v : Val Flt) (l : List Nat) (s : St) :
    ((set E p m v l s).1 = s ∧ (set E p m v l s).2 ≠ .ok ()) ∨
    (p = latency ∧ ∃ f us, v = .num f ∧ toUs E.fl f = .ok us ∧
      set E p m v l s = ({ s with buf := addAll us l s.buf }, .ok ())) := by
  unfold set
  by_cases h : p = latency
  · rw [if_pos h]
    cases v with
    | num f =>
      dsimp only
      cases hu : toUs E.fl f with
      | error e => exact .inl ⟨rfl, fun h => nomatch h⟩
      | ok us => exact .inr ⟨h, f, us, rfl, hu, rfl⟩
    | _ => exact .inl ⟨rfl, fun h => nomatch h⟩
  · rw [if_neg h]
    exact .inl ⟨rfl, fun h => nomatch h⟩

theorem flushOne_buf (K : Kernel) (s : St) (c : Nat) (us : Int) : (flushOne K s c us).1.buf = s.buf := rfl

theorem flushOne_some (K : Kernel) (s : St) (c d : Nat) (us : Int) :
    ((flushOne K s c us).1.files d).isSome = (s.files d).isSome := by
  unfold flushOne writeInt
  dsimp only
  split
  · rfl
  · rename_i t ht
    split
    · rfl
    · dsimp only
      split
      · rename_i h; rw [h, ht]; rfl
      · rfl

theorem flushOne_other (K : Kernel) (s : St) {c d : Nat} (us : Int) (h : d ≠ c) :
    (flushOne K s c us).1.files d = s.files d ∧ (flushOne K s c us).1.writes d = s.writes d := by
  unfold flushOne writeInt
  dsimp only
  cases hf : s.files c with
  | none => exact ⟨rfl, rfl⟩
  | some t =>
    dsimp only
    cases hk : K c (ofInt us) with
    | error e => exact ⟨rfl, rfl⟩
    | ok t' =>
      dsimp only
      rw [if_neg h, if_neg h]
      exact ⟨rfl, rfl⟩

/-- A write is done and counted, or nothing changes and it fails. -/
theorem flushOne_self (K : Kernel) (s : St) (c : Nat) (us : Int) :
    ((flushOne K s c us).1.files c = s.files c ∧ (flushOne K s c us).1.writes c = s.writes c ∧
      (flushOne K s c us).2 ≠ .ok ()) ∨
    ∃ t, K c (ofInt us) = .ok t ∧ (flushOne K s c us).1.files c = some t ∧
      (flushOne K s c us).1.writes c = s.writes c + 1 ∧
      ((flushOne K s c us).2 = .ok () ↔ strip t = ofInt us) := by
  unfold flushOne writeInt
  dsimp only
  cases hf : s.files c with
  | none => exact .inl ⟨hf, rfl, fun h => nomatch h⟩
  | some t =>
    dsimp only
    cases hk : K c (ofInt us) with
    | error e => exact .inl ⟨hf, rfl, fun h => nomatch h⟩
    | ok t' =>
      refine .inr ⟨t', rfl, ?_, ?_, ?_⟩
      · dsimp only; rw [if_pos rfl]
      · dsimp only; rw [if_pos rfl]
      · dsimp only
        by_cases hs : strip t' = ofInt us
        · rw [if_neg (fun h => h.2 hs)]; exact Iff.intro (fun _ => hs) (fun _ => rfl)
        · rw [if_pos ⟨rfl, hs⟩]; exact ⟨(fun h => nomatch h), fun h => absurd h hs⟩

theorem flush_keeps (K : Kernel) (I : St → Prop) (l : List (Nat × Int))
    (h : ∀ c us s, (c, us) ∈ l → I s → I (flushOne K s c us).1) : ∀ s, I s → I (flush K l s).1 := by
  induction l with
  | nil => exact fun s hs => hs
  | cons x l ih =>
    obtain ⟨c, us⟩ := x
    intro s hs
    unfold flush
    have h1 := h c us s List.mem_cons_self hs
    cases hx : flushOne K s c us with
    | mk s1 r =>
      rw [hx] at h1
      cases r with
      | error e => exact h1
      | ok u => exact ih (fun c us s hm => h c us s (List.mem_cons_of_mem _ hm)) s1 h1

theorem flush_buf (K : Kernel) (l : List (Nat × Int)) (s : St) : (flush K l s).1.buf = s.buf :=
  flush_keeps K (fun s' => s'.buf = s.buf) l (fun c us s' _ h => by rw [flushOne_buf]; exact h) s rfl

theorem flush_other (K : Kernel) (l : List (Nat × Int)) (s : St) {c : Nat} (h : ∀ us, (c, us) ∉ l) :
    (flush K l s).1.files c = s.files c ∧ (flush K l s).1.writes c = s.writes c := by
  refine flush_keeps K (fun s' => s'.files c = s.files c ∧ s'.writes c = s.writes c) l (fun d us s' hm hs => ?_) s ⟨rfl, rfl⟩
  have hne : c ≠ d := by
    rintro rfl
    exact h us hm
  rw [(flushOne_other K s' us hne).1, (flushOne_other K s' us hne).2]
  exact hs

theorem flush_some (K : Kernel) (l : List (Nat × Int)) (s : St) (c : Nat) :
    ((flush K l s).1.files c).isSome = (s.files c).isSome :=
  flush_keeps K (fun s' => (s'.files c).isSome = (s.files c).isSome) l
    (fun d us s' _ hs => by rw [flushOne_some]; exact hs) s rfl

theorem flush_ok (K : Kernel) (l : List (Nat × Int)) (hn : (l.map (·.1)).Nodup) (s : St)
    (h : (flush K l s).2 = .ok ()) {c : Nat} {us : Int} (hm : (c, us) ∈ l) :
    ((flush K l s).1.files c).map strip = some (ofInt us) ∧ (flush K l s).1.writes c = s.writes c + 1 := by
  induction l generalizing s with
  | nil => cases hm
  | cons x l ih =>
    obtain ⟨d, u⟩ := x
    rw [List.map_cons, List.nodup_cons] at hn
    unfold flush at h ⊢
    have hs := flushOne_self K s d u
    have ho := fun hne : c ≠ d => flushOne_other K s u hne
    cases hx : flushOne K s d u with
    | mk s1 r =>
      rw [hx] at h hs ho
      cases r with
      | error e => cases h
      | ok v =>
        dsimp only at h ⊢ hs ho
        rcases List.mem_cons.1 hm with e | hml
        · cases e
          have hnot : ∀ us, (c, us) ∉ l := fun us hc => hn.1 (List.mem_map.2 ⟨_, hc, rfl⟩)
          rw [(flush_other K l s1 hnot).1, (flush_other K l s1 hnot).2]
          rcases hs with ⟨-, -, hs⟩ | ⟨t, -, h2, h3, h4⟩
          · exact absurd rfl hs
          · rw [h2, h3]
            exact ⟨congrArg some (h4.1 rfl), rfl⟩
        · have hne : c ≠ d := by
            rintro rfl
            exact hn.1 (List.mem_map.2 ⟨_, hml, rfl⟩)
          obtain ⟨k1, k2⟩ := ih hn.2 s1 h hml
          exact ⟨k1, by rw [k2, (ho hne).2]⟩

theorem commit_state (K : Kernel) (s : St) : (commit K s).1.files = (flush K s.buf s).1.files ∧
    (commit K s).1.writes = (flush K s.buf s).1.writes ∧ (commit K s).2 = (flush K s.buf s).2 ∧
    ((commit K s).1.buf = s.buf ∨ (commit K s).1.buf = []) ∧ ((commit K s).2 = .ok () → (commit K s).1.buf = []) := by
  unfold commit
  have hb := flush_buf K s.buf s
  cases h : flush K s.buf s with
  | mk s1 r =>
    rw [h] at hb
    cases r with
    | error e => exact ⟨rfl, rfl, rfl, .inl hb, fun h => nomatch h⟩
    | ok u => exact ⟨rfl, rfl, rfl, .inr rfl, fun _ => rfl⟩

theorem commit_keeps (K : Kernel) (I : St → Prop) (s : St) (h : ∀ c us s', (c, us) ∈ s.buf → I s' → I (flushOne K s' c us).1)
    (hb : ∀ s', I s' → I { s' with buf := [] }) (hs : I s) : I (commit K s).1 := by
  have := flush_keeps K I s.buf h s hs
  unfold commit
  cases hx : flush K s.buf s with
  | mk s1 r =>
    rw [hx] at this
    cases r with
    | error e => exact this
    | ok u => exact hb _ this

theorem same_cpu {i : Info} {c d : Nat} : SameUnit i (.lvl .CPU) c d → c = d := by
  rintro ⟨tc, htc, td, htd, h1, h2, h3, h4, h5⟩
  simp only [ident, List.cons.injEq, and_true] at h5
  rw [← h1, ← h2]; exact h5

theorem get_eq (E : Env) (s : St) (p : PyStr) (m : Mech) (l : List Nat) :
    get E s p m l = readCpus (fun c => rd E p m c (held p s c)) l := by
  have key : ∀ c, readCpu E p (text s c) = rd E p m c (held p s c) := by
    intro c
    unfold rd held
    by_cases h : p = latency
    · rw [if_pos h]
    · rw [if_neg h]
      unfold readCpu
      rw [if_neg h, if_neg h]
  induction l with
  | nil => rfl
  | cons c l ih =>
    unfold get readCpus
    rw [key, ih]
    cases rd E p m c (held p s c) <;> rfl

theorem desc_latency : desc latency = some ⟨[.sysfs], some (.lvl .CPU), .lvl .CPU, true⟩ := rfl

theorem desc_cases {p : PyStr} {P : PropDesc} (h : desc p = some P) :
    (p = latency ∧ P = ⟨[.sysfs], some (.lvl .CPU), .lvl .CPU, true⟩) ∨
    (p ≠ latency ∧ p = globalLatency ∧ P = ⟨[.cdev], some .global, .global, false⟩) := by
  unfold desc at h
  split at h
  · rename_i hp; cases h; exact .inl ⟨hp, rfl⟩
  · split at h
    · rename_i h1 h2; cases h; exact .inr ⟨h1, h2, rfl⟩
    · cases h

theorem set_held (E : Env) (p q : PyStr) (m : Mech) (v : Val Flt) (l : List Nat) (s : St) :
    (∀ c, (q ≠ latency ∨ p ≠ latency ∨ c ∉ l) → held q (set E p m v l s).1 c = held q s c) ∧
    (∀ c, hw q (set E p m v l s).1 c = hw q s c) := by
  rcases set_cases E p m v l s with ⟨h, -⟩ | ⟨rfl, f, us, -, -, h⟩
  · rw [h]; exact ⟨fun _ _ => rfl, fun _ => rfl⟩
  · rw [h]
    refine ⟨fun c hc => ?_, fun _ => rfl⟩
    unfold held
    by_cases hq : q = latency
    · rw [if_pos hq, if_pos hq]
      have hcl : c ∉ l := by
        rcases hc with h | h | h
        · exact absurd hq h
        · exact absurd rfl h
        · exact h
      unfold text
      dsimp only
      rw [addAll_get, if_neg hcl]
    · rw [if_neg hq, if_neg hq]

theorem commit_held (K : Kernel) (s : St) (hn : s.buf.keys.Nodup) (h : (commit K s).2 = .ok ()) (p : PyStr) (c : Nat) :
    held p (commit K s).1 c = held p s c ∧ hw p (commit K s).1 c = held p s c := by
  obtain ⟨h1, h2, h3, -, h5⟩ := commit_state K s
  have hb := h5 h
  unfold held hw text
  by_cases hp : p = latency
  · rw [if_pos hp, if_pos hp, if_pos hp, hb, h1, h2]
    dsimp only [Dict.get?]
    cases hg : s.buf.get? c with
    | none =>
      have : ∀ us, (c, us) ∉ s.buf := by
        intro us hm
        rw [Dict.get?_of_mem hn hm] at hg
        cases hg
      rw [(flush_other K s.buf s this).1, (flush_other K s.buf s this).2]
      exact ⟨rfl, rfl⟩
    | some us =>
      obtain ⟨k1, k2⟩ := flush_ok K s.buf hn s (h3 ▸ h) (Dict.mem_of_get? hg)
      rw [k1, k2]
      exact ⟨rfl, rfl⟩
  · rw [if_neg hp, if_neg hp, if_neg hp]
    exact ⟨rfl, rfl⟩

theorem commit_same (K : Kernel) (s : St) (hn : s.buf.keys.Nodup) (p : PyStr) (c : Nat) (h : held p s c = hw p s c) :
    held p (commit K s).1 c = held p s c ∧ hw p (commit K s).1 c = hw p s c := by
  obtain ⟨h1, h2, -, h4, -⟩ := commit_state K s
  unfold held hw text at h ⊢
  by_cases hp : p = latency
  · rw [if_pos hp, if_pos hp] at h
    simp only [if_pos hp]
    rw [h1, h2]
    cases hg : s.buf.get? c with
    | some us =>
      rw [hg] at h
      have := congrArg Prod.snd h
      simp at this
    | none =>
      have hno : ∀ us, (c, us) ∉ s.buf := by
        intro us hm
        rw [Dict.get?_of_mem hn hm] at hg
        cases hg
      have hb : (commit K s).1.buf.get? c = none := by
        rcases h4 with h4 | h4 <;> rw [h4]
        · exact hg
        · rfl
      rw [hb, (flush_other K s.buf s hno).1, (flush_other K s.buf s hno).2]
      exact ⟨rfl, rfl⟩
  · simp only [if_neg hp]
    exact ⟨trivial, trivial⟩

/-- The class keeps the contract. -/
theorem contract (i : Info) (wf : WF i) (E : Env) (F : Files) :
    Contract i (cls E) (Inv F) (Right E) held hw (rd E) where
  loc := by
    intro p P (hP : desc p = some P)
    refine ⟨?_, ?_⟩
    · intro m v l s hl c h
      show (held p (set E p m v l s).1 c, hw p (set E p m v l s).1 c) = (held p s c, hw p s c)
      obtain ⟨h1, h2⟩ := set_held E p p m v l s
      rw [h2 c, h1 c]
      rcases desc_cases hP with ⟨-, rfl⟩ | ⟨h0, -, -⟩
      · refine .inr (.inr fun hc => h c hc (PropsBase.sameUnit_refl wf (hl c hc) _))
      · exact .inl h0
    · intro m v l s _ hok d hd c hs
      show Right E p c v (held p (set E p m v l s).1 c)
      rcases set_cases E p m v l s with ⟨-, h⟩ | ⟨rfl, f, us, h1, h2, h3⟩
      · exact absurd hok h
      · rcases desc_cases hP with ⟨-, rfl⟩ | ⟨h0, -, -⟩
        · refine ⟨rfl, f, us, h1, h2, ?_⟩
          rw [h3]
          unfold held text
          rw [if_pos rfl]
          dsimp only
          rw [addAll_get, if_pos (same_cpu hs ▸ hd)]
        · exact absurd rfl h0
  others := by
    intro p q m v l s hpq
    obtain ⟨h1, h2⟩ := set_held E p q m v l s
    refine ⟨funext fun c => h1 c ?_, funext h2⟩
    by_cases hq : q = latency
    · exact .inr (.inl fun hp => hpq (hp.trans hq.symm))
    · exact .inl hq
  get := fun s _ p m l => get_eq E s p m l
  start := fun _ _ => ⟨rfl, rfl⟩
  commit := fun s hs h p => ⟨funext fun c => (commit_held E.K s hs.1 h p c).1, funext fun c => (commit_held E.K s hs.1 h p c).2⟩
  keeps := fun s hs p c h => commit_same E.K s hs.1 p c h
  inv := by
    intro s hs
    refine ⟨hs, ?_, ?_⟩
    · refine commit_keeps E.K (Inv F) s (fun c us s' _ h => ⟨h.1, fun d => by rw [flushOne_some]; exact h.2 d⟩)
        (fun s' h => ⟨List.nodup_nil, h.2⟩) hs
    · intro p m v l _
      show Inv F (set E p m v l s).1
      rcases set_cases E p m v l s with ⟨h, -⟩ | ⟨-, f, us, -, -, h⟩
      · rw [h]; exact hs
      · rw [h]; exact ⟨addAll_nodup us l s.buf hs.1, hs.2⟩
  unit := by
    intro p P m s c d hP _ h
    rcases desc_cases hP with ⟨-, rfl⟩ | ⟨h0, -, -⟩
    · rw [same_cpu h]
    · unfold rd held
      rw [if_neg h0, if_neg h0]
  type := by
    intro p pi m c x v hp hv
    have ht : pi.type = .int := by
      have := Dict.mem_of_get? hp
      revert this
      show (p, pi) ∈ props → _
      intro this
      simp only [props, List.mem_cons, Prod.mk.injEq, List.not_mem_nil, or_false] at this
      rcases this with ⟨-, h⟩ | ⟨-, h⟩ <;> rw [h]
    rw [ht]
    unfold rd readCpu at hv
    split at hv
    · unfold readText at hv
      split at hv
      · cases hv
      · split at hv
        · cases hv
        · unfold toSec at hv
          split at hv
          · cases hv; trivial
          · cases hv
    · split at hv
      · unfold readGlobal at hv
        split at hv
        · cases hv
        · cases hv; trivial
      · cases hv
  scopes := by
    intro p P hP sn hsn
    rcases desc_cases hP with ⟨-, rfl⟩ | ⟨-, -, rfl⟩ <;> cases hsn <;> exact fun _ _ h => h
  table := by
    intro p
    show (desc p).map (·.writable) = (Dict.get? props p).map (·.writable)
    by_cases h1 : p = latency
    · rw [h1]; decide +kernel
    · by_cases h2 : p = globalLatency
      · rw [h2]; decide +kernel
      · have e1 : desc p = none := by unfold desc; rw [if_neg h1, if_neg h2]
        have e2 : Dict.get? props p = none := (if_neg (Ne.symm h1)).trans (if_neg (Ne.symm h2))
        rw [e1, e2]; rfl

end Verif.PMQoSCmd
