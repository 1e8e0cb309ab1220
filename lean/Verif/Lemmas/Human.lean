import Verif.Lemmas.HumanFloat
import Verif.Lemmas.Trivial

/-!
Lemmas about the texts of pepclibs/helperlibs/Human.py.
-/

namespace Verif.Human

open PyStr

/-! ### Stripping -/

theorem mem_lstripBy {p : Char → Bool} {s : PyStr} {c : Char} (h : c ∈ s) (hc : p c = false) :
    c ∈ s.dropWhile p := by
  induction s with
  | nil => cases h
  | cons d s ih =>
    unfold List.dropWhile
    cases hd : p d with
    | false => exact h
    | true =>
      rcases List.mem_cons.1 h with rfl | h
      · rw [hc] at hd; cases hd
      · exact ih h

theorem mem_strip {s : PyStr} {c : Char} (h : c ∈ s) (hc : isSpace c = false) : c ∈ strip s := by
  unfold strip stripBy lstripBy rstripBy
  rw [List.mem_reverse]
  apply mem_lstripBy _ hc
  rw [List.mem_reverse]
  exact mem_lstripBy h hc

theorem dropWhile_all_append {p : Char → Bool} {x s : PyStr} (hx : ∀ c ∈ x, p c = true) :
    (x ++ s).dropWhile p = s.dropWhile p := by
  induction x with
  | nil => rfl
  | cons d x ih =>
    rw [List.cons_append, List.dropWhile, hx d List.mem_cons_self]
    exact ih fun c hc => hx c (List.mem_cons_of_mem _ hc)

theorem strip_pad {x s y : PyStr} (hx : ∀ c ∈ x, isSpace c = true) (hy : ∀ c ∈ y, isSpace c = true)
    (hs : Stripped isSpace s) (hne : s ≠ []) : strip (x ++ s ++ y) = s := by
  unfold strip stripBy lstripBy rstripBy
  have h1 : (x ++ s ++ y).dropWhile isSpace = s ++ y := by
    rw [List.append_assoc, dropWhile_all_append hx]
    apply dropWhile_eq_self
    cases s with
    | nil => exact absurd rfl hne
    | cons d s => intro c hc; exact hs.1 c hc
  rw [h1, List.reverse_append, dropWhile_all_append (fun c hc => hy c (List.mem_reverse.1 hc)),
    dropWhile_eq_self, List.reverse_reverse]
  intro c hc
  rw [List.head?_reverse] at hc
  exact hs.2 c hc

theorem strip_blank {y : PyStr} (hy : ∀ c ∈ y, isSpace c = true) : strip y = [] := by
  unfold strip stripBy lstripBy rstripBy
  have := dropWhile_all_append (s := []) hy
  rw [List.append_nil] at this
  rw [this]; rfl

/-! ### Splitting -/

theorem dropPre_ne {c d : Char} {cs ds : PyStr} (h : d ≠ c) : dropPre (c :: cs) (d :: ds) = none := by
  unfold dropPre
  rw [if_neg fun e => h e.symm]

/-- Characters that the specifier does not start with are skipped. -/
theorem splitOnce_skip {c : Char} {e w t : PyStr} (h : c ∉ w) :
    splitOnce (c :: e) (w ++ t) = (splitOnce (c :: e) t).map fun p => (w ++ p.1, p.2) := by
  induction w with
  | nil =>
    rw [List.nil_append]
    cases splitOnce (c :: e) t <;> rfl
  | cons d w ih =>
    have hd : d ≠ c := fun k => h (by rw [k]; exact List.mem_cons_self)
    rw [List.cons_append, splitOnce, dropPre_ne hd, ih fun k => h (List.mem_cons_of_mem _ k)]
    cases splitOnce (c :: e) t <;> rfl

theorem splitOnce_nil {c : Char} {e : PyStr} : splitOnce (c :: e) [] = none := rfl

theorem splitOnce_none {c : Char} {e w : PyStr} (h : c ∉ w) : splitOnce (c :: e) w = none := by
  have := splitOnce_skip (e := e) (t := []) h
  rw [List.append_nil] at this
  rw [this]; rfl

theorem splitOnce_char {c : Char} {w r : PyStr} (h : c ∉ w) : splitOnce [c] (w ++ c :: r) = some (w, r) := by
  rw [splitOnce_skip h]
  have : splitOnce [c] (c :: r) = some ([], r) := by
    unfold splitOnce dropPre
    rw [if_pos rfl]
    unfold dropPre
    rfl
  rw [this]
  simp

/-- The specifiers are not found because their first characters are not in the text. -/
theorem splitSpecs_append {ν : Type} {A B : List (PyStr × ν)} {t : PyStr}
    (h : ∀ e ∈ A, e.1 ≠ [] ∧ splitOnce e.1 t = none) : splitSpecs (A ++ B) t = splitSpecs B t := by
  induction A with
  | nil => rfl
  | cons e A ih =>
    obtain ⟨sp, sc⟩ := e
    have h1 := h (sp, sc) List.mem_cons_self
    rw [List.cons_append, splitSpecs, if_neg h1.1, h1.2]
    exact ih fun e he => h e (List.mem_cons_of_mem _ he)

/-- The text of a list of amounts with one-character units. -/
def piecesText {ν : Type} (ps : List (PyStr × Char × ν)) (tail : PyStr) : PyStr :=
  ps.foldr (fun p acc => p.1 ++ p.2.1 :: acc) tail

theorem mem_piecesText {ν : Type} {ps : List (PyStr × Char × ν)} {tail : PyStr} {c : Char}
    (h : c ∈ piecesText ps tail) : (∃ p ∈ ps, c ∈ p.1 ∨ c = p.2.1) ∨ c ∈ tail := by
  induction ps with
  | nil => exact .inr h
  | cons p ps ih =>
    rcases List.mem_append.1 h with h | h
    · exact .inl ⟨p, List.mem_cons_self, .inl h⟩
    · rcases List.mem_cons.1 h with h | h
      · exact .inl ⟨p, List.mem_cons_self, .inr h⟩
      · rcases ih h with ⟨q, hq, h⟩ | h
        · exact .inl ⟨q, List.mem_cons_of_mem _ hq, h⟩
        · exact .inr h

theorem splitSpecs_pieces {ν : Type} (order : List (Char × ν)) (ps : List (PyStr × Char × ν)) (tail : PyStr)
    (hs : (ps.map (·.2)).Sublist order) (hn : (order.map (·.1)).Nodup)
    (hw : ∀ p ∈ ps, ∀ u ∈ order, u.1 ∉ p.1) (ht : ∀ u ∈ order, u.1 ∉ tail) :
    splitSpecs (order.map fun u => ([u.1], u.2)) (piecesText ps tail) =
      .ok (ps.map fun p => (p.1, p.2.2), tail) := by
  induction order generalizing ps with
  | nil =>
    have : ps = [] := by
      cases ps with
      | nil => rfl
      | cons p ps => cases hs
    subst this; rfl
  | cons u order ih =>
    obtain ⟨c, v⟩ := u
    rw [List.map_cons, List.nodup_cons] at hn
    have ht' : ∀ u ∈ order, u.1 ∉ tail := fun u hu => ht u (List.mem_cons_of_mem _ hu)
    rw [List.map_cons, splitSpecs, if_neg (by simp)]
    generalize hl : ps.map (·.2) = l at hs
    cases hs with
    | cons _ hs =>
      subst hl
      have hnot : c ∉ piecesText ps tail := by
        intro hc
        rcases mem_piecesText hc with ⟨p, hp, h | h⟩ | h
        · exact hw p hp (c, v) List.mem_cons_self h
        · apply hn.1
          rw [List.mem_map]
          exact ⟨p.2, hs.subset (List.mem_map_of_mem hp), h.symm⟩
        · exact ht (c, v) List.mem_cons_self h
      rw [splitOnce_none hnot]
      exact ih ps hs hn.2 (fun p hp u hu => hw p hp u (List.mem_cons_of_mem _ hu)) ht'
    | @cons_cons l' _ _ hs =>
      cases ps with
      | nil => cases hl
      | cons p ps =>
        obtain ⟨w, u'⟩ := p
        rw [List.map_cons, List.cons.injEq] at hl
        obtain ⟨h1, h2⟩ := hl
        dsimp only at h1
        subst h1 h2
        have hw' : c ∉ w := hw (w, c, v) List.mem_cons_self (c, v) List.mem_cons_self
        have e : piecesText ((w, c, v) :: ps) tail = w ++ c :: piecesText ps tail := rfl
        rw [e, splitOnce_char hw']
        dsimp only
        rw [ih ps hs hn.2 (fun p hp u hu => hw p (List.mem_cons_of_mem _ hp) u (List.mem_cons_of_mem _ hu)) ht']
        rfl

/-- A two-character specifier is not found if its first character is not in the amounts and the second one
starts neither an amount nor the rest. -/
theorem splitOnce_pair {ν : Type} {a b : Char} (ps : List (PyStr × Char × ν)) (tail : PyStr)
    (hw : ∀ p ∈ ps, a ∉ p.1 ∧ p.1 ≠ [] ∧ p.1.head? ≠ some b) (ht : a ∉ tail ∧ tail.head? ≠ some b) :
    splitOnce [a, b] (piecesText ps tail) = none ∧ (piecesText ps tail).head? ≠ some b := by
  induction ps with
  | nil => exact ⟨splitOnce_none ht.1, ht.2⟩
  | cons p ps ih =>
    obtain ⟨w, c, v⟩ := p
    obtain ⟨h1, h2, h3⟩ := hw _ List.mem_cons_self
    obtain ⟨i1, i2⟩ := ih fun p hp => hw p (List.mem_cons_of_mem _ hp)
    have e : piecesText ((w, c, v) :: ps) tail = w ++ c :: piecesText ps tail := rfl
    rw [e]
    refine ⟨?_, ?_⟩
    · rw [splitOnce_skip h1]
      have : splitOnce [a, b] (c :: piecesText ps tail) = none := by
        rw [splitOnce]
        have : dropPre [a, b] (c :: piecesText ps tail) = none := by
          unfold dropPre
          split
          · cases hr : piecesText ps tail with
            | nil => rfl
            | cons d r =>
              rw [hr] at i2
              exact dropPre_ne fun k => i2 (by rw [k]; rfl)
          · rfl
        rw [this]
        dsimp only
        rw [i1]; rfl
      rw [this]; rfl
    · cases w with
      | nil => exact absurd rfl h2
      | cons d w => exact h3

/-- One amount with a specifier that is found in `t` without anything before and after it. -/
theorem splitSpecs_single {ν : Type} (specs : List (PyStr × ν)) (w t : PyStr) (l : List (PyStr × ν))
    (hw : ∀ e ∈ specs, ∀ c, e.1.head? = some c → c ∉ w)
    (h : splitSpecs specs t = .ok (l, [])) (hl : ∀ p ∈ l, p.1 = []) (hne : l.length = 1) :
    splitSpecs specs (w ++ t) = .ok (l.map fun p => (w, p.2), []) := by
  induction specs generalizing t with
  | nil => cases h; cases hne
  | cons e specs ih =>
    obtain ⟨sp, sc⟩ := e
    cases sp with
    | nil => rw [splitSpecs, if_pos rfl] at h; cases h
    | cons c cs =>
      rw [splitSpecs, if_neg (by simp)] at h ⊢
      rw [splitOnce_skip (hw _ List.mem_cons_self c rfl)]
      cases hs : splitOnce (c :: cs) t with
      | none =>
        rw [hs] at h
        exact ih t (fun e he => hw e (List.mem_cons_of_mem _ he)) h
      | some ab =>
        obtain ⟨a, b⟩ := ab
        rw [hs] at h
        dsimp only [Option.map] at h ⊢
        cases hr : splitSpecs specs b with
        | error e => rw [hr] at h; cases h
        | ok lr =>
          obtain ⟨l', r⟩ := lr
          rw [hr] at h
          dsimp only at h ⊢
          injection h with h
          injection h with h1 h2
          subst h1 h2
          have ha := hl (a, sc) List.mem_cons_self
          dsimp only at ha
          subst ha
          have : l' = [] := by
            cases l' with
            | nil => rfl
            | cons x xs => simp at hne
          subst this
          simp

/-! ### Numbers -/

/-- A character that no number contains. -/
def BadChar (c : Char) : Prop :=
  isSpace c = false ∧ isDig c = false ∧ c ∉ ['+', '-', '_', '.', 'e', 'E'] ∧
  c.toLower ∉ ['i', 'n', 'f', 't', 'y', 'a'] ∧ (∀ d, Trivial.digitVal c = some d → 10 ≤ d)

instance (c : Char) : Decidable (BadChar c) := by
  unfold BadChar
  have : Decidable (∀ d, Trivial.digitVal c = some d → 10 ≤ d) := by
    cases h : Trivial.digitVal c with
    | none => exact isTrue (fun d h => by cases h)
    | some x => exact if hx : 10 ≤ x then isTrue (fun d h => by cases h; exact hx)
        else isFalse (fun k => hx (k x rfl))
  infer_instance

theorem parseDigits_bad {b : Nat} {c : Char} (h0 : c ≠ '_') (h1 : ∀ d, Trivial.digitVal c = some d → b ≤ d)
    (s : PyStr) (acc : Nat) (last : Bool) (h : c ∈ s) : Trivial.parseDigits b acc last s = none := by
  induction s generalizing acc last with
  | nil => cases h
  | cons d s ih =>
    rw [Trivial.parseDigits]
    by_cases hd : d = '_'
    · rw [if_pos hd]
      have hc : c ∈ s := by
        rcases List.mem_cons.1 h with rfl | h
        · exact absurd hd h0
        · exact h
      split
      · exact ih _ _ hc
      · rfl
    · rw [if_neg hd]
      cases hv : Trivial.digitVal d with
      | none => rfl
      | some x =>
        dsimp only
        by_cases hx : x < b
        · rw [if_pos hx]
          apply ih
          rcases List.mem_cons.1 h with rfl | h
          · exact absurd (h1 x hv) (by omega)
          · exact h
        · rw [if_neg hx]

theorem parse10_bad {c : Char} (hc : isSpace c = false) (h0 : c ∉ ['+', '-', '_'])
    (h1 : ∀ d, Trivial.digitVal c = some d → 10 ≤ d) {s : PyStr} (h : c ∈ s) :
    EP.parse10 s = .error .pyValueError := by
  have hm := mem_strip h hc
  have hu : c ≠ '_' := fun e => h0 (by rw [e]; simp)
  unfold EP.parse10
  generalize strip s = r at hm
  have key : ∀ q, c ∈ q → Trivial.parseDigits 10 0 false q = none := fun q hq =>
    parseDigits_bad hu h1 q _ _ hq
  dsimp only
  split
  · rename_i v hv
    split at hv
    · rename_i cs
      rw [key cs ((List.mem_cons.1 hm).resolve_left fun e => h0 (by rw [e]; simp))] at hv; cases hv
    · rename_i cs
      rw [key cs ((List.mem_cons.1 hm).resolve_left fun e => h0 (by rw [e]; simp))] at hv; cases hv
    · rw [key _ hm] at hv; cases hv
  · rfl

theorem dropUnders_mem {c : Char} (h0 : c ≠ '_') (s : PyStr) (prev : Char) (r : PyStr)
    (h : dropUnders prev s = some r) (hc : c ∈ s) : c ∈ r := by
  induction s generalizing prev r with
  | nil => cases hc
  | cons d s ih =>
    rw [dropUnders] at h
    by_cases hd : d = '_'
    · rw [if_pos hd] at h
      have hc' := (List.mem_cons.1 hc).resolve_left fun e => h0 (e.trans hd)
      split at h
      · exact ih _ _ h hc'
      · cases h
    · rw [if_neg hd] at h
      split at h
      · cases h
      · cases hr : dropUnders d s with
        | none => rw [hr] at h; cases h
        | some q =>
          rw [hr] at h
          cases h
          rcases List.mem_cons.1 hc with rfl | hc
          · exact List.mem_cons_self
          · exact List.mem_cons_of_mem _ (ih _ _ hr hc)

theorem mem_signPart {c : Char} (h : c ∉ ['+', '-']) {s : PyStr} (hc : c ∈ s) : c ∈ (signPart s).2 := by
  unfold signPart
  split
  · exact (List.mem_cons.1 hc).resolve_left fun e => h (by rw [e]; simp)
  · exact (List.mem_cons.1 hc).resolve_left fun e => h (by rw [e]; simp)
  · exact hc

theorem parseExp_bad {c : Char} (h : BadChar c) {s : PyStr} (hc : c ∈ s) : parseExp s = none := by
  obtain ⟨_, h2, h3, _⟩ := h
  simp only [List.mem_cons, List.not_mem_nil, or_false, not_or] at h3
  cases s with
  | nil => cases hc
  | cons d s =>
    rw [parseExp]
    by_cases hd : d = 'e' ∨ d = 'E'
    · rw [if_pos hd]
      have hc' : c ∈ s := (List.mem_cons.1 hc).resolve_left fun e => by
        rcases hd with hd | hd
        · exact h3.2.2.2.2.1 (e.trans hd)
        · exact h3.2.2.2.2.2 (e.trans hd)
      dsimp only
      rw [if_neg]
      intro ⟨_, hall⟩
      rw [List.all_eq_true] at hall
      have := hall c (mem_signPart (by simp [h3.1, h3.2.1]) hc')
      rw [h2] at this; cases this
    · rw [if_neg hd]

theorem parseDec_bad {c : Char} (h : BadChar c) {s : PyStr} (hc : c ∈ s) : parseDec s = none := by
  have h2 := h.2.1
  have h3 := h.2.2.1
  have m1 := mem_lstripBy (p := isDig) hc h2
  have m2 : c ∈ (fracPart (s.dropWhile isDig)).2 := by
    generalize s.dropWhile isDig = r at m1
    unfold fracPart
    split
    · exact mem_lstripBy ((List.mem_cons.1 m1).resolve_left fun e => h3 (by rw [e]; simp)) h2
    · exact m1
  unfold parseDec
  dsimp only
  split
  · rfl
  · rw [parseExp_bad h m2]

theorem parseUnsigned_bad {c : Char} (h : BadChar c) (fl : Rat → Rat) (neg : Bool) {s : PyStr} (hc : c ∈ s) :
    parseUnsigned fl neg s = none := by
  have hm : c.toLower ∈ s.map Char.toLower := List.mem_map_of_mem hc
  have h4 := h.2.2.2.1
  have k : ∀ l : PyStr, (∀ x ∈ l, x ∈ ['i', 'n', 'f', 't', 'y', 'a']) → s.map Char.toLower ≠ l := by
    intro l hl e
    rw [e] at hm
    exact h4 (hl _ hm)
  unfold parseUnsigned
  rw [if_neg, if_neg (k nanName (by decide)), parseDec_bad h hc]
  · rfl
  · intro hi
    rcases List.mem_cons.1 hi with hi | hi
    · exact k _ (by decide) hi
    · rcases List.mem_cons.1 hi with hi | hi
      · exact k _ (by decide) hi
      · cases hi

theorem parseFloat_bad {c : Char} (h : BadChar c) (fl : Rat → Rat) {s : PyStr} (hc : c ∈ s) :
    parseFloat fl s = none := by
  have h3 := h.2.2.1
  simp only [List.mem_cons, List.not_mem_nil, or_false, not_or] at h3
  unfold parseFloat
  cases hr : dropUnders ' ' (strip s) with
  | none => rfl
  | some r =>
    have hm := dropUnders_mem h3.2.2.1 _ _ _ hr (mem_strip hc h.1)
    exact parseUnsigned_bad h fl _ (mem_signPart (by simp [h3.1, h3.2.1]) hm)

theorem isNum_bad {c : Char} (h : BadChar c) (fl : Rat → Rat) {s : PyStr} (hc : c ∈ s) : isNum fl s = false := by
  have h3 := h.2.2.1
  unfold isNum
  rw [parse10_bad h.1 (by simp only [List.mem_cons, List.not_mem_nil, or_false, not_or] at h3 ⊢; tauto)
    h.2.2.2.2 hc, parseFloat_bad h fl hc]
  rfl

end Verif.Human
