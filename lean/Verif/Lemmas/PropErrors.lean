import Verif.Lemmas.PrinterText
import Verif.Lemmas.ToolChecker
import Verif.Model.PropErrors
import Verif.Props.PropErrorsSpec

/-! Lemmas about the messages. -/

namespace Verif.PropErrors

open Spec
open PrinterText (ints ints_rangify numText_rangify ints_ofNat joinComma)
open PropsYaml (rangifyN)
open PropsBase

/-! ### The first word -/

theorem firstPart_eq (sep : Char) : ∀ s : PyStr, firstPart sep s = s.takeWhile (· != sep)
  | [] => rfl
  | x :: s => by
    have ih := firstPart_eq sep s
    unfold firstPart at ih ⊢
    unfold PyStr.splitC
    by_cases hx : x = sep
    · rw [if_pos hx, hx, List.takeWhile_cons_of_neg (by simp)]
      rfl
    · rw [if_neg hx, List.takeWhile_cons_of_pos (by simpa using hx), ← ih]
      cases h : PyStr.splitC sep s with
      | nil => exact absurd h (PyStr.splitC_ne_nil sep s)
      | cons a t => rfl

theorem firstWord_eq (s : PyStr) : firstPart '-' (firstPart ' ' s) = firstWord s := by
  rw [firstPart_eq, firstPart_eq]
  unfold firstWord
  induction s with
  | nil => rfl
  | cons x s ih =>
    by_cases h1 : x = ' '
    · subst h1
      rw [List.takeWhile_cons_of_neg (by decide), List.takeWhile_cons_of_neg (by decide)]
      rfl
    · rw [List.takeWhile_cons_of_pos (by simpa using h1)]
      by_cases h2 : x = '-'
      · subst h2
        rw [List.takeWhile_cons_of_neg (by decide), List.takeWhile_cons_of_neg (by decide)]
      · rw [List.takeWhile_cons_of_pos (by simpa using h2), List.takeWhile_cons_of_pos (by simp [h1, h2]), ih]

theorem firstPart_le (sep : Char) (s : PyStr) : (firstPart sep s).length ≤ s.length := by
  rw [firstPart_eq]
  exact List.IsPrefix.length_le (List.takeWhile_prefix _)

theorem uncapitalize_eq (s : PyStr) : uncapitalize s =
    (match firstWord s with
      | a :: b :: w => if a.isLower || b.isUpper then s else if (a :: b :: w).any Char.isDigit then s
        else match s with
          | [] => []
          | c :: s => c.toLower :: s
      | _ => s) := by
  have hl := firstPart_le '-' (firstPart ' ' s)
  unfold uncapitalize
  dsimp only
  rw [firstWord_eq] at hl ⊢
  by_cases h : (firstPart ' ' s).length < 2
  · rw [if_pos h]
    match hw : firstWord s, hl with
    | [], _ => rfl
    | [_], _ => rfl
    | a :: b :: w, hl =>
      simp only [List.length_cons] at hl
      omega
  · rw [if_neg h]
    match hw : firstWord s with
    | [] => rfl
    | [_] => rfl
    | a :: b :: w => rfl

/-! ### Numbers -/

theorem split_word {w : PyStr} (h : ' ' ∉ w) (t : PyStr) : PyStr.splitC ' ' (w ++ ' ' :: t) = w :: PyStr.splitC ' ' t :=
  PyStr.splitC_append h

theorem space_ofNat (n : Nat) : ' ' ∉ PyStr.ofNat n := PyStr.ofNat_not_mem n (by decide)

theorem split_cpu {n : PyStr} (h : ' ' ∉ n) : PyStr.splitC ' ' ("CPU ".toList ++ n) = ["CPU".toList, n] := by
  have e : "CPU ".toList ++ n = "CPU".toList ++ ' ' :: n := rfl
  rw [e, split_word (by decide), PyStr.splitC_of_not_mem h]

theorem split_following {w n : PyStr} (hw : ' ' ∉ w) (h : ' ' ∉ n) :
    PyStr.splitC ' ' ("the following ".toList ++ (w ++ ' ' :: n)) = ["the".toList, "following".toList, w, n] := by
  have e : "the following ".toList ++ (w ++ ' ' :: n) = "the".toList ++ ' ' :: ("following".toList ++ ' ' :: (w ++ ' ' :: n)) := rfl
  rw [e, split_word (by decide), split_word (by decide), split_word hw, PyStr.splitC_of_not_mem h]

theorem cpus_read {cpus : List Nat} (h : cpus ≠ []) :
    ∃ t r, cpusToStr cpus = .ok t ∧ readNums t = some (.cpus r) ∧ r.Perm cpus := by
  unfold cpusToStr
  match cpus, h with
  | [c], _ =>
    refine ⟨_, [c], rfl, ?_, .refl _⟩
    unfold readNums
    rw [split_cpu (space_ofNat c)]
    dsimp only
    rw [if_pos rfl, ints_ofNat]
    rfl
  | a :: b :: l, _ =>
    obtain ⟨r, h1, h2⟩ := ints_rangify (a :: b :: l)
    have hn := (numText_rangify (a :: b :: l)).no_space
    generalize rangifyN (a :: b :: l) = n at h1 hn
    refine ⟨_, r, if_pos (by simp), ?_, h2⟩
    have e : "the following CPUs: ".toList ++ n = "the following ".toList ++ ("CPUs:".toList ++ ' ' :: n) := rfl
    unfold readNums
    rw [e, split_following (by decide) hn]
    dsimp only
    rw [if_pos ⟨rfl, rfl⟩, if_pos rfl, h1]
    rfl

theorem packages_read {packages : List Nat} (h : 2 ≤ packages.length) :
    ∃ t r, packagesToStr packages = .ok t ∧ readNums t = some (.packages r) ∧ r.Perm packages := by
  unfold packagesToStr
  obtain ⟨r, h1, h2⟩ := ints_rangify packages
  have hn := (numText_rangify packages).no_space
  generalize rangifyN packages = n at h1 hn
  refine ⟨_, r, if_pos (by omega), ?_, h2⟩
  have e : "the following packages: ".toList ++ n = "the following ".toList ++ ("packages:".toList ++ ' ' :: n) := rfl
  unfold readNums
  rw [e, split_following (by decide) hn]
  dsimp only
  rw [if_pos ⟨rfl, rfl⟩, if_neg (by decide), if_pos rfl, h1]
  rfl

/-! ### Dies -/

theorem last_parts : ∀ parts : List PyStr, (∀ p ∈ parts, Trivial.Plain p) → (PyStr.joinC ',' parts).getLast? ≠ some ','
  | [], _ => by intro h; cases h
  | [p], hp => by
    intro h
    obtain ⟨_, hc⟩ := hp p (by simp)
    have hm : ',' ∈ p := List.mem_of_getLast? h
    rcases hc _ hm with h | h
    · revert h; decide
    · cases h
  | p :: q :: ps, hp => by
    have ih := last_parts (q :: ps) fun x hx => hp x (by simp [hx])
    intro h
    have e : PyStr.joinC ',' (p :: q :: ps) = p ++ ',' :: PyStr.joinC ',' (q :: ps) := rfl
    rw [e, List.getLast?_append] at h
    have hne : PyStr.joinC ',' (q :: ps) ≠ [] := by
      obtain ⟨hq, _⟩ := hp q (by simp)
      cases ps with
      | nil => exact hq
      | cons a b => 
        show q ++ _ ≠ []
        simp
    generalize PyStr.joinC ',' (q :: ps) = j at h ih hne
    cases j with
    | nil => exact absurd rfl hne
    | cons x xs =>
      rw [List.getLast?_cons_cons] at h
      cases hl : (x :: xs).getLast? with
      | none => simp at hl
      | some y =>
        rw [hl] at h ih
        exact ih h

theorem last_rangify (l : List Nat) : (rangifyN l).getLast? ≠ some ',' := by
  unfold rangifyN Trivial.rangify
  have hg := Trivial.groups_spec 0 (sortBy (fun a b : Int => decide (a ≤ b)) (l.map Int.ofNat))
  generalize hgs : Trivial.groups 0 (sortBy (fun a b : Int => decide (a ≤ b)) (l.map Int.ofNat)) = gs at hg
  apply last_parts
  intro p hp
  obtain ⟨g, hgm, hpg⟩ := List.mem_flatMap.1 hp
  refine Trivial.plain_groupStrs (hg.2.1 g hgm).ne_nil (fun x hx => ?_) p hpg
  have : x ∈ sortBy (fun a b : Int => decide (a ≤ b)) (l.map Int.ofNat) := by
    rw [← hg.1]; exact List.mem_flatten.2 ⟨g, hgm, hx⟩
  rw [mem_sortBy] at this
  obtain ⟨n, _, rfl⟩ := List.mem_map.1 this
  exact Int.natCast_nonneg n

/-- The text about the dies of a package. -/
structure ItemText (p : Nat) (l : List Nat) (s kw n : PyStr) : Prop where
  text : s = "package".toList ++ ' ' :: (PyStr.ofNat p ++ ' ' :: (kw ++ ' ' :: n))
  kw : kw = "die".toList ∨ kw = "dies".toList
  space : ' ' ∉ n
  letter : 'a' ∉ n
  last : n.getLast? ≠ some ','
  read : ∃ r, ints n = some r ∧ r.Perm l

theorem item {p : Nat} {l : List Nat} (h : l ≠ []) : ∃ s kw n, dieStr p l = .ok s ∧ ItemText p l s kw n := by
  unfold dieStr
  match l, h with
  | [d], _ =>
    refine ⟨_, "die".toList, PyStr.ofNat d, rfl, ?_, .inl rfl, space_ofNat d, PyStr.ofNat_not_mem d (by decide), ?_, [d], ints_ofNat d, .refl _⟩
    · rw [List.append_assoc, List.append_assoc]; rfl
    · intro h
      exact absurd (List.mem_of_getLast? h) (PyStr.ofNat_not_mem d (by decide))
  | a :: b :: l, _ =>
    have hn := numText_rangify (a :: b :: l)
    refine ⟨_, "dies".toList, _, if_pos (by simp), ?_, .inr rfl, hn.no_space, ?_, last_rangify _, ints_rangify _⟩
    · rw [List.append_assoc, List.append_assoc]; rfl
    · intro hm
      rcases hn _ hm with h | h | h
      · revert h; decide
      · cases h
      · cases h

/-- Reading from the words. -/
def readWords (w : List PyStr) : Option (List (Nat × List Nat)) := readItems (w.filter (· ≠ "and".toList))

theorem filter_and {w : PyStr} (h : w ≠ "and".toList) (ws : List PyStr) :
    (w :: ws).filter (· ≠ "and".toList) = w :: ws.filter (· ≠ "and".toList) :=
  List.filter_cons_of_pos (by rw [decide_eq_true_eq]; exact h)

theorem not_and {w : PyStr} (h : 'a' ∉ w) : w ≠ "and".toList := by
  rintro rfl
  exact h (by decide)

theorem readWords_step {p : Nat} {l : List Nat} {s kw n n' : PyStr} (h : ItemText p l s kw n) (hn : n' = n ∨ n' = n ++ [','])
    {r : List Nat} (h1 : ints n = some r) {ws : List PyStr} {d : List (Nat × List Nat)} (hd : readWords ws = some d) :
    readWords ("package".toList :: PyStr.ofNat p :: kw :: n' :: ws) = some ((p, r) :: d) := by
  have ha : 'a' ∉ n' := by
    rcases hn with rfl | rfl
    · exact h.letter
    · intro hm
      rcases List.mem_append.1 hm with hm | hm
      · exact h.letter hm
      · exact absurd hm (by decide)
  have hdrop : dropComma n' = n := by
    unfold dropComma
    rcases hn with rfl | rfl
    · rw [if_neg h.last]
    · rw [if_pos (by simp), List.dropLast_concat]
  have hkw : kw ≠ "and".toList := by
    rcases h.kw with rfl | rfl <;> decide
  unfold readWords at hd ⊢
  rw [filter_and (by decide), filter_and (not_and (PyStr.ofNat_not_mem p (by decide))), filter_and hkw, filter_and (not_and ha)]
  rw [readItems, if_pos ⟨rfl, h.kw⟩, ints_ofNat, hdrop, h1, hd]

theorem split_item {p : Nat} {l : List Nat} {s kw n : PyStr} (h : ItemText p l s kw n) :
    PyStr.splitC ' ' s = ["package".toList, PyStr.ofNat p, kw, n] := by
  have hkw : ' ' ∉ kw := by rcases h.kw with rfl | rfl <;> decide
  rw [h.text, split_word (by decide), split_word (space_ofNat p), split_word hkw, PyStr.splitC_of_not_mem h.space]

theorem split_item_comma {p : Nat} {l : List Nat} {s kw n : PyStr} (h : ItemText p l s kw n) (t : PyStr) :
    PyStr.splitC ' ' (s ++ ',' :: ' ' :: t) = "package".toList :: PyStr.ofNat p :: kw :: (n ++ [',']) :: PyStr.splitC ' ' t := by
  have hkw : ' ' ∉ kw := by rcases h.kw with rfl | rfl <;> decide
  have hs : ' ' ∉ n ++ [','] := by
    intro hm
    rcases List.mem_append.1 hm with hm | hm
    · exact h.space hm
    · exact absurd hm (by decide)
  have e : s ++ ',' :: ' ' :: t = "package".toList ++ ' ' :: (PyStr.ofNat p ++ ' ' :: (kw ++ ' ' :: ((n ++ [',']) ++ ' ' :: t))) := by
    rw [h.text]
    simp only [List.append_assoc, List.cons_append, List.nil_append]
  rw [e, split_word (by decide), split_word (space_ofNat p), split_word hkw, split_word hs]

theorem readWords_and (ws : List PyStr) : readWords ("and".toList :: ws) = readWords ws := by
  unfold readWords
  rw [List.filter_cons_of_neg (by decide)]

theorem dieStrs_nil {ds : List (Nat × List Nat)} (h : dieStrs ds = .ok []) : ds = [] := by
  cases ds with
  | nil => rfl
  | cons x xs =>
    rw [dieStrs] at h
    split at h
    · cases h
    · split at h
      · cases h
      · cases h

theorem dieStrs_cons {p : Nat} {l : List Nat} {ds : List (Nat × List Nat)} {s : PyStr} {ss : List PyStr}
    (h : dieStrs ((p, l) :: ds) = .ok (s :: ss)) : dieStr p l = .ok s ∧ dieStrs ds = .ok ss := by
  rw [dieStrs] at h
  split at h
  · cases h
  · split at h
    · cases h
    · injection h with h
      injection h with h1 h2
      subst h1; subst h2
      exact ⟨by assumption, by assumption⟩

theorem dieStrs_ok : ∀ {ds : List (Nat × List Nat)}, (∀ x ∈ ds, x.2 ≠ []) → ∃ ss, dieStrs ds = .ok ss
  | [], _ => ⟨[], rfl⟩
  | (p, l) :: ds, hl => by
    obtain ⟨s, kw, n, h1, _⟩ := item (p := p) (hl (p, l) (by simp))
    obtain ⟨ss, h2⟩ := dieStrs_ok (ds := ds) fun x hx => hl x (by simp [hx])
    exact ⟨s :: ss, by rw [dieStrs, h1, h2]⟩

/-- The text of two or more items is read item by item. -/
theorem read_many : ∀ {ds : List (Nat × List Nat)} {s : PyStr} {ss : List PyStr}, (∀ x ∈ ds, x.2 ≠ []) → ss ≠ [] →
    dieStrs ds = .ok (s :: ss) → ∃ d, SameDies d ds ∧
      readWords (PyStr.splitC ' ' (joinComma (s :: ss).dropLast ++ (", and ".toList ++ ((s :: ss).getLast?).getD []))) = some d
  | [], s, ss, _, _, h => by cases h
  | (p, l) :: ds, s, ss, hl, hne, h => by
    obtain ⟨h1, h2⟩ := dieStrs_cons h
    obtain ⟨s', kw, n, h1', it⟩ := item (p := p) (hl (p, l) (by simp))
    rw [h1] at h1'
    injection h1' with h1'
    subst h1'
    obtain ⟨r, hr, hp⟩ := it.read
    have hl' : ∀ x ∈ ds, x.2 ≠ [] := fun x hx => hl x (by simp [hx])
    match ss, hne with
    | [s2], _ =>
      match ds with
      | [] => cases h2
      | (q, m) :: ds =>
        obtain ⟨h3, h4⟩ := dieStrs_cons h2
        rw [dieStrs_nil h4] at hl' ⊢
        obtain ⟨s', kw', n', h3', it'⟩ := item (p := q) (hl' (q, m) (by simp))
        rw [h3] at h3'
        injection h3' with h3'
        subst h3'
        obtain ⟨r', hr', hp'⟩ := it'.read
        refine ⟨[(p, r), (q, r')], ⟨rfl, hp, rfl, hp', trivial⟩, ?_⟩
        have e : joinComma [s, s2].dropLast ++ (", and ".toList ++ ([s, s2].getLast?).getD []) =
            s ++ ',' :: ' ' :: ("and".toList ++ ' ' :: s2) := rfl
        rw [e, split_item_comma it, split_word (by decide), split_item it']
        refine readWords_step it (.inr rfl) hr ?_
        rw [readWords_and]
        exact readWords_step it' (.inl rfl) hr' rfl
    | s2 :: s3 :: ss, _ =>
      obtain ⟨d, hd, hread⟩ := read_many hl' (by simp) h2
      refine ⟨(p, r) :: d, ⟨rfl, hp, hd⟩, ?_⟩
      have e : joinComma (s :: s2 :: s3 :: ss).dropLast ++ (", and ".toList ++ ((s :: s2 :: s3 :: ss).getLast?).getD []) =
          s ++ ',' :: ' ' :: (joinComma (s2 :: s3 :: ss).dropLast ++ (", and ".toList ++ ((s2 :: s3 :: ss).getLast?).getD [])) := by
        rw [List.getLast?_cons_cons, List.dropLast_cons_cons, List.dropLast_cons_cons, joinComma, List.append_assoc]
        rfl
      rw [e, split_item_comma it]
      exact readWords_step it (.inr rfl) hr hread

theorem dies_read {ds : List (Nat × List Nat)} (hne : ds ≠ []) (hl : ∀ x ∈ ds, x.2 ≠ []) :
    ∃ t d, diesToStr ds = .ok t ∧ readDies t = some d ∧ SameDies d ds := by
  obtain ⟨ss, h⟩ := dieStrs_ok hl
  unfold diesToStr
  rw [h]
  match ss, ds, hne with
  | [], ds, hne => exact absurd (dieStrs_nil h) hne
  | [s], (p, l) :: ds, _ =>
    obtain ⟨h1, h2⟩ := dieStrs_cons h
    rw [dieStrs_nil h2] at hl ⊢
    obtain ⟨s', kw, n, h1', it⟩ := item (p := p) (hl (p, l) (by simp))
    rw [h1] at h1'
    injection h1' with h1'
    subst h1'
    obtain ⟨r, hr, hp⟩ := it.read
    refine ⟨s, [(p, r)], rfl, ?_, rfl, hp, trivial⟩
    show readWords (PyStr.splitC ' ' s) = _
    rw [split_item it]
    exact readWords_step it (.inl rfl) hr rfl
  | s :: s2 :: ss, ds, _ =>
    obtain ⟨d, h1, h2⟩ := read_many hl (by simp) h
    refine ⟨_, d, rfl, ?_, h1⟩
    rw [List.append_assoc]
    exact h2

/-- A list without dies ends with `IndexError`. -/
theorem dieStrs_empty : ∀ {ds : List (Nat × List Nat)}, (∃ x ∈ ds, x.2 = []) → dieStrs ds = .error .pyIndexError
  | [], h => by obtain ⟨x, h, _⟩ := h; cases h
  | (p, l) :: ds, h => by
    rw [dieStrs]
    by_cases hl : l = []
    · subst hl; rfl
    · obtain ⟨s, kw, n, h1, _⟩ := item (p := p) hl
      rw [h1]
      have : ∃ x ∈ ds, x.2 = [] := by
        obtain ⟨x, hx, he⟩ := h
        rcases List.mem_cons.1 hx with rfl | hx
        · exact absurd he hl
        · exact ⟨x, hx, he⟩
      dsimp only
      rw [dieStrs_empty this]

theorem crashOf_none {ds : List (Nat × List Nat)} (hne : ds ≠ []) (hl : ∀ x ∈ ds, x.2 ≠ []) : crashOf ds = none := by
  obtain ⟨t, d, h, -⟩ := dies_read hne hl
  unfold crashOf
  rw [h]

theorem crashOf_some {ds : List (Nat × List Nat)} (h : ∃ x ∈ ds, x.2 = []) : crashOf ds = some .pyIndexError := by
  unfold crashOf diesToStr
  rw [dieStrs_empty h]

/-! ### Quotes -/

theorem odds_quoted {a : PyStr} (ha : '\'' ∉ a) {pre : PyStr} (hp : '\'' ∉ pre) (t : PyStr) :
    readQuoted (pre ++ (quoted a ++ t)) = a :: readQuoted t := by
  have e : pre ++ (quoted a ++ t) = pre ++ '\'' :: (a ++ '\'' :: t) := by
    unfold quoted; simp
  unfold readQuoted
  rw [e, PyStr.splitC_append hp, PyStr.splitC_append ha, odds]

theorem readQuoted_none {t : PyStr} (h : '\'' ∉ t) : readQuoted t = [] := by
  unfold readQuoted
  rw [PyStr.splitC_of_not_mem h]
  rfl

/-- Names in a list. -/
theorem odds_list : ∀ {l : List PyStr} {pre : PyStr}, l ≠ [] → (∀ a ∈ l, '\'' ∉ a) → '\'' ∉ pre → ∀ t,
    readQuoted (pre ++ (joinComma (l.map quoted) ++ t)) = l ++ readQuoted t
  | [a], pre, _, h, hp, t => odds_quoted (h a (by simp)) hp t
  | a :: b :: l, pre, _, h, hp, t => by
    have e : pre ++ (joinComma ((a :: b :: l).map quoted) ++ t) =
        pre ++ (quoted a ++ (", ".toList ++ (joinComma ((b :: l).map quoted) ++ t))) := by
      simp only [List.map_cons, joinComma, List.append_assoc]
      rfl
    rw [e, odds_quoted (h a (by simp)) hp, odds_list (by simp) (fun x hx => h x (by simp [hx])) (by decide)]
    rfl

theorem join_lines : ∀ {l : List PyStr}, l ≠ [] → '\n' :: PyStr.joinC '\n' l = (l.map ('\n' :: ·)).flatten
  | [a], _ => by simp [PyStr.joinC]
  | a :: b :: l, _ => by
    have ih := join_lines (l := b :: l) (by simp)
    rw [List.map_cons, List.flatten_cons, ← ih]
    rfl

theorem pyDedup_ne_nil {α : Type} [DecidableEq α] {l : List α} (h : l ≠ []) : pyDedup l ≠ [] := by
  intro he
  cases l with
  | nil => exact h rfl
  | cons a l =>
    have : a ∈ pyDedup (a :: l) := mem_pyDedup.2 (by simp)
    rw [he] at this
    cases this

theorem errmsgs_eq {exs : List PyStr} (hne : exs ≠ []) (h : ∀ r ∈ exs, ∃ c m, r = c :: m ∧ PyStr.isSpace c = false) :
    errmsgs exs = ((Trivial.listDedup exs).map reasonText).flatten := by
  unfold errmsgs
  rw [if_pos hne, join_lines]
  · congr 1
    rw [List.map_map]
    refine List.map_congr_left fun r hr => ?_
    obtain ⟨c, m, rfl, hc⟩ := h r (mem_pyDedup.1 hr)
    show '\n' :: ToolChecker.indent2 (c :: m) = _
    rw [ToolChecker.indent2_eq hc]
    rfl
  · intro he
    rw [List.map_eq_nil_iff] at he
    exact pyDedup_ne_nil hne he

/-! ### The loop -/

variable {V κ : Type}

theorem getLoopText_none (get : Mech → Gen (κ × Option V)) (nums : List κ) (last : Mech) :
    ∀ ms, getLoopText none get nums last ms = getLoop get nums last ms
  | [] => rfl
  | m :: ms => by
    rw [getLoopText, getLoop, getLoopText_none get nums last ms]
    cases (get m).err <;> rfl

theorem first_yield {α : Type} (x : α) (l : List α) (e : Option Exn) : first ⟨x :: l, e⟩ = .ok (some x) := rfl

/-- The first result of the loop. -/
theorem first_loop (get : Mech → Gen (κ × Option V)) (n : κ) (nums : List κ) (last : Mech) (ans : Mech → Except Exn (Option V))
    (hok : ∀ m v, ans m = .ok v → ∃ l e, get m = ⟨(n, v) :: l, e⟩)
    (herr : ∀ m e, ans m = .error e → get m = ⟨[], some e⟩) :
    ∀ ms, hasVal (first (getLoop get (n :: nums) last ms)) = match firstAnswer ans ms with
      | .ok v => .ok v.isSome
      | .error e => .error e
  | [] => rfl
  | m :: ms => by
    have ih := first_loop get n nums last ans hok herr ms
    rw [getLoop, firstAnswer]
    cases h : ans m with
    | ok v =>
      obtain ⟨l, e, hg⟩ := hok m v h
      rw [hg]
      cases e with
      | none => rfl
      | some e =>
        dsimp only
        split <;> rfl
    | error e =>
      rw [herr m e h]
      dsimp only
      by_cases he : e = .notSupported
      · subst he
        rw [if_pos rfl]
        exact ih
      · have h0 : ¬ e.isNotSupported = true := by
          cases e <;> first | exact absurd rfl he | exact Bool.false_ne_true
        rw [if_neg h0, if_neg he]
        rfl

end Verif.PropErrors
