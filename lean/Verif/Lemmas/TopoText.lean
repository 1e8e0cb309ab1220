import Verif.Props.TopoSpec
import Verif.Lemmas.Trivial

/-!
Lemmas about reading the texts the topology is built from.
-/

namespace Verif.TopoBuild

open PyStr Trivial
open CPUInfo (Level)

theorem strip_newline {s : PyStr} (h : Stripped isSpace s) : strip (s ++ ['\n']) = s := by
  cases s with
  | nil => decide +kernel
  | cons c s =>
    have h1 : lstripBy isSpace (c :: s ++ ['\n']) = c :: s ++ ['\n'] := dropWhile_eq_self (by
      intro d hd
      exact h.1 d hd)
    show stripBy isSpace (c :: s ++ ['\n']) = _
    unfold stripBy
    rw [h1]
    unfold rstripBy
    rw [List.reverse_append]
    show (List.dropWhile isSpace ('\n' :: (c :: s).reverse)).reverse = _
    rw [List.dropWhile_cons_of_pos (by decide), dropWhile_eq_self, List.reverse_reverse]
    intro d hd
    rw [List.head?_reverse] at hd
    exact h.2 d hd

theorem strToInt_numText (n : Nat) : strToInt (numText n) = .ok (n : Int) := by
  have h : strip (numText n) = strip (ofNat n) := by
    rw [numText, strip_newline (stripped_of_all (ofNat_not_space n)), strip_ofNat]
  have := strToInt_ofNat n
  unfold strToInt at this ⊢
  rw [h]; exact this

theorem plain_rangeText (e : Nat × Nat) : Plain (rangeText e) := by
  unfold rangeText
  split
  · exact ⟨ofNat_ne_nil _, fun c hc => Or.inl (ofNat_digits _ c hc)⟩
  · refine ⟨by simp, fun c hc => ?_⟩
    rw [List.mem_append, List.mem_cons] at hc
    rcases hc with hc | hc | hc
    · exact Or.inl (ofNat_digits _ c hc)
    · exact Or.inr hc
    · exact Or.inl (ofNat_digits _ c hc)

theorem parseElts_ranges (els : List (Nat × Nat)) (h : ∀ e ∈ els, e.1 ≤ e.2) :
    parseElts (els.map rangeText) = .ok (els.flatMap fun e => intRange e.1 e.2) := by
  induction els with
  | nil => rfl
  | cons e els ih =>
    have h1 : parseElt (rangeText e) = .ok (intRange e.1 e.2) := by
      unfold rangeText
      split
      · rename_i he
        rw [parseElt_ofNat, ← he]
        simp [intRange]
      · exact parseElt_range _ _ (h e List.mem_cons_self)
    rw [List.map_cons]
    unfold parseElts
    rw [h1]
    dsimp only
    rw [ih fun e he => h e (List.mem_cons_of_mem _ he)]
    rfl

theorem mem_intRange {a b x : Int} : x ∈ intRange a b ↔ a ≤ x ∧ x ≤ b := by
  unfold intRange
  rw [List.mem_map]
  constructor
  · rintro ⟨i, hi, rfl⟩
    rw [List.mem_range] at hi
    omega
  · intro h
    exact ⟨(x - a).toNat, List.mem_range.2 (by omega), by omega⟩

/-- What a list of numbers is parsed to. -/
theorem readRange_lists {t : PyStr} {P : Nat → Prop} (h : Lists t P) :
    ∃ l, readRange (.ok t) = .ok l ∧ ∀ k : Int, k ∈ l ↔ ∃ n : Nat, k = n ∧ P n := by
  obtain ⟨els, h1, rfl, h3⟩ := h
  have hp : ∀ p ∈ els.map rangeText, Plain p := by
    intro p hp
    obtain ⟨e, _, rfl⟩ := List.mem_map.1 hp
    exact plain_rangeText e
  have hstrip : strip (joinC ',' (els.map rangeText) ++ ['\n']) = joinC ',' (els.map rangeText) := by
    refine strip_newline ?_
    by_cases hne : els.map rangeText = []
    · rw [hne]; exact ⟨fun c hc => (by cases hc), fun c hc => (by cases hc)⟩
    · have hs : ∀ p ∈ els.map rangeText, ∀ c ∈ p, isSpace c = false := by
        intro p hp' c hc
        rcases (hp p hp').2 c hc with h | rfl
        · unfold isSpace
          simp only [Bool.or_eq_false_iff, Bool.and_eq_false_iff, decide_eq_false_iff_not, beq_eq_false_iff_ne]
          omega
        · decide
      constructor
      · intro c hc
        obtain ⟨p, hp1, hp2⟩ := joinC_head hne hp hc
        exact hs p hp1 c hp2
      · intro c hc
        obtain ⟨p, hp1, hp2⟩ := joinC_last hne hp hc
        exact hs p hp1 c hp2
  refine ⟨els.flatMap fun e => intRange e.1 e.2, ?_, fun k => ?_⟩
  · unfold readRange
    dsimp only
    rw [hstrip]
    unfold splitCsvLineInt
    rw [splitCsvLine_join hp]
    exact parseElts_ranges els h1
  · rw [List.mem_flatMap]
    constructor
    · rintro ⟨e, he, hk⟩
      rw [mem_intRange] at hk
      exact ⟨k.toNat, by omega, (h3 _).2 ⟨e, he, by omega⟩⟩
    · rintro ⟨n, rfl, hn⟩
      obtain ⟨e, he, h⟩ := (h3 n).1 hn
      exact ⟨e, he, mem_intRange.2 (by omega)⟩

/-! ### /proc/cpuinfo -/

theorem splitBlocks_ne_nil (s : PyStr) : splitBlocks s ≠ [] := by
  fun_induction splitBlocks s <;> simp_all

/-- Text without an empty line, not starting with a new line. -/
def Dense (s : PyStr) : Prop := ∀ a b, s ≠ a ++ '\n' :: '\n' :: b

theorem dense_tail {c : Char} {s : PyStr} (h : Dense (c :: s)) : Dense s := by
  intro a b hs
  exact h (c :: a) b (by rw [hs]; rfl)

theorem splitBlocks_cons {c : Char} {s : PyStr} (h : ∀ s', c :: s ≠ '\n' :: '\n' :: s') :
    ∃ b bs, splitBlocks s = b :: bs ∧ splitBlocks (c :: s) = (c :: b) :: bs := by
  cases hs : splitBlocks s with
  | nil => exact absurd hs (splitBlocks_ne_nil s)
  | cons b bs =>
    refine ⟨b, bs, rfl, ?_⟩
    rw [splitBlocks.eq_3 _ _ (by intro s' h1 h2; exact h s' (by rw [h1, h2])), hs]

theorem splitBlocks_dense {s : PyStr} (h : Dense s) : splitBlocks s = [s] := by
  induction s with
  | nil => rfl
  | cons c s ih =>
    obtain ⟨b, bs, h1, h2⟩ := splitBlocks_cons (c := c) (s := s) (fun s' hs => h [] s' hs)
    rw [ih (dense_tail h)] at h1
    cases h1
    exact h2

/-- Text which does not end with a new line, followed by an empty line. -/
theorem splitBlocks_append {s t : PyStr} (h : Dense s) (hl : s.getLast? ≠ some '\n') (hne : s ≠ []) :
    splitBlocks (s ++ '\n' :: '\n' :: t) = s :: splitBlocks t := by
  induction s with
  | nil => exact absurd rfl hne
  | cons c s ih =>
    cases s with
    | nil =>
      have hc : c ≠ '\n' := fun e => hl (by rw [e]; rfl)
      obtain ⟨b, bs, h1, h2⟩ := splitBlocks_cons (c := c) (s := '\n' :: '\n' :: t)
        (fun s' hs => hc (List.cons.inj hs).1)
      rw [splitBlocks] at h1
      cases h1
      exact h2
    | cons d s =>
      have hl' : (d :: s).getLast? ≠ some '\n' := by rw [List.getLast?_cons_cons] at hl; exact hl
      have := ih (dense_tail h) hl' (by simp)
      obtain ⟨b, bs, h1, h2⟩ := splitBlocks_cons (c := c) (s := d :: s ++ '\n' :: '\n' :: t)
        (fun s' hs => by
          rw [List.cons_append] at hs
          injection hs with e1 e2
          injection e2 with e2 e3
          exact h [] s (by rw [e1, e2]; rfl))
      rw [this] at h1
      cases h1
      exact h2

theorem joinC_dense {ls : List PyStr} (h : ∀ l ∈ ls, l ≠ [] ∧ '\n' ∉ l) :
    Dense (joinC '\n' ls) ∧ (joinC '\n' ls).getLast? ≠ some '\n' ∧ (joinC '\n' ls).head? ≠ some '\n' ∧
      (ls ≠ [] → joinC '\n' ls ≠ []) := by
  induction ls with
  | nil => exact ⟨fun a b h => (by cases a <;> cases h), (fun h => by cases h), (fun h => by cases h),
      fun h => absurd rfl h⟩
  | cons l ls ih =>
    obtain ⟨h1, h2⟩ := h l List.mem_cons_self
    have hhead : l.head? ≠ some '\n' := fun e => h2 (List.mem_of_mem_head? e)
    have hlast : l.getLast? ≠ some '\n' := fun e => h2 (List.mem_of_mem_getLast? e)
    cases ls with
    | nil =>
      refine ⟨fun a b e => h2 ?_, hlast, hhead, fun _ => h1⟩
      have : l = a ++ '\n' :: '\n' :: b := e
      rw [this]; simp
    | cons l' ls =>
      obtain ⟨k1, k2, k3, k4⟩ := ih fun x hx => h x (List.mem_cons_of_mem _ hx)
      have k4 := k4 (by simp)
      have e : joinC '\n' (l :: l' :: ls) = l ++ '\n' :: joinC '\n' (l' :: ls) := rfl
      rw [e]
      generalize joinC '\n' (l' :: ls) = T at k1 k2 k3 k4
      refine ⟨?_, ?_, ?_, fun _ => by simp [h1]⟩
      · intro a b hab
        rcases List.append_eq_append_iff.1 hab with ⟨a', ha1, ha2⟩ | ⟨c', hc1, hc2⟩
        · cases a' with
          | nil =>
            rw [List.nil_append] at ha2
            injection ha2 with _ ha2
            exact k3 (by rw [ha2]; rfl)
          | cons x a' =>
            rw [List.cons_append] at ha2
            injection ha2 with _ ha2
            exact k1 a' b ha2
        · cases c' with
          | nil =>
            rw [List.nil_append] at hc2
            injection hc2 with _ hc2
            exact k3 (by rw [← hc2]; rfl)
          | cons x c' =>
            rw [List.cons_append] at hc2
            injection hc2 with hx _
            exact h2 (by rw [hc1, ← hx]; simp)
      · cases T with
        | nil => exact absurd rfl k4
        | cons x T => rw [List.getLast?_append, List.getLast?_cons_cons]; simpa using k2
      · cases l with
        | nil => exact absurd rfl h1
        | cons x l => exact hhead

theorem strip_spaces {s w : PyStr} (h : Stripped isSpace s) (hne : s ≠ []) (hw : ∀ c ∈ w, isSpace c = true) :
    strip (s ++ w) = s := by
  have h1 : lstripBy isSpace (s ++ w) = s ++ w := dropWhile_eq_self (by
    intro d hd
    cases s with
    | nil => exact absurd rfl hne
    | cons c s => exact h.1 d hd)
  show stripBy isSpace (s ++ w) = _
  unfold stripBy
  rw [h1]
  unfold rstripBy
  rw [List.reverse_append, List.dropWhile_append_of_pos (by
    intro c hc; exact hw c (List.mem_reverse.1 hc)), dropWhile_eq_self, List.reverse_reverse]
  intro d hd
  rw [List.head?_reverse] at hd
  exact h.2 d hd

theorem strip_space (s : PyStr) : strip (' ' :: s) = strip s := by
  show stripBy isSpace (' ' :: s) = stripBy isSpace s
  unfold stripBy
  rw [show lstripBy isSpace (' ' :: s) = lstripBy isSpace s from
    List.dropWhile_cons_of_pos (by decide)]

theorem strToInt_space (n : Nat) : strToInt (' ' :: ofNat n) = .ok (n : Int) := by
  have := strToInt_ofNat n
  unfold strToInt at this ⊢
  rw [strip_space]; exact this

/-- A line of '/proc/cpuinfo'. -/
theorem getNumber_line {start pre : PyStr} {lines : List PyStr} {i n : Nat}
    (h : lines[i]? = some (pre ++ ofNat n)) (h1 : ∃ t, pre = start ++ t)
    (h2 : afterColon (pre ++ ofNat n) = ' ' :: ofNat n) : getNumber start lines i = .ok (n : Int) := by
  unfold getNumber
  rw [h]
  dsimp only
  rw [if_pos, h2, strToInt_space]
  obtain ⟨t, rfl⟩ := h1
  rw [List.isPrefixOf_iff_prefix]
  exact ⟨t ++ ofNat n, by simp⟩

theorem afterColon_append {a b : PyStr} (h : ∀ c ∈ a, c ≠ ':') : afterColon (a ++ ':' :: b) = b := by
  unfold afterColon
  rw [List.dropWhile_append_of_pos (by intro c hc; simpa using h c hc), List.dropWhile_cons_of_neg (by decide)]
  rfl

theorem afterColon_processor (n : Nat) : afterColon ("processor\t: ".toList ++ ofNat n) = ' ' :: ofNat n := by
  rw [show "processor\t: ".toList = "processor\t".toList ++ [':', ' '] by decide +kernel, List.append_assoc]
  exact afterColon_append (by decide +kernel)

theorem afterColon_physical (n : Nat) : afterColon ("physical id\t: ".toList ++ ofNat n) = ' ' :: ofNat n := by
  rw [show "physical id\t: ".toList = "physical id\t".toList ++ [':', ' '] by decide +kernel, List.append_assoc]
  exact afterColon_append (by decide +kernel)

theorem afterColon_core (n : Nat) : afterColon ("core id\t\t: ".toList ++ ofNat n) = ' ' :: ofNat n := by
  rw [show "core id\t\t: ".toList = "core id\t\t".toList ++ [':', ' '] by decide +kernel, List.append_assoc]
  exact afterColon_append (by decide +kernel)

theorem CpuLines.numbers {c p k : Nat} {lines : List PyStr} (h : CpuLines c p k lines) :
    getNumber "processor".toList lines 0 = .ok (c : Int) ∧
    getNumber "physical id".toList lines 9 = .ok (p : Int) ∧ getNumber "core id".toList lines 11 = .ok (k : Int) := by
  obtain ⟨mid, sib, rest, hm, rfl⟩ := h.shape
  refine ⟨getNumber_line (n := c) rfl ⟨"\t: ".toList, by decide +kernel⟩ (afterColon_processor c),
    getNumber_line (n := p) ?_ ⟨"\t: ".toList, by decide +kernel⟩ (afterColon_physical p),
    getNumber_line (n := k) ?_ ⟨"\t\t: ".toList, by decide +kernel⟩ (afterColon_core k)⟩
  · rw [List.getElem?_cons_succ, List.getElem?_append_right (by omega), hm]
    rfl
  · rw [List.getElem?_cons_succ, List.getElem?_append_right (by omega), hm]
    rfl

theorem joinC_getLast {sep : Char} {ls : List PyStr} (h : ∀ l ∈ ls, l ≠ []) {ch : Char}
    (hc : (joinC sep ls).getLast? = some ch) : ∃ l, ls.getLast? = some l ∧ l.getLast? = some ch := by
  induction ls with
  | nil => cases hc
  | cons l ls ih =>
    cases ls with
    | nil => exact ⟨l, rfl, hc⟩
    | cons l' ls =>
      have e : joinC sep (l :: l' :: ls) = l ++ sep :: joinC sep (l' :: ls) := rfl
      rw [e] at hc
      have hne : joinC sep (l' :: ls) ≠ [] := by
        have := h l' (by simp)
        cases ls with
        | nil => exact this
        | cons x xs =>
          show l' ++ _ ≠ []
          simp [this]
      obtain ⟨r, h1, h2⟩ := ih (fun x hx => h x (List.mem_cons_of_mem _ hx)) (by
        revert hc
        generalize joinC sep (l' :: ls) = T at hne
        intro hc
        cases T with
        | nil => exact absurd rfl hne
        | cons x T => rw [List.getLast?_append, List.getLast?_cons_cons] at hc; simpa using hc)
      exact ⟨r, by rw [List.getLast?_cons_cons]; exact h1, h2⟩

/-- The text without the empty line at the end. -/
def body : List PyStr → PyStr
  | [] => []
  | [b] => b
  | b :: bs => b ++ '\n' :: '\n' :: body bs

theorem cpuinfoText_eq {blocks : List (List PyStr)} (h : blocks ≠ []) :
    cpuinfoText blocks = body (blocks.map (joinC '\n')) ++ ['\n', '\n'] := by
  induction blocks with
  | nil => exact absurd rfl h
  | cons b bs ih =>
    cases bs with
    | nil => simp [cpuinfoText, body]
    | cons b' bs =>
      have e : cpuinfoText (b :: b' :: bs) = joinC '\n' b ++ ['\n', '\n'] ++ cpuinfoText (b' :: bs) := rfl
      rw [e, ih (by simp)]
      simp [body]

theorem splitBlocks_body {bs : List PyStr} (hne : bs ≠ [])
    (h : ∀ b ∈ bs, Dense b ∧ b.getLast? ≠ some '\n' ∧ b ≠ []) : splitBlocks (body bs) = bs := by
  induction bs with
  | nil => exact absurd rfl hne
  | cons b bs ih =>
    obtain ⟨h1, h2, h3⟩ := h b List.mem_cons_self
    cases bs with
    | nil => exact splitBlocks_dense h1
    | cons b' bs =>
      show splitBlocks (b ++ '\n' :: '\n' :: body (b' :: bs)) = _
      rw [splitBlocks_append h1 h2 h3, ih (by simp) fun x hx => h x (List.mem_cons_of_mem _ hx)]

theorem body_getLast {bs : List PyStr} (h : ∀ b ∈ bs, b ≠ []) {ch : Char} (hc : (body bs).getLast? = some ch) :
    ∃ b ∈ bs, b.getLast? = some ch := by
  induction bs with
  | nil => cases hc
  | cons b bs ih =>
    cases bs with
    | nil => exact ⟨b, List.mem_cons_self, hc⟩
    | cons b' bs =>
      have hne : body (b' :: bs) ≠ [] := by
        have := h b' (by simp)
        cases bs with
        | nil => exact this
        | cons x xs =>
          show b' ++ _ ≠ []
          simp [this]
      have hc : (b ++ '\n' :: '\n' :: body (b' :: bs)).getLast? = some ch := hc
      obtain ⟨r, h1, h2⟩ := ih (fun x hx => h x (List.mem_cons_of_mem _ hx)) (by
        revert hc
        generalize body (b' :: bs) = T at hne
        intro hc
        cases T with
        | nil => exact absurd rfl hne
        | cons x T =>
          rw [List.getLast?_append, List.getLast?_cons_cons, List.getLast?_cons_cons] at hc
          simpa using hc)
      exact ⟨r, List.mem_cons_of_mem _ h1, h2⟩

theorem CpuLines.head {c p k : Nat} {lines : List PyStr} (h : CpuLines c p k lines) :
    lines ≠ [] ∧ (joinC '\n' lines).head? = some 'p' := by
  obtain ⟨mid, sib, rest, hm, rfl⟩ := h.shape
  refine ⟨by simp, ?_⟩
  have key : ∀ ls : List PyStr, (joinC '\n' (("processor\t: ".toList ++ ofNat c) :: ls)).head? = some 'p' := by
    intro ls
    rw [show "processor\t: ".toList = 'p' :: "rocessor\t: ".toList by decide +kernel]
    cases ls <;> rfl
  exact key _

/-- Splitting '/proc/cpuinfo'. -/
theorem splitBlocks_cpuinfo {m : Machine} {bs : List (Nat × List PyStr)}
    (h : ∀ b ∈ bs, CpuLines b.1 (m.num .package b.1) (m.num .core b.1) b.2) (hne : bs ≠ []) :
    splitBlocks (strip (cpuinfoText (bs.map Prod.snd))) = bs.map fun b => joinC '\n' b.2 := by
  have hb : ∀ x ∈ (bs.map Prod.snd).map (joinC '\n'), Dense x ∧ x.getLast? ≠ some '\n' ∧ x ≠ [] := by
    intro x hx
    rw [List.map_map] at hx
    obtain ⟨b, hb, rfl⟩ := List.mem_map.1 hx
    obtain ⟨d1, d2, _, d4⟩ := joinC_dense (h b hb).line
    exact ⟨d1, d2, d4 (h b hb).head.1⟩
  have hstrip : Stripped isSpace (body ((bs.map Prod.snd).map (joinC '\n'))) := by
    constructor
    · intro c hc
      cases bs with
      | nil => exact absurd rfl hne
      | cons b bs =>
        have hh := (h b List.mem_cons_self).head.2
        have : (body (((b :: bs).map Prod.snd).map (joinC '\n'))).head? = some 'p' := by
          cases bs with
          | nil => exact hh
          | cons b' bs =>
            show (joinC '\n' b.2 ++ _).head? = _
            rw [List.head?_append, hh]; rfl
        rw [this] at hc
        cases hc
        decide
    · intro c hc
      obtain ⟨x, hx, hxc⟩ := body_getLast (fun b hb' => (hb b hb').2.2) hc
      rw [List.map_map] at hx
      obtain ⟨b, hb', rfl⟩ := List.mem_map.1 hx
      obtain ⟨l, hl, hlc⟩ := joinC_getLast (fun l hl => ((h b hb').line l hl).1) hxc
      exact (h b hb').last l c hl hlc
  have hne' : (bs.map Prod.snd).map (joinC '\n') ≠ [] := by simpa using hne
  have hbody : body ((bs.map Prod.snd).map (joinC '\n')) ≠ [] := by
    intro e
    have := splitBlocks_body hne' hb
    rw [e] at this
    have h0 : [] ∈ (bs.map Prod.snd).map (joinC '\n') := by rw [← this]; exact List.mem_cons_self
    exact (hb _ h0).2.2 rfl
  rw [cpuinfoText_eq (by simpa using hne), strip_spaces hstrip hbody (by decide), splitBlocks_body hne' hb,
    List.map_map]
  rfl

/-- The first loop over '/proc/cpuinfo'. -/
theorem parseBlocks_spec {m : Machine} {bs : List (Nat × List PyStr)}
    (h : ∀ b ∈ bs, CpuLines b.1 (m.num .package b.1) (m.num .core b.1) b.2) (info : Dict Int (List PyStr)) :
    ∃ info', parseBlocks (bs.map fun b => joinC '\n' b.2) info = .ok info' ∧
      ∀ c : Nat, (c ∈ bs.map Prod.fst → ∃ lines, info'.get? c = some lines ∧
        CpuLines c (m.num .package c) (m.num .core c) lines) ∧
        (c ∉ bs.map Prod.fst → info'.get? c = info.get? c) := by
  induction bs generalizing info with
  | nil => exact ⟨info, rfl, fun c => ⟨fun hc => (by cases hc), fun _ => rfl⟩⟩
  | cons b bs ih =>
    have hb := h b List.mem_cons_self
    have hsplit : splitC '\n' (joinC '\n' b.2) = b.2 :=
      splitC_joinC hb.head.1 fun l hl => (hb.line l hl).2
    obtain ⟨info', h1, h2⟩ := ih (fun x hx => h x (List.mem_cons_of_mem _ hx)) (info.set b.1 b.2)
    refine ⟨info', ?_, fun c => ⟨fun hc => ?_, fun hc => ?_⟩⟩
    · rw [List.map_cons]
      unfold parseBlocks
      rw [hsplit, hb.numbers.1]
      exact h1
    · by_cases hc' : c ∈ bs.map Prod.fst
      · exact (h2 c).1 hc'
      · have : c = b.1 := by
          rw [List.map_cons, List.mem_cons] at hc
          exact hc.resolve_right hc'
        subst this
        exact ⟨b.2, by rw [(h2 _).2 hc', Dict.get?_set_self], hb⟩
    · rw [List.map_cons, List.mem_cons, not_or] at hc
      rw [(h2 c).2 hc.2, Dict.get?_set_ne]
      intro e; exact hc.1 (by omega)

end Verif.TopoBuild
