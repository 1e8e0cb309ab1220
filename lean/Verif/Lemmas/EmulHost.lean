import Verif.Props.EmulHostSpec
import Verif.Lemmas.CPUIdent
import Verif.Lemmas.EP
import Verif.Lemmas.FileOps

/-! Lemmas for C115. -/

namespace Verif.EmulHost

open Spec

theorem relative_abs {q : PyStr} (h : q.head? ≠ some '/') : relative ('/' :: q) = q := by
  unfold relative PyStr.lstripBy
  rw [List.dropWhile_cons_of_pos (by decide)]
  cases q with
  | nil => rfl
  | cons c q =>
    refine List.dropWhile_cons_of_neg ?_
    intro hc
    exact h (by rw [of_decide_eq_true hc]; rfl)

theorem relative_inj {p p' : PyStr} (h : Abs p) (h' : Abs p') (he : relative p = relative p') : p = p' := by
  obtain ⟨q, rfl, _, h2, _⟩ := h
  obtain ⟨q', rfl, _, h2', _⟩ := h'
  rw [relative_abs h2, relative_abs h2'] at he
  rw [he]

/-! ### Reading -/

theorem read_addFile (ro : Bool) {path p : PyStr} (h : Abs path) (h' : Abs p) (data : PyStr) (s : Sys) :
    readFile (addFile ro path data s) p = if path = p then some data else readFile s p := by
  unfold readFile addFile
  by_cases hp : path = p
  · subst hp
    rw [if_pos rfl]
    cases ro
    · rw [if_neg (by decide)]
      dsimp only
      rw [Dict.get?_set_self, Dict.get?_set_self]
    · rw [if_pos rfl]
      dsimp only
      rw [Dict.get?_set_self]
  · rw [if_neg hp]
    have hr : relative path ≠ relative p := fun he => hp (relative_inj h h' he)
    cases ro
    · rw [if_neg (by decide)]
      dsimp only
      rw [Dict.get?_set_ne _ _ hp, Dict.get?_set_ne _ _ hr]
    · rw [if_pos rfl]
      dsimp only
      rw [Dict.get?_set_ne _ _ hp]

theorem lastOf_cons {β : Type} (x : PyStr × β) (T : List (PyStr × β)) (p : PyStr) :
    lastOf (x :: T) p = match lastOf T p with
      | some v => some v
      | none => if x.1 = p then some x.2 else none := by
  unfold lastOf
  by_cases h : x.1 = p
  · rw [List.filter_cons_of_pos (by simpa using h), List.getLast?_cons, if_pos h]
    cases (T.filter fun x => decide (x.1 = p)).getLast? <;> rfl
  · rw [List.filter_cons_of_neg (by simpa using h), if_neg h]
    cases (T.filter fun x => decide (x.1 = p)).getLast? <;> rfl

/-! ### Inline files -/

theorem lines_inline (sep : Char) (hsep : sep ≠ '\n') (T : List (PyStr × PyStr)) (h : ∀ x ∈ T, '\n' ∉ x.1 ∧ '\n' ∉ x.2) :
    Tpmi.lines (inlineText sep T) = T.map fun x => x.1 ++ sep :: (x.2 ++ ['\n']) := by
  have := Tpmi.lines_render (T.map fun x => x.1 ++ sep :: x.2) (by
    intro l hl hn
    obtain ⟨x, hx, rfl⟩ := List.mem_map.mp hl
    rcases List.mem_append.mp hn with hn | hn
    · exact (h x hx).1 hn
    · rcases List.mem_cons.mp hn with hn | hn
      · exact hsep hn.symm
      · exact (h x hx).2 hn)
  rw [List.flatMap_map, List.map_map] at this
  unfold inlineText
  have e : ∀ x : PyStr × PyStr, x.1 ++ sep :: (x.2 ++ ['\n']) = (x.1 ++ sep :: x.2) ++ ['\n'] := by
    intro x
    rw [List.append_assoc, List.cons_append]
  simp only [e]
  exact this

theorem split_line {sep : Char} {a b : PyStr} (ha : sep ∉ a) (hb : sep ∉ b) : PyStr.splitC sep (a ++ sep :: b) = [a, b] := by
  rw [PyStr.splitC_append ha, PyStr.splitC_of_not_mem hb]

theorem inlineLines_eq (ro : Bool) (sep : Char) (hsep : sep ≠ '\n') (T : List (PyStr × PyStr))
    (h : ∀ x ∈ T, sep ∉ x.1 ∧ sep ∉ x.2) (s : Sys) :
    inlineLines ro sep (T.map fun x => x.1 ++ sep :: (x.2 ++ ['\n'])) s =
      .ok (T.foldl (fun s x => addFile ro x.1 (x.2 ++ ['\n']) s) s) := by
  induction T generalizing s with
  | nil => rfl
  | cons x T ih =>
    rw [List.map_cons, inlineLines, split_line (h x List.mem_cons_self).1]
    · exact ih (fun y hy => h y (List.mem_cons_of_mem _ hy)) _
    · intro hm
      rcases List.mem_append.mp hm with hm | hm
      · exact (h x List.mem_cons_self).2 hm
      · exact hsep (List.mem_singleton.mp hm)

theorem read_fold (ro : Bool) (T : List (PyStr × PyStr)) (h : ∀ x ∈ T, Abs x.1) (s : Sys) {p : PyStr} (hp : Abs p) :
    readFile (T.foldl (fun s x => addFile ro x.1 (x.2 ++ ['\n']) s) s) p =
      match lastOf T p with
      | some v => some (v ++ ['\n'])
      | none => readFile s p := by
  induction T generalizing s with
  | nil => rfl
  | cons x T ih =>
    rw [List.foldl_cons, ih (fun y hy => h y (List.mem_cons_of_mem _ hy)), lastOf_cons]
    cases lastOf T p with
    | some v => rfl
    | none =>
      dsimp only
      rw [read_addFile ro (h x List.mem_cons_self) hp]
      by_cases hx : x.1 = p
      · rw [if_pos hx, if_pos hx]
      · rw [if_neg hx, if_neg hx]

theorem inlineLines_ok (ro : Bool) (sep : Char) (ls : List PyStr) (s : Sys) :
    (∃ s', inlineLines ro sep ls s = .ok s') ↔ ∀ l ∈ ls, (PyStr.splitC sep l).length = 2 := by
  induction ls generalizing s with
  | nil => exact ⟨fun _ l hl => absurd hl List.not_mem_nil, fun _ => ⟨s, rfl⟩⟩
  | cons l ls ih =>
    rw [inlineLines]
    match hm : PyStr.splitC sep l with
    | [] =>
      refine ⟨fun ⟨s', h⟩ => (by cases h), fun h => ?_⟩
      have := h l List.mem_cons_self
      rw [hm] at this
      cases this
    | [a] =>
      refine ⟨fun ⟨s', h⟩ => (by cases h), fun h => ?_⟩
      have := h l List.mem_cons_self
      rw [hm] at this
      cases this
    | [a, b] =>
      dsimp only
      rw [ih]
      constructor
      · intro h y hy
        rcases List.mem_cons.mp hy with rfl | hy
        · rw [hm]; rfl
        · exact h y hy
      · intro h y hy
        exact h y (List.mem_cons_of_mem _ hy)
    | a :: b :: c :: r =>
      refine ⟨fun ⟨s', h⟩ => (by cases h), fun h => ?_⟩
      have := h l List.mem_cons_self
      rw [hm] at this
      simp at this

theorem inlineLines_err (ro : Bool) (sep : Char) (ls : List PyStr) (s : Sys) {e : Exn}
    (h : inlineLines ro sep ls s = .error e) : e = .error := by
  induction ls generalizing s with
  | nil => cases h
  | cons l ls ih =>
    rw [inlineLines] at h
    split at h
    · exact ih _ h
    · cases h; rfl

/-! ### Registers -/

theorem ofNat_chars (n : Nat) : ∀ c ∈ PyStr.ofNat n, 48 ≤ c.toNat ∧ c.toNat ≤ 57 := by
  induction n using Nat.strongRecOn with
  | ind n ih =>
    intro c hc
    unfold PyStr.ofNat at hc
    split at hc
    · rw [List.mem_singleton.mp hc, PyStr.digitC_toNat]
      omega
    · rcases List.mem_append.mp hc with hc | hc
      · exact ih (n / 10) (by omega) c hc
      · rw [List.mem_singleton.mp hc, PyStr.digitC_toNat]
        omega

theorem hex_chars (n : Nat) : ∀ c ∈ Tpmi.hexDigits n, Tpmi.isHex c = true :=
  Tpmi.Hex.all (CPUIdent.hex_hexDigits n)

/-- A character which separates numbers. -/
def Separator (c : Char) : Prop := Tpmi.isHex c = false

theorem sep_ofNat {c : Char} (h : Separator c) (n : Nat) : c ∉ PyStr.ofNat n := by
  intro hm
  have := ofNat_chars n c hm
  unfold Separator Tpmi.isHex at h
  simp [this.1, this.2] at h

theorem sep_hex {c : Char} (h : Separator c) (n : Nat) : c ∉ Tpmi.hexDigits n := by
  intro hm
  have := hex_chars n c hm
  unfold Separator at h
  rw [this] at h
  cases h

theorem parsePair_eq {sep2 : Char} (h : Separator sep2) (a v : Nat) (hv : v < 2 ^ 64) :
    parsePair sep2 (PyStr.ofNat a ++ sep2 :: Tpmi.hexDigits v) = .ok (a, v) := by
  unfold parsePair
  rw [split_line (sep_ofNat h a) (sep_hex h v)]
  dsimp only
  rw [EP.parse10_ofNat, CPUIdent.strToInt16_hexDigits]
  dsimp only
  rw [if_neg (by omega), if_neg (by omega)]
  rfl

theorem space_hex (n : Nat) : ∀ c ∈ Tpmi.hexDigits n, PyStr.isSpace c = false :=
  fun c hc => Tpmi.not_space_hex (hex_chars n c hc)

theorem space_ofNat (n : Nat) : ∀ c ∈ PyStr.ofNat n, PyStr.isSpace c = false := by
  intro c hc
  have := ofNat_chars n c hc
  refine Tpmi.not_space_hex ?_
  unfold Tpmi.isHex
  simp [this.1, this.2]

theorem pairs_split {sep2 : Char} (hsp : PyStr.isSpace sep2 = false) (l : List (Nat × Nat)) :
    FreqInfo.splitWs ((l.flatMap fun y => PyStr.ofNat y.1 ++ sep2 :: (Tpmi.hexDigits y.2 ++ [' '])) ++ ['\n']) =
      l.map fun y => PyStr.ofNat y.1 ++ sep2 :: Tpmi.hexDigits y.2 := by
  induction l with
  | nil => rfl
  | cons y l ih =>
    have e : ((y :: l).flatMap fun y => PyStr.ofNat y.1 ++ sep2 :: (Tpmi.hexDigits y.2 ++ [' '])) ++ ['\n'] =
        (PyStr.ofNat y.1 ++ sep2 :: Tpmi.hexDigits y.2) ++ ' ' ::
          ((l.flatMap fun y => PyStr.ofNat y.1 ++ sep2 :: (Tpmi.hexDigits y.2 ++ [' '])) ++ ['\n']) := by
      simp [List.flatMap_cons]
    rw [e, FreqInfo.splitWs_append (by simp), ih, List.map_cons]
    intro c hc
    rcases List.mem_append.mp hc with hc | hc
    · exact space_ofNat _ c hc
    · rcases List.mem_cons.mp hc with rfl | hc
      · exact hsp
      · exact space_hex _ c hc

theorem parsePairs_eq {sep2 : Char} (h : Separator sep2) (l : List (Nat × Nat)) (hv : ∀ y ∈ l, y.2 < 2 ^ 64) :
    parsePairs sep2 (l.map fun y => PyStr.ofNat y.1 ++ sep2 :: Tpmi.hexDigits y.2) = .ok l := by
  induction l with
  | nil => rfl
  | cons y l ih =>
    rw [List.map_cons, parsePairs, parsePair_eq h y.1 y.2 (hv y List.mem_cons_self),
      ih fun z hz => hv z (List.mem_cons_of_mem _ hz)]

/-- What a line does. -/
def addMsr (x : PyStr × List (Nat × Nat)) (s : Sys) : Sys :=
  { s with
    files := s.files.set (relative x.1) (.bytes (Emul.populate (Emul.msrData x.2))),
    emuls := s.emuls.set x.1 .msr }

theorem strip_noSpace {p : PyStr} (h : ∀ c ∈ p, PyStr.isSpace c = false) : PyStr.strip p = p := by
  unfold PyStr.strip PyStr.stripBy PyStr.rstripBy PyStr.lstripBy
  rw [PyStr.dropWhile_eq_self (s := p), PyStr.dropWhile_eq_self, List.reverse_reverse]
  · intro c hc
    exact h c (List.mem_reverse.mp (List.mem_of_head? hc))
  · intro c hc
    exact h c (List.mem_of_head? hc)

theorem msrLines_eq {sep1 sep2 : Char} (h1 : Separator sep1) (h2 : Separator sep2) (hne : sep1 ≠ sep2)
    (hs1 : PyStr.isSpace sep1 = false) (hs2 : PyStr.isSpace sep2 = false)
    (T : List (PyStr × List (Nat × Nat)))
    (h : ∀ x ∈ T, sep1 ∉ x.1 ∧ (∀ c ∈ x.1, PyStr.isSpace c = false) ∧ ∀ y ∈ x.2, y.2 < 2 ^ 64) (s : Sys) :
    msrLines sep1 sep2 (T.map fun x => x.1 ++ sep1 :: ((x.2.flatMap fun y =>
      PyStr.ofNat y.1 ++ sep2 :: (Tpmi.hexDigits y.2 ++ [' '])) ++ ['\n'])) s = .ok (T.foldl (fun s x => addMsr x s) s) := by
  have hsp : sep1 ≠ ' ' := by rintro rfl; exact absurd hs1 (by decide)
  have hnl : sep1 ≠ '\n' := by rintro rfl; exact absurd hs1 (by decide)
  induction T generalizing s with
  | nil => rfl
  | cons x T ih =>
    obtain ⟨hx1, hx2, hx3⟩ := h x List.mem_cons_self
    rw [List.map_cons, msrLines, split_line hx1]
    · dsimp only
      rw [pairs_split hs2, parsePairs_eq h2 x.2 hx3, strip_noSpace hx2]
      exact ih (fun y hy => h y (List.mem_cons_of_mem _ hy)) _
    · intro hm
      rcases List.mem_append.mp hm with hm | hm
      · obtain ⟨y, _, hy⟩ := List.mem_flatMap.mp hm
        rcases List.mem_append.mp hy with hy | hy
        · exact sep_ofNat h1 _ hy
        · rcases List.mem_cons.mp hy with hy | hy
          · exact hne hy
          · rcases List.mem_append.mp hy with hy | hy
            · exact sep_hex h1 _ hy
            · exact hsp (List.mem_singleton.mp hy)
      · exact hnl (List.mem_singleton.mp hm)

theorem lines_msr {sep1 sep2 : Char} (hs1 : PyStr.isSpace sep1 = false) (hs2 : PyStr.isSpace sep2 = false)
    (T : List (PyStr × List (Nat × Nat))) (h : ∀ x ∈ T, ∀ c ∈ x.1, PyStr.isSpace c = false) :
    Tpmi.lines (msrText sep1 sep2 T) = T.map fun x => x.1 ++ sep1 :: ((x.2.flatMap fun y =>
      PyStr.ofNat y.1 ++ sep2 :: (Tpmi.hexDigits y.2 ++ [' '])) ++ ['\n']) := by
  have hn1 : '\n' ≠ sep1 := by rintro rfl; exact absurd hs1 (by decide)
  have hn2 : '\n' ≠ sep2 := by rintro rfl; exact absurd hs2 (by decide)
  have := Tpmi.lines_render (T.map fun x => x.1 ++ sep1 :: (x.2.flatMap fun y =>
      PyStr.ofNat y.1 ++ sep2 :: (Tpmi.hexDigits y.2 ++ [' ']))) (by
    intro l hl hn
    obtain ⟨x, hx, rfl⟩ := List.mem_map.mp hl
    rcases List.mem_append.mp hn with hn | hn
    · exact absurd (h x hx _ hn) (by decide)
    · rcases List.mem_cons.mp hn with hn | hn
      · exact hn1 hn
      · obtain ⟨y, _, hy⟩ := List.mem_flatMap.mp hn
        rcases List.mem_append.mp hy with hy | hy
        · exact absurd (space_ofNat _ _ hy) (by decide)
        · rcases List.mem_cons.mp hy with hy | hy
          · exact hn2 hy
          · rcases List.mem_append.mp hy with hy | hy
            · exact absurd (space_hex _ _ hy) (by decide)
            · exact absurd (List.mem_singleton.mp hy) (by decide))
  rw [List.flatMap_map, List.map_map] at this
  unfold msrText
  have e : ∀ x : PyStr × List (Nat × Nat), x.1 ++ sep1 :: ((x.2.flatMap fun y =>
      PyStr.ofNat y.1 ++ sep2 :: (Tpmi.hexDigits y.2 ++ [' '])) ++ ['\n']) =
      (x.1 ++ sep1 :: (x.2.flatMap fun y => PyStr.ofNat y.1 ++ sep2 :: (Tpmi.hexDigits y.2 ++ [' ']))) ++ ['\n'] := by
    intro x
    rw [List.append_assoc, List.cons_append]
  simp only [e]
  exact this

theorem readMsr_addMsr (x : PyStr × List (Nat × Nat)) (s : Sys) {p : PyStr} (hx : Abs x.1) (hp : Abs p) (a : Nat) :
    readMsr (addMsr x s) p a =
      if x.1 = p then some (Emul.readReg (Emul.populate (Emul.msrData x.2)) a) else readMsr s p a := by
  unfold readMsr addMsr
  by_cases h : x.1 = p
  · subst h
    rw [if_pos rfl]
    dsimp only
    rw [Dict.get?_set_self, Dict.get?_set_self]
  · rw [if_neg h]
    dsimp only
    rw [Dict.get?_set_ne _ _ h, Dict.get?_set_ne _ _ (fun he => h (relative_inj hx hp he))]

theorem readMsr_fold (T : List (PyStr × List (Nat × Nat))) (h : ∀ x ∈ T, Abs x.1) (s : Sys) {p : PyStr} (hp : Abs p)
    (a : Nat) :
    readMsr (T.foldl (fun s x => addMsr x s) s) p a =
      match lastOf T p with
      | some l => some (Emul.readReg (Emul.populate (Emul.msrData l)) a)
      | none => readMsr s p a := by
  induction T generalizing s with
  | nil => rfl
  | cons x T ih =>
    rw [List.foldl_cons, ih (fun y hy => h y (List.mem_cons_of_mem _ hy)), lastOf_cons]
    cases lastOf T p with
    | some v => rfl
    | none =>
      dsimp only
      rw [readMsr_addMsr x s (h x List.mem_cons_self) hp]
      by_cases hx : x.1 = p
      · rw [if_pos hx, if_pos hx]
      · rw [if_neg hx, if_neg hx]

theorem lastOf_mem {β : Type} {T : List (PyStr × β)} {p : PyStr} {v : β} (h : lastOf T p = some v) : (p, v) ∈ T := by
  unfold lastOf at h
  cases hl : (T.filter fun x => decide (x.1 = p)).getLast? with
  | none => rw [hl] at h; cases h
  | some x =>
    rw [hl] at h
    cases h
    have := List.mem_of_getLast? hl
    have hm := List.mem_filter.mp this
    have he : x.1 = p := of_decide_eq_true hm.2
    rw [← he]
    exact hm.1

/-! ### Other files -/

/-- The file is as it was. -/
def Keeps (p : PyStr) (s s' : Sys) : Prop :=
  s'.emuls.get? p = s.emuls.get? p ∧ s'.files.get? (relative p) = s.files.get? (relative p)

theorem Keeps.trans {p : PyStr} {s s' s'' : Sys} (h : Keeps p s s') (h' : Keeps p s' s'') : Keeps p s s'' :=
  ⟨h'.1.trans h.1, h'.2.trans h.2⟩

theorem keeps_addFile (ro : Bool) {path p : PyStr} (h : relative path ≠ relative p) (data : PyStr) (s : Sys) :
    Keeps p s (addFile ro path data s) := by
  have hp : path ≠ p := fun e => h (by rw [e])
  unfold Keeps addFile
  cases ro
  · rw [if_neg (by decide)]
    exact ⟨Dict.get?_set_ne _ _ hp, Dict.get?_set_ne _ _ h⟩
  · rw [if_pos rfl]
    exact ⟨Dict.get?_set_ne _ _ hp, rfl⟩

theorem keeps_inlineLines (ro : Bool) (sep : Char) (ls : List PyStr) {p : PyStr}
    (h : ∀ l ∈ ls, ∀ q, (PyStr.splitC sep l).head? = some q → relative q ≠ relative p) {s s' : Sys}
    (hr : inlineLines ro sep ls s = .ok s') : Keeps p s s' := by
  induction ls generalizing s with
  | nil => cases hr; exact ⟨rfl, rfl⟩
  | cons l ls ih =>
    rw [inlineLines] at hr
    split at hr
    · rename_i path data hm
      exact (keeps_addFile ro (h l List.mem_cons_self path (by rw [hm]; rfl)) data s).trans
        (ih (fun y hy => h y (List.mem_cons_of_mem _ hy)) hr)
    · cases hr

theorem keeps_initInline (is : List Inline) {p : PyStr}
    (h : ∀ i ∈ is, ∀ l ∈ Tpmi.lines i.text, ∀ q, (PyStr.splitC i.sep l).head? = some q → relative q ≠ relative p)
    {s s' : Sys} (hr : initInline is s = .ok s') : Keeps p s s' := by
  induction is generalizing s with
  | nil => cases hr; exact ⟨rfl, rfl⟩
  | cons i is ih =>
    rw [initInline] at hr
    cases h1 : inlineLines i.ro i.sep (Tpmi.lines i.text) s with
    | error e => rw [h1] at hr; cases hr
    | ok s1 =>
      rw [h1] at hr
      exact (keeps_inlineLines i.ro i.sep _ (h i List.mem_cons_self) h1).trans
        (ih (fun y hy => h y (List.mem_cons_of_mem _ hy)) hr)

theorem keeps_msrLines (sep1 sep2 : Char) (ls : List PyStr) {p : PyStr}
    (h : ∀ l ∈ ls, ∀ q, (PyStr.splitC sep1 l).head? = some q → relative (PyStr.strip q) ≠ relative p) {s s' : Sys}
    (hr : msrLines sep1 sep2 ls s = .ok s') : Keeps p s s' := by
  induction ls generalizing s with
  | nil => cases hr; exact ⟨rfl, rfl⟩
  | cons l ls ih =>
    rw [msrLines] at hr
    split at hr
    · rename_i path r hm
      split at hr
      · cases hr
      · have hq := h l List.mem_cons_self path (by rw [hm]; rfl)
        refine Keeps.trans ⟨?_, ?_⟩ (ih (fun y hy => h y (List.mem_cons_of_mem _ hy)) hr)
        · exact Dict.get?_set_ne _ _ (fun e => hq (by rw [e]))
        · exact Dict.get?_set_ne _ _ hq
    · cases hr

theorem keeps_initFiles (fs : List (Bool × PyStr × PyStr)) {p : PyStr} (h : ∀ f ∈ fs, relative f.2.1 ≠ relative p) (s : Sys) :
    Keeps p s (initFiles fs s) := by
  unfold initFiles
  induction fs generalizing s with
  | nil => exact ⟨rfl, rfl⟩
  | cons f fs ih =>
    rw [List.foldl_cons]
    exact (keeps_addFile f.1 (h f List.mem_cons_self) f.2.2 s).trans (ih (fun y hy => h y (List.mem_cons_of_mem _ hy)) _)

theorem keeps_loadOne {data : PyStr → Option Config} {m p : PyStr} (h : ∀ c, data m = some c → ¬ Mentions c p)
    {s s' : Sys} (hr : loadOne data m s = .ok s') : Keeps p s s' := by
  unfold loadOne at hr
  cases hd : data m with
  | none => rw [hd] at hr; cases hr
  | some c =>
    have hc := h c hd
    rw [hd] at hr
    dsimp only at hr
    cases h1 : initInline c.inl (initCmds c.cmds (initInlineDirs c.inlineDirs s)) with
    | error e => rw [h1] at hr; cases hr
    | ok s1 =>
      rw [h1] at hr
      dsimp only at hr
      cases h2 : initMsrs c.msrs s1 with
      | error e => rw [h2] at hr; cases hr
      | ok s2 =>
        rw [h2] at hr
        cases hr
        have k1 : Keeps p s s1 :=
          Keeps.trans (s' := initCmds c.cmds (initInlineDirs c.inlineDirs s)) ⟨rfl, rfl⟩
            (keeps_initInline c.inl (fun i hi l hl q hq he => hc (.inl ⟨i, hi, l, hl, q, hq, he⟩)) h1)
        have k2 : Keeps p s1 s2 := by
          cases hm : c.msrs with
          | none => rw [hm] at h2; cases h2; exact ⟨rfl, rfl⟩
          | some ms =>
            rw [hm] at h2
            exact keeps_msrLines ms.sep1 ms.sep2 _
              (fun l hl q hq he => hc (.inr (.inl ⟨ms, hm, l, hl, q, hq, he⟩))) h2
        have k3 := keeps_initFiles c.files (fun f hf he => hc (.inr (.inr ⟨f, hf, he⟩))) s2
        exact (k1.trans k2).trans k3

theorem keeps_read {p : PyStr} {s s' : Sys} (h : Keeps p s s') :
    readFile s' p = readFile s p ∧ ∀ a, readMsr s' p a = readMsr s p a := by
  unfold readFile readMsr
  rw [h.1, h.2]
  exact ⟨rfl, fun _ => rfl⟩

/-! ### Paths -/

theorem emulPath_eq {base p : PyStr} (h : Abs p ∨ Root p) : emulPath base p = inside base p := by
  unfold emulPath inside
  rcases h with h | h
  · obtain ⟨q, rfl, h1, h2, _⟩ := h
    rw [relative_abs h2, if_neg h1, if_neg]
    intro he
    exact h1 (List.cons.inj he).2
  · unfold Root at h
    subst h
    rfl

theorem join_inside {base p e : PyStr} (hb : base.getLast? ≠ some '/') (hp : Abs p ∨ Root p) (he : e ≠ []) :
    FileOps.joinPath (inside base p) e = inside base (FileOps.joinPath p e) := by
  unfold FileOps.joinPath inside
  rcases hp with hp | hp
  · obtain ⟨q, rfl, h1, h2, h3⟩ := hp
    have hne : ¬ ('/' :: q : PyStr) = ['/'] := fun h => h1 (List.cons.inj h).2
    have hl : ('/' :: q : PyStr).getLast? ≠ some '/' := by
      cases q with
      | nil => exact absurd rfl h1
      | cons c q => rw [List.getLast?_cons_cons]; exact h3
    have hl2 : (base ++ '/' :: q : PyStr).getLast? ≠ some '/' := by
      rw [List.getLast?_append_of_ne_nil _ (by simp)]
      exact hl
    rw [if_neg hne, if_neg hl2, if_neg hl, if_neg, List.append_assoc]
    intro h
    exact h1 (List.append_eq_nil_iff.mp (List.cons.inj h).2).1
  · unfold Root at hp
    subst hp
    have hj : (if ([('/' : Char)] : PyStr).getLast? = some '/' then ['/'] ++ e else ['/'] ++ '/' :: e) = '/' :: e := rfl
    rw [hj, if_pos rfl, if_neg hb, if_neg]
    intro h
    exact he (List.cons.inj h).2

theorem drop_inside {base p : PyStr} (h : Abs p) : (inside base p).drop (base.length + 1) = p.drop 1 := by
  unfold inside
  obtain ⟨q, rfl, h1, _, _⟩ := h
  rw [if_neg (fun h => h1 (List.cons.inj h).2), ← List.drop_drop, List.drop_left]

theorem drop_join {base p e : PyStr} (hb : base.getLast? ≠ some '/') (hp : Abs p ∨ Root p) (he : e ≠ []) :
    (FileOps.joinPath (inside base p) e).drop (base.length + 1) = (FileOps.joinPath p e).drop 1 := by
  rw [join_inside hb hp he]
  unfold inside
  rw [if_neg, ← List.drop_drop, List.drop_left]
  unfold FileOps.joinPath
  rcases hp with ⟨q, rfl, h1, _, _⟩ | hp
  · split
    · intro h
      exact h1 (List.append_eq_nil_iff.mp (List.cons.inj h).2).1
    · intro h
      exact h1 (List.append_eq_nil_iff.mp (List.cons.inj h).2).1
  · unfold Root at hp
    subst hp
    have hj : (if ([('/' : Char)] : PyStr).getLast? = some '/' then ['/'] ++ e else ['/'] ++ '/' :: e) = '/' :: e := rfl
    rw [hj]
    intro h
    exact he (List.cons.inj h).2

variable {σ : Type}

theorem statEntries_reroot (K : FileOps.Kernel σ) (s : σ) {base p : PyStr} (hb : base.getLast? ≠ some '/')
    (hp : Abs p ∨ Root p) (es : List PyStr) (he : ∀ e ∈ es, e ≠ []) :
    FileOps.statEntries (reroot K base) s p es = FileOps.statEntries K s (inside base p) es := by
  induction es with
  | nil => rfl
  | cons e es ih =>
    rw [FileOps.statEntries, FileOps.statEntries, ih fun x hx => he x (List.mem_cons_of_mem _ hx),
      join_inside hb hp (he e List.mem_cons_self)]
    rfl

/-! ### Replacing -/

theorem replaceFuel_none (sub new : PyStr) (n : Nat) (s : PyStr) (h : ∀ a b, s ≠ a ++ (sub ++ b)) :
    Emul.replaceFuel sub new n s = s := by
  induction n generalizing s with
  | zero => rfl
  | succ n ih =>
    cases s with
    | nil => rfl
    | cons c s =>
      rw [Emul.replaceFuel, if_neg, ih s]
      · intro a b he
        exact h (c :: a) b (by rw [he]; rfl)
      · intro hp
        obtain ⟨b, hb⟩ := List.isPrefixOf_iff_prefix.mp hp
        exact h [] b hb.symm

theorem replaceFuel_one (sub new : PyStr) (hs : sub ≠ []) (a b : PyStr) (n : Nat) (hn : a.length < n)
    (h : ∀ a' b', a ++ (sub ++ b) = a' ++ (sub ++ b') → a' = a) :
    Emul.replaceFuel sub new n (a ++ (sub ++ b)) = a ++ (new ++ b) := by
  induction a generalizing n with
  | nil =>
    cases n with
    | zero => exact absurd hn (Nat.not_lt_zero _)
    | succ n =>
      cases sub with
      | nil => exact absurd rfl hs
      | cons c sub =>
        rw [List.nil_append, List.nil_append, List.cons_append, Emul.replaceFuel, if_pos]
        · rw [← List.cons_append, List.drop_left, replaceFuel_none]
          intro a' b' he
          have := h ((c :: sub) ++ a') b' (by rw [he]; simp)
          cases this
        · rw [List.isPrefixOf_iff_prefix]
          exact ⟨b, rfl⟩
  | cons d a ih =>
    cases n with
    | zero => exact absurd hn (Nat.not_lt_zero _)
    | succ n =>
      rw [List.cons_append, Emul.replaceFuel, if_neg, ih n (Nat.lt_of_succ_lt_succ hn)]
      · rfl
      · intro a' b' he
        have := h (d :: a') b' (by rw [List.cons_append, he]; rfl)
        exact (List.cons.inj this).2
      · intro hp
        obtain ⟨b', hb'⟩ := List.isPrefixOf_iff_prefix.mp hp
        have := h [] b' hb'.symm
        cases this

theorem replace_one {sub new a b : PyStr} (hs : sub ≠ [])
    (h : ∀ a' b', a ++ (sub ++ b) = a' ++ (sub ++ b') → a' = a) :
    Emul.replace sub new (a ++ (sub ++ b)) = a ++ (new ++ b) := by
  unfold Emul.replace
  refine replaceFuel_one sub new hs a b _ ?_ h
  have := List.length_pos_iff.mpr hs
  simp only [List.length_append]
  omega

end Verif.EmulHost
