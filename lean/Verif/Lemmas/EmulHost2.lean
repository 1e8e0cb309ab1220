import Verif.Lemmas.EmulHost
import Verif.Lemmas.ToolChecker

/-! Lemmas for C115: whole datasets, commands. -/

namespace Verif.EmulHost

open Spec

/-! ### Whole datasets -/

theorem read_initFiles (F : List (Bool × PyStr × PyStr)) (h : ∀ x ∈ F, Abs x.2.1) (s : Sys) {p : PyStr} (hp : Abs p) :
    readFile (initFiles F s) p =
      match lastOf (F.map fun x => x.2) p with
      | some v => some v
      | none => readFile s p := by
  unfold initFiles
  induction F generalizing s with
  | nil => rfl
  | cons x F ih =>
    rw [List.foldl_cons, ih (fun y hy => h y (List.mem_cons_of_mem _ hy)), List.map_cons, lastOf_cons]
    cases lastOf (F.map fun x => x.2) p with
    | some v => rfl
    | none =>
      dsimp only
      rw [read_addFile x.1 (h x List.mem_cons_self) hp]
      by_cases hx : x.2.1 = p
      · rw [if_pos hx, if_pos hx]
      · rw [if_neg hx, if_neg hx]

theorem lastOf_none {β : Type} {T : List (PyStr × β)} {p : PyStr} (h : lastOf T p = none) : ∀ x ∈ T, x.1 ≠ p := by
  intro x hx he
  unfold lastOf at h
  cases hl : (T.filter fun x => decide (x.1 = p)).getLast? with
  | none =>
    rw [List.getLast?_eq_none_iff] at hl
    have : x ∈ T.filter fun x => decide (x.1 = p) := List.mem_filter.mpr ⟨hx, decide_eq_true he⟩
    rw [hl] at this
    exact absurd this List.not_mem_nil
  | some y => rw [hl] at h; cases h

theorem keeps_addMsr (x : PyStr × List (Nat × Nat)) (s : Sys) {p : PyStr} (hx : Abs x.1) (hp : Abs p) (hne : x.1 ≠ p) :
    Keeps p s (addMsr x s) :=
  ⟨Dict.get?_set_ne _ _ hne, Dict.get?_set_ne _ _ fun e => hne (relative_inj hx hp e)⟩

theorem keeps_msrFold (T : List (PyStr × List (Nat × Nat))) (h : ∀ x ∈ T, Abs x.1) (s : Sys) {p : PyStr} (hp : Abs p)
    (hn : lastOf T p = none) : Keeps p s (T.foldl (fun s x => addMsr x s) s) := by
  have hn' := lastOf_none hn
  clear hn
  induction T generalizing s with
  | nil => exact ⟨rfl, rfl⟩
  | cons x T ih =>
    rw [List.foldl_cons]
    exact (keeps_addMsr x s (h x List.mem_cons_self) hp (hn' x List.mem_cons_self)).trans
      (ih (fun y hy => h y (List.mem_cons_of_mem _ hy)) _ fun y hy => hn' y (List.mem_cons_of_mem _ hy))

theorem cmds_fold (K : List (PyStr × PyStr × PyStr)) (d : Dict PyStr (PyStr × PyStr)) (c : PyStr) :
    (K.foldl (fun d c => d.set c.1 c.2) d).get? c =
      match lastOf K c with
      | some v => some v
      | none => d.get? c := by
  induction K generalizing d with
  | nil => rfl
  | cons x K ih =>
    rw [List.foldl_cons, ih, lastOf_cons]
    cases lastOf K c with
    | some v => rfl
    | none =>
      dsimp only
      by_cases hx : x.1 = c
      · subst hx
        rw [if_pos rfl, Dict.get?_set_self]
      · rw [if_neg hx, Dict.get?_set_ne _ _ hx]

theorem cmds_inlineFold (ro : Bool) (T : List (PyStr × PyStr)) (s : Sys) :
    (T.foldl (fun s x => addFile ro x.1 (x.2 ++ ['\n']) s) s).cmds = s.cmds ∧
    (T.foldl (fun s x => addFile ro x.1 (x.2 ++ ['\n']) s) s).modules = s.modules := by
  induction T generalizing s with
  | nil => exact ⟨rfl, rfl⟩
  | cons x T ih =>
    rw [List.foldl_cons, (ih _).1, (ih _).2]
    unfold addFile
    cases ro <;> exact ⟨rfl, rfl⟩

theorem cmds_msrFold (T : List (PyStr × List (Nat × Nat))) (s : Sys) :
    (T.foldl (fun s x => addMsr x s) s).cmds = s.cmds ∧ (T.foldl (fun s x => addMsr x s) s).modules = s.modules := by
  induction T generalizing s with
  | nil => exact ⟨rfl, rfl⟩
  | cons x T ih =>
    rw [List.foldl_cons, (ih _).1, (ih _).2]
    exact ⟨rfl, rfl⟩

theorem cmds_initFiles (F : List (Bool × PyStr × PyStr)) (s : Sys) :
    (initFiles F s).cmds = s.cmds ∧ (initFiles F s).modules = s.modules := by
  unfold initFiles
  induction F generalizing s with
  | nil => exact ⟨rfl, rfl⟩
  | cons x F ih =>
    rw [List.foldl_cons, (ih _).1, (ih _).2]
    unfold addFile
    cases x.1 <;> exact ⟨rfl, rfl⟩

/-! ### Modules -/

theorem modules_inlineLines (ro : Bool) (sep : Char) (ls : List PyStr) {s s' : Sys}
    (hr : inlineLines ro sep ls s = .ok s') : s'.modules = s.modules ∧ s'.common = s.common := by
  induction ls generalizing s with
  | nil => cases hr; exact ⟨rfl, rfl⟩
  | cons l ls ih =>
    rw [inlineLines] at hr
    split at hr
    · rename_i path data _
      have := ih hr
      rw [this.1, this.2]
      unfold addFile
      cases ro <;> exact ⟨rfl, rfl⟩
    · cases hr

theorem modules_initInline (is : List Inline) {s s' : Sys} (hr : initInline is s = .ok s') :
    s'.modules = s.modules ∧ s'.common = s.common := by
  induction is generalizing s with
  | nil => cases hr; exact ⟨rfl, rfl⟩
  | cons i is ih =>
    rw [initInline] at hr
    cases h1 : inlineLines i.ro i.sep (Tpmi.lines i.text) s with
    | error e => rw [h1] at hr; cases hr
    | ok s1 =>
      rw [h1] at hr
      have a := ih hr
      have b := modules_inlineLines i.ro i.sep _ h1
      exact ⟨a.1.trans b.1, a.2.trans b.2⟩

theorem modules_msrLines (sep1 sep2 : Char) (ls : List PyStr) {s s' : Sys}
    (hr : msrLines sep1 sep2 ls s = .ok s') : s'.modules = s.modules ∧ s'.common = s.common := by
  induction ls generalizing s with
  | nil => cases hr; exact ⟨rfl, rfl⟩
  | cons l ls ih =>
    rw [msrLines] at hr
    split at hr
    · split at hr
      · cases hr
      · have := ih hr
        exact ⟨this.1, this.2⟩
    · cases hr

theorem modules_initFiles (F : List (Bool × PyStr × PyStr)) (s : Sys) : (initFiles F s).common = s.common := by
  unfold initFiles
  induction F generalizing s with
  | nil => rfl
  | cons x F ih =>
    rw [List.foldl_cons, ih]
    unfold addFile
    cases x.1 <;> rfl

theorem modules_loadOne {data : PyStr → Option Config} {m : PyStr} {s s' : Sys} (hr : loadOne data m s = .ok s') :
    (∀ x, x ∈ s'.modules ↔ x = m ∨ x ∈ s.modules) ∧ s'.common = s.common := by
  unfold loadOne at hr
  cases hd : data m with
  | none => rw [hd] at hr; cases hr
  | some c =>
    rw [hd] at hr
    dsimp only at hr
    cases h1 : initInline c.inl (initCmds c.cmds (initInlineDirs c.inlineDirs s)) with
    | error e => rw [h1] at hr; cases hr
    | ok s1 =>
      rw [h1] at hr
      dsimp only at hr
      cases h2 : initMsrs c.msrs s1 with
      | error e => rw [h2] at hr; cases hr
      | ok s2 =>
        rw [h2] at hr
        cases hr
        have k1 := modules_initInline c.inl h1
        have k2 : s2.modules = s1.modules ∧ s2.common = s1.common := by
          cases hm : c.msrs with
          | none => rw [hm] at h2; cases h2; exact ⟨rfl, rfl⟩
          | some ms =>
            rw [hm] at h2
            exact modules_msrLines ms.sep1 ms.sep2 _ h2
        have e : (initDirs c.dirs (initFiles c.files s2)).modules = s.modules :=
          (cmds_initFiles c.files s2).2.trans (k2.1.trans k1.1)
        refine ⟨fun x => ?_, (modules_initFiles c.files s2).trans (k2.2.trans k1.2)⟩
        dsimp only
        rw [e]
        by_cases hm : m ∈ s.modules
        · rw [if_pos hm]
          exact ⟨.inr, fun h => h.elim (fun h => h ▸ hm) id⟩
        · rw [if_neg hm, List.mem_cons]

/-! ### Commands -/

theorem prefix_infix {a b : PyStr} (h : a <+: b) : a <:+: b := List.IsPrefix.isInfix h

/-- The first word is at the start, if there is no space at the start. -/
theorem words_infix (s : PyStr) :
    (∀ w ∈ FreqInfo.splitWs s, w <:+: s) ∧
    ∀ c, s.head? = some c → PyStr.isSpace c = false → ∃ w ws, FreqInfo.splitWs s = w :: ws ∧ w <+: s ∧ w ≠ [] := by
  induction s with
  | nil => exact ⟨fun w hw => absurd hw List.not_mem_nil, fun c hc => (by cases hc)⟩
  | cons c s ih =>
    rw [FreqInfo.splitWs]
    by_cases hc : PyStr.isSpace c = true
    · rw [if_pos hc]
      refine ⟨fun w hw => (ih.1 w hw).trans (List.suffix_cons c s).isInfix, fun d hd hn => ?_⟩
      cases hd
      rw [hc] at hn
      cases hn
    · rw [if_neg hc]
      have step : ∀ w ∈ FreqInfo.splitWs s, w <:+: c :: s := fun w hw =>
        (ih.1 w hw).trans (List.suffix_cons c s).isInfix
      have key : ∃ w ws, FreqInfo.pushChar c s.head? (FreqInfo.splitWs s) = w :: ws ∧ w <+: c :: s ∧ w ≠ [] ∧
          ∀ x ∈ ws, x <:+: c :: s := by
        cases s with
        | nil => exact ⟨[c], [], rfl, ⟨[], rfl⟩, List.cons_ne_nil _ _, fun x hx => absurd hx List.not_mem_nil⟩
        | cons d s =>
          by_cases hd : PyStr.isSpace d = true
          · refine ⟨[c], FreqInfo.splitWs (d :: s), ?_, ⟨d :: s, rfl⟩, List.cons_ne_nil _ _, step⟩
            simp only [FreqInfo.pushChar, List.head?_cons, hd, if_true]
          · obtain ⟨w, ws, h1, h2, _⟩ := ih.2 d rfl (by simpa using hd)
            refine ⟨c :: w, ws, ?_, ?_, List.cons_ne_nil _ _, ?_⟩
            · rw [h1]
              simp [FreqInfo.pushChar, hd]
            · exact List.cons_prefix_cons.mpr ⟨rfl, h2⟩
            · intro x hx
              exact step x (by rw [h1]; exact List.mem_cons_of_mem _ hx)
      obtain ⟨w, ws, h1, h2, h3, h4⟩ := key
      rw [h1]
      refine ⟨fun x hx => ?_, fun _ _ _ => ⟨w, ws, rfl, h2, h3⟩⟩
      rcases List.mem_cons.mp hx with rfl | hx
      · exact prefix_infix h2
      · exact h4 x hx

theorem stripChars_infix (cs : List Char) (w : PyStr) : stripChars cs w <:+: w := by
  unfold stripChars PyStr.stripBy PyStr.rstripBy PyStr.lstripBy
  have h1 : (w.dropWhile fun c => decide (c ∈ cs)) <:+ w := List.dropWhile_suffix _
  have h2 : ∀ v : PyStr, (v.reverse.dropWhile fun c => decide (c ∈ cs)).reverse <+: v := by
    intro v
    have := List.dropWhile_suffix (l := v.reverse) (fun c => decide (c ∈ cs))
    have := List.reverse_prefix.mpr this
    rwa [List.reverse_reverse] at this
  exact (h2 _).isInfix.trans h1.isInfix

theorem extractPath_infix (W : Where) (ws : List PyStr) {q : PyStr} (h : extractPath W ws = some q) :
    ∃ w ∈ ws, q <:+: w := by
  induction ws with
  | nil => cases h
  | cons w ws ih =>
    rw [extractPath] at h
    split at h
    · cases h; exact ⟨_, List.mem_cons_self, List.infix_refl _⟩
    · split at h
      · cases h; exact ⟨w, List.mem_cons_self, stripChars_infix _ _⟩
      · split at h
        · cases h; exact ⟨w, List.mem_cons_self, stripChars_infix _ _⟩
        · obtain ⟨x, hx, hq⟩ := ih h
          exact ⟨x, List.mem_cons_of_mem _ hx, hq⟩

theorem extractPath_none (W : Where) (ws : List PyStr) (h : ∀ w ∈ ws, ¬ Names W w) : extractPath W ws = none := by
  induction ws with
  | nil => rfl
  | cons w ws ih =>
    have hw := h w List.mem_cons_self
    unfold Names at hw
    rw [extractPath, if_neg (fun h => hw (.inl h)), if_neg (fun h => hw (.inr (.inl h))),
      if_neg (fun h => hw (.inr (.inr h))), ih fun x hx => h x (List.mem_cons_of_mem _ hx)]

theorem extractPath_append (W : Where) (pre ws : List PyStr) (h : ∀ w ∈ pre, ¬ Names W w) :
    extractPath W (pre ++ ws) = extractPath W ws := by
  induction pre with
  | nil => rfl
  | cons w pre ih =>
    have hw := h w List.mem_cons_self
    unfold Names at hw
    rw [List.cons_append, extractPath, if_neg (fun h => hw (.inl h)), if_neg (fun h => hw (.inr (.inl h))),
      if_neg (fun h => hw (.inr (.inr h))), ih fun x hx => h x (List.mem_cons_of_mem _ hx)]

theorem replaceFuel_has (sub new : PyStr) (hs : sub ≠ []) (a b : PyStr) (n : Nat) (hn : a.length < n) :
    new <:+: Emul.replaceFuel sub new n (a ++ (sub ++ b)) := by
  induction a generalizing n with
  | nil =>
    cases n with
    | zero => exact absurd hn (Nat.not_lt_zero _)
    | succ n =>
      cases sub with
      | nil => exact absurd rfl hs
      | cons c sub =>
        rw [List.nil_append, List.cons_append, Emul.replaceFuel, if_pos]
        · exact (List.prefix_append _ _).isInfix
        · rw [List.isPrefixOf_iff_prefix]
          exact ⟨b, rfl⟩
  | cons d a ih =>
    cases n with
    | zero => exact absurd hn (Nat.not_lt_zero _)
    | succ n =>
      rw [List.cons_append, Emul.replaceFuel]
      split
      · exact (List.prefix_append _ _).isInfix
      · exact (ih n (Nat.lt_of_succ_lt_succ hn)).trans (List.suffix_cons _ _).isInfix

theorem replace_has {sub new s : PyStr} (hs : sub ≠ []) (h : sub <:+: s) : new <:+: Emul.replace sub new s := by
  obtain ⟨a, b, rfl⟩ := h
  rw [List.append_assoc]
  unfold Emul.replace
  refine replaceFuel_has sub new hs a b _ ?_
  have := List.length_pos_iff.mpr hs
  simp only [List.length_append]
  omega

/-! ### Directory entries -/

theorem statEntries_names {σ : Type} (K : FileOps.Kernel σ) (s : σ) (p : PyStr) (es : List PyStr) {l : List FileOps.Entry}
    (h : FileOps.statEntries K s p es = some l) : ∀ e ∈ l, e.name ∈ es := by
  induction es generalizing l with
  | nil => cases h; exact fun e he => absurd he List.not_mem_nil
  | cons x es ih =>
    rw [FileOps.statEntries] at h
    split at h
    · cases h
    · cases hr : FileOps.statEntries K s p es with
      | none => rw [hr] at h; cases h
      | some l' =>
        rw [hr] at h
        cases h
        intro e he
        rcases List.mem_cons.mp he with rfl | he
        · exact List.mem_cons_self
        · exact List.mem_cons_of_mem _ (ih hr e he)

theorem mem_insert {e x : FileOps.Entry} {l : List FileOps.Entry} (h : x ∈ FileOps.insertEntry e l) : x = e ∨ x ∈ l := by
  induction l with
  | nil => exact .inl (List.mem_singleton.mp h)
  | cons y l ih =>
    rw [FileOps.insertEntry] at h
    split at h
    · rcases List.mem_cons.mp h with h | h
      · exact .inl h
      · exact .inr h
    · rcases List.mem_cons.mp h with h | h
      · exact .inr (h ▸ List.mem_cons_self)
      · rcases ih h with h | h
        · exact .inl h
        · exact .inr (List.mem_cons_of_mem _ h)

theorem mem_sort {x : FileOps.Entry} {l : List FileOps.Entry} (h : x ∈ l.foldr FileOps.insertEntry []) : x ∈ l := by
  induction l with
  | nil => exact h
  | cons y l ih =>
    rw [List.foldr_cons] at h
    rcases mem_insert h with h | h
    · exact h ▸ List.mem_cons_self
    · exact List.mem_cons_of_mem _ (ih h)

/-! ### Quotes -/

theorem strip_mid {cs : List Char} {x y q : PyStr} (hx : ∀ c ∈ x, c ∈ cs) (hy : ∀ c ∈ y, c ∈ cs) (hq : q ≠ [])
    (h1 : ∀ c, q.head? = some c → c ∉ cs) (h2 : ∀ c, q.getLast? = some c → c ∉ cs) :
    stripChars cs (x ++ (q ++ y)) = q := by
  have drop : ∀ (x r : PyStr), (∀ c ∈ x, c ∈ cs) → (∀ c, r.head? = some c → c ∉ cs) →
      (x ++ r).dropWhile (fun c => decide (c ∈ cs)) = r := by
    intro x r hx hr
    induction x with
    | nil =>
      rw [List.nil_append]
      exact PyStr.dropWhile_eq_self fun c hc => by simpa using hr c hc
    | cons c x ih =>
      rw [List.cons_append, List.dropWhile_cons_of_pos (by simpa using hx c List.mem_cons_self)]
      exact ih fun d hd => hx d (List.mem_cons_of_mem _ hd)
  unfold stripChars PyStr.stripBy PyStr.rstripBy PyStr.lstripBy
  rw [drop x (q ++ y) hx, List.reverse_append, drop, List.reverse_reverse]
  · exact fun c hc => hy c (List.mem_reverse.mp hc)
  · intro c hc
    rw [List.head?_reverse] at hc
    exact h2 c hc
  · intro c hc
    cases q with
    | nil => exact absurd rfl hq
    | cons d q => exact h1 c hc

end Verif.EmulHost
