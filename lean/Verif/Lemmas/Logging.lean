import Verif.Props.LoggingSpec

/-! Lemmas for C116. -/

namespace Verif.Logging

open Spec

theorem known_cases {l : Nat} (h : known l = true) :
    l = 10 ∨ l = 20 ∨ l = 21 ∨ l = 30 ∨ l = 40 ∨ l = 41 ∨ l = 50 := by
  simpa [known] using h

theorem setPrefix_get (f : Formatter) (pre : PyStr) {l : Nat} (h : known l = true) :
    (f.setPrefix pre).fmts.get? l = (mkFormatter pre f.colors).fmts.get? l := by
  rcases known_cases h with rfl | rfl | rfl | rfl | rfl | rfl | rfl <;>
    simp [mkFormatter, Formatter.setPrefix, Dict.get?_set, WARNING, ERROR, CRITICAL, NOTICE, DEBUG, INFO, ERRINFO]

/-- The colors of a configuration. -/
def colorsOf (c : Bool) : Dict Nat PyStr := if c then initColors [] else []

theorem colors_get (c : Bool) {l : Nat} (h : l = 10 ∨ l = 21 ∨ l = 30 ∨ l = 40 ∨ l = 50) :
    start (colorsOf c) l = (if c then color l else []) ∧ stop (colorsOf c) l = if c then code "0" else [] := by
  cases c
  · exact ⟨rfl, rfl⟩
  · rcases h with rfl | rfl | rfl | rfl | rfl <;> exact ⟨rfl, rfl⟩

theorem prefixFmt_text (c : Bool) (pre : PyStr) {l : Nat} (h : l = 21 ∨ l = 30 ∨ l = 40 ∨ l = 50) (low up : PyStr)
    (hu : titleAux true low = up) (r : Record) :
    render (prefixFmt (colorsOf c) (if pre = [] then [] else pre ++ ": ".toList) l low) r =
      paint c l (head pre low up) ++ (": ".toList ++ r.msg) := by
  obtain ⟨h1, h2⟩ := colors_get c (l := l) (by omega)
  unfold prefixFmt render paint head
  rw [h1, h2]
  by_cases hp : pre = []
  · subst hp
    cases c <;> simp [hu]
  · have hp' : ¬ (pre ++ ": ".toList = []) := by simp [hp]
    rw [if_neg hp, if_neg hp', if_neg hp]
    cases c <;> simp

theorem debug_text (c : Bool) (r : Record) :
    render ((debugFmt.map (replaceC '[' ('[' :: start (colorsOf c) 10))).map
      (replaceC ']' (stop (colorsOf c) 10 ++ [']']))) r =
    '[' :: (paint c 10 r.created ++ ("] [".toList ++ (paint c 10 r.time ++ ("] [".toList ++
      (paint c 10 (r.modName ++ ',' :: r.line) ++ ("]: ".toList ++ r.msg)))))) := by
  obtain ⟨h1, h2⟩ := colors_get c (l := 10) (.inl rfl)
  rw [h1, h2]
  cases c
  · simp [render, debugFmt, replaceC, paint]
  · simp [render, debugFmt, replaceC, paint, color, code]

/-- The format of a known level gives the text of the specification. -/
theorem fmt_text (c : Bool) (pre : PyStr) (r : Record) (h : known r.level = true) :
    ∃ fmt, (mkFormatter pre (colorsOf c)).fmts.get? r.level = some fmt ∧ render fmt r = text c pre r := by
  have hget : ∀ l : Nat, known l = true → (mkFormatter pre (colorsOf c)).fmts.get? l = some (
      if l = 10 then (debugFmt.map (replaceC '[' ('[' :: start (colorsOf c) 10))).map
        (replaceC ']' (stop (colorsOf c) 10 ++ [']']))
      else if l = 21 then prefixFmt (colorsOf c) (if pre = [] then [] else pre ++ ": ".toList) 21 "notice".toList
      else if l = 30 then prefixFmt (colorsOf c) (if pre = [] then [] else pre ++ ": ".toList) 30 "warning".toList
      else if l = 40 then prefixFmt (colorsOf c) (if pre = [] then [] else pre ++ ": ".toList) 40 "error".toList
      else if l = 50 then prefixFmt (colorsOf c) (if pre = [] then [] else pre ++ ": ".toList) 50 "critical error".toList
      else [.field Record.msg]) := by
    intro l hl
    rcases known_cases hl with rfl | rfl | rfl | rfl | rfl | rfl | rfl <;>
      simp [mkFormatter, Formatter.setPrefix, Dict.get?_set, WARNING, ERROR, CRITICAL, NOTICE, DEBUG, INFO, ERRINFO]
  refine ⟨_, hget _ h, ?_⟩
  unfold text
  rcases known_cases h with h | h | h | h | h | h | h
  · rw [if_pos h, if_pos h]
    exact debug_text c r
  · simp only [h, Nat.reduceEqDiff, if_false]
    simp [render]
  · have n1 : ¬ r.level = 10 := by omega
    rw [if_neg n1, if_pos h, if_neg n1, if_pos h]
    exact prefixFmt_text c pre (l := 21) (by omega) "notice".toList "Notice".toList (by decide +kernel) r
  · have n1 : ¬ r.level = 10 := by omega
    have n2 : ¬ r.level = 21 := by omega
    rw [if_neg n1, if_neg n2, if_pos h, if_neg n1, if_neg n2, if_pos h]
    exact prefixFmt_text c pre (l := 30) (by omega) "warning".toList "Warning".toList (by decide +kernel) r
  · have n1 : ¬ r.level = 10 := by omega
    have n2 : ¬ r.level = 21 := by omega
    have n3 : ¬ r.level = 30 := by omega
    rw [if_neg n1, if_neg n2, if_neg n3, if_pos h, if_neg n1, if_neg n2, if_neg n3, if_pos h]
    exact prefixFmt_text c pre (l := 40) (by omega) "error".toList "Error".toList (by decide +kernel) r
  · simp only [h, Nat.reduceEqDiff, if_false]
    simp [render]
  · have n1 : ¬ r.level = 10 := by omega
    have n2 : ¬ r.level = 21 := by omega
    have n3 : ¬ r.level = 30 := by omega
    have n4 : ¬ r.level = 40 := by omega
    rw [if_neg n1, if_neg n2, if_neg n3, if_neg n4, if_pos h, if_neg n1, if_neg n2, if_neg n3, if_neg n4, if_pos h]
    exact prefixFmt_text c pre (l := 50) (by omega) "critical error".toList "Critical Error".toList
      (by decide +kernel) r

/-! ### The state -/

/-- The handlers of log files. -/
def fileHandlers (i : Nat) : List PyStr → List Handler
  | [] => []
  | f :: fs => ⟨.file f, [10, 30, 21, 40, 41, 50], i⟩ :: ⟨.file f, [20], i⟩ :: fileHandlers (i + 1) fs

theorem fileHandlers_append (i : Nat) (fs : List PyStr) (f : PyStr) :
    fileHandlers i (fs ++ [f]) =
      fileHandlers i fs ++ [⟨.file f, [10, 30, 21, 40, 41, 50], i + fs.length⟩, ⟨.file f, [20], i + fs.length⟩] := by
  induction fs generalizing i with
  | nil => rfl
  | cons g fs ih =>
    rw [List.cons_append, fileHandlers, fileHandlers, ih, List.length_cons]
    have : i + 1 + fs.length = i + (fs.length + 1) := by omega
    rw [this]
    rfl

/-- What the logger is. -/
structure Inv (c : Bool) (t : Nat) (pre : PyStr) (seen files : List PyStr) (lg : Logger) : Prop where
  pre_eq : lg.pre = pre
  level_eq : lg.level = t
  seen_iff : ∀ x, x ∈ lg.seen ↔ x ∈ seen
  colors_eq : (if lg.colored then lg.colors else []) = colorsOf c
  len : lg.formatters.length = files.length + 1
  fmt_colors : ∀ f ∈ lg.formatters, f.colors = colorsOf c
  fmt_get : ∀ f ∈ lg.formatters, ∀ l, known l = true → f.fmts.get? l = (mkFormatter pre (colorsOf c)).fmts.get? l
  handlers_eq : lg.handlers = ⟨.stdout, [20], 0⟩ :: ⟨.stderr, [10, 30, 21, 40, 41, 50], 0⟩ :: fileHandlers 1 files

theorem handle_eq {c : Bool} {t : Nat} {pre : PyStr} {seen files : List PyStr} {lg : Logger}
    (h : Inv c t pre seen files lg) (r : Record) (hk : known r.level = true) (hd : Handler)
    (hi : hd.fmt < files.length + 1) :
    handle lg r hd = if r.level ∈ hd.letGo then some (hd.dest, text c pre r ++ ['\n']) else none := by
  unfold handle
  obtain ⟨fmt, hf, ht⟩ := fmt_text c pre r hk
  have hlt : hd.fmt < lg.formatters.length := by rw [h.len]; exact hi
  rw [List.getElem?_eq_getElem hlt]
  dsimp only
  rw [h.fmt_get _ (List.getElem_mem hlt) _ hk, hf]
  dsimp only
  rw [ht]

theorem filterMap_files {c : Bool} {t : Nat} {pre : PyStr} {seen files : List PyStr} {lg : Logger}
    (h : Inv c t pre seen files lg) (r : Record) (hk : known r.level = true) (fs : List PyStr) (i : Nat)
    (hi : i + fs.length ≤ files.length + 1) :
    (fileHandlers i fs).filterMap (handle lg r) = fs.map fun f => (.file f, text c pre r ++ ['\n']) := by
  induction fs generalizing i with
  | nil => rfl
  | cons f fs ih =>
    rw [List.length_cons] at hi
    have h1 := handle_eq h r hk ⟨.file f, [10, 30, 21, 40, 41, 50], i⟩ (by dsimp only; omega)
    have h2 := handle_eq h r hk ⟨.file f, [20], i⟩ (by dsimp only; omega)
    dsimp only at h1 h2
    rw [fileHandlers, List.filterMap_cons, List.filterMap_cons, h1, h2, ih (i + 1) (by omega), List.map_cons]
    rcases known_cases hk with hl | hl | hl | hl | hl | hl | hl <;> simp [hl]

theorem handle_unknown (lg : Logger) (r : Record) (hk : known r.level = false) (hd : Handler)
    (hg : ∀ l ∈ hd.letGo, known l = true) : handle lg r hd = none := by
  unfold handle
  rw [if_neg]
  intro hm
  have := hg _ hm
  rw [hk] at this
  cases this

theorem fileHandlers_known (i : Nat) (fs : List PyStr) : ∀ hd ∈ fileHandlers i fs, ∀ l ∈ hd.letGo, known l = true := by
  induction fs generalizing i with
  | nil => exact fun hd h => absurd h List.not_mem_nil
  | cons f fs ih =>
    intro hd hm
    rw [fileHandlers] at hm
    rcases List.mem_cons.mp hm with rfl | hm
    · intro l hl
      revert l
      show ∀ l ∈ [10, 30, 21, 40, 41, 50], known l = true
      decide
    · rcases List.mem_cons.mp hm with rfl | hm
      · show ∀ l ∈ [20], known l = true
        decide
      · exact ih _ hd hm

theorem log_eq {c : Bool} {t : Nat} {pre : PyStr} {seen files : List PyStr} {lg : Logger}
    (h : Inv c t pre seen files lg) (r : Record) : log lg r = out c t pre files r := by
  unfold log out
  rw [h.level_eq]
  by_cases ht : r.level < t
  · rw [if_pos ht, if_neg]
    simp only [Bool.and_eq_true, decide_eq_true_eq]
    omega
  · rw [if_neg ht]
    cases hk : known r.level with
    | false =>
      rw [if_neg (by simp), h.handlers_eq]
      refine List.filterMap_eq_nil_iff.mpr fun hd hm => ?_
      refine handle_unknown lg r hk hd ?_
      rcases List.mem_cons.mp hm with rfl | hm
      · decide
      · rcases List.mem_cons.mp hm with rfl | hm
        · decide
        · exact fileHandlers_known _ _ hd hm
    | true =>
      have hle : t ≤ r.level := by omega
      rw [if_pos (by simp [hle]), h.handlers_eq, List.filterMap_cons, List.filterMap_cons,
        handle_eq h r hk _ (by dsimp only; omega), handle_eq h r hk _ (by dsimp only; omega),
        filterMap_files h r hk files 1 (by omega)]
      unfold dest
      rcases known_cases hk with hl | hl | hl | hl | hl | hl | hl <;> simp [hl]

theorem inv_warn {c : Bool} {t : Nat} {pre : PyStr} {seen files : List PyStr} {lg : Logger}
    (h : Inv c t pre seen files lg) (site : PyStr) (r : Record) :
    Inv c t pre (site :: seen) files (warnOnce lg site r).1 ∧
    (warnOnce lg site r).2 = if site ∈ seen then [] else out c t pre files { r with level := 30 } := by
  unfold warnOnce
  by_cases hs : site ∈ lg.seen
  · have hs' := (h.seen_iff site).mp hs
    rw [if_pos hs, if_pos hs']
    refine ⟨⟨h.1, h.2, fun x => ?_, h.4, h.5, h.6, h.7, h.8⟩, rfl⟩
    rw [h.seen_iff, List.mem_cons]
    exact ⟨.inr, fun hx => hx.elim (fun e => e ▸ hs') id⟩
  · have hs' : site ∉ seen := fun hx => hs ((h.seen_iff site).mpr hx)
    rw [if_neg hs, if_neg hs']
    refine ⟨⟨h.1, h.2, fun x => ?_, h.4, h.5, h.6, h.7, h.8⟩, log_eq h _⟩
    dsimp only
    rw [List.mem_cons, List.mem_cons, h.seen_iff]

theorem inv_setPrefix {c : Bool} {t : Nat} {pre : PyStr} {seen files : List PyStr} {lg : Logger}
    (h : Inv c t pre seen files lg) (p : PyStr) : Inv c t p seen files (setPrefix p lg) := by
  refine ⟨rfl, h.2, h.3, h.4, ?_, ?_, ?_, h.8⟩
  · unfold setPrefix
    dsimp only
    rw [List.length_map, h.len]
  · intro f hf
    obtain ⟨g, hg, rfl⟩ := List.mem_map.mp hf
    exact h.fmt_colors g hg
  · intro f hf l hl
    obtain ⟨g, hg, rfl⟩ := List.mem_map.mp hf
    rw [setPrefix_get g p hl, h.fmt_colors g hg]

theorem inv_logFile {c : Bool} {t : Nat} {pre : PyStr} {seen files : List PyStr} {lg : Logger}
    (h : Inv c t pre seen files lg) (f : PyStr) : Inv c t pre seen (files ++ [f]) (logFile f lg) := by
  refine ⟨h.1, h.2, h.3, h.4, ?_, ?_, ?_, ?_⟩
  · unfold logFile
    dsimp only
    rw [List.length_append, List.length_append, h.len]
    rfl
  · intro g hg
    unfold logFile at hg
    dsimp only at hg
    rcases List.mem_append.mp hg with hg | hg
    · exact h.fmt_colors g hg
    · rw [List.mem_singleton.mp hg]
      exact h.colors_eq
  · intro g hg l hl
    unfold logFile at hg
    dsimp only at hg
    rcases List.mem_append.mp hg with hg | hg
    · exact h.fmt_get g hg l hl
    · rw [List.mem_singleton.mp hg, h.colors_eq, h.pre_eq]
  · unfold logFile
    dsimp only
    rw [h.handlers_eq, h.len, fileHandlers_append]
    have : 1 + files.length = files.length + 1 := by omega
    rw [this]
    rfl

theorem inv_configure (argv : List PyStr) (have' tty : Bool) (pre : PyStr) (level : Option Nat) (col : Option Bool) :
    Inv (Spec.colored argv have' tty col) (threshold argv level) pre [] []
      (configure argv have' tty pre level col {}) := by
  have hc : pickColored argv have' tty col = Spec.colored argv have' tty col := by
    unfold pickColored Spec.colored
    cases have' <;> cases col with
    | none => generalize "--force-color".toList = w; by_cases h : w ∈ argv <;> cases tty <;> simp [h]
    | some b => cases b <;> rfl
  have ht : pickLevel argv level = threshold argv level := by
    unfold pickLevel threshold
    cases level with
    | none => rfl
    | some n => cases n <;> rfl
  have hcol : (if pickColored argv have' tty col then initColors [] else []) = colorsOf (Spec.colored argv have' tty col) := by
    rw [hc]; rfl
  refine ⟨rfl, ht, fun x => Iff.rfl, ?_, rfl, ?_, ?_, rfl⟩
  · unfold configure
    dsimp only
    rw [hcol, hc]
    cases Spec.colored argv have' tty col <;> rfl
  · intro f hf
    unfold configure at hf
    dsimp only at hf
    rw [List.mem_singleton.mp hf, hcol]
    rfl
  · intro f hf l hl
    unfold configure at hf
    dsimp only at hf
    rw [List.mem_singleton.mp hf, hcol]

/-- The state and the output after calls. -/
theorem run_eq {c : Bool} {t : Nat} (ops : List Op) {pre : PyStr} {seen files : List PyStr} {lg : Logger}
    (h : Inv c t pre seen files lg) :
    (run lg ops).2 = trace c t pre seen files ops ∧
    ∃ pre' seen' files', Inv c t pre' seen' files' (run lg ops).1 ∧ ∀ x, x ∈ seen' ↔ x ∈ seen ∨ x ∈ sites ops := by
  induction ops generalizing pre seen files lg with
  | nil => exact ⟨rfl, pre, seen, files, h, fun x => ⟨.inl, fun hx => hx.elim id fun h => absurd h List.not_mem_nil⟩⟩
  | cons op ops ih =>
    cases op with
    | log r =>
      obtain ⟨h1, p, s, f, h2, h3⟩ := ih h
      refine ⟨?_, p, s, f, h2, h3⟩
      rw [run, trace]
      show log lg r ++ (run lg ops).2 = _
      rw [h1, log_eq h]
    | warnOnce site r =>
      obtain ⟨hi, ho⟩ := inv_warn h site r
      obtain ⟨h1, p, s, f, h2, h3⟩ := ih hi
      refine ⟨?_, p, s, f, h2, fun x => ?_⟩
      · rw [run, trace]
        show (warnOnce lg site r).2 ++ (run (warnOnce lg site r).1 ops).2 = _
        rw [h1, ho]
      · rw [h3]
        simp only [sites, List.filterMap_cons, List.mem_cons]
        constructor
        · rintro ((hx | hx) | hx)
          · exact .inr (.inl hx)
          · exact .inl hx
          · exact .inr (.inr hx)
        · rintro (hx | hx | hx)
          · exact .inl (.inr hx)
          · exact .inl (.inl hx)
          · exact .inr hx
    | setPrefix q =>
      obtain ⟨h1, p, s, f, h2, h3⟩ := ih (inv_setPrefix h q)
      refine ⟨?_, p, s, f, h2, h3⟩
      rw [run, trace]
      show [] ++ (run (setPrefix q lg) ops).2 = _
      rw [h1]
      rfl
    | logFile q =>
      obtain ⟨h1, p, s, f, h2, h3⟩ := ih (inv_logFile h q)
      refine ⟨?_, p, s, f, h2, h3⟩
      rw [run, trace]
      show [] ++ (run (logFile q lg) ops).2 = _
      rw [h1]
      rfl

/-! ### Escape sequences -/

theorem plain_noEsc {s : PyStr} (h : NoEsc s) (t : PyStr) : plain false (s ++ t) = s ++ plain false t := by
  induction s with
  | nil => rfl
  | cons x s ih =>
    have hx : x ≠ Char.ofNat 27 := fun e => h (by rw [e]; exact List.mem_cons_self)
    rw [List.cons_append, plain, if_neg hx, ih fun hm => h (List.mem_cons_of_mem _ hm)]
    rfl

theorem plain_color {l : Nat} (t : PyStr) : plain false (color l ++ t) = plain false t := by
  unfold color
  split
  · rfl
  · split
    · rfl
    · split <;> rfl

theorem plain_paint (c : Bool) (l : Nat) {w : PyStr} (h : NoEsc w) (t : PyStr) :
    plain false (paint c l w ++ t) = w ++ plain false t := by
  cases c
  · exact plain_noEsc h t
  · unfold paint
    rw [if_pos rfl, List.append_assoc, List.append_assoc, plain_color, plain_noEsc h]
    rfl

theorem plain_self {s : PyStr} (h : NoEsc s) : plain false s = s := by
  have := plain_noEsc h []
  rw [List.append_nil] at this
  rw [this]
  exact List.append_nil s

theorem noEsc_head {pre : PyStr} (h : NoEsc pre) {low up : PyStr} (h1 : NoEsc low) (h2 : NoEsc up) :
    NoEsc (head pre low up) := by
  unfold head
  split
  · exact h2
  · intro hm
    rcases List.mem_append.mp hm with hm | hm
    · exact h hm
    · rcases List.mem_append.mp hm with hm | hm
      · revert hm; decide
      · exact h1 hm

theorem plain_text (c : Bool) {pre : PyStr} (hp : NoEsc pre) (r : Record)
    (h : NoEsc r.msg ∧ (r.level = 10 → NoEsc r.created ∧ NoEsc r.time ∧ NoEsc r.modName ∧ NoEsc r.line)) :
    plain false (text c pre r ++ ['\n']) = text false pre r ++ ['\n'] := by
  have hmsg : plain false (r.msg ++ ['\n']) = r.msg ++ ['\n'] := plain_noEsc h.1 ['\n']
  have hword : ∀ (l : Nat) (low up : PyStr), NoEsc low → NoEsc up →
      plain false ((paint c l (head pre low up) ++ (": ".toList ++ r.msg)) ++ ['\n']) =
        (paint false l (head pre low up) ++ (": ".toList ++ r.msg)) ++ ['\n'] := by
    intro l low up h1 h2
    rw [List.append_assoc, plain_paint c l (noEsc_head hp h1 h2), List.append_assoc, plain_noEsc (by unfold NoEsc; decide), hmsg]
    simp [paint]
  unfold text
  by_cases h10 : r.level = 10
  · obtain ⟨a, b, d, e⟩ := h.2 h10
    rw [if_pos h10, if_pos h10]
    have hml : NoEsc (r.modName ++ ',' :: r.line) := by
      intro hm
      rcases List.mem_append.mp hm with hm | hm
      · exact d hm
      · rcases List.mem_cons.mp hm with hm | hm
        · revert hm; decide
        · exact e hm
    have hb : ∀ t, plain false ("] [".toList ++ t) = "] [".toList ++ plain false t :=
      fun t => plain_noEsc (by unfold NoEsc; decide) t
    have hb2 : ∀ t, plain false ("]: ".toList ++ t) = "]: ".toList ++ plain false t :=
      fun t => plain_noEsc (by unfold NoEsc; decide) t
    have h0 : ∀ t, plain false ('[' :: t) = '[' :: plain false t := fun t => plain_noEsc (s := ['[']) (by unfold NoEsc; decide) t
    simp only [List.cons_append, List.append_assoc]
    rw [h0, plain_paint c 10 a, hb, plain_paint c 10 b, hb, plain_paint c 10 hml, hb2, hmsg]
    simp [paint]
  · rw [if_neg h10, if_neg h10]
    split
    · exact hword 21 _ _ (by unfold NoEsc; decide) (by unfold NoEsc; decide)
    · split
      · exact hword 30 _ _ (by unfold NoEsc; decide) (by unfold NoEsc; decide)
      · split
        · exact hword 40 _ _ (by unfold NoEsc; decide) (by unfold NoEsc; decide)
        · split
          · exact hword 50 _ _ (by unfold NoEsc; decide) (by unfold NoEsc; decide)
          · exact hmsg

theorem plain_out (c : Bool) (t : Nat) {pre : PyStr} (hp : NoEsc pre) (files : List PyStr) (r : Record)
    (h : NoEsc r.msg ∧ (r.level = 10 → NoEsc r.created ∧ NoEsc r.time ∧ NoEsc r.modName ∧ NoEsc r.line)) :
    (out c t pre files r).map (fun x => (x.1, plain false x.2)) = out false t pre files r := by
  unfold out
  split
  · rw [List.map_cons, List.map_map, plain_text c hp r h]
    congr 1
    refine List.map_congr_left fun f _ => ?_
    simp only [Function.comp]
    rw [plain_text c hp r h]
  · rfl

theorem plain_trace (c : Bool) (t : Nat) (ops : List Op) (h : ∀ op ∈ ops, Clean op) {pre : PyStr} (hp : NoEsc pre)
    (seen files : List PyStr) :
    (trace c t pre seen files ops).map (fun x => (x.1, plain false x.2)) = trace false t pre seen files ops := by
  induction ops generalizing pre seen files with
  | nil => rfl
  | cons op ops ih =>
    have ho := h op List.mem_cons_self
    have ih' := fun {pre : PyStr} (hp : NoEsc pre) (seen files : List PyStr) =>
      ih (fun x hx => h x (List.mem_cons_of_mem _ hx)) hp seen files
    cases op with
    | log r =>
      rw [trace, trace, List.map_append, ih' hp, plain_out c t hp files r ⟨ho.1, fun _ => ho.2⟩]
    | warnOnce site r =>
      rw [trace, trace, List.map_append, ih' hp]
      split
      · rfl
      · rw [plain_out c t hp files { r with level := 30 } ⟨ho, fun h => absurd h (by show ¬ (30 : Nat) = 10; decide)⟩]
    | setPrefix q => exact ih' ho seen files
    | logFile q => exact ih' hp seen _

end Verif.Logging
