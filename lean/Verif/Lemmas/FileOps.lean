import Verif.Props.FileOpsSpec
import Verif.Lemmas.Trivial
import Verif.Lemmas.MSRRemote

/-! Lemmas about the file operations. -/

namespace Verif.FileOps

open Spec
open PyStr (ofNat strip)

variable {σ : Type}

/-! ### The shell -/

theorem words_single (p t acc : PyStr) (hp : '\'' ∉ p) :
    wordsAux .single (some acc) (p ++ '\'' :: t) = wordsAux .plain (some (p.reverse ++ acc)) t := by
  induction p generalizing acc with
  | nil => rw [List.nil_append, wordsAux, if_pos rfl]; rfl
  | cons c p ih =>
    have hc : c ≠ '\'' := fun h => hp (h ▸ List.mem_cons_self)
    rw [List.cons_append, wordsAux, if_neg hc]
    show wordsAux .single (some (c :: acc)) _ = _
    rw [ih _ fun h => hp (List.mem_cons_of_mem _ h), List.reverse_cons, List.append_assoc]
    rfl

theorem words_double (p t acc : PyStr) (hp : ∀ c ∈ p, c ∉ ['"', '$', '`', '\\']) :
    wordsAux .double (some acc) (p ++ '"' :: t) = wordsAux .plain (some (p.reverse ++ acc)) t := by
  induction p generalizing acc with
  | nil => rw [List.nil_append, wordsAux, if_pos rfl]; rfl
  | cons c p ih =>
    have hc := hp c List.mem_cons_self
    have h1 : c ≠ '"' := by rintro rfl; exact hc (by decide)
    have h2 : ¬ (c = '$' ∨ c = '`' ∨ c = '\\') := by
      rintro (rfl | rfl | rfl) <;> exact hc (by decide)
    rw [List.cons_append, wordsAux, if_neg h1, if_neg h2]
    show wordsAux .double (some (c :: acc)) _ = _
    rw [ih _ fun x h => hp x (List.mem_cons_of_mem _ h), List.reverse_cons, List.append_assoc]
    rfl

theorem words_sh (script : PyStr) (hs : '\'' ∉ script) :
    words ("sh -c '".toList ++ (script ++ ['\''])) = some ["sh".toList, "-c".toList, script] := by
  have h : ∀ t, words ("sh -c '".toList ++ t) =
      ((wordsAux .single (some []) t).map fun l => "-c".toList :: l).map fun l => "sh".toList :: l := fun _ => rfl
  rw [h, words_single _ _ _ hs]
  show some _ = some _
  rw [List.append_nil, List.reverse_reverse]

theorem plain_single {p : PyStr} (h : PlainPath p) : '\'' ∉ p := fun hm => h _ hm (by decide)

theorem plain_double {p : PyStr} (h : PlainPath p) : ∀ c ∈ p, c ∉ ['"', '$', '`', '\\'] := by
  intro c hc hm
  refine h c hc ?_
  simp only [List.mem_cons, List.not_mem_nil, or_false] at hm ⊢
  rcases hm with h | h | h | h <;> simp [h]

theorem exec_test (H : Host σ) (s : σ) {p : PyStr} (hp : PlainPath p) (opt : String)
    (ho : opt ∈ ["-e", "-f", "-d", "-S", "-x"]) :
    exec H s ("sh -c 'test ".toList ++ (opt.toList ++ (" \"".toList ++ (p ++ "\"'".toList)))) =
      testCmd H.K s opt.toList p := by
  have e : "sh -c 'test ".toList ++ (opt.toList ++ (" \"".toList ++ (p ++ "\"'".toList))) =
      "sh -c '".toList ++ (("test ".toList ++ (opt.toList ++ (" \"".toList ++ (p ++ ['"'])))) ++ ['\'']) := by
    have h1 : "sh -c 'test ".toList = "sh -c '".toList ++ "test ".toList := rfl
    have h2 : "\"'".toList = ['"'] ++ ['\''] := rfl
    rw [h1, h2]
    simp only [List.append_assoc]
  have hq : '\'' ∉ "test ".toList ++ (opt.toList ++ (" \"".toList ++ (p ++ ['"']))) := by
    simp only [List.mem_append, not_or]
    refine ⟨by decide, ?_, by decide, (plain_single hp), by decide⟩
    simp only [List.mem_cons, List.not_mem_nil, or_false] at ho
    rcases ho with rfl | rfl | rfl | rfl | rfl <;> decide
  have hw : words ("test ".toList ++ (opt.toList ++ (" \"".toList ++ (p ++ ['"'])))) =
      some ["test".toList, opt.toList, p] := by
    have h : words ("test ".toList ++ (opt.toList ++ (" \"".toList ++ (p ++ ['"'])))) =
        ((wordsAux .double (some []) (p ++ ['"'])).map fun l => opt.toList :: l).map fun l => "test".toList :: l := by
      simp only [List.mem_cons, List.not_mem_nil, or_false] at ho
      rcases ho with rfl | rfl | rfl | rfl | rfl <;> rfl
    rw [h, words_double _ _ _ (plain_double hp)]
    show some _ = some _
    rw [List.append_nil, List.reverse_reverse]
  unfold exec
  rw [e, words_sh _ hq]
  dsimp only
  rw [if_pos ⟨rfl, rfl⟩]
  show (match words ("test ".toList ++ (opt.toList ++ (" \"".toList ++ (p ++ ['"'])))) with
    | none => _
    | some ws => execWords H s ws) = _
  rw [hw]
  dsimp only
  unfold execWords
  dsimp only
  rw [if_pos rfl]

/-- The condition the option tests. -/
def optTest (K : Kernel σ) (s : σ) (p : PyStr) (opt : String) : Bool :=
  match K.stat s p with
  | .error _ => false
  | .ok st =>
    if opt.toList = "-e".toList then true
    else if opt.toList = "-f".toList then decide (st.kind = .file)
    else if opt.toList = "-d".toList then decide (st.kind = .dir)
    else if opt.toList = "-S".toList then decide (st.kind = .socket)
    else if opt.toList = "-x".toList then K.access s p
    else false

theorem shellTest_eq (H : Host σ) (s : σ) {p : PyStr} (hp : PlainPath p) (opt : String)
    (ho : opt ∈ ["-e", "-f", "-d", "-S", "-x"]) : shellTest H s p opt = .ok (optTest H.K s p opt) := by
  unfold shellTest
  rw [exec_test H s hp opt ho]
  have : testCmd H.K s opt.toList p = ⟨s, [], [], if optTest H.K s p opt then 0 else 1⟩ := rfl
  rw [this]
  cases optTest H.K s p opt <;> rfl

theorem optTest_e (K : Kernel σ) (s : σ) (p : PyStr) : optTest K s p "-e" = (K.stat s p).toOption.isSome := by
  unfold optTest
  cases K.stat s p <;> rfl

theorem pathTest_eq {K : Kernel σ} {s : σ} {p : PyStr} (hb : Benign K s p) (f : Stat → Bool) :
    pathTest K s p f = .ok (match K.stat s p with
      | .ok st => f st
      | .error _ => false) := by
  unfold pathTest
  cases h : K.stat s p with
  | ok st => rfl
  | error e => rcases hb e h with rfl | rfl | rfl <;> rfl

/-- A command with the arguments `--` and a path. -/
theorem exec_change (H : Host σ) (s : σ) {p : PyStr} (hp : PlainPath p) (cmd : String)
    (hc : cmd ∈ ["mkdir", "mkfifo", "unlink"]) :
    exec H s (cmd.toList ++ (" -- '".toList ++ (p ++ ['\'']))) =
      change s (if cmd = "mkdir" then H.K.mkdir s p else if cmd = "mkfifo" then H.K.mkfifo s p else H.K.unlink s p) := by
  have hw : words (cmd.toList ++ (" -- '".toList ++ (p ++ ['\'']))) = some [cmd.toList, "--".toList, p] := by
    have h : words (cmd.toList ++ (" -- '".toList ++ (p ++ ['\'']))) =
        ((wordsAux .single (some []) (p ++ ['\''])).map fun l => "--".toList :: l).map fun l => cmd.toList :: l := by
      simp only [List.mem_cons, List.not_mem_nil, or_false] at hc
      rcases hc with rfl | rfl | rfl <;> rfl
    rw [h, words_single _ _ _ (plain_single hp)]
    show some _ = some _
    rw [List.append_nil, List.reverse_reverse]
  unfold exec
  rw [hw]
  simp only [List.mem_cons, List.not_mem_nil, or_false] at hc
  rcases hc with rfl | rfl | rfl <;> rfl

theorem exec_rm (H : Host σ) (s : σ) {p : PyStr} (hp : PlainPath p) :
    exec H s ("rm -rf -- '".toList ++ (p ++ ['\''])) = rmCmd H.K s p := by
  have hw : words ("rm -rf -- '".toList ++ (p ++ ['\''])) = some ["rm".toList, "-rf".toList, "--".toList, p] := by
    have h : ∀ t, words ("rm -rf -- '".toList ++ t) =
        (((wordsAux .single (some []) t).map fun l => "--".toList :: l).map fun l => "-rf".toList :: l).map
          fun l => "rm".toList :: l := fun _ => rfl
    rw [h, words_single _ _ _ (plain_single hp)]
    show some _ = some _
    rw [List.append_nil, List.reverse_reverse]
  unfold exec
  rw [hw]
  rfl

/-! ### Python -/

theorem dropPre_append (a b : PyStr) : dropPre a (a ++ b) = some b := by
  induction a with
  | nil => rfl
  | cons c a ih => rw [List.cons_append, dropPre, if_pos rfl, ih]

theorem pyString_eq {p : PyStr} (hp : PlainPath p) (t : PyStr) : pyString (p ++ '"' :: t) = some (p, t) := by
  induction p with
  | nil => rfl
  | cons c p ih =>
    have hc := hp c List.mem_cons_self
    have h1 : c ≠ '"' := by rintro rfl; exact hc (by decide)
    have h2 : ¬ (c = '\\' ∨ c = '\n') := by rintro (rfl | rfl) <;> exact hc (by decide)
    rw [List.cons_append, pyString, if_neg h1, if_neg h2, ih fun x h => hp x (List.mem_cons_of_mem _ h)]
    rfl

theorem exec_py (H : Host σ) (s : σ) {py script : PyStr} (hpy : py ∈ pythons) (hh : H.has py = true)
    (hs : '\'' ∉ script) : exec H s (py ++ (" -c '".toList ++ (script ++ ['\'']))) = pyCmd H.K s script := by
  have hw : words (py ++ (" -c '".toList ++ (script ++ ['\'']))) = some [py, "-c".toList, script] := by
    have h : words (py ++ (" -c '".toList ++ (script ++ ['\'']))) =
        ((wordsAux .single (some []) (script ++ ['\''])).map fun l => "-c".toList :: l).map fun l => py :: l := by
      simp only [pythons, List.mem_cons, List.not_mem_nil, or_false] at hpy
      rcases hpy with rfl | rfl | rfl | rfl <;> rfl
    rw [h, words_single _ _ _ hs]
    show some _ = some _
    rw [List.append_nil, List.reverse_reverse]
  unfold exec
  rw [hw]
  dsimp only
  have h1 : ¬ ([py, "-c".toList, script].take 2 = ["sh".toList, "-c".toList] ∧ [py, "-c".toList, script].length = 3) := by
    rintro ⟨h, _⟩
    have : py = "sh".toList := (List.cons.inj h).1
    subst this
    exact absurd hpy (by decide)
  rw [if_neg h1]
  unfold execWords
  dsimp only
  have hne : ∀ c : String, c.toList ∉ pythons → py ≠ c.toList := fun c hc h => hc (h ▸ hpy)
  rw [if_neg (hne "test" (by decide)), if_neg fun h => hne "mkdir" (by decide) h.1,
    if_neg fun h => hne "mkfifo" (by decide) h.1, if_neg fun h => hne "unlink" (by decide) h.1,
    if_pos ⟨hpy, hh, rfl⟩]

theorem exec_version (H : Host σ) (s : σ) {py : PyStr} (hpy : py ∈ pythons) :
    (exec H s (py ++ " --version".toList)).code = if H.has py then 0 else 127 := by
  have hw : words (py ++ " --version".toList) = some [py, "--version".toList] := by
    simp only [pythons, List.mem_cons, List.not_mem_nil, or_false] at hpy
    rcases hpy with rfl | rfl | rfl | rfl <;> rfl
  unfold exec
  rw [hw]
  dsimp only
  rw [if_neg (by rintro ⟨_, h⟩; simp at h)]
  unfold execWords
  dsimp only
  cases h : H.has py with
  | true => rw [if_pos ⟨hpy, rfl, rfl⟩]; rfl
  | false => rw [if_neg (by rintro ⟨_, h, _⟩; cases h)]; rfl

theorem pythonPath_ok (H : Host σ) (s : σ) (hh : ∃ py ∈ pythons, H.has py = true) :
    ∃ py ∈ pythons, H.has py = true ∧ pythonPath H s = .ok py := by
  unfold pythonPath
  cases hf : pythons.find? fun p => decide ((exec H s (p ++ " --version".toList)).code = 0) with
  | none =>
    obtain ⟨py, h1, h2⟩ := hh
    have := List.find?_eq_none.mp hf py h1
    rw [exec_version H s h1, h2] at this
    exact absurd rfl this
  | some py =>
    have h1 := List.mem_of_find?_eq_some hf
    have h2 := List.find?_some hf
    rw [exec_version H s h1] at h2
    refine ⟨py, h1, ?_, rfl⟩
    cases h : H.has py with
    | true => rfl
    | false => rw [h] at h2; exact absurd h2 (by decide)

theorem hasSub_iff (w s : PyStr) : hasSub w s = true ↔ w <:+: s := by
  induction s with
  | nil => rw [hasSub, List.isEmpty_iff, List.infix_nil]
  | cons c s ih =>
    rw [hasSub, Bool.or_eq_true, ih, List.isPrefixOf_iff_prefix, List.infix_cons_iff]

theorem infix_sep {w x y : PyStr} {c : Char} (hc : c ∉ w) (h : w <:+: x ++ c :: y) : w <:+: x ∨ w <:+: y := by
  obtain ⟨a, b, h⟩ := h
  rw [List.append_assoc] at h
  rcases List.append_eq_append_iff.mp h with ⟨t, h1, h2⟩ | ⟨t, h1, h2⟩
  · -- the word starts within `x`
    rcases List.append_eq_append_iff.mp h2 with ⟨u, h3, h4⟩ | ⟨u, h3, h4⟩
    · left
      exact ⟨a, u, by rw [h1, h3, List.append_assoc]⟩
    · cases u with
      | nil =>
        left
        rw [List.append_nil] at h3
        exact ⟨a, [], by rw [h1, h3, List.append_nil]⟩
      | cons d u =>
        exfalso
        have : d = c := (List.cons.inj h4).1.symm
        refine hc ?_
        rw [h3]
        exact List.mem_append_right _ (this ▸ List.mem_cons_self)
  · cases t with
    | nil =>
      rw [List.nil_append] at h2
      cases w with
      | nil => exact .inl (List.nil_infix)
      | cons d w =>
        have : d = c := (List.cons.inj h2).1.symm
        exact absurd (this ▸ List.mem_cons_self) hc
    | cons d t =>
      right
      have := (List.cons.inj h2).2
      exact ⟨t, b, by rw [this, List.append_assoc]; rfl⟩

theorem mtimeCmd_sub {py p : PyStr} (hpy : py ∈ pythons) (hp : ¬ "FileNotFoundError".toList <:+: p) :
    hasSub "FileNotFoundError".toList (mtimeCmd py p) = false := by
  rw [Bool.eq_false_iff]
  intro h
  rw [hasSub_iff] at h
  have e : mtimeCmd py p = (py ++ " -c 'import os; print(os.stat(".toList) ++ '"' :: (p ++ '"' :: (mtPost ++ ['\''])) := by
    unfold mtimeCmd
    have : mtPre = "import os; print(os.stat(".toList ++ ['"'] := rfl
    rw [this]
    have : " -c 'import os; print(os.stat(".toList = " -c '".toList ++ "import os; print(os.stat(".toList := rfl
    rw [this]
    simp only [List.append_assoc, List.cons_append, List.nil_append]
  rw [e] at h
  have hq : '"' ∉ "FileNotFoundError".toList := by decide
  rcases infix_sep hq h with h | h
  · have : hasSub "FileNotFoundError".toList (py ++ " -c 'import os; print(os.stat(".toList) = false := by
      simp only [pythons, List.mem_cons, List.not_mem_nil, or_false] at hpy
      rcases hpy with rfl | rfl | rfl | rfl <;> decide +kernel
    rw [← hasSub_iff, this] at h
    cases h
  · rcases infix_sep hq h with h | h
    · exact hp h
    · have : hasSub "FileNotFoundError".toList (mtPost ++ ['\'']) = false := by decide +kernel
      rw [← hasSub_iff, this] at h
      cases h

/-! ### The output of the script -/

theorem isSpace_of_lineEnd {c : Char} (h : PyStr.isSpace c = false) : MSR.isLineEnd c = false := by
  unfold PyStr.isSpace at h
  unfold MSR.isLineEnd
  simp only [Bool.or_eq_false_iff, Bool.and_eq_false_iff, decide_eq_false_iff_not, beq_eq_false_iff_ne] at h ⊢
  omega

theorem ofNat_ne_lineEnd (n : Nat) : ∀ c ∈ ofNat n, PyStr.isSpace c = false := by
  intro c hc
  have := PyStr.ofNat_digits n c hc
  unfold PyStr.isSpace
  simp only [Bool.or_eq_false_iff, Bool.and_eq_false_iff, decide_eq_false_iff_not, beq_eq_false_iff_ne]
  omega

/-- The line without the line end. -/
def lineText (e : Entry) : PyStr := PyStr.joinC ' ' [e.name, ofNat e.mode, ofNat e.ctime]

theorem entryLine_eq (e : Entry) : entryLine e = lineText e ++ ['\n'] := by
  unfold entryLine lineText
  simp [PyStr.joinC]

theorem parseLine_text (e : Entry) (h1 : e.name ≠ []) (h2 : ∀ c ∈ e.name, PyStr.isSpace c = false) :
    parseLine (lineText e) = some e := by
  have hall : ∀ w ∈ [e.name, ofNat e.mode, ofNat e.ctime], w ≠ [] ∧ ∀ c ∈ w, PyStr.isSpace c = false := by
    intro w hw
    simp only [List.mem_cons, List.not_mem_nil, or_false] at hw
    rcases hw with rfl | rfl | rfl
    · exact ⟨h1, h2⟩
    · exact ⟨PyStr.ofNat_ne_nil _, ofNat_ne_lineEnd _⟩
    · exact ⟨PyStr.ofNat_ne_nil _, ofNat_ne_lineEnd _⟩
  have hsp : PyStr.isSpace ' ' = true := by decide
  have hns : ∀ w ∈ [e.name, ofNat e.mode, ofNat e.ctime], ' ' ∉ w := by
    intro w hw hm
    rw [(hall w hw).2 ' ' hm] at hsp
    cases hsp
  have hstrip : strip (lineText e) = lineText e := by
    refine PyStr.stripBy_of_stripped ⟨?_, ?_⟩
    · intro c hc
      unfold lineText at hc
      cases hn : e.name with
      | nil => exact absurd hn h1
      | cons d n =>
        rw [hn] at hc h2
        have : d = c := by simpa [PyStr.joinC] using hc
        exact this ▸ h2 d List.mem_cons_self
    · intro c hc
      have hl : lineText e = (e.name ++ ' ' :: (ofNat e.mode ++ [' '])) ++ ofNat e.ctime := by
        unfold lineText
        simp [PyStr.joinC]
      rw [hl] at hc
      cases hr : ofNat e.ctime with
      | nil => exact absurd hr (PyStr.ofNat_ne_nil _)
      | cons d n =>
        have hmem : c ∈ ofNat e.ctime := by
          rw [List.getLast?_append] at hc
          cases hg : (ofNat e.ctime).getLast? with
          | none => rw [List.getLast?_eq_none_iff] at hg; exact absurd hg (PyStr.ofNat_ne_nil _)
          | some g =>
            rw [hg] at hc
            have : g = c := by simpa using hc
            exact this ▸ List.mem_of_getLast? hg
        exact ofNat_ne_lineEnd _ c hmem
  unfold parseLine
  rw [hstrip]
  have hcsv : Trivial.splitCsvLine (lineText e) ' ' false = [e.name, ofNat e.mode, ofNat e.ctime] := by
    unfold lineText
    rw [Trivial.splitCsvLine_eq, PyStr.splitC_joinC (by simp) hns]
    have hf : [e.name, ofNat e.mode, ofNat e.ctime].filter (fun v => !v.isEmpty) =
        [e.name, ofNat e.mode, ofNat e.ctime] := by
      rw [List.filter_eq_self]
      intro w hw
      have := (hall w hw).1
      cases w with
      | nil => exact absurd rfl this
      | cons _ _ => rfl
    have hm : [e.name, ofNat e.mode, ofNat e.ctime].map strip = [e.name, ofNat e.mode, ofNat e.ctime] := by
      have : ∀ w ∈ [e.name, ofNat e.mode, ofNat e.ctime], strip w = w := fun w hw =>
        PyStr.stripBy_of_stripped (PyStr.stripped_of_all (hall w hw).2)
      simp only [List.map_cons, List.map_nil, this e.name (by simp), this (ofNat e.mode) (by simp),
        this (ofNat e.ctime) (by simp)]
    simp [hf, hm]
  rw [hcsv]
  dsimp only
  unfold number
  rw [Trivial.parseDigits_ofNat, Trivial.parseDigits_ofNat]

theorem parse_output (l : List Entry) (h : ∀ e ∈ l, e.name ≠ [] ∧ ∀ c ∈ e.name, PyStr.isSpace c = false) :
    parseLines (MSR.splitLines (l.flatMap entryLine)) = some l := by
  unfold MSR.splitLines
  induction l with
  | nil => rfl
  | cons e l ih =>
    have he := h e List.mem_cons_self
    rw [List.flatMap_cons, entryLine_eq, List.append_assoc]
    have hend : ∀ c ∈ lineText e, MSR.isLineEnd c = false := by
      intro c hc
      unfold lineText at hc
      simp only [PyStr.joinC, List.mem_append, List.mem_cons] at hc
      rcases hc with hc | rfl | hc | rfl | hc
      · exact isSpace_of_lineEnd (he.2 c hc)
      · rfl
      · exact isSpace_of_lineEnd (ofNat_ne_lineEnd _ c hc)
      · rfl
      · exact isSpace_of_lineEnd (ofNat_ne_lineEnd _ c hc)
    show parseLines (MSR.splitLinesAux [] (lineText e ++ '\n' :: l.flatMap entryLine)) = _
    rw [MSR.splitLinesAux_line _ _ _ hend, List.reverse_nil, List.nil_append, parseLines, parseLine_text e he.1 he.2]
    dsimp only
    rw [ih fun x hx => h x (List.mem_cons_of_mem _ hx)]
    rfl

end Verif.FileOps
