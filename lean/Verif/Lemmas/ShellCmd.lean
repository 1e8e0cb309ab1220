import Verif.Props.ShellCmdSpec

/-! Lemmas for C127. -/

namespace Verif.ShellCmd

theorem more_some (w : Word) (c : Ch) : more (some w) c = some (w ++ [c]) := rfl

theorem lex_single (s : PyStr) (w : Word) (rest : PyStr) :
    lexAux .single (some w) ((s.flatMap fun c => if c = '\'' then ['\'', '"', '\'', '"', '\''] else [c]) ++
      '\'' :: rest) = lexAux .plain (some (w ++ lit s)) rest := by
  induction s generalizing w with
  | nil => simp [lexAux, lit]
  | cons c s ih =>
    rw [List.flatMap_cons]
    by_cases hc : c = '\''
    · subst hc
      have e : ∀ t, lexAux .single (some w) ('\'' :: '"' :: '\'' :: '"' :: '\'' :: t) =
          lexAux .single (some (w ++ [.lit '\''])) t := fun t => by simp [lexAux, more]
      simp only [if_true, List.cons_append, List.nil_append]
      rw [e, ih]
      simp [lit]
    · rw [if_neg hc, List.singleton_append, List.cons_append, lexAux, more_some, ih]
      · simp [lit]
      · exact hc

theorem safe_plain (c : Char) (h : safeChar c = true) : special c = false ∧ c ≠ '\'' ∧ c ≠ '"' ∧ c ≠ ' ' ∧
    c ≠ '\t' ∧ c ≠ '\n' ∧ c ≠ ';' ∧ c ≠ '&' := by
  have key : ∀ d : Char, safeChar d = false → c ≠ d := by
    rintro d hd rfl
    rw [h] at hd
    cases hd
  refine ⟨?_, key _ (by decide +kernel), key _ (by decide +kernel), key _ (by decide +kernel),
    key _ (by decide +kernel), key _ (by decide +kernel), key _ (by decide +kernel), key _ (by decide +kernel)⟩
  cases hs : special c with
  | false => rfl
  | true =>
    exfalso
    have hm : c ∈ "|&()<>$`\\*?[]#~{}!".toList := by
      unfold special at hs
      exact List.contains_iff_mem.1 hs
    have hall : ∀ d ∈ "|&()<>$`\\*?[]#~{}!".toList, safeChar d = false := by decide +kernel
    exact key c (hall c hm) rfl

theorem lex_char (c : Char) (cur : Option Word) (rest : PyStr) (h : special c = false) (h1 : c ≠ '\'') (h2 : c ≠ '"')
    (h3 : c ≠ ' ') (h4 : c ≠ '\t') (h5 : c ≠ '\n') (h6 : c ≠ ';') (h7 : c ≠ '&') :
    lexAux .plain cur (c :: rest) = lexAux .plain (more cur (.lit c)) rest := by
  rw [lexAux, h]
  · simp
  all_goals first | exact h1 | exact h2 | exact h3 | exact h4 | exact h5 | exact h6 | (intro s e; exact absurd e h7) | (intro e; exact absurd e h7)

theorem lex_safe (s : PyStr) (w : Word) (rest : PyStr) (h : s.all safeChar = true) :
    lexAux .plain (some w) (s ++ rest) = lexAux .plain (some (w ++ lit s)) rest := by
  induction s generalizing w with
  | nil => simp [lit]
  | cons c s ih =>
    rw [List.all_cons, Bool.and_eq_true] at h
    obtain ⟨h0, h1, h2, h3, h4, h5, h6, h7⟩ := safe_plain c h.1
    rw [List.cons_append, lex_char c _ _ h0 h1 h2 h3 h4 h5 h6 h7, more_some, ih _ h.2]
    simp [lit]

/-- A quoted string is one word. -/
theorem lex_quote (s rest : PyStr) :
    lexAux .plain none (quote s ++ rest) = lexAux .plain (some (lit s)) rest := by
  unfold quote
  split
  · rename_i h; subst h; simp [lexAux, lit]
  · split
    · rename_i hn h
      cases s with
      | nil => exact absurd rfl hn
      | cons c s =>
        rw [List.all_cons, Bool.and_eq_true] at h
        obtain ⟨h0, h1, h2, h3, h4, h5, h6, h7⟩ := safe_plain c h.1
        rw [List.cons_append, lex_char c _ _ h0 h1 h2 h3 h4 h5 h6 h7]
        show lexAux .plain (some [.lit c]) (s ++ rest) = _
        rw [lex_safe s _ _ h.2]
        rfl
    · rw [List.cons_append, List.cons_append, List.append_assoc, lexAux]
      exact lex_single s [] rest

/-- Text in double quotes without the characters which mean something there. -/
def dqPlain (s : PyStr) : Prop := ∀ c ∈ s, c ≠ '"' ∧ c ≠ '$' ∧ c ≠ '`' ∧ c ≠ '\\'

theorem lex_double (s : PyStr) (w : Word) (rest : PyStr) (h : dqPlain s) :
    lexAux .double (some w) (s ++ '"' :: rest) = lexAux .plain (some (w ++ lit s)) rest := by
  induction s generalizing w with
  | nil => simp [lexAux, lit]
  | cons c s ih =>
    obtain ⟨h1, h2, h3, h4⟩ := h c (by simp)
    rw [List.cons_append, lexAux, if_neg (by simp [h2, h3, h4]), more_some, ih _ fun c hc => h c (by simp [hc])]
    · simp [lit]
    all_goals first | exact h1 | (intros; exact absurd ‹_› h2) | (intros; exact absurd ‹_› h4) | skip

/-- The tokens of the statement that prints the process ID. -/
def pidToks : List Tok := [.word (lit "printf".toList), .word (lit "%s\\n".toList), .word [.pid], .sep .semi]

theorem lex_pid (rest : PyStr) :
    lexAux .plain none (pidPrefix ++ rest) = (lexAux .plain none rest).map (pidToks ++ ·) := by
  have h : lexAux .plain none (pidPrefix ++ rest) =
      (((lexAux .plain none rest).map (flush (some [.pid]) ++ .sep .semi :: ·)).map
        (flush (some (lit "%s\\n".toList)) ++ ·)).map (flush (some (lit "printf".toList)) ++ ·) := rfl
  rw [h, Option.map_map, Option.map_map]
  rfl

theorem lex_exec (rest : PyStr) : lexAux .plain none (" exec ".toList ++ rest) =
    (lexAux .plain none rest).map (.word (lit "exec".toList) :: ·) := by
  have h : lexAux .plain none (" exec ".toList ++ rest) =
      ((lexAux .plain none rest).map (flush (some (lit "exec".toList)) ++ ·)).map (flush none ++ ·) := rfl
  rw [h, Option.map_map]
  rfl

theorem lex_local (rest : PyStr) : lexAux .plain none ("exec ".toList ++ rest) =
    (lexAux .plain none rest).map (.word (lit "exec".toList) :: ·) := rfl

theorem lex_cd (d rest : PyStr) (hd : dqPlain d) :
    lexAux .plain none (" cd \"".toList ++ (d ++ "\" &&".toList) ++ rest) = (lexAux .plain none rest).map
      ([.word (lit "cd".toList), .word (lit d), .sep .and] ++ ·) := by
  have h : lexAux .plain none (" cd \"".toList ++ (d ++ "\" &&".toList) ++ rest) =
      ((lexAux .double (some []) (d ++ '"' :: (' ' :: '&' :: '&' :: rest))).map
        (flush (some (lit "cd".toList)) ++ ·)).map (flush none ++ ·) := by
    rw [List.append_assoc, List.append_assoc]
    rfl
  rw [h, lex_double d _ _ hd, List.nil_append]
  have h2 : lexAux .plain (some (lit d)) (' ' :: '&' :: '&' :: rest) =
      ((lexAux .plain none rest).map (flush none ++ .sep .and :: ·)).map (flush (some (lit d)) ++ ·) := rfl
  rw [h2, Option.map_map, Option.map_map, Option.map_map]
  rfl

/-- The tokens of the statement that changes the directory. -/
def cdToks : Option PyStr → List Tok
  | none => []
  | some d => [.word (lit "cd".toList), .word (lit d), .sep .and]

theorem lex_format (cmd : PyStr) (cwd : Option PyStr) (hd : ∀ d, cwd = some d → dqPlain d) :
    lex (formatCmdForPid cmd cwd) =
      (lex cmd).map fun ts => pidToks ++ (cdToks cwd ++ .word (lit "exec".toList) :: ts) := by
  unfold lex formatCmdForPid
  cases cwd with
  | none =>
    rw [List.append_assoc, lex_pid, List.nil_append, lex_exec, Option.map_map]
    rfl
  | some d =>
    dsimp only
    rw [List.append_assoc, lex_pid, lex_cd d _ (hd d rfl), lex_exec, Option.map_map, Option.map_map]
    rfl

theorem lex_intsh (cmd : PyStr) (cwd : Option PyStr) (mk : PyStr) (hm : dqPlain mk) :
    lex (intshText cmd cwd mk) = some [.word (lit "sh".toList), .word (lit "-c".toList),
      .word (lit (formatCmdForPid cmd cwd)), .sep .line, .word (lit "printf".toList),
      .word (lit "%s, %d ---".toList), .word (lit mk), .word [.code], .sep .line] := by
  unfold lex intshText
  generalize formatCmdForPid cmd cwd = t
  have h1 : ∀ r : PyStr, lexAux .plain none ("sh -c ".toList ++ r) =
      ((lexAux .plain none r).map (flush (some (lit "-c".toList)) ++ ·)).map
        (flush (some (lit "sh".toList)) ++ ·) := fun _ => rfl
  have h2 : ∀ r : PyStr, lexAux .plain (some (lit t)) ('\n' :: r) =
      (lexAux .plain none r).map (flush (some (lit t)) ++ .sep .line :: ·) := fun _ => rfl
  have h3 : ∀ r : PyStr, lexAux .plain none ("printf \"%s, %d ---\" \"".toList ++ r) =
      ((lexAux .double (some []) r).map (flush (some (lit "%s, %d ---".toList)) ++ ·)).map
        (flush (some (lit "printf".toList)) ++ ·) := fun _ => rfl
  have h4 : lexAux .plain (some (lit mk)) (" \"$?\"\n".toList) =
      some (flush (some (lit mk)) ++ [.word [.code], .sep .line]) := rfl
  have h5 : mk ++ "\" \"$?\"\n".toList = mk ++ '"' :: " \"$?\"\n".toList := rfl
  rw [h1, lex_quote, h2, h3, h5, lex_double mk _ _ hm, List.nil_append, h4]
  rfl

theorem commands_words (ws : List Word) : commands (ws.map .word) = [(ws, .line)] := by
  induction ws with
  | nil => rfl
  | cons w ws ih => simp [commands, ih]

theorem commands_sep (ws : List Word) (s : Sep) (ts : List Tok) :
    commands (ws.map .word ++ .sep s :: ts) = (ws, s) :: commands ts := by
  induction ws with
  | nil => rfl
  | cons w ws ih => simp [commands, ih]

/-- What comes before the command. -/
theorem acts_format (ok : List Word → Bool) (cwd : Option PyStr) (ts : List Tok) (ws : List Word) (s : Sep)
    (cs : List (List Word × Sep)) (hne : ws ≠ []) (h : commands ts = (ws, s) :: cs) :
    acts ok true (commands (pidToks ++ (cdToks cwd ++ .word (lit "exec".toList) :: ts))) =
      .child [lit "printf".toList, lit "%s\\n".toList, [.pid]] ::
        (match cwd with
          | none => [.become ws]
          | some d => .child [lit "cd".toList, lit d] ::
              if ok [lit "cd".toList, lit d] then [.become ws] else acts ok (s ≠ .and) cs) := by
  have hx : commands (.word (lit "exec".toList) :: ts) = (lit "exec".toList :: ws, s) :: cs := by
    rw [commands, h]
  have h1 : ∀ l, commands (pidToks ++ l) =
      ([lit "printf".toList, lit "%s\\n".toList, [.pid]], .semi) :: commands l := fun l =>
    commands_sep [lit "printf".toList, lit "%s\\n".toList, [.pid]] .semi l
  have hp : ¬(lit "printf".toList = lit "exec".toList ∧
      [lit "%s\\n".toList, [Ch.pid]] ≠ []) := by decide +kernel
  rw [h1, acts, if_neg hp]
  congr 1
  have hs : (decide (Sep.semi ≠ Sep.and) || ok [lit "printf".toList, lit "%s\\n".toList, [Ch.pid]]) = true := rfl
  rw [hs]
  cases cwd with
  | none =>
    rw [cdToks, List.nil_append, hx, acts, if_pos ⟨rfl, hne⟩]
  | some d =>
    have h2 : ∀ l, commands (cdToks (some d) ++ l) = ([lit "cd".toList, lit d], .and) :: commands l := fun l =>
      commands_sep [lit "cd".toList, lit d] .and l
    have hcd : ¬(lit "cd".toList = lit "exec".toList ∧ [lit d] ≠ []) := fun h => by
      have : lit "cd".toList ≠ lit "exec".toList := by decide +kernel
      exact this h.1
    rw [h2, acts, if_neg hcd, hx]
    dsimp only
    congr 1
    have hs : (decide (Sep.and ≠ Sep.and) || ok [lit "cd".toList, lit d]) = ok [lit "cd".toList, lit d] := by simp
    rw [hs]
    cases ok [lit "cd".toList, lit d] with
    | true => rw [acts, if_pos ⟨rfl, hne⟩]; rfl
    | false => rw [acts]; rfl

end Verif.ShellCmd
