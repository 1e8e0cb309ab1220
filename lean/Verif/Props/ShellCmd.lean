import Verif.Lemmas.ShellCmd

/-!
C127: a command reaches the shell of a remote host as it was given. True of the interactive shell for all texts whatsoever.
False in general of what the shell does with it: only the first command of a list is run (because of `exec`), and a
directory with certain characters is not changed to but interpreted.
-/

namespace Verif.ShellCmd

/-- A quoted string is one word for the shell, the string itself, whatever the characters. -/
theorem C127_quote (s : PyStr) : lex (quote s) = some [.word (lit s)] := by
  have := lex_quote s []
  rw [List.append_nil] at this
  unfold lex
  rw [this]
  rfl

example : quote "it's".toList = "'it'\"'\"'s'".toList ∧ quote "/bin/ls".toList = "/bin/ls".toList := by
  constructor <;> decide +kernel

/-- The interactive shell runs another shell with the text that would have been used in a session of its own, character by
character, whatever it is, and prints the marker with the exit code of it afterwards. It does nothing else. -/
theorem C127_interactive (ok : List Word → Bool) (cmd : PyStr) (cwd : Option PyStr) (hex : PyStr)
    (hh : ∀ c ∈ hex, c ∈ "0123456789abcdef".toList) :
    shell ok (intshText cmd cwd (marker hex)) =
      some [.child [lit "sh".toList, lit "-c".toList, lit (sessionText cmd cwd true)],
        .child [lit "printf".toList, lit "%s, %d ---".toList, lit ("--- ".toList ++ hex), [.code]]] := by
  have hm : dqPlain (marker hex) := by
    intro c hc
    have hall : ∀ d ∈ "--- ".toList ++ "0123456789abcdef".toList,
        d ≠ '"' ∧ d ≠ '$' ∧ d ≠ '`' ∧ d ≠ '\\' := by decide +kernel
    refine hall c ?_
    rcases List.mem_append.1 hc with hc | hc
    · exact List.mem_append.2 (.inl hc)
    · exact List.mem_append.2 (.inr (hh c hc))
  unfold shell
  rw [lex_intsh cmd cwd _ hm]
  show some (acts ok true (commands ([lit "sh".toList, lit "-c".toList, lit (formatCmdForPid cmd cwd)].map .word ++
    .sep .line :: ([lit "printf".toList, lit "%s, %d ---".toList, lit (marker hex), [Ch.code]].map .word ++
      .sep .line :: [])))) = _
  rw [commands_sep, commands_sep]
  have h1 : ∀ a, ¬(lit "sh".toList = lit "exec".toList ∧ a) := fun a h => by
    have : lit "sh".toList ≠ lit "exec".toList := by decide +kernel
    exact this h.1
  have h2 : ∀ a, ¬(lit "printf".toList = lit "exec".toList ∧ a) := fun a h => by
    have : lit "printf".toList ≠ lit "exec".toList := by decide +kernel
    exact this h.1
  rw [acts, if_neg (h1 _)]
  have hs : ∀ b, (decide (Sep.line ≠ Sep.and) || b) = true := fun _ => rfl
  rw [hs, acts, if_neg (h2 _), hs]
  rfl

/-- A simple command: the shell prints its process ID, changes to the directory if one is given, and becomes the command,
with the words it was given. If the directory cannot be changed to, the command is not run. -/
theorem C127_simple_partial (ok : List Word → Bool) (cmd : PyStr) (cwd : Option PyStr) (ws : List Word)
    (hw : lex cmd = some (ws.map .word)) (hne : ws ≠ [])
    (hd : ∀ d, cwd = some d → ∀ c ∈ d, c ≠ '"' ∧ c ≠ '$' ∧ c ≠ '`' ∧ c ≠ '\\') :
    shell ok (sessionText cmd cwd true) =
      some (.child [lit "printf".toList, lit "%s\\n".toList, [.pid]] ::
        (match cwd with
          | none => [.become ws]
          | some d => .child [lit "cd".toList, lit d] ::
              if ok [lit "cd".toList, lit d] then [.become ws] else [])) := by
  unfold shell sessionText
  rw [if_pos rfl, lex_format cmd cwd hd, hw, Option.map_some, Option.map_some,
    acts_format ok cwd _ ws .line [] hne (commands_words ws)]
  cases cwd <;> simp [acts]

/-- Satisfiability: `wrmsr -p 0 '0x1 f'` in the directory `/my dir`. -/
example : lex "wrmsr -p 0 '0x1 f'".toList = some (["wrmsr", "-p", "0", "0x1 f"].map fun w => .word (lit w.toList)) := by
  decide +kernel

example : shell (fun _ => true) (sessionText "rm -- 'a b'".toList (some "/my dir".toList) true) =
    some [.child [lit "printf".toList, lit "%s\\n".toList, [.pid]], .child [lit "cd".toList, lit "/my dir".toList],
      .become [lit "rm".toList, lit "--".toList, lit "a b".toList]] := by decide +kernel

/-- On the local host, the shell becomes the command. -/
theorem C127_local (ok : List Word → Bool) (cmd : PyStr) (ws : List Word) (hw : lex cmd = some (ws.map .word))
    (hne : ws ≠ []) : shell ok (localText cmd) = some [.become ws] := by
  unfold lex at hw
  unfold shell lex localText
  rw [lex_local, hw, Option.map_some, Option.map_some, commands, commands_words]
  dsimp only
  rw [acts, if_pos ⟨rfl, hne⟩]

/-- Of a list of commands, only the first one is run on the local host as well. -/
theorem C127_local_list (ok : List Word → Bool) (cmd : PyStr) (ws : List Word) (s : Sep) (ts : List Tok)
    (hw : lex cmd = some (ws.map .word ++ .sep s :: ts)) (hne : ws ≠ []) :
    shell ok (localText cmd) = some [.become ws] := by
  unfold lex at hw
  unfold shell lex localText
  rw [lex_local, hw, Option.map_some, Option.map_some, commands, commands_sep]
  dsimp only
  rw [acts, if_pos ⟨rfl, hne⟩]

/-- Without a shell the text is the command itself. -/
theorem C127_noshell (cmd : PyStr) (cwd : Option PyStr) : sessionText cmd cwd false = cmd := rfl

/-- Of a list of commands, only the first one is run, whatever the others are. -/
theorem C127_list (ok : List Word → Bool) (cmd : PyStr) (ws : List Word) (s : Sep) (ts : List Tok)
    (hw : lex cmd = some (ws.map .word ++ .sep s :: ts)) (hne : ws ≠ []) :
    shell ok (sessionText cmd none true) =
      some [.child [lit "printf".toList, lit "%s\\n".toList, [.pid]], .become ws] := by
  unfold shell sessionText
  rw [if_pos rfl, lex_format cmd none (fun _ h => (nomatch h)), hw, Option.map_some, Option.map_some,
    acts_format ok none _ ws s _ hne (commands_sep ws s ts)]

/-- `modprobe msr && rdmsr 0x1`: the shell would run both programs, but only the first one is run. -/
theorem C127_list_counterexample :
    shell (fun _ => true) "modprobe msr && rdmsr 0x1".toList =
      some [.child [lit "modprobe".toList, lit "msr".toList], .child [lit "rdmsr".toList, lit "0x1".toList]] ∧
    shell (fun _ => true) (sessionText "modprobe msr && rdmsr 0x1".toList none true) =
      some [.child [lit "printf".toList, lit "%s\\n".toList, [.pid]],
        .become [lit "modprobe".toList, lit "msr".toList]] := by
  constructor <;> decide +kernel

/-- A directory with a quote in its name: its name is run as commands. -/
theorem C127_cwd_counterexample : ∃ d : PyStr,
    shell (fun _ => true) (sessionText "ls".toList (some d) true) =
      some [.child [lit "printf".toList, lit "%s\\n".toList, [.pid]], .child [lit "cd".toList, lit "/tmp".toList],
        .child [lit "reboot".toList], .child [[]], .become [lit "ls".toList]] :=
  ⟨"/tmp\"; reboot; \"".toList, by decide +kernel⟩

end Verif.ShellCmd
