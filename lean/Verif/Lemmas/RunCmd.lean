import Verif.Props.RunCmdSpec

/-! Lemmas for C121. -/

namespace Verif.RunCmd

open Verif.ProcOut (Stream)
open Verif.PyStr

theorem streams_none (l : List (Stream × PyStr)) :
    streams none l = ((l.filter (fun p => p.1 = .out)).map (·.2), (l.filter (fun p => p.1 = .err)).map (·.2)) := by
  induction l with
  | nil => rfl
  | cons p l ih =>
    obtain ⟨s, t⟩ := p
    cases s <;> simp [streams, ih]

theorem streams_zero (l : List (Stream × PyStr)) : streams (some 0) l = (l.map (·.2), []) := by
  induction l with
  | nil => rfl
  | cons p l ih =>
    obtain ⟨s, t⟩ := p
    simp [streams, ih]

/-- Something which starts with a character that is not dropped stays. -/
theorem infix_dropWhile {p : Char → Bool} {s : PyStr} (hs : s ≠ []) (h : ∀ c, s.head? = some c → p c = false) :
    ∀ a z : PyStr, ∃ a', (a ++ s ++ z).dropWhile p = a' ++ s ++ z := by
  intro a z
  obtain ⟨c, r, rfl⟩ : ∃ c r, s = c :: r := by
    cases s with
    | nil => exact absurd rfl hs
    | cons c r => exact ⟨c, r, rfl⟩
  have hc : p c = false := h c rfl
  induction a with
  | nil => exact ⟨[], by simp [hc]⟩
  | cons x a ih =>
    cases hx : p x with
    | true =>
      obtain ⟨a', h'⟩ := ih
      exact ⟨a', by simpa [hx] using h'⟩
    | false => exact ⟨x :: a, by simp [hx]⟩

/-- Something without outer white space stays when what is around it is stripped. -/
theorem shows_strip {s m : PyStr} (h : Stripped isSpace s) (hm : Shows m s) : Shows (strip m) s := by
  by_cases hs : s = []
  · subst hs; exact ⟨[], strip m, by simp⟩
  obtain ⟨a, z, rfl⟩ := hm
  unfold strip stripBy lstripBy rstripBy
  obtain ⟨a', ha⟩ := infix_dropWhile hs h.1 a z
  rw [ha]
  have hr : s.reverse ≠ [] := by simpa using hs
  obtain ⟨z', hz⟩ := infix_dropWhile (p := isSpace) hr (by
    intro c hc
    rw [List.head?_reverse] at hc
    exact h.2 c hc) z.reverse a'.reverse
  have e : (a' ++ s ++ z).reverse = z.reverse ++ s.reverse ++ a'.reverse := by simp
  rw [e, hz]
  exact ⟨a', z'.reverse, by simp⟩

theorem shows_streamMsg (s : PyStr) : Shows (streamMsg s) (strip s) := by
  unfold streamMsg
  by_cases h : s = []
  · subst h; rw [if_pos rfl]; exact ⟨[], [], rfl⟩
  · rw [if_neg h]; exact ⟨[], "\n".toList, by rw [List.nil_append]⟩

theorem Shows.left {m t : PyStr} (a : PyStr) (h : Shows m t) : Shows (a ++ m) t := by
  obtain ⟨x, y, rfl⟩ := h
  exact ⟨a ++ x, y, by simp only [List.append_assoc]⟩

theorem Shows.right {m t : PyStr} (z : PyStr) (h : Shows m t) : Shows (m ++ z) t := by
  obtain ⟨x, y, rfl⟩ := h
  exact ⟨x, y ++ z, by simp only [List.append_assoc]⟩

theorem shows_nil (m : PyStr) : Shows m [] := ⟨[], m, rfl⟩

theorem shows_tail {msg t : PyStr} (ht : Stripped isSpace t) (h : Shows msg t) :
    Shows (if msg = [] then [] else "\n\n".toList ++ strip msg) t := by
  by_cases e : msg = []
  · rw [if_pos e]
    obtain ⟨a, z, hm⟩ := h
    rw [e] at hm
    have h1 := congrArg List.length hm
    simp only [List.length_append, List.length_nil] at h1
    have : t = [] := List.eq_nil_of_length_eq_zero (by omega)
    subst this; exact shows_nil _
  · rw [if_neg e]; exact (shows_strip ht h).left _

theorem head_none (c : Nat) : Head none c =
    "The following command ".toList ++ ("failed".toList ++ " with exit code ".toList ++ ofNat c) ++ ":".toList ++
      "\n  ".toList := by
  have e1 : "The following command failed with exit code ".toList =
    "The following command ".toList ++ ("failed".toList ++ " with exit code ".toList) := by decide +kernel
  have e2 : ":\n  ".toList = ":".toList ++ "\n  ".toList := by decide +kernel
  unfold Head
  rw [e1, e2]
  simp only [List.append_assoc]

theorem head_some (h : PyStr) (c : Nat) : Head (some h) c =
    "Ran the following command on host '".toList ++ h ++ "', but it ".toList ++
      ("failed".toList ++ " with exit code ".toList ++ ofNat c) ++ ":".toList ++ "\n  ".toList := by
  have e1 : "', but it failed with exit code ".toList =
    "', but it ".toList ++ ("failed".toList ++ " with exit code ".toList) := by decide +kernel
  have e2 : ":\n  ".toList = ":".toList ++ "\n  ".toList := by decide +kernel
  unfold Head
  dsimp only
  rw [e1, e2]
  simp only [List.append_assoc]

/-- The message of a command which failed. -/
theorem failureMsg_shows (fl : Rat → Rat) (host : Remote) (cmd out err : PyStr) (c : Nat) (t : Option Nat) :
    ∃ tail, failureMsg fl host cmd out err (some c) t true = .ok (Head host c ++ cmd ++ tail) ∧
      Shows tail (strip out) ∧ Shows tail (strip err) := by
  refine ⟨if streamMsg out ++ streamMsg err = [] then [] else "\n\n".toList ++ strip (streamMsg out ++ streamMsg err),
    ?_, shows_tail (stripped_stripBy _ _) ((shows_streamMsg out).right _),
    shows_tail (stripped_stripBy _ _) ((shows_streamMsg err).left _)⟩
  cases host with
  | none => rw [head_none]; rfl
  | some h => rw [head_some]; rfl

/-- One line on stderr and nothing else. -/
theorem streams_one (ls : List (Stream × PyStr)) :
    (streams none ls).1.length = 0 ∧ (streams none ls).2.length = 1 ↔ ∃ l, ls = [(.err, l)] := by
  constructor
  · rintro ⟨h1, h2⟩
    match ls with
    | [] => exact absurd h2 (by simp [streams])
    | (.out, l) :: r => exact absurd h1 (by simp [streams])
    | [(.err, l)] => exact ⟨l, rfl⟩
    | (.err, l) :: (.out, l2) :: r => exact absurd h1 (by simp [streams])
    | (.err, l) :: (.err, l2) :: r => exact absurd h2 (by simp [streams])
  · rintro ⟨l, rfl⟩
    exact ⟨rfl, rfl⟩

theorem finish_not_found (fl : Rat → Rat) (host : Remote) (cmd : PyStr) (o : Opts) (b : Beh) :
    finish fl host cmd o none b = .notFound ↔ ShellMissing b := by
  unfold finish ShellMissing
  rw [← streams_one]
  cases hc : b.code with
  | none => simp
  | some c =>
    by_cases h127 : c = 127
    · simp [h127]
    · simp [h127]

/-- Without `mix_output` a new process manager runs the command and does nothing else. -/
theorem runSsh_plain (fl : Rat → Rat) (host cmd : PyStr) (o : Opts) (early : Nat) (b : Beh) (hmix : o.mix = false)
    (hsh : o.shell = true ∨ o.intsh ≠ some true) :
    (runSsh fl host cmd o early b .new).2 = finish fl (some host) cmd o none b := by
  have h1 : (!o.shell && o.intsh.getD o.shell) = false := by
    cases hs : o.shell
    · rcases hsh with h | h
      · rw [hs] at h; cases h
      · cases hi : o.intsh with
        | none => rfl
        | some v => cases v
                    · rfl
                    · exact absurd hi h
    · rfl
  unfold runSsh
  dsimp only
  rw [h1, hmix]
  by_cases h2 : (!o.shell || !o.intsh.getD o.shell || Sess.new.busy) = true
  · rw [if_neg (by decide), if_pos h2]; rfl
  · rw [if_neg (by decide), if_neg h2]; rfl

/-- The state after calls without `mix_output`. -/
theorem history_plain (fl : Rat → Rat) (host : PyStr) (calls : List Call) (h : ∀ c ∈ calls, c.opts.mix = false)
    (s : Sess) (hs : s.shell ≠ some true) : (history fl host calls s).shell ≠ some true := by
  induction calls generalizing s with
  | nil => exact hs
  | cons c calls ih =>
    refine ih (fun d hd => h d (List.mem_cons_of_mem _ hd)) _ ?_
    have hm := h c (List.mem_cons_self ..)
    unfold runSsh
    dsimp only
    split
    · exact hs
    · split
      · exact hs
      · rw [hm]
        have : s.shell.getD false = false := by
          cases hx : s.shell with
          | none => rfl
          | some b => cases b with
            | false => rfl
            | true => exact absurd hx hs
        rw [this]
        intro e; cases e

/-- The flag stays. -/
theorem history_combined (fl : Rat → Rat) (host : PyStr) (calls : List Call) (s : Sess) (hs : s.shell = some true) :
    (history fl host calls s).shell = some true := by
  induction calls generalizing s with
  | nil => exact hs
  | cons c calls ih =>
    refine ih _ ?_
    unfold runSsh
    dsimp only
    split
    · exact hs
    · split
      · exact hs
      · rw [hs]; rfl

/-- The shell is free if all commands ended. -/
theorem history_free (fl : Rat → Rat) (host : PyStr) (calls : List Call) (h : ∀ c ∈ calls, c.beh.code.isSome = true)
    (s : Sess) (hs : s.busy = false) : (history fl host calls s).busy = false := by
  induction calls generalizing s with
  | nil => exact hs
  | cons c calls ih =>
    refine ih (fun d hd => h d (List.mem_cons_of_mem _ hd)) _ ?_
    have hm := h c (List.mem_cons_self ..)
    unfold runSsh
    dsimp only
    split
    · exact hs
    · split
      · exact hs
      · cases hc : c.beh.code with
        | none => rw [hc] at hm; cases hm
        | some _ => rfl

end Verif.RunCmd
