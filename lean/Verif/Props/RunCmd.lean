import Verif.Lemmas.RunCmd

/-!
C121: the outcome of a command is reported right, whatever ran before.
-/

namespace Verif.RunCmd

open Verif.ProcOut (Stream)
open Verif.PyStr (strip ofNat)

/-! ### The result of `run()` -/

/-- What `run()` returns on the local host: the lines of the two streams, or all the lines in the order they were printed
and an empty stderr if the streams are mixed. -/
theorem C121_local (fl : Rat → Rat) (cmd : PyStr) (o : Opts) (b : Beh) (c : Nat) (hc : b.code = some c)
    (h127 : c ≠ 127) (hcap : o.capture = true) (hf : o.shell = true ∨ b.found = true) :
    runLocal fl cmd o b = if o.mix then .ok (All b) [] c else .ok (Own .out b) (Own .err b) c := by
  have h0 : (!o.shell && !b.found) = false := by rcases hf with h | h <;> simp [h]
  unfold runLocal finish
  rw [h0]
  cases hm : o.mix
  · simp [hc, h127, hcap, streams_none, Own]
  · simp [hc, h127, hcap, streams_zero, All]

/-- Full statement (does not hold, see `C121_mix_counterexample`): whatever commands ran before, in the same or in other
sessions, ended or timed out, the outcome is the one of a new process manager. What is missing: none of the earlier
calls had `mix_output`. -/
theorem C121_history_partial (fl : Rat → Rat) (host : PyStr) (calls : List Call)
    (hmix : ∀ c ∈ calls, c.opts.mix = false) (cmd : PyStr) (o : Opts) (early : Nat) (b : Beh) :
    (runSsh fl host cmd o early b (history fl host calls .new)).2 = (runSsh fl host cmd o early b .new).2 := by
  have h := history_plain fl host calls hmix .new (by intro e; cases e)
  generalize history fl host calls .new = s at h
  have hw : s.shell.getD false = false := by
    cases hx : s.shell with
    | none => rfl
    | some b => cases b with
      | false => rfl
      | true => exact absurd hx h
  unfold runSsh
  dsimp only
  rw [hw]
  by_cases h1 : (!o.shell && o.intsh.getD o.shell) = true
  · rw [if_pos h1, if_pos h1]
  · rw [if_neg h1, if_neg h1]
    have e : (Sess.new.shell.getD false) = false := rfl
    rw [e]
    by_cases h2 : (!o.shell || !o.intsh.getD o.shell || s.busy) = true <;>
    by_cases h3 : (!o.shell || !o.intsh.getD o.shell || Sess.new.busy) = true <;>
    simp only [if_pos, h2, h3] <;> rfl

/-- On a new process manager the streams are the ones of the command. -/
theorem C121_ssh (fl : Rat → Rat) (host : PyStr) (cmd : PyStr) (o : Opts) (early : Nat) (b : Beh) (c : Nat)
    (hc : b.code = some c) (h127 : c ≠ 127) (hcap : o.capture = true) (hmix : o.mix = false)
    (hsh : o.shell = true ∨ o.intsh ≠ some true) :
    (runSsh fl host cmd o early b .new).2 = .ok (Own .out b) (Own .err b) c := by
  rw [runSsh_plain fl host cmd o early b hmix hsh]
  unfold finish
  simp [hc, h127, hcap, streams_none, Own]

/-- Without `capture_output` there is no output, and everything else is the same. -/
theorem C121_no_capture (fl : Rat → Rat) (cmd : PyStr) (o : Opts) (b : Beh) (c : Nat) (hcap : o.capture = false)
    (hc : b.code = some c) (hn : runLocal fl cmd o b ≠ .notFound) :
    runLocal fl cmd o b = .ok [] [] c ∧
    ∃ out err, runLocal fl cmd { o with capture := true } b = .ok out err c := by
  unfold runLocal at hn ⊢
  dsimp only at hn ⊢
  by_cases h0 : (!o.shell && !b.found) = true
  · rw [if_pos h0] at hn; exact absurd rfl hn
  · rw [if_neg h0] at hn
    rw [if_neg h0, if_neg h0]
    unfold finish at hn ⊢
    dsimp only at hn ⊢
    rw [hc] at hn ⊢
    dsimp only at hn ⊢
    by_cases h1 : c = 127 ∧ (streams (if o.mix then some 0 else none) b.lines).1.length = 0 ∧
        (streams (if o.mix then some 0 else none) b.lines).2.length = 1
    · rw [if_pos h1] at hn; exact absurd rfl hn
    · rw [if_neg h1, if_neg h1, hcap]
      exact ⟨rfl, _, _, rfl⟩

/-- The interactive shell cannot be asked for without a shell: the command does not run. -/
theorem C121_bad_args (fl : Rat → Rat) (host cmd : PyStr) (o : Opts) (early : Nat) (b : Beh) (s : Sess)
    (hs : o.shell = false) (hi : o.intsh = some true) :
    runSsh fl host cmd o early b s =
      (s, .failed (.ok "'shell' argument must be 'True' when 'intsh' is 'True'".toList)) := by
  unfold runSsh
  rw [hs, hi]
  rfl

/-- `mix_output` stays in the interactive shell: once a command ran there with it, every later command which runs there
has its stderr in stdout, whatever commands ran in between. -/
theorem C121_mix_counterexample (fl : Rat → Rat) (host : PyStr) (first : Call) (calls : List Call)
    (hfirst : first.opts.mix = true ∧ first.opts.shell = true ∧ first.opts.intsh = none)
    (hend : ∀ c ∈ first :: calls, c.beh.code.isSome = true) (cmd : PyStr) (o : Opts) (early : Nat) (b : Beh)
    (ho : o.mix = false ∧ o.shell = true ∧ o.intsh = none ∧ o.capture = true) (c : Nat) (hc : b.code = some c) :
    (runSsh fl host cmd o early b (history fl host (first :: calls) .new)).2 = .ok (All b) [] c := by
  obtain ⟨f1, f2, f3⟩ := hfirst
  obtain ⟨o1, o2, o3, o4⟩ := ho
  have hs1 : ((runSsh fl host first.cmd first.opts first.early first.beh .new).1).shell = some true := by
    unfold runSsh; simp [f1, f2, f3, Sess.new]
  have hshell : (history fl host (first :: calls) .new).shell = some true :=
    history_combined fl host calls _ hs1
  have hbusy : (history fl host (first :: calls) .new).busy = false :=
    history_free fl host (first :: calls) hend .new rfl
  generalize history fl host (first :: calls) .new = s at hshell hbusy
  unfold runSsh finish
  simp [o2, o3, o4, hbusy, hshell, hc, streams_zero, All]

/-- With `mix_output` on a remote host, the lines which are received before the streams are combined stay in stderr,
which should be empty. -/
theorem C121_early_counterexample : ∃ (fl : Rat → Rat) (host cmd : PyStr) (o : Opts) (early : Nat) (b : Beh),
    o.mix = true ∧ b.code = some 0 ∧ (runSsh fl host cmd o early b .new).2 = .ok [] [['w', '\n']] 0 :=
  ⟨id, ['h'], ['c'], ⟨true, true, true, none, none⟩, 1, ⟨[(.err, ['w', '\n'])], some 0, true⟩, rfl, rfl,
    by decide +kernel⟩

/-! ### Missing programs -/

/-- When a local command is reported as missing, without `mix_output`. -/
theorem C121_not_found (fl : Rat → Rat) (cmd : PyStr) (o : Opts) (b : Beh) (hmix : o.mix = false) :
    runLocal fl cmd o b = .notFound ↔ (o.shell = false ∧ b.found = false) ∨ ShellMissing b := by
  unfold runLocal
  by_cases h0 : (!o.shell && !b.found) = true
  · rw [if_pos h0]
    exact ⟨fun _ => .inl (by simpa using h0), fun _ => rfl⟩
  · rw [if_neg h0, hmix]
    have hn : ¬(o.shell = false ∧ b.found = false) := by simpa using h0
    constructor
    · intro h; exact .inr ((finish_not_found fl none cmd o b).1 h)
    · rintro (h | h)
      · exact absurd h hn
      · exact (finish_not_found fl none cmd o b).2 h

/-- When a command on a remote host is reported as missing, without `mix_output`. -/
theorem C121_ssh_not_found (fl : Rat → Rat) (host cmd : PyStr) (o : Opts) (early : Nat) (b : Beh)
    (hmix : o.mix = false) (hsh : o.shell = true ∨ o.intsh ≠ some true) :
    (runSsh fl host cmd o early b .new).2 = .notFound ↔ ShellMissing b := by
  rw [runSsh_plain fl host cmd o early b hmix hsh]
  exact finish_not_found fl (some host) cmd o b

/-- With `mix_output` a missing program is not noticed when the command runs in a shell: the result is an ordinary one. -/
theorem C121_mixed_missing_counterexample (fl : Rat → Rat) (cmd : PyStr) (o : Opts) (b : Beh) (hmix : o.mix = true)
    (hsh : o.shell = true) (hcap : o.capture = true) (hb : ShellMissing b) :
    runLocal fl cmd o b = .ok (All b) [] 127 := by
  unfold runLocal finish
  obtain ⟨h, l, hl⟩ := hb
  simp [hsh, hmix, h, streams_zero, hcap, All, hl]

/-- A program which is there, but ends with 127 and prints one line to stderr, is reported as missing. -/
theorem C121_found_counterexample : ∃ (fl : Rat → Rat) (cmd : PyStr) (o : Opts) (b : Beh),
    b.found = true ∧ runLocal fl cmd o b = .notFound :=
  ⟨id, ['c'], ⟨false, true, true, none, none⟩, ⟨[(.err, ['w', '\n'])], some 127, true⟩, rfl, by decide +kernel⟩

/-! ### `run_verify()` and the message -/

/-- `run_verify()` returns exactly when the exit code is 0, and then what `run()` returned. -/
theorem C121_verify_ok (fl : Rat → Rat) (host : Remote) (cmd : PyStr) (o : Opts) (r : Res) (out err : List PyStr)
    (c : Nat) : verify fl host cmd o r = .ok out err c ↔ r = .ok out err c ∧ c = 0 := by
  cases r with
  | ok out' err' c' =>
    unfold verify
    dsimp only
    by_cases h : c' = 0
    · subst h
      rw [if_pos rfl]
      constructor
      · intro e; cases e; exact ⟨rfl, rfl⟩
      · rintro ⟨e, _⟩; exact e
    · rw [if_neg h]
      constructor
      · intro e; cases e
      · rintro ⟨e, h0⟩; cases e; exact absurd h0 h
  | timeOut m => exact ⟨fun e => (nomatch e), fun e => (nomatch e.1)⟩
  | notFound => exact ⟨fun e => (nomatch e), fun e => (nomatch e.1)⟩
  | failed m => exact ⟨fun e => (nomatch e), fun e => (nomatch e.1)⟩

/-- The time-out and the missing program keep their kind. -/
theorem C121_verify_kind (fl : Rat → Rat) (host : Remote) (cmd : PyStr) (o : Opts) (r : Res) :
    (verify fl host cmd o r = .notFound ↔ r = .notFound) ∧
    (∀ m, verify fl host cmd o r = .timeOut m ↔ r = .timeOut m) := by
  cases r with
  | ok out err c =>
    unfold verify
    dsimp only
    by_cases h : c = 0
    · rw [if_pos h]; exact
        ⟨⟨fun e => (nomatch e), fun e => (nomatch e)⟩, fun m => ⟨fun e => (nomatch e), fun e => (nomatch e)⟩⟩
    · rw [if_neg h]; exact
        ⟨⟨fun e => (nomatch e), fun e => (nomatch e)⟩, fun m => ⟨fun e => (nomatch e), fun e => (nomatch e)⟩⟩
  | timeOut m => exact ⟨Iff.rfl, fun _ => Iff.rfl⟩
  | notFound => exact ⟨Iff.rfl, fun _ => Iff.rfl⟩
  | failed m => exact ⟨Iff.rfl, fun _ => Iff.rfl⟩

/-- When the exit code is not 0, the message starts with the exit code and, for a remote host, its name, then comes the
command, and both streams are shown, without outer white space. -/
theorem C121_message (fl : Rat → Rat) (host : Remote) (cmd : PyStr) (o : Opts) (out err : List PyStr) (c : Nat)
    (hc : c ≠ 0) :
    ∃ tail, verify fl host cmd o (.ok out err c) = .failed (.ok (Head host c ++ cmd ++ tail)) ∧
      Shows tail (strip out.flatten) ∧ Shows tail (strip err.flatten) := by
  obtain ⟨tail, h, h1, h2⟩ := failureMsg_shows fl host cmd out.flatten err.flatten c o.timeout
  refine ⟨tail, ?_, h1, h2⟩
  unfold verify
  dsimp only
  rw [if_neg hc, h]

/-- The message when a local command with captured output does not end in time. The default is 24 hours. -/
theorem C121_timeout (fl : Rat → Rat) (cmd : PyStr) (o : Opts) (b : Beh) (d : PyStr)
    (hf : o.shell = true ∨ b.found = true) (hc : b.code = none)
    (hd : Human.duration fl ((o.timeout.getD 86400 : Nat) : Int) true = .ok d) :
    ∃ tail, runLocal fl cmd o b = .timeOut (.ok ("The following command ".toList ++
      ("did not finish within ".toList ++ ofNat (o.timeout.getD 86400) ++ " seconds (".toList ++ d ++ ")".toList) ++
      ":".toList ++ "\n  ".toList ++ cmd ++ tail)) := by
  have h0 : (!o.shell && !b.found) = false := by rcases hf with h | h <;> simp [h]
  unfold runLocal finish failureMsg exitcodeMsg
  rw [h0, hc]
  have ht : TIMEOUT = 86400 := rfl
  simp only [ht, hd]
  exact ⟨_, rfl⟩

/-- The same on a remote host: the message has the name of the host. -/
theorem C121_ssh_timeout (fl : Rat → Rat) (host cmd : PyStr) (o : Opts) (early : Nat) (b : Beh) (d : PyStr)
    (hmix : o.mix = false) (hsh : o.shell = true ∨ o.intsh ≠ some true) (hc : b.code = none)
    (hd : Human.duration fl ((o.timeout.getD 86400 : Nat) : Int) true = .ok d) :
    ∃ tail, (runSsh fl host cmd o early b .new).2 = .timeOut (.ok ("Ran the following command on host '".toList ++
      host ++ "', but it ".toList ++
      ("did not finish within ".toList ++ ofNat (o.timeout.getD 86400) ++ " seconds (".toList ++ d ++ ")".toList) ++
      ":".toList ++ "\n  ".toList ++ cmd ++ tail)) := by
  rw [runSsh_plain fl host cmd o early b hmix hsh]
  unfold finish failureMsg exitcodeMsg
  rw [hc]
  have ht : TIMEOUT = 86400 := rfl
  simp only [ht, hd]
  exact ⟨_, rfl⟩

/-! ### Satisfiability -/

/-- Used in the examples: a command which prints to both streams. -/
def exBeh (c : Option Nat) : Beh := ⟨[(.out, ['a', '\n']), (.err, ['b', '\n']), (.out, ['c', '\n'])], c, true⟩

def exOpts (mix : Bool) : Opts := ⟨mix, true, true, none, none⟩

example : runLocal id ['c'] (exOpts false) (exBeh (some 3)) = .ok [['a', '\n'], ['c', '\n']] [['b', '\n']] 3 := by
  decide +kernel

example : runLocal id ['c'] (exOpts true) (exBeh (some 3)) = .ok [['a', '\n'], ['b', '\n'], ['c', '\n']] [] 3 := by
  decide +kernel

example : (runSsh id ['h'] ['c'] (exOpts false) 0 (exBeh (some 0))
    (history id ['h'] [⟨['x'], exOpts false, 0, exBeh none⟩, ⟨['y'], exOpts false, 0, exBeh (some 1)⟩] .new)).2 =
    .ok [['a', '\n'], ['c', '\n']] [['b', '\n']] 0 := by decide +kernel

example : (runSsh id ['h'] ['c'] (exOpts false) 0 (exBeh (some 0))
    (history id ['h'] [⟨['x'], exOpts true, 0, exBeh (some 0)⟩, ⟨['y'], exOpts false, 0, exBeh (some 1)⟩] .new)).2 =
    .ok [['a', '\n'], ['b', '\n'], ['c', '\n']] [] 0 := by decide +kernel

example : ShellMissing ⟨[(.err, ['n', '\n'])], some 127, false⟩ := ⟨rfl, _, rfl⟩

example : verify id (some ['h']) ['c', 'm'] (exOpts false) (.ok [['a', '\n']] [['b', '\n']] 3) = .failed (.ok
    "Ran the following command on host 'h', but it failed with exit code 3:\n  cm\n\na\nb".toList) := by
  decide +kernel

example : Human.duration id ((none : Option Nat).getD 86400 : Nat) true = .ok "1 days".toList := by decide +kernel

end Verif.RunCmd
