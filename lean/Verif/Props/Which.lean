import Verif.Lemmas.Which

/-!
C126: the program that is found is the one that would run. False in general: on the local host a file in the current
directory comes first, an empty entry of `PATH` is the root directory, without `PATH` there is a `KeyError`; on a remote
host without `which` every look-up fails if there is no program `command` (the built-in one is not used), and a missing
program may be an error.
-/

namespace Verif.Which

open Verif.PyStr (splitC)

/-- What is found on the local host is a program, and it has the asked for name. -/
theorem C126_local_sound (exe : PyStr → Bool) (env : Option PyStr) (m : Bool) (p f : PyStr)
    (h : localWhich exe env m p = .ok (some f)) : exe f = true ∧ (f = p ∨ ∃ d, f = d ++ '/' :: p) := by
  unfold localWhich at h
  split at h
  · cases h
    exact ⟨by assumption, .inl rfl⟩
  · split at h
    · cases h
    · split at h
      · rename_i c hc
        cases h
        refine ⟨List.find?_some hc, .inr ?_⟩
        obtain ⟨d, _, hd⟩ := List.mem_map.1 (List.mem_of_find?_eq_some hc)
        exact ⟨_, hd.symm⟩
      · split at h <;> cases h

/-- An ordinary name which is not the name of a program in the current directory is looked up like the shell does it, if
the entries of `PATH` are not empty and have no quotes. -/
theorem C126_local_partial (exe : PyStr → Bool) (e : PyStr) (m : Bool) (p : PyStr) (hs : '/' ∉ p)
    (hc : exe p = false) (he : ∀ d ∈ splitC ':' e, d ≠ [] ∧ '"' ∉ d) :
    localWhich exe (some e) m p = wanted (shellFinds exe (splitC ':' e) p) m := by
  have hm : ((splitC ':' e).map fun d => PyStr.stripBy (· == '"') d ++ '/' :: p) =
      (splitC ':' e).map fun d => if d = [] then p else d ++ '/' :: p := by
    apply List.map_congr_left
    intro d hd
    obtain ⟨h1, h2⟩ := he d hd
    rw [if_neg h1, PyStr.stripBy_of_stripped (PyStr.stripped_of_all ?_)]
    intro c hc
    simp only [beq_eq_false_iff_ne, ne_eq]
    rintro rfl
    exact h2 hc
  unfold localWhich shellFinds
  rw [hc, if_neg hs]
  simp only [Bool.false_eq_true, if_false]
  rw [hm]
  cases List.find? exe ((splitC ':' e).map fun d => if d = [] then p else d ++ '/' :: p) <;> simp [wanted]

/-- A path of a program is found as it is. -/
theorem C126_local_path (exe : PyStr → Bool) (env : Option PyStr) (m : Bool) (p : PyStr) (hs : '/' ∈ p)
    (hp : exe p = true) : localWhich exe env m p = wanted (shellFinds exe ((env.map (splitC ':')).getD []) p) m := by
  simp [localWhich, shellFinds, hs, hp, wanted]

/-- `/usr/bin/rdmsr` is a program. -/
example : localWhich (· == "/usr/bin/rdmsr".toList) (some "/bin:/usr/bin".toList) true "rdmsr".toList =
    .ok (some "/usr/bin/rdmsr".toList) := by decide +kernel

/-- A file in the current directory comes before the programs in `PATH`: the path that is returned is not the one of the
program which the shell runs. -/
theorem C126_cwd_counterexample : ∃ (exe : PyStr → Bool) (e : PyStr) (p : PyStr), '/' ∉ p ∧
    (∀ d ∈ splitC ':' e, d ≠ [] ∧ '"' ∉ d) ∧ localWhich exe (some e) true p = .ok (some p) ∧
    shellFinds exe (splitC ':' e) p = some ("/bin/".toList ++ p) :=
  ⟨fun f => f == "x".toList || f == "/bin/x".toList, "/bin".toList, "x".toList, by decide +kernel, by decide +kernel,
    by decide +kernel, by decide +kernel⟩

/-- An empty entry of `PATH` is taken for the root directory. -/
theorem C126_empty_counterexample : ∃ (exe : PyStr → Bool) (e : PyStr) (p : PyStr), '/' ∉ p ∧ exe p = false ∧
    localWhich exe (some e) true p = .ok (some ('/' :: p)) ∧
    shellFinds exe (splitC ':' e) p = some ("/usr/bin/".toList ++ p) :=
  ⟨fun f => f == "/x".toList || f == "/usr/bin/x".toList, ":/usr/bin".toList, "x".toList, by decide +kernel,
    by decide +kernel, by decide +kernel, by decide +kernel⟩

/-- A path of no program is looked up in the directories of `PATH`. -/
theorem C126_slash_counterexample : ∃ (exe : PyStr → Bool) (e : PyStr) (p f : PyStr),
    (∀ d ∈ splitC ':' e, d ≠ [] ∧ '"' ∉ d) ∧ localWhich exe (some e) true p = .ok (some f) ∧
    shellFinds exe (splitC ':' e) p = none :=
  ⟨fun f => f == "/usr/bin/x".toList, "/usr".toList, "bin/x".toList, "/usr/bin/x".toList, by decide +kernel,
    by decide +kernel, by decide +kernel⟩

/-- Without `PATH`, looking for a program that is not there is a `KeyError`, even if it is not required. -/
theorem C126_nopath_counterexample (exe : PyStr → Bool) (m : Bool) (p : PyStr) (h : exe p = false) :
    localWhich exe none m p = .error .pyKeyError := by simp [localWhich, h]

/-- On a remote host, every call gets what it is to get, whatever was called before: if there is a program `which`, or if
there is a program `command` and it tells with the exit code 1 that it does not know a name. -/
theorem C126_remote_partial (h : Host) (hh : h.Sane) (calls : List (Bool × PyStr))
    (ok : ∀ c ∈ calls, h.which = true ∨ (h.command = true ∧ (h.path c.2 = none → h.unknown = 1))) :
    (session h.ask none calls).map (·.2) = calls.map fun c => wanted (h.path c.2) c.1 := by
  have later : ∀ calls : List (Bool × PyStr),
      (∀ c ∈ calls, h.which = true ∨ (h.command = true ∧ (h.path c.2 = none → h.unknown = 1))) →
      (session h.ask (some (tool h)) calls).map (·.2) = calls.map fun c => wanted (h.path c.2) c.1 := by
    intro calls
    induction calls with
    | nil => intro _; rfl
    | cons c calls ih =>
      intro ok
      rw [session, ssh_cached h ((ok c (by simp)).imp_right (·.1)), List.map_cons, List.map_cons, ih fun c hc => ok c (by simp [hc])]
      simp only
      rw [answer_ok hh c.1 c.2 (ok c (by simp))]
  cases calls with
  | nil => rfl
  | cons c calls =>
    rw [session, ssh_new h ((ok c (by simp)).imp_right (·.1)), List.map_cons, List.map_cons, later calls fun c hc => ok c (by simp [hc])]
    simp only
    rw [answer_ok hh c.1 c.2 (ok c (by simp))]

/-- One command per call, except for the first call on a host without `which`. -/
theorem C126_remote_commands (h : Host) (ha : h.which = true ∨ h.command = true) (c : Bool × PyStr) (calls : List (Bool × PyStr)) :
    (session h.ask none (c :: calls)).map (·.1) =
      if h.which then [.which] :: List.replicate calls.length [.which]
      else [.which, .command] :: List.replicate calls.length [.command] := by
  have later : ∀ calls : List (Bool × PyStr),
      (session h.ask (some (tool h)) calls).map (·.1) = List.replicate calls.length [tool h] := by
    intro calls
    induction calls with
    | nil => rfl
    | cons c calls ih =>
      rw [session, ssh_cached h ha, List.map_cons, ih]
      rfl
  rw [session, ssh_new h ha, List.map_cons, later]
  cases hw : h.which <;> simp [tool, hw]

/-- A host with `which`, with an alias for `ls`. -/
private def hostA : Host :=
  ⟨fun p => if p = "ls".toList then some "/bin/ls".toList else none,
    fun p => if p = "ls".toList then some "alias ls='ls -l'".toList else none, true, false, 127⟩

/-- Satisfiability: both `ls` and a name which is not there are asked for. -/
example : hostA.Sane where
  slash p f h := by simp only [hostA] at h; split at h <;> cases h; rfl
  line p f h := by simp only [hostA] at h; split at h <;> cases h; decide +kernel
  last p f c h e := by
    simp only [hostA] at h; split at h <;> cases h
    have : "/bin/ls".toList.getLast? = some 's' := by decide +kernel
    rw [this] at e; cases e; decide
  nick p a h := by simp only [hostA] at h; split at h <;> cases h; decide +kernel
  aliasLast p a c h e := by
    simp only [hostA] at h; split at h <;> cases h
    have : "alias ls='ls -l'".toList.getLast? = some '\'' := by decide +kernel
    rw [this] at e; cases e; decide
  aliasLine p a h := by simp only [hostA] at h; split at h <;> cases h; decide +kernel

example : (session hostA.ask none [(false, "x".toList), (true, "ls".toList), (true, "x".toList)]).map (·.2) =
    [.ok none, .ok (some "/bin/ls".toList), .error .notFound] := by decide +kernel

/-- A host without `which`, where `command` has the exit code 127 for unknown names: looking for a program that is not
there fails, even if it is not required. -/
theorem C126_dash_counterexample (h : Host) (p : PyStr) (hw : h.which = false) (hc : h.command = true)
    (hu : h.unknown = 127) (hp : h.path p = none) : (sshWhich h.ask none false p).res = .error .error := by
  rw [ssh_new h (.inr hc), tool, hw, if_neg (by simp)]
  simp [Host.ask, hc, hp, answer, hu]

example : ∃ h : Host, h.which = false ∧ h.command = true ∧ h.unknown = 127 ∧ h.path [] = none :=
  ⟨⟨fun _ => none, fun _ => none, false, true, 127⟩, rfl, rfl, rfl, rfl⟩

/-- A host without the programs `which` and `command`, as it is usual for small ones: every program is missing, even if it
is there, and this is an error, even if the program is not required. All shells have a built-in `command`, but it is not
used: `exec` needs a program. -/
theorem C126_exec_counterexample (h : Host) (m : Bool) (p : PyStr) (hw : h.which = false) (hc : h.command = false) :
    (sshWhich h.ask none m p).res = .error .notFound := by
  simp [sshWhich, tryTools, run, Host.ask, hw, hc]

example : ∃ h : Host, h.which = false ∧ h.command = false ∧ h.path "ls".toList = some "/bin/ls".toList :=
  ⟨⟨fun _ => some "/bin/ls".toList, fun _ => none, false, false, 127⟩, rfl, rfl, rfl⟩

/-- If the program `which` goes away, its absence is reported as the absence of the program, even if that is not
required. -/
theorem C126_gone_counterexample (h : Host) (p : PyStr) (hw : h.which = false) :
    (sshWhich h.ask (some .which) false p).res = .error .notFound := by
  simp [sshWhich, tryTools, run, Host.ask, hw]

end Verif.Which
