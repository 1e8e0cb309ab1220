import Verif.Lemmas.Logging

/-! C116: messages go to the right stream with the right prefix, and the exit status. -/

namespace Verif.Logging

open Spec

/-- Whatever is called after the logger was configured, the streams and the log files get exactly the texts of the
specification, in the order of the calls. -/
theorem C116_trace (argv : List PyStr) (have' tty : Bool) (pre : PyStr) (level : Option Nat) (col : Option Bool)
    (ops : List Op) :
    (run (configure argv have' tty pre level col {}) ops).2 =
      trace (Spec.colored argv have' tty col) (threshold argv level) pre [] [] ops :=
  (run_eq ops (inv_configure argv have' tty pre level col)).1

example : (run (configure ["pepc".toList, "-q".toList] true false "pepc".toList none none {})
    [.log ⟨20, "hidden".toList, [], [], [], []⟩, .log ⟨30, "shown".toList, [], [], [], []⟩]).2 =
    [(.stderr, "pepc: warning: shown\n".toList)] := by decide +kernel

example : (run (configure ["pepc".toList] true true "pepc".toList none none {})
    [.log ⟨20, "data".toList, [], [], [], []⟩, .log ⟨40, "bad".toList, [], [], [], []⟩]).2 =
    [(.stdout, "data\n".toList),
     (.stderr, Char.ofNat 27 :: "[31m".toList ++ Char.ofNat 27 :: "[1mpepc: error".toList ++
       Char.ofNat 27 :: "[0m: bad\n".toList)] := by decide +kernel

/-- The standard output gets nothing but the information messages, as they are: what the user sees there is not mixed with
diagnostics. -/
theorem C116_stdout (argv : List PyStr) (have' tty : Bool) (pre : PyStr) (level : Option Nat) (col : Option Bool)
    (ops : List Op) :
    (run (configure argv have' tty pre level col {}) ops).2.filterMap
      (fun x => if x.1 = .stdout then some x.2 else none) =
    if threshold argv level ≤ 20 then
      ops.filterMap fun
        | .log r => if r.level = 20 then some (r.msg ++ ['\n']) else none
        | _ => none
    else [] := by
  rw [C116_trace]
  generalize threshold argv level = t
  generalize Spec.colored argv have' tty col = c
  have hfiles : ∀ (files : List PyStr) (w : PyStr),
      (files.map fun f => ((Dest.file f, w) : Dest × PyStr)).filterMap
        (fun x => if x.1 = .stdout then some x.2 else none) = [] := by
    intro files w
    refine List.filterMap_eq_nil_iff.mpr fun x hx => ?_
    obtain ⟨f, _, rfl⟩ := List.mem_map.mp hx
    rfl
  have hout : ∀ (pre : PyStr) (files : List PyStr) (r : Record),
      (out c t pre files r).filterMap (fun x => if x.1 = .stdout then some x.2 else none) =
        if r.level = 20 ∧ t ≤ 20 then [r.msg ++ ['\n']] else [] := by
    intro pre files r
    unfold out
    by_cases h20 : r.level = 20
    · rw [h20]
      by_cases ht : t ≤ 20
      · rw [if_pos (by simp [known, ht]), if_pos ⟨rfl, ht⟩, List.filterMap_cons, hfiles]
        have : text c pre r = r.msg := by simp [text, h20]
        rw [this]
        rfl
      · rw [if_neg (by simp [ht]), if_neg (by simp [ht])]
        rfl
    · have hn : ¬ (r.level = 20 ∧ t ≤ 20) := fun h => h20 h.1
      rw [if_neg hn]
      split
      · rw [List.filterMap_cons, hfiles]
        unfold dest
        rw [if_neg h20]
        rfl
      · rfl
  suffices h : ∀ (pre : PyStr) (seen files : List PyStr),
      (trace c t pre seen files ops).filterMap (fun x => if x.1 = .stdout then some x.2 else none) =
        if t ≤ 20 then
          ops.filterMap fun
            | .log r => if r.level = 20 then some (r.msg ++ ['\n']) else none
            | _ => none
        else [] from h pre [] []
  induction ops with
  | nil => intro _ _ _; split <;> rfl
  | cons op ops ih =>
    intro pre seen files
    cases op with
    | log r =>
      rw [trace, List.filterMap_append, ih, hout]
      by_cases ht : t ≤ 20 <;> by_cases h : r.level = 20 <;> simp [ht, h]
    | warnOnce site r =>
      rw [trace, List.filterMap_append, ih]
      split
      · rfl
      · rw [hout, if_neg (fun h => absurd h.1 (by show ¬ (30 : Nat) = 20; decide))]
        rfl
    | setPrefix q => rw [trace, ih]; rfl
    | logFile q => rw [trace, ih]; rfl

example : (run (configure [] true true [] none none {})
    [.log ⟨20, "a".toList, [], [], [], []⟩, .warnOnce "f:1".toList ⟨30, "b".toList, [], [], [], []⟩,
     .log ⟨20, "c".toList, [], [], [], []⟩]).2.filterMap (fun x => if x.1 = .stdout then some x.2 else none) =
    ["a\n".toList, "c\n".toList] := by decide +kernel

/-- Option '-q': what is printed is the same as if nobody asked to print anything less than a warning, and the warnings and
the errors are those printed without the option. Nothing goes to the standard output. Option '-d' does not change that. -/
theorem C116_quiet (argv : List PyStr) (have' tty : Bool) (pre : PyStr) (col : Option Bool) (ops : List Op)
    (hq : "-q".toList ∈ argv) :
    (run (configure argv have' tty pre none col {}) ops).2 =
      (run (configure argv have' tty pre (some 20) col {}) (ops.filter fun op => !minor op)).2 ∧
    ∀ x ∈ (run (configure argv have' tty pre none col {}) ops).2, x.1 ≠ .stdout := by
  have ht : threshold argv none = 30 := by
    unfold threshold
    rw [if_neg (by show ¬ ((0 : Nat) ≠ 0); decide), if_pos hq]
  constructor
  · rw [C116_trace, C116_trace, ht]
    show _ = trace _ 20 pre [] [] _
    generalize Spec.colored argv have' tty col = c
    suffices h : ∀ (pre : PyStr) (seen files : List PyStr),
        trace c 30 pre seen files ops = trace c 20 pre seen files (ops.filter fun op => !minor op) from h pre [] []
    induction ops with
    | nil => intro _ _ _; rfl
    | cons op ops ih =>
      intro pre seen files
      cases op with
      | log r =>
        rw [trace, ih]
        by_cases h : r.level < 30
        · have hm : minor (.log r) = true := by simp [minor, h]
          rw [List.filter_cons, hm]
          have : out c 30 pre files r = [] := by
            unfold out
            rw [if_neg]
            simp only [Bool.and_eq_true, decide_eq_true_eq]
            omega
          rw [this]
          rfl
        · have hm : minor (.log r) = false := by simp [minor, h]
          rw [List.filter_cons, hm]
          show _ = trace c 20 pre seen files (.log r :: _)
          rw [trace]
          congr 1
          unfold out
          rw [decide_eq_true (show 30 ≤ r.level by omega), decide_eq_true (show 20 ≤ r.level by omega)]
      | warnOnce site r =>
        show _ = trace c 20 pre seen files (.warnOnce site r :: _)
        rw [trace, trace, ih]
        rfl
      | setPrefix q => exact ih q seen files
      | logFile q => exact ih pre seen _
  · intro x hx he
    have h := C116_stdout argv have' tty pre none col ops
    rw [ht, if_neg (by decide)] at h
    have := List.filterMap_eq_nil_iff.mp h x hx
    rw [if_pos he] at this
    cases this

example : (run (configure ["-d".toList, "-q".toList] true false "p".toList none none {})
    [.log ⟨10, "a".toList, [], [], [], []⟩, .log ⟨21, "b".toList, [], [], [], []⟩,
     .log ⟨50, "c".toList, [], [], [], []⟩]).2 = [(.stderr, "p: critical error: c\n".toList)] := by decide +kernel

/-- A log file gets every line of both streams from the moment it was configured, in the same order. -/
theorem C116_log_file (argv : List PyStr) (have' tty : Bool) (pre : PyStr) (level : Option Nat) (col : Option Bool)
    (before ops : List Op) (f : PyStr) (hb : ∀ op ∈ before, op ≠ .logFile f) (ho : ∀ op ∈ ops, op ≠ .logFile f) :
    (run (configure argv have' tty pre level col {}) (before ++ .logFile f :: ops)).2.filterMap
      (fun x => if x.1 = .file f then some x.2 else none) =
    (run (run (configure argv have' tty pre level col {}) (before ++ [.logFile f])).1 ops).2.filterMap
      (fun x => if x.1 = .stdout ∨ x.1 = .stderr then some x.2 else none) := by
  generalize hc : Spec.colored argv have' tty col = c
  generalize hth : threshold argv level = t
  have hinv := inv_configure argv have' tty pre level col
  rw [hc, hth] at hinv
  generalize configure argv have' tty pre level col {} = lg at hinv ⊢
  have hfiles : ∀ (files : List PyStr) (w : PyStr), f ∉ files →
      (files.map fun g => ((Dest.file g, w) : Dest × PyStr)).filterMap
        (fun x => if x.1 = .file f then some x.2 else none) = [] := by
    intro files w hf
    refine List.filterMap_eq_nil_iff.mpr fun x hx => ?_
    obtain ⟨g, hg, rfl⟩ := List.mem_map.mp hx
    rw [if_neg]
    intro e
    cases e
    exact hf hg
  have hdest : ∀ l, dest l ≠ .file f ∧ (dest l = .stdout ∨ dest l = .stderr) := by
    intro l
    unfold dest
    split <;> simp
  -- Nothing before the file is configured.
  have hout0 : ∀ pre files (r : Record), f ∉ files → (out c t pre files r).filterMap
      (fun x => if x.1 = .file f then some x.2 else none) = [] := by
    intro pre files r hf
    unfold out
    split
    · rw [List.filterMap_cons, hfiles _ _ hf, if_neg (hdest _).1]
    · rfl
  have hout1 : ∀ pre files (r : Record), files.count f = 1 → (out c t pre files r).filterMap
      (fun x => if x.1 = .file f then some x.2 else none) =
      (out c t pre files r).filterMap (fun x => if x.1 = .stdout ∨ x.1 = .stderr then some x.2 else none) := by
    intro pre files r hf
    unfold out
    split
    · rw [List.filterMap_cons, List.filterMap_cons]
      simp only [if_neg (hdest r.level).1, if_pos (hdest r.level).2]
      generalize text c pre r ++ ['\n'] = w
      have h2 : ∀ fs : List PyStr, (fs.map fun g => ((Dest.file g, w) : Dest × PyStr)).filterMap
          (fun x => if x.1 = .stdout ∨ x.1 = .stderr then some x.2 else none) = [] := by
        intro fs
        refine List.filterMap_eq_nil_iff.mpr fun x hx => ?_
        obtain ⟨g, _, rfl⟩ := List.mem_map.mp hx
        rw [if_neg (by simp)]
      have h3 : ∀ fs : List PyStr, (fs.map fun g => ((Dest.file g, w) : Dest × PyStr)).filterMap
          (fun x => if x.1 = .file f then some x.2 else none) = List.replicate (fs.count f) w := by
        intro fs
        induction fs with
        | nil => rfl
        | cons g fs ih =>
          rw [List.map_cons, List.filterMap_cons, List.count_cons, ih]
          by_cases hg : g = f
          · subst hg
            simp [List.replicate_succ]
          · have : ¬ ((Dest.file g, w) : Dest × PyStr).1 = .file f := fun e => hg (by cases e; rfl)
            simp [this, hg]
      rw [h2, h3, hf]
      rfl
    · rfl
  have hafter : ∀ (ops : List Op), (∀ op ∈ ops, op ≠ .logFile f) → ∀ (pre : PyStr) (seen files : List PyStr),
      files.count f = 1 → (trace c t pre seen files ops).filterMap
        (fun x => if x.1 = .file f then some x.2 else none) =
      (trace c t pre seen files ops).filterMap
        (fun x => if x.1 = .stdout ∨ x.1 = .stderr then some x.2 else none) := by
    intro ops
    induction ops with
    | nil => intro _ _ _ _ _; rfl
    | cons op ops ih =>
      intro h pre seen files hf
      have ih' := ih fun o ho => h o (List.mem_cons_of_mem _ ho)
      cases op with
      | log r => rw [trace, List.filterMap_append, List.filterMap_append, ih' _ _ _ hf, hout1 _ _ _ hf]
      | warnOnce site r =>
        rw [trace, List.filterMap_append, List.filterMap_append, ih' _ _ _ hf]
        split
        · rfl
        · rw [hout1 _ _ _ hf]
      | setPrefix q => exact ih' _ _ _ hf
      | logFile q =>
        refine ih' _ _ _ ?_
        have hq : q ≠ f := fun e => h _ List.mem_cons_self (by rw [e])
        rw [List.count_append, hf, List.count_singleton, if_neg (by simpa using hq)]
  have key : ∀ (before : List Op), (∀ op ∈ before, op ≠ .logFile f) → ∀ (pre : PyStr) (seen files : List PyStr)
      (lg : Logger), Inv c t pre seen files lg → f ∉ files →
      (run lg (before ++ .logFile f :: ops)).2.filterMap (fun x => if x.1 = .file f then some x.2 else none) =
      (run (run lg (before ++ [.logFile f])).1 ops).2.filterMap
        (fun x => if x.1 = .stdout ∨ x.1 = .stderr then some x.2 else none) := by
    intro before
    induction before with
    | nil =>
      intro _ pre seen files lg hi hf
      have hi' := inv_logFile hi f
      show (run (logFile f lg) ops).2.filterMap _ = (run (logFile f lg) ops).2.filterMap _
      rw [(run_eq ops hi').1]
      refine hafter ops ho pre seen _ ?_
      rw [List.count_append, List.count_eq_zero.mpr hf, List.count_singleton_self]
    | cons op before ih =>
      intro h pre seen files lg hi hf
      have ih' := ih fun o ho => h o (List.mem_cons_of_mem _ ho)
      cases op with
      | log r =>
        show (log lg r ++ (run lg (before ++ .logFile f :: ops)).2).filterMap _ =
          (run (run lg (before ++ [.logFile f])).1 ops).2.filterMap _
        rw [List.filterMap_append, log_eq hi, hout0 _ _ _ hf, ih' _ _ _ _ hi hf]
        rfl
      | warnOnce site r =>
        obtain ⟨hw, hwo⟩ := inv_warn hi site r
        show ((warnOnce lg site r).2 ++ (run (warnOnce lg site r).1 (before ++ .logFile f :: ops)).2).filterMap _ =
          (run (run (warnOnce lg site r).1 (before ++ [.logFile f])).1 ops).2.filterMap _
        rw [List.filterMap_append, hwo, ih' _ _ _ _ hw hf]
        split
        · rfl
        · rw [hout0 _ _ _ hf]
          rfl
      | setPrefix q =>
        have := ih' _ _ _ _ (inv_setPrefix hi q) hf
        exact this
      | logFile q =>
        have hq : q ≠ f := fun e => h _ List.mem_cons_self (by rw [e])
        have := ih' _ _ _ _ (inv_logFile hi q) (by
          intro hm
          rcases List.mem_append.mp hm with hm | hm
          · exact hf hm
          · exact hq (List.mem_singleton.mp hm).symm)
        exact this
  exact key before hb _ _ _ lg hinv List.not_mem_nil

example : (run (configure [] true false "p".toList none none {})
    [.log ⟨20, "early".toList, [], [], [], []⟩, .logFile "/tmp/log".toList, .log ⟨20, "a".toList, [], [], [], []⟩,
     .log ⟨40, "b".toList, [], [], [], []⟩]).2 =
    [(.stdout, "early\n".toList), (.stdout, "a\n".toList), (.file "/tmp/log".toList, "a\n".toList),
     (.stderr, "p: error: b\n".toList), (.file "/tmp/log".toList, "p: error: b\n".toList)] := by decide +kernel

/-- Colors add escape sequences and nothing else: without them the output is that of a logger which does not use colors. -/
theorem C116_colors (argv : List PyStr) (have' tty : Bool) (pre : PyStr) (level : Option Nat) (col : Option Bool)
    (ops : List Op) (hp : NoEsc pre) (ho : ∀ op ∈ ops, Clean op) :
    (run (configure argv have' tty pre level col {}) ops).2.map (fun x => (x.1, plain false x.2)) =
      (run (configure argv have' tty pre level (some false) {}) ops).2 ∧
    ∀ x ∈ (run (configure argv have' tty pre level (some false) {}) ops).2, NoEsc x.2 := by
  have hf : Spec.colored argv have' tty (some false) = false := by
    unfold Spec.colored
    cases have' <;> rfl
  rw [C116_trace, C116_trace, hf]
  refine ⟨plain_trace _ _ ops ho hp [] [], ?_⟩
  have h := plain_trace false (threshold argv level) ops ho hp [] []
  intro x hx
  rw [← h] at hx
  obtain ⟨y, _, rfl⟩ := List.mem_map.mp hx
  have hpl : ∀ (s : PyStr) (b : Bool), NoEsc (plain b s) := by
    intro s
    induction s with
    | nil => intro b; cases b <;> exact List.not_mem_nil
    | cons a s ih =>
      intro b
      cases b with
      | true => exact ih _
      | false =>
        rw [plain]
        split
        · exact ih _
        · rename_i ha
          intro hm
          rcases List.mem_cons.mp hm with hm | hm
          · exact ha hm.symm
          · exact ih _ hm
  exact hpl _ _

example : (run (configure ["--force-color".toList] true false "p".toList none none {})
    [.log ⟨30, "a".toList, [], [], [], []⟩]).2.map (fun x => (x.1, plain false x.2)) =
    [(.stderr, "p: warning: a\n".toList)] := by decide +kernel

/-- The same place of the code warns once: the first time as `warning` would, then never again. -/
theorem C116_warn_once (argv : List PyStr) (have' tty : Bool) (pre : PyStr) (level : Option Nat) (col : Option Bool)
    (ops : List Op) (site : PyStr) (r : Record) :
    (step (run (configure argv have' tty pre level col {}) ops).1 (.warnOnce site r)).2 =
      if site ∈ sites ops then []
      else (step (run (configure argv have' tty pre level col {}) ops).1 (.log { r with level := 30 })).2 := by
  obtain ⟨_, p, s, f, hi, hs⟩ := run_eq ops (inv_configure argv have' tty pre level col)
  show (warnOnce _ site r).2 = if _ then [] else log _ _
  rw [(inv_warn hi site r).2, log_eq hi]
  have : site ∈ s ↔ site ∈ sites ops := by
    rw [hs]
    exact ⟨fun h => h.elim (fun h => absurd h List.not_mem_nil) id, .inr⟩
  by_cases h : site ∈ s
  · rw [if_pos h, if_pos (this.mp h)]
  · rw [if_neg h, if_neg fun h' => h (this.mpr h')]

example : "f:1".toList ∈ sites [.log ⟨20, [], [], [], [], []⟩, .warnOnce "f:1".toList ⟨30, [], [], [], [], []⟩] := by
  decide +kernel

/-- FALSE claim: messages are lost only if they were printed already. What is remembered is the place, so a message with
different contents (for example about another CPU) from the same place is never printed. -/
theorem C116_warn_once_counterexample :
    (run (configure [] true false "p".toList none none {})
      [.warnOnce "f:1".toList ⟨30, "CPU 1".toList, [], [], [], []⟩,
       .warnOnce "f:1".toList ⟨30, "CPU 2".toList, [], [], [], []⟩]).2 =
    [(.stderr, "p: warning: CPU 1\n".toList)] := by decide +kernel

/-- FALSE claim: a logger configured again without colors has none. The colors of the first configuration stay. -/
theorem C116_reconfigure_counterexample :
    (run (configure [] true true "p".toList none (some false)
      (configure [] true true "p".toList none none {})) [.log ⟨30, "a".toList, [], [], [], []⟩]).2 ≠
    (run (configure [] true true "p".toList none (some false) {}) [.log ⟨30, "a".toList, [], [], [], []⟩]).2 := by
  decide +kernel

/-- `error_out()` ends the program with 1, and its message is the last line, on the standard error, unless somebody raised the
threshold above errors; before it there is only the traceback, and that only when debugging. -/
theorem C116_error_out (argv : List PyStr) (have' tty : Bool) (pre : PyStr) (level : Option Nat) (col : Option Bool)
    (ops : List Op) (lines : List PyStr) (msg : PyStr) :
    ∃ p fs tb, errorOut have' (run (configure argv have' tty pre level col {}) ops).1 false lines msg =
      (tb ++ out (Spec.colored argv have' tty col) (threshold argv level) p fs
        ⟨40, msg, [], [], [], []⟩, 1) ∧
      (threshold argv level ≠ 10 → tb = []) ∧ ∀ x ∈ tb, x.1 ≠ .stdout := by
  obtain ⟨_, p, s, f, hi, _⟩ := run_eq ops (inv_configure argv have' tty pre level col)
  generalize (run (configure argv have' tty pre level col {}) ops).1 = lg at hi ⊢
  refine ⟨p, f, if false || decide (lg.level = DEBUG) then printTraceback have' lg ERRINFO lines else [], ?_, ?_, ?_⟩
  · unfold errorOut
    rw [log_eq hi]
    rfl
  · intro h
    rw [if_neg]
    rw [hi.level_eq]
    simp only [Bool.false_or, decide_eq_true_eq]
    exact h
  · have hlog : ∀ m : PyStr, ∀ x ∈ log lg { level := ERRINFO, msg := m }, x.1 ≠ .stdout := by
      intro m x hx
      rw [log_eq hi] at hx
      unfold out at hx
      split at hx
      · rcases List.mem_cons.mp hx with rfl | hx
        · show dest 41 ≠ _
          decide
        · obtain ⟨g, _, rfl⟩ := List.mem_map.mp hx
          intro e
          cases e
      · cases hx
    intro x hx
    split at hx
    · unfold printTraceback at hx
      dsimp only at hx
      split at hx
      · cases hx
      · rcases List.mem_append.mp hx with hx | hx
        · exact hlog _ x hx
        · rcases List.mem_append.mp hx with hx | hx
          · exact hlog _ x hx
          · exact hlog _ x hx
    · cases hx

example : errorOut true (configure ["-q".toList] true false "pepc".toList none none {}) false
    ["Traceback".toList, "  File \"a\", line 1".toList, "    x()".toList, "Error".toList] "no CPU".toList =
    ([(.stderr, "pepc: error: no CPU\n".toList)], 1) := by decide +kernel

/-- FALSE claim: what is not colored has no escape sequences. The traceback has them whenever the coloring library is
installed. -/
theorem C116_traceback_counterexample :
    ∃ x ∈ (errorOut true (configure ["-d".toList] true false "pepc".toList none (some false) {}) false
      ["Traceback".toList, "  File \"a\", line 1".toList, "    x()".toList, "Error".toList] "no CPU".toList).1,
      Char.ofNat 27 ∈ x.2 := by decide +kernel

/-- The exit status tells whether the command was carried out: it is 0 if and only if the arguments were parsed, there was a
subcommand, and it succeeded (with every dataset). An error of the project makes it 1, and its message is printed on the
standard error, with '-q' too. Without a subcommand, or if interrupted, it is -1. -/
theorem C116_main (argv : List PyStr) (have' tty : Bool) (pre : PyStr) (ops : List Op) (parse : Res) (func : Bool)
    (parts : List Res) :
    let lg := (run (configure argv have' tty pre none none {}) ops).1
    ((main have' lg parse func parts).2 = some 0 ↔ parse = .ok ∧ func = true ∧ ∀ r ∈ parts, r = .ok) ∧
    (∀ done msg lines rest, parse :: (if func then parts else []) = done ++ .error msg lines :: rest →
      (∀ r ∈ done, r = .ok) → (main have' lg parse func parts).2 = some 1 ∧
        ∃ p, (.stderr, text (Spec.colored argv have' tty none) p ⟨40, msg, [], [], [], []⟩ ++ ['\n']) ∈
          (main have' lg parse func parts).1) ∧
    (∀ done rest, parse :: (if func then parts else []) = done ++ .interrupted :: rest →
      (∀ r ∈ done, r = .ok) → (main have' lg parse func parts).2 = some (-1)) ∧
    (parse = .ok → func = false → (main have' lg parse func parts).2 = some (-1) ∧
        ∃ p, (.stderr, text (Spec.colored argv have' tty none) p
          ⟨40, "please, run 'pepc -h' for help".toList, [], [], [], []⟩ ++ ['\n']) ∈
          (main have' lg parse func parts).1) ∧
    (∀ done rest, parse :: (if func then parts else []) = done ++ .other :: rest →
      (∀ r ∈ done, r = .ok) → (main have' lg parse func parts).2 = none) := by
  intro lg
  have hthr : threshold argv none ≤ 40 := by
    unfold threshold
    rw [if_neg (by show ¬ ((0 : Nat) ≠ 0); decide)]
    split
    · decide
    · split <;> decide
  have hfirst : ∀ (done : List Res) (r : Res) (rest : List Res), (∀ x ∈ done, x = .ok) → r ≠ .ok →
      first (done ++ r :: rest) = r := by
    intro done r rest h hr
    induction done with
    | nil => cases r <;> first | exact absurd rfl hr | rfl
    | cons x done ih =>
      rw [h x List.mem_cons_self]
      exact ih fun y hy => h y (List.mem_cons_of_mem _ hy)
  have hok : ∀ l : List Res, first l = .ok ↔ ∀ r ∈ l, r = .ok := by
    intro l
    induction l with
    | nil => exact ⟨fun _ r h => absurd h List.not_mem_nil, fun _ => rfl⟩
    | cons x l ih =>
      cases x with
      | ok =>
        show first l = .ok ↔ _
        rw [ih]
        exact ⟨fun h r hr => (List.mem_cons.mp hr).elim id (h r), fun h r hr => h r (List.mem_cons_of_mem _ hr)⟩
      | _ => exact ⟨fun h => (by cases h), fun h => h _ List.mem_cons_self⟩
  have herr : ∀ (p : PyStr) (fs : List PyStr) (msg : PyStr),
      (Dest.stderr, text (Spec.colored argv have' tty none) p ⟨40, msg, [], [], [], []⟩ ++ ['\n']) ∈
        out (Spec.colored argv have' tty none) (threshold argv none) p fs ⟨40, msg, [], [], [], []⟩ := by
    intro p fs msg
    unfold out
    rw [if_pos (by simp [known, hthr])]
    exact List.mem_cons_self
  obtain ⟨_, p, s, f, hi, _⟩ := run_eq ops (inv_configure argv have' tty pre none none)
  refine ⟨?_, ?_, ?_, ?_, ?_⟩
  · unfold main
    cases hf : first (parse :: if func then parts else []) with
    | ok =>
      have h := (hok _).mp hf
      cases func with
      | true =>
        exact ⟨fun _ => ⟨h _ List.mem_cons_self, rfl, fun r hr => h r (List.mem_cons_of_mem _ hr)⟩, fun _ => rfl⟩
      | false => exact ⟨fun e => absurd e (by show ¬ (some (-1 : Int) = some 0); decide), fun e => (nomatch e.2.1)⟩
    | error msg lines =>
      refine ⟨fun e => absurd e (by show ¬ (some (1 : Int) = some 0); decide), fun e => ?_⟩
      have : first (parse :: if func then parts else []) = .ok := (hok _).mpr (by
        rw [e.2.1]
        intro r hr
        exact (List.mem_cons.mp hr).elim (fun h => h.trans e.1) (e.2.2 r))
      rw [hf] at this
      cases this
    | interrupted =>
      refine ⟨fun e => absurd e (by show ¬ (some (-1 : Int) = some 0); decide), fun e => ?_⟩
      have : first (parse :: if func then parts else []) = .ok := (hok _).mpr (by
        rw [e.2.1]
        intro r hr
        exact (List.mem_cons.mp hr).elim (fun h => h.trans e.1) (e.2.2 r))
      rw [hf] at this
      cases this
    | other =>
      refine ⟨fun e => (nomatch e), fun e => ?_⟩
      have : first (parse :: if func then parts else []) = .ok := (hok _).mpr (by
        rw [e.2.1]
        intro r hr
        exact (List.mem_cons.mp hr).elim (fun h => h.trans e.1) (e.2.2 r))
      rw [hf] at this
      cases this
  · intro done msg lines rest he hd
    have hf := hfirst done (.error msg lines) rest hd (by simp)
    unfold main
    rw [he, hf]
    obtain ⟨p, fs, tb, h1, _, _⟩ := C116_error_out argv have' tty pre none none ops lines msg
    dsimp only
    show some (errorOut have' (run _ ops).1 false lines msg).2 = _ ∧ _
    refine ⟨by rw [h1], p, ?_⟩
    show _ ∈ (errorOut have' (run _ ops).1 false lines msg).1
    rw [h1]
    exact List.mem_append_right _ (herr p fs msg)
  · intro done rest he hd
    have hf := hfirst done .interrupted rest hd (by simp)
    unfold main
    rw [he, hf]
  · intro h1 h2
    subst h1 h2
    refine ⟨rfl, p, ?_⟩
    show _ ∈ log lg _
    rw [log_eq hi]
    exact herr p f _
  · intro done rest he hd
    have hf := hfirst done .other rest hd (by simp)
    unfold main
    rw [he, hf]

example : (main true (configure ["-q".toList] true false "pepc".toList none none {}) .ok true
    [.ok, .error "no CPU".toList [], .ok]) = ([(.stderr, "pepc: error: no CPU\n".toList)], some 1) := by decide +kernel

end Verif.Logging
