import Verif.Lemmas.Connect
import Verif.Model.CmdLine

/-!
C122: a command runs on the host that was asked for.
-/

namespace Verif.Connect

/-- The local process manager is used exactly for "localhost" without any of the SSH arguments. -/
theorem C122_local (W : World) (env : Option PyStr) (h : PyStr) (u k t : Option PyStr) :
    (getPman W env h u k t).2 = .ok .local ↔ h = "localhost".toList ∧ u = none ∧ k = none ∧ t = none := by
  unfold getPman
  by_cases h1 : h = "localhost".toList ∧ u = none
  · rw [if_pos h1]
    by_cases h2 : k = none ∧ t = none
    · simp [h1, h2]
    · simp only [h2, h1, if_false, true_and]
      exact ⟨fun e => (nomatch e), fun e => e.elim⟩
  · rw [if_neg h1]
    constructor
    · intro e
      split at e
      · cases e
      · split at e <;> cases e
    · rintro ⟨e1, e2, _⟩
      exact absurd ⟨e1, e2⟩ h1

/-- A key or a time-out for "localhost" without a user is an error. -/
theorem C122_local_error (W : World) (env : Option PyStr) (k t : Option PyStr) (h : k ≠ none ∨ t ≠ none) :
    getPman W env "localhost".toList none k t = (env, .error) := by
  unfold getPman
  rw [if_pos ⟨rfl, rfl⟩]
  have : ¬(k = none ∧ t = none) := by
    rintro ⟨h1, h2⟩
    rcases h with h | h
    · exact h h1
    · exact h h2
  rw [if_neg this]

/-- On the command line "localhost" always means the local process manager, whatever user, key and time-out were given. -/
theorem C122_cli_local (K : CmdLine.Classes) (ns : CmdLine.Namespace) (f : PyStr) (h : PyStr) (u k t : Option PyStr)
    (hp : CmdLine.plan K ns (some f) false = .ok (.run (.host h u k t))) (hl : h = "localhost".toList) (W : World)
    (env : Option PyStr) : getPman W env h u k t = (env, .ok .local) := by
  unfold CmdLine.plan at hp
  dsimp only at hp
  rw [if_neg (by decide)] at hp
  split at hp
  · cases hp
  · injection hp with hp
    injection hp with hp
    injection hp with e1 e2 e3 e4
    rw [e1, hl] at e2 e3 e4
    have hd : (decide ("localhost".toList = "localhost".toList)) = true := decide_eq_true rfl
    rw [hd, if_pos rfl] at e2 e3 e4
    subst e2 e3 e4 hl
    unfold getPman
    rw [if_pos ⟨rfl, rfl⟩, if_pos ⟨rfl, rfl⟩]

/-- Any other name given on the command line never means the local host. -/
theorem C122_remote_not_local (W : World) (env : Option PyStr) (h : PyStr) (u k t : Option PyStr)
    (hh : h ≠ "localhost".toList) : (getPman W env h u k t).2 ≠ .ok .local := by
  intro e
  exact hh ((C122_local W env h u k t).1 e).1

/-- Full statement (does not hold, see `C122_emulation_counterexample`): for any host other than "localhost" there is an
SSH connection. What is missing: names which start with "emulation". The connection is to the address the configuration
files have for the host, or to the host itself, as the user that was given, with the key that was given, which is a
regular file others have no access to. -/
theorem C122_remote_partial (W : World) (env : Option PyStr) (h u : PyStr) (k t : Option PyStr)
    (hl : h ≠ "localhost".toList) (he : "emulation".toList.isPrefixOf h = false) (hu : u ≠ [])
    (hi : NoInclude W W.defaults) (p : Pman) (hr : (getPman W env h (some u) k t).2 = .ok p) :
    ∃ c, p = .ssh c ∧ c.user = u ∧
      ((c.host = h ∧ ((∀ f ∈ W.defaults, W.look f "hostname".toList = none) ∨
          ∃ f, TakenFrom W "hostname".toList W.defaults f [])) ∨
        ∃ f, TakenFrom W "hostname".toList W.defaults f c.host) ∧
      (∀ key, k = some key → key ≠ [] → c.key = some key ∧ c.lookForKeys = false) ∧
      (∀ key, c.key = some key → KeyFile W key) ∧
      (t = none → c.timeout = 60) ∧
      (∀ s, t = some s → s ≠ [] → W.toFloat s = some c.timeout) := by
  unfold getPman at hr
  rw [if_neg (fun e => hl e.1), he, if_neg (by decide)] at hr
  have hg : given (some u) = some u := by
    unfold given
    split
    · rename_i e; injection e with e; exact absurd e hu
    · rfl
  have huser : userOf W (some u) env = u := by unfold userOf; rw [hg]; rfl
  unfold sshInit at hr
  cases ht : timeoutOf W t with
  | none => rw [ht] at hr; cases hr
  | some tv =>
    rw [ht] at hr
    dsimp only at hr
    rw [huser] at hr
    cases hho : hostOf W h none u env with
    | mk e r =>
      rw [hho] at hr
      cases r with
      | error c => cases hr
      | ok host =>
        dsimp only at hr
        cases hk : keyOf W k u e with
        | mk e2 kl =>
          obtain ⟨key, look⟩ := kl
          rw [hk] at hr
          dsimp only at hr
          by_cases hgood : keyGood W key = true
          · rw [if_pos hgood] at hr
            dsimp only at hr
            injection hr with hr
            refine ⟨_, hr.symm, rfl, ?_, ?_, ?_, ?_, ?_⟩
            · dsimp only
              unfold hostOf at hho
              have gn : given (none : Option PyStr) = none := rfl
              rw [gn] at hho
              dsimp only at hho
              unfold cfgLookup at hho
              cases env with
              | none => cases hho
              | some us =>
                dsimp only at hho
                cases hd : W.depth with
                | zero => rw [hd] at hho; cases hho
                | succ n =>
                  rw [hd, cfgFiles, if_pos rfl] at hho
                  have hi2 : NoInclude W (sortStr W.defaults) := fun f hf => hi f (mem_sortStr.1 hf)
                  rcases scan_plain W "hostname".toList (cfgFiles W "hostname".toList n) _ hi2
                      (pairwise_sortStr W.defaults) with ⟨h2, h3⟩ | ⟨f, v, h2, h3, h4, h5⟩
                  · rw [h2] at hho
                    injection hho with _ hho
                    injection hho with hho
                    exact .inl ⟨hho.symm, .inl fun f hf => h3 f (mem_sortStr.2 hf)⟩
                  · rw [h2] at hho
                    injection hho with _ hho
                    injection hho with hho
                    have htk : TakenFrom W "hostname".toList W.defaults f v :=
                      ⟨mem_sortStr.1 h3, h4, fun g hg => h5 g (mem_sortStr.2 hg)⟩
                    cases v with
                    | nil => exact .inl ⟨hho.symm, .inr ⟨f, htk⟩⟩
                    | cons a v =>
                      have : host = a :: v := hho.symm
                      rw [this]
                      exact .inr ⟨f, htk⟩
            · intro key' hk' hne
              subst hk'
              have hg' : given (some key') = some key' := by
                unfold given
                split
                · rename_i e; injection e with e; exact absurd e hne
                · rfl
              unfold keyOf at hk
              rw [hg'] at hk
              dsimp only at hk
              injection hk with _ hk
              injection hk with hk1 hk2
              exact ⟨hk1.symm, hk2.symm⟩
            · intro key' hk'
              dsimp only at hk'
              rw [hk'] at hgood
              exact (keyGood_iff W key').1 hgood
            · intro h0
              subst h0
              have : timeoutOf W none = some 60 := rfl
              rw [this] at ht
              injection ht with ht
              exact ht.symm
            · intro s hs hne
              subst hs
              have hg' : given (some s) = some s := by
                unfold given
                split
                · rename_i e; injection e with e; exact absurd e hne
                · rfl
              unfold timeoutOf at ht
              rw [hg'] at ht
              exact ht
          · rw [if_neg hgood] at hr; cases hr

/-- A real host whose name starts with "emulation" is not connected to: an emulated host is used instead, and what was
given for the connection is dropped without an error. -/
theorem C122_emulation_counterexample (W : World) (env : Option PyStr) (rest : PyStr) (u k t : Option PyStr) :
    getPman W env ("emulation".toList ++ rest) u k t = (env, .ok (.emul ("emulation".toList ++ rest))) := by
  have h1 : ¬("emulation".toList ++ rest = "localhost".toList ∧ u = none) := by
    rintro ⟨e, _⟩
    have := congrArg List.head? e
    have h2 : ("emulation".toList ++ rest).head? = some 'e' := rfl
    rw [h2] at this
    exact absurd this (by decide)
  have h3 : "emulation".toList.isPrefixOf ("emulation".toList ++ rest) = true :=
    List.isPrefixOf_iff_prefix.2 ⟨rest, rfl⟩
  unfold getPman
  rw [if_neg h1, if_pos h3]

/-- `$USER` is left as it was if it was set. -/
theorem C122_env (W : World) (us h : PyStr) (u k t : Option PyStr) :
    (getPman W (some us) h u k t).1 = some us := by
  unfold getPman
  split
  · rfl
  · split
    · rfl
    · have hs : (sshInit W (some us) h none u k t).1 = some us := by
        unfold sshInit
        cases timeoutOf W t with
        | none => rfl
        | some tv =>
          dsimp only
          have e1 := hostOf_env W h none (userOf W u (some us)) us
          cases hho : hostOf W h none (userOf W u (some us)) (some us) with
          | mk e r =>
            rw [hho] at e1
            dsimp only at e1
            subst e1
            cases r with
            | error c => rfl
            | ok host =>
              dsimp only
              have e2 := keyOf_env W k (userOf W u (some us)) us
              cases hk : keyOf W k (userOf W u (some us)) (some us) with
              | mk e2' kl =>
                rw [hk] at e2
                dsimp only at e2
                subst e2
                dsimp only
                split <;> rfl
      cases hr : sshInit W (some us) h none u k t with
      | mk e r =>
        rw [hr] at hs
        dsimp only at hs
        subst hs
        cases r <;> rfl

/-- Without `$USER` no remote host can be used: `TypeError`, and `$USER` is then set to the name of the remote user. -/
theorem C122_no_user_counterexample (W : World) (h u : PyStr) (k : Option PyStr) (hl : h ≠ "localhost".toList)
    (he : "emulation".toList.isPrefixOf h = false) (hu : u ≠ []) :
    getPman W none h (some u) k none = (some u, .crash .typeError) := by
  have hg : given (some u) = some u := by
    unfold given
    split
    · rename_i e; injection e with e; exact absurd e hu
    · rfl
  have huser : userOf W (some u) none = u := by unfold userOf; rw [hg]; rfl
  unfold getPman
  rw [if_neg (fun e => hl e.1), he, if_neg (by decide)]
  unfold sshInit
  have ht : timeoutOf W none = some 60 := rfl
  rw [ht]
  dsimp only
  rw [huser]
  rfl

/-- An "include" for which there are no files: for every depth of calls the look-up ends with `RecursionError`. -/
theorem C122_empty_include_counterexample (W : World) (opt f p : PyStr) (hd : W.defaults = [f])
    (h1 : W.look f opt = none) (h2 : W.look f "include".toList = some p) (h3 : W.glob p = []) (n : Nat) :
    cfgFiles W opt n [] = .error .recursion := by
  induction n with
  | zero => rfl
  | succ n ih =>
    rw [cfgFiles, if_pos rfl, hd]
    have hs : sortStr [f] = [f] := rfl
    rw [hs, scan, h1]
    dsimp only
    rw [h2]
    dsimp only
    rw [h3]
    exact ih

/-- An "include" hides the files after it: the address of the host is in the second file, and it is not found. -/
theorem C122_include_counterexample : ∃ (W : World) (f g v : PyStr), W.defaults = [f, g] ∧
    W.look g "hostname".toList = some v ∧ v ≠ [] ∧ (∃ x, W.glob x ≠ []) ∧
    hostOf W ['h'] none ['u'] (some ['u']) = (some ['u'], .ok ['h']) :=
  ⟨⟨[['a'], ['b']], fun f o => if f = ['a'] ∧ o = "include".toList then some ['x'] else
      if f = ['b'] ∧ o = "hostname".toList then some ['v'] else none, fun _ => [['c']], 9, ['u'], fun _ => none,
      fun _ => none⟩, ['a'], ['b'], ['v'], rfl, by decide +kernel, by decide, ⟨[], by decide⟩, by decide +kernel⟩

/-- A time-out which is not a number is a `ValueError`. -/
theorem C122_bad_timeout_counterexample (W : World) (env : Option PyStr) (h s : PyStr) (u k : Option PyStr)
    (hl : h ≠ "localhost".toList) (he : "emulation".toList.isPrefixOf h = false) (hs : s ≠ [])
    (hf : W.toFloat s = none) : getPman W env h u k (some s) = (env, .crash .valueError) := by
  have hg : given (some s) = some s := by
    unfold given
    split
    · rename_i e; injection e with e; exact absurd e hs
    · rfl
  unfold getPman
  rw [if_neg (fun e => hl e.1), he, if_neg (by decide)]
  unfold sshInit
  have ht : timeoutOf W (some s) = none := by unfold timeoutOf; rw [hg]; exact hf
  rw [ht]

/-! ### Satisfiability -/

/-- Used in the examples: the second file has an alias for host "h". -/
def exW : World :=
  ⟨[['b'], ['a']], fun f o => if f = ['b'] ∧ o = "hostname".toList then some ['v'] else none, fun _ => [], 9, ['l'],
    fun f => if f = ['k'] then some (true, 0o600) else none, fun s => if s = ['8'] then some 8 else none⟩

example : NoInclude exW exW.defaults := by
  intro f hf
  unfold exW
  simp only
  rw [if_neg]
  rintro ⟨_, e⟩
  exact absurd e (by decide)

example : getPman exW (some ['u']) ['h'] (some ['r']) (some ['k']) (some ['8']) =
    (some ['u'], .ok (.ssh ⟨['v'], ['r'], some ['k'], false, 8⟩)) := by decide +kernel

example : getPman exW (some ['u']) ['h'] (some ['r']) none none =
    (some ['u'], .ok (.ssh ⟨['v'], ['r'], none, true, 60⟩)) := by decide +kernel

example : getPman exW (some ['u']) ['h'] (some ['r']) (some ['q']) none = (some ['u'], .error) := by decide +kernel

example : CmdLine.plan ⟨[], [], [], []⟩ [("hostname".toList, some "localhost".toList),
    ("username".toList, some "root".toList)] (some ['f']) false = .ok (.run (.host "localhost".toList none none none)) :=
  by decide +kernel

example : exW.toFloat ['x'] = none := by decide

end Verif.Connect
