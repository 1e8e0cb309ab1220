import Verif.Lemmas.CStatesCmd

/-!
C95: the 'cstates' commands. The options say which C-states and which CPUs; exactly these are changed, and the lines which
are printed say so.
-/

namespace Verif.CStatesCmd

open CPUInfo (Info WF)
open CPUIdle (Names St Env File Has NameOf NameAt Good upper)
open CStatesYaml (namesOfStr)
open HumanPrint (Sys)
open HumanCStates (Asked)
open HotplugCmd (Written)
open OpTarget (Selected Valid)

variable {W : Type}

/-- C95 (nothing else is touched): whatever the options and the outcome, only the "disable" files of the meant C-states of
the selected CPUs may change, they may only get the value of one of the options, and what is cached stays true. -/
theorem C95_frame {i : Info} (wf : WF i) (descr : PyStr) {E : Env} (hE : E.cacheOn = true) (known : List PyStr)
    (P : PropsPart W) (args : Args) {oargs : Dict PyStr (Option PyStr)} (ho : args.oargs = some oargs)
    {opts : List (Bool × Names)} (hopts : MeansOpts oargs opts) {a : OpTarget.Args} (hw : Written args.tgt a)
    (hm : a.modSib ≠ [] → OpTarget.ModulesUnique i) {s : St × W} (G : Good s.1) :
    Good (configCmd i descr E known P args s).1.1 ∧
    (∀ c j k x, ¬ (k = "disable".toList ∧ ∃ y ∈ opts, About s.1.files (Selected i a) y.2 c j) →
      (Has (configCmd i descr E known P args s).1.1.files c j k x ↔ Has s.1.files c j k x)) ∧
    ∀ c j x, Has (configCmd i descr E known P args s).1.1.files c j "disable".toList x →
      Has s.1.files c j "disable".toList x ∨
      ∃ y ∈ opts, About s.1.files (Selected i a) y.2 c j ∧ x = if y.1 then "0".toList else "1".toList := by
  suffices h : Kept s.1.files (Selected i a) opts (configCmd i descr E known P args s).1.1 from
    ⟨h.good, h.frame, h.value⟩
  have K0 := Kept.refl G (Selected i a) opts
  unfold configCmd
  rw [ho]
  dsimp only
  cases mechsOpt known args.mechanisms with
  | error e => exact K0
  | ok mnames =>
  dsimp only
  rcases target_written wf hw hm with ⟨_, e, ht⟩ | ⟨hV, t, ht, hcp⟩
  · rw [ht]
    exact K0
  rw [ht]
  dsimp only
  have hsel : ∀ r, targetCpus i t = .ok r → ∀ c ∈ r, Selected i a c := by
    intro r hr c hc
    rcases hcp with ⟨_, e, he⟩ | ⟨r', hr', _, _, h⟩
    · rw [he] at hr
      cases hr
    · rw [hr'] at hr
      cases hr
      exact (h c).1 hc
  generalize targetCpus i t = cpus at hsel
  refine andThen_inv (fun s' : St × W => Kept s.1.files (Selected i a) opts s'.1) ?_ ?_
  · split
    · obtain ⟨h1, h2⟩ := printStep_keeps (W := W) hE G i descr .all cpus false false none
      exact K0.of_files h2 h1
    · exact K0
  have K1 : Kept s.1.files (Selected i a) opts ((if ((enableOpts oargs).any fun x => (x.2.getD []).isEmpty) = true then
      printStep i descr E .all cpus false false none else Step.skip) s).1.1 := by
    split
    · obtain ⟨h1, h2⟩ := printStep_keeps (W := W) hE G i descr .all cpus false false none
      exact K0.of_files h2 h1
    · exact K0
  revert K1
  generalize ((if ((enableOpts oargs).any fun x => (x.2.getD []).isEmpty) = true then
      printStep i descr E .all cpus false false none else Step.skip) s).1 = s1
  intro K1
  have hprops : ∀ {α : Type} (b : Bool) (f : W → W × (List PyStr × Except Exn α)) (s2 : St × W),
      ((if b = true then Step.skip else onProps f) s2).1.1 = s2.1 := by
    intro α b f s2
    cases b <;> rfl
  refine andThen_inv (fun s' : St × W => Kept s.1.files (Selected i a) opts s'.1) ?_ ?_
  · rw [hprops]
    exact K1
  have e2 := hprops (printOpts oargs).isEmpty (P.print mnames (printOpts oargs)) s1
  revert e2
  generalize ((if (printOpts oargs).isEmpty = true then Step.skip else onProps (P.print mnames (printOpts oargs))) s1).1 = s2
  intro e2
  have K2 : Kept s.1.files (Selected i a) opts s2.1 := by rw [e2]; exact K1
  have K3 := setSteps_kept (W := W) hE i descr cpus (Selected i a) hsel (given (enableOpts oargs)) s2 K2.good
  rw [given_means hopts] at K3
  refine andThen_inv (fun s' : St × W => Kept s.1.files (Selected i a) opts s'.1) (K2.trans K3) ?_
  rw [hprops]
  exact K2.trans K3

/-- C95 (what is asked for is done, and told): if the command succeeds, then every C-state meant by an option is enabled
(disabled) on every selected CPU, unless a later option means it too; nothing else changes; the selected CPUs have all the
named C-states; and for every option, in their order, the lines tell exactly which C-states were set for which CPUs. If an
option has no argument, then the lines before them tell the status of all the C-states of the selected CPUs before the
changes. Missing: "all" (or no argument) for CPUs with different C-states, and CPUs without C-states, see C43 and C44. -/
theorem C95_config_partial {i : Info} {S : Sys} (hS : S.Of i) (descr : PyStr) {E : Env} (hd : E.driver = true)
    (hE : E.cacheOn = true) (known : List PyStr)
    (P : PropsPart W) (args : Args) {oargs : Dict PyStr (Option PyStr)} (ho : args.oargs = some oargs)
    {opts : List (Bool × Names)} (hopts : MeansOpts oargs opts) {a : OpTarget.Args} (hw : Written args.tgt a)
    (hm : a.modSib ≠ [] → OpTarget.ModulesUnique i) {s : St × W} (G : Good s.1)
    (hst : ∀ c, Selected i a c → ∃ f ∈ s.1.files, f.cpu = c)
    (hsame : (NoArg oargs ∨ ∃ y ∈ opts, y.2 = .all) →
      ∀ c c', Selected i a c → Selected i a c' → ∀ n, NameOf s.1.files c n → NameOf s.1.files c' n)
    (hok : (configCmd i descr E known P args s).2.2 = .ok ()) :
    (∀ pre enable names post, opts = pre ++ (enable, names) :: post →
      ∀ c j, About s.1.files (Selected i a) names c j → (∀ y ∈ post, ¬ About s.1.files (Selected i a) y.2 c j) →
      Has (configCmd i descr E known P args s).1.1.files c j "disable".toList
        (if enable then "0".toList else "1".toList)) ∧
    (∀ c j k x, ¬ (k = "disable".toList ∧ ∃ y ∈ opts, About s.1.files (Selected i a) y.2 c j) →
      (Has (configCmd i descr E known P args s).1.1.files c j k x ↔ Has s.1.files c j k x)) ∧
    (∀ enable ns, (enable, Names.list ns) ∈ opts → ∀ m ∈ ns, ∀ c, Selected i a c → NameOf s.1.files c (upper m)) ∧
    ∃ l0 l1 ls l2, (configCmd i descr E known P args s).2.1 = l0 ++ (l1 ++ (ls.flatten ++ l2)) ∧
      (NoArg oargs → TellsStates S descr false s.1.files (Selected i a) .all l0) ∧ (¬ NoArg oargs → l0 = []) ∧
      (OnlyStates oargs → l1 = [] ∧ l2 = []) ∧
      List.Forall₂ (TellsSet S descr s.1.files (Selected i a)) opts ls := by
  have hframe := (C95_frame hS.wf descr hE known P args ho hopts hw hm G).2.1
  suffices hmain : (∀ pre y post, opts = pre ++ y :: post →
      ∀ c j, About s.1.files (Selected i a) y.2 c j → (∀ y ∈ post, ¬ About s.1.files (Selected i a) y.2 c j) →
      Has (configCmd i descr E known P args s).1.1.files c j "disable".toList (flag y.1)) ∧
    (∀ y ∈ opts, ∀ ns, y.2 = .list ns → ∀ m ∈ ns, ∀ c, Selected i a c → NameOf s.1.files c (upper m)) ∧
    ∃ l0 l1 ls l2, (configCmd i descr E known P args s).2.1 = l0 ++ (l1 ++ (ls.flatten ++ l2)) ∧
      (NoArg oargs → TellsStates S descr false s.1.files (Selected i a) .all l0) ∧ (¬ NoArg oargs → l0 = []) ∧
      (OnlyStates oargs → l1 = [] ∧ l2 = []) ∧
      List.Forall₂ (TellsSet S descr s.1.files (Selected i a)) opts ls from
    ⟨fun pre en names post h => hmain.1 pre (en, names) post h, hframe,
      fun en ns h m hm' c hc => hmain.2.1 _ h ns rfl m hm' c hc, hmain.2.2⟩
  have hnm : ∀ y ∈ opts, ∀ ns, y.2 = .list ns → ns ≠ [] := by
    obtain ⟨l, _, rfl, h3⟩ := hopts
    intro y hy ns hyn
    obtain ⟨x, hx, rfl⟩ := List.mem_map.1 hy
    have := h3 x hx
    rw [show x.2.2 = .list ns from hyn] at this
    exact this.1
  have hgiven := given_means hopts
  unfold configCmd at hok ⊢
  rw [ho] at hok ⊢
  dsimp only at hok ⊢
  cases hmc : mechsOpt known args.mechanisms with
  | error e => rw [hmc] at hok; cases hok
  | ok mnames =>
  rw [hmc] at hok
  dsimp only at hok ⊢
  rcases target_written hS.wf hw hm with ⟨_, e, ht⟩ | ⟨hV, t, ht, hcp⟩
  · rw [ht] at hok; cases hok
  rw [ht] at hok ⊢
  dsimp only at hok ⊢
  -- The first part.
  obtain ⟨k1, k2, k3, k4⟩ := andThen_ok hok
  rw [k3, k4]
  clear k3 k4 hok
  have hA : ((if ((enableOpts oargs).any fun x => (x.2.getD []).isEmpty) = true then
      printStep i descr E .all (targetCpus i t) false false none else Step.skip) s).1.1.files = s.1.files ∧
      Good ((if ((enableOpts oargs).any fun x => (x.2.getD []).isEmpty) = true then
        printStep i descr E .all (targetCpus i t) false false none else Step.skip) s).1.1 ∧
      (NoArg oargs → TellsStates S descr false s.1.files (Selected i a) .all
        ((if ((enableOpts oargs).any fun x => (x.2.getD []).isEmpty) = true then
          printStep i descr E .all (targetCpus i t) false false none else Step.skip) s).2.1) ∧
      (¬ NoArg oargs → ((if ((enableOpts oargs).any fun x => (x.2.getD []).isEmpty) = true then
          printStep i descr E .all (targetCpus i t) false false none else Step.skip) s).2.1 = []) := by
    have hno : ((enableOpts oargs).any fun x => (x.2.getD []).isEmpty) = true ↔ NoArg oargs := noArg_eq oargs
    by_cases hna : NoArg oargs
    · rw [if_pos (hno.2 hna)] at k1 ⊢
      obtain ⟨h1, h2⟩ := printStep_keeps (W := W) hE G i descr .all (targetCpus i t) false false none
      refine ⟨h1, h2, fun _ => ?_, fun h => absurd hna h⟩
      rcases hcp with ⟨_, e, he⟩ | ⟨r, hr, hne, hnd, hrs⟩
      · rw [he] at k1
        cases k1
      · rw [hr]
        have hst' : ∀ c ∈ r, ∃ f ∈ s.1.files, f.cpu = c := fun c hc => hst c ((hrs c).1 hc)
        have hon : ∀ c ∈ r, c ∈ S.online := fun c hc => by
          rw [hS.online]
          exact HotplugCmd.selected_online hS.wf hw.2.2.2.2.2.2.2 hV ((hrs c).1 hc)
        have := (printStep_spec (W := W) hS descr hd hE G (names := .all) hne hnd hon hst' (fun ns h => nomatch h)
          (fun c hc n ⟨c', hc', h⟩ => hsame (Or.inl hna) c' c ((hrs c').1 hc') ((hrs c).1 hc) n h) false).2
        have hpred : (· ∈ r) = Selected i a := funext fun c => propext (hrs c)
        rw [hpred] at this
        exact this
    · have hno' : ¬ ((enableOpts oargs).any fun x => (x.2.getD []).isEmpty) = true := fun h => hna (hno.1 h)
      rw [if_neg hno']
      exact ⟨rfl, G, fun h => absurd h hna, fun _ => rfl⟩
  revert hA k2
  generalize ((if ((enableOpts oargs).any fun x => (x.2.getD []).isEmpty) = true then
      printStep i descr E .all (targetCpus i t) false false none else Step.skip) s).2.1 = l0
  generalize ((if ((enableOpts oargs).any fun x => (x.2.getD []).isEmpty) = true then
      printStep i descr E .all (targetCpus i t) false false none else Step.skip) s).1 = s1
  rintro k2 ⟨hf1, G1, hl0, hl0'⟩
  have hprops : ∀ {α : Type} (b : Bool) (f : W → W × (List PyStr × Except Exn α)) (s2 : St × W),
      ((if b = true then Step.skip else onProps f) s2).1.1 = s2.1 ∧
      (b = true → ((if b = true then Step.skip else onProps f) s2).2.1 = []) := by
    intro α b f s2
    cases b
    · exact ⟨rfl, fun h => nomatch h⟩
    · exact ⟨rfl, fun _ => rfl⟩
  -- Printing properties.
  obtain ⟨_, k2', k3, k4⟩ := andThen_ok k2
  rw [k3, k4]
  clear k3 k4 k2 k1
  obtain ⟨p1, p2⟩ := hprops (printOpts oargs).isEmpty (P.print mnames (printOpts oargs)) s1
  revert p1 p2 k2'
  generalize ((if (printOpts oargs).isEmpty = true then Step.skip else onProps (P.print mnames (printOpts oargs))) s1).2.1 = l1
  generalize ((if (printOpts oargs).isEmpty = true then Step.skip else onProps (P.print mnames (printOpts oargs))) s1).1 = s2
  intro k2' p1 p2
  -- Changing C-states and properties.
  obtain ⟨k1, k2, k3, k4⟩ := andThen_ok k2'
  rw [k3, k4]
  obtain ⟨q1, q2⟩ := hprops (setOpts oargs).isEmpty (P.set mnames (setOpts oargs))
    (setSteps i descr E (targetCpus i t) (given (enableOpts oargs)) s2).1
  rw [q1]
  have hf2 : s2.1.files = s.1.files := by rw [p1, hf1]
  have G2 : Good s2.1 := by rw [p1]; exact G1
  have honly : OnlyStates oargs → l1 = [] ∧ ((if (setOpts oargs).isEmpty = true then Step.skip
      else onProps (P.set mnames (setOpts oargs)))
        (setSteps i descr E (targetCpus i t) (given (enableOpts oargs)) s2).1).2.1 = [] := by
    intro h
    exact ⟨p2 (by rw [printOpts_only h]; rfl), q2 (by rw [setOpts_only h]; rfl)⟩
  rcases hcp with ⟨hno, e, he⟩ | ⟨r, hr, hne, hnd, hrs⟩
  · -- No CPUs: there are no options.
    cases hg : given (enableOpts oargs) with
    | nil =>
      rw [hg, List.map_nil] at hgiven
      subst hgiven
      rw [hg] at honly
      refine ⟨fun pre y post h => absurd h.symm (by simp), fun y hy => (List.not_mem_nil hy).elim, l0, l1, [], _, rfl, hl0, hl0', honly,
        List.Forall₂.nil⟩
    | cons x l =>
      rw [hg, he] at k1
      have := (andThen_ok k1).1
      cases this
  · have hpred : (· ∈ r) = Selected i a := funext fun c => propext (hrs c)
    have hon : ∀ c ∈ r, c ∈ S.online := fun c hc => by
      rw [hS.online]
      exact HotplugCmd.selected_online hS.wf hw.2.2.2.2.2.2.2 hV ((hrs c).1 hc)
    rw [hr] at k1
    have hmain := setSteps_spec hS descr hd hE hne hnd hon (given (enableOpts oargs)) s2 G2
      (fun c hc => by rw [hf2]; exact hst c ((hrs c).1 hc)) (by rw [hgiven]; exact hnm)
      (by
        rw [hgiven, hf2]
        exact fun h c hc c' hc' n => hsame (Or.inr h) c c' ((hrs c).1 hc) ((hrs c').1 hc') n) k1
    rw [hgiven, hf2, hpred] at hmain
    obtain ⟨m1, ⟨ls, m2, m3⟩, m4⟩ := hmain
    rw [hr] at honly ⊢
    refine ⟨m1, fun y hy ns h m hm' c hc => m4 y hy ns h m hm' c ((hrs c).2 hc), l0, l1, ls, _, ?_, hl0, hl0', honly, m3⟩
    rw [m2]

/-- C95 (the command succeeds when it should): there is a selected CPU, the options name C-states which all the selected
CPUs have, the mechanisms are known, and the kernel stores what is written. -/
theorem C95_works {i : Info} {S : Sys} (hS : S.Of i) (descr : PyStr) {E : Env} (hd : E.driver = true)
    (hE : E.cacheOn = true) (known : List PyStr)
    (P : PropsPart W) (args : Args) {oargs : Dict PyStr (Option PyStr)} (ho : args.oargs = some oargs)
    (honly : OnlyStates oargs) (hna : ¬ NoArg oargs)
    {opts : List (Bool × Names)} (hopts : MeansOpts oargs opts) {a : OpTarget.Args} (hw : Written args.tgt a)
    (hm : a.modSib ≠ [] → OpTarget.ModulesUnique i) (hV : Valid i a) (hex : ∃ c, Selected i a c) {s : St × W}
    (G : Good s.1) (hst : ∀ c, Selected i a c → ∃ f ∈ s.1.files, f.cpu = c)
    (hnames : ∀ y ∈ opts, ∃ ns, y.2 = .list ns ∧ ∀ m ∈ ns, ∀ c, Selected i a c → NameOf s.1.files c (upper m))
    (hmech : ∀ text, args.mechanisms = some text → ∃ ms, MeansMechs text ms ∧ ∀ m ∈ ms, m ∈ known)
    (hk : ∀ c j x, Selected i a c → E.kern c j x = .stored) :
    (configCmd i descr E known P args s).2.2 = .ok () := by
  have hgiven := given_means hopts
  obtain ⟨m, hm'⟩ : ∃ m, mechsOpt known args.mechanisms = .ok m := by
    cases hme : args.mechanisms with
    | none => exact ⟨none, rfl⟩
    | some text =>
      obtain ⟨ms, h1, h2⟩ := hmech text hme
      exact ⟨_, (mechsOpt_means known h1).1 h2⟩
  rcases target_written hS.wf hw hm with ⟨h, _⟩ | ⟨_, t, ht, hcp⟩
  · exact absurd hV h
  rcases hcp with ⟨h, _⟩ | ⟨r, hr, hne, hnd, hrs⟩
  · exact absurd hex.choose_spec (h _)
  have hno : ¬ ((enableOpts oargs).any fun x => (x.2.getD []).isEmpty) = true := fun h => hna ((noArg_eq oargs).1 h)
  unfold configCmd
  rw [ho]
  dsimp only
  rw [hm']
  dsimp only
  rw [ht]
  dsimp only
  rw [if_neg hno, hr, printOpts_only honly, setOpts_only honly, andThen_of_ok rfl]
  dsimp only
  rw [andThen_of_ok rfl]
  dsimp only
  have key : ((setSteps i descr E (.ok r) (given (enableOpts oargs)) s).2.2) = .ok () := by
    have hon : ∀ c ∈ r, c ∈ S.online := fun c hc => by
      rw [hS.online]
      exact HotplugCmd.selected_online hS.wf hw.2.2.2.2.2.2.2 hV ((hrs c).1 hc)
    refine setSteps_works hS descr hd hE hne hnd hon (fun c hc j x => hk c j x ((hrs c).1 hc)) _ s G
      (fun c hc => hst c ((hrs c).1 hc)) ?_
    rw [hgiven]
    intro y hy
    obtain ⟨ns, h1, h2⟩ := hnames y hy
    exact ⟨ns, h1, fun m hm c hc => h2 m hm c ((hrs c).1 hc)⟩
  show (Step.andThen _ _ s).2.2 = _
  rw [andThen_of_ok key]
  rfl

/-- C95 (refusals): without options, with target options which are not valid on this system, or with an unknown mechanism,
the command fails, prints nothing and changes nothing. -/
theorem C95_refuses {i : Info} (wf : WF i) (descr : PyStr) (E : Env) (known : List PyStr)
    (P : PropsPart W) (args : Args) {a : OpTarget.Args} (hw : Written args.tgt a)
    (hm : a.modSib ≠ [] → OpTarget.ModulesUnique i) (s : St × W)
    (h : args.oargs = none ∨ ¬ Valid i a ∨
      ∃ text ms, args.mechanisms = some text ∧ MeansMechs text ms ∧ ∃ m ∈ ms, m ∉ known) :
    ∃ e, configCmd i descr E known P args s = (s, [], .error e) := by
  unfold configCmd
  cases ho : args.oargs with
  | none => exact ⟨_, rfl⟩
  | some oargs =>
  rw [ho] at h
  dsimp only
  cases hmc : mechsOpt known args.mechanisms with
  | error e => exact ⟨e, rfl⟩
  | ok m =>
  dsimp only
  rcases h with h | h | ⟨text, ms, e1, e2, e3⟩
  · cases h
  · rcases target_written wf hw hm with ⟨_, e, ht⟩ | ⟨hV, _⟩
    · rw [ht]
      exact ⟨e, rfl⟩
    · exact absurd hV h
  · rw [e1, (mechsOpt_means known e2).2 e3] at hmc
    cases hmc

/-- C95 (no CPUs): if no CPU is selected then '--enable' and '--disable' are errors. -/
theorem C95_no_cpus {i : Info} (wf : WF i) (descr : PyStr) {E : Env} (known : List PyStr)
    (P : PropsPart W) (args : Args) {oargs : Dict PyStr (Option PyStr)} (ho : args.oargs = some oargs)
    {opts : List (Bool × Names)} (hopts : MeansOpts oargs opts) (hne : opts ≠ [] ∨ NoArg oargs) {a : OpTarget.Args}
    (hw : Written args.tgt a) (hm : a.modSib ≠ [] → OpTarget.ModulesUnique i) (hno : ∀ c, ¬ Selected i a c) (s : St × W) :
    (configCmd i descr E known P args s).2.2 ≠ .ok () := by
  intro hok
  have hgiven := given_means hopts
  unfold configCmd at hok
  rw [ho] at hok
  dsimp only at hok
  cases hmc : mechsOpt known args.mechanisms with
  | error e => rw [hmc] at hok; cases hok
  | ok mnames =>
  rw [hmc] at hok
  dsimp only at hok
  rcases target_written wf hw hm with ⟨_, e, ht⟩ | ⟨hV, t, ht, hcp⟩
  · rw [ht] at hok; cases hok
  rw [ht] at hok
  dsimp only at hok
  rcases hcp with ⟨_, e, he⟩ | ⟨r, hr, hr', _, hrs⟩
  · rw [he] at hok
    obtain ⟨k1, k2, -, -⟩ := andThen_ok hok
    by_cases hna : NoArg oargs
    · rw [if_pos (show ((enableOpts oargs).any fun x => (x.2.getD []).isEmpty) = true from (noArg_eq oargs).2 hna)] at k1
      cases k1
    · have k3 := (andThen_ok (andThen_ok k2).2.1).1
      cases hg : given (enableOpts oargs) with
      | nil =>
        rw [hg, List.map_nil] at hgiven
        exact (hne.resolve_right hna) hgiven.symm
      | cons x l =>
        rw [hg] at k3
        have := (andThen_ok k3).1
        cases this
  · obtain ⟨c, hc⟩ := List.exists_mem_of_ne_nil _ hr'
    exact hno c ((hrs c).1 hc)

/-- C95 ('cstates info' only reads): whatever the arguments and the outcome, no file changes, and what is cached stays
true. -/
theorem C95_info_reads (i : Info) (descr : PyStr) {E : Env} (hE : E.cacheOn = true) (known : List PyStr)
    (subprops : PyStr → List PyStr) (P : PropsPart W) (args : Args) {s : St × W} (G : Good s.1) :
    (infoCmd i descr E known subprops P args s).1.1.files = s.1.files ∧
      Good (infoCmd i descr E known subprops P args s).1.1 := by
  unfold infoCmd
  cases mechsOpt known args.mechanisms with
  | error e => exact ⟨rfl, G⟩
  | ok m =>
  dsimp only
  cases target i args.tgt with
  | error e => exact ⟨rfl, G⟩
  | ok t =>
  dsimp only
  split
  · exact andThen_inv (fun s' : St × W => s'.1.files = s.1.files ∧ Good s'.1)
      (printStep_keeps (W := W) hE G i descr .all (targetCpus i t) false true none)
      (printStep_keeps (W := W) hE G i descr .all (targetCpus i t) false true none)
  · refine andThen_inv (fun s' : St × W => s'.1.files = s.1.files ∧ Good s'.1) ?_ ?_
    · split
      · exact ⟨rfl, G⟩
      · exact printStep_keeps (W := W) hE G i descr _ (targetCpus i t) false false none
    · have h : ∀ (b : Bool) (s2 : St × W) (f : W → W × (List PyStr × Except Exn Nat)),
          ((if b = true then Step.skip else onProps f) s2).1.1 = s2.1 := by
        intro b s2 f
        cases b <;> rfl
      rw [h]
      split
      · exact ⟨rfl, G⟩
      · exact printStep_keeps (W := W) hE G i descr _ (targetCpus i t) false false none

/-- What '--cstates' (`csnames`) asks for: everything if it has no argument, or if there are no options at all. -/
def MeansAsked (args : Args) (names : Names) : Prop :=
  (args.csnames = none ∧ names = .all) ∨
  (args.csnames = some "default".toList ∧ args.oargs = none ∧ names = .all) ∨
  ∃ text, args.csnames = some text ∧ text ≠ "default".toList ∧ MeansNames text names

/-- C95 ('cstates info'): the first lines tell, for exactly the selected CPUs and the C-states asked for, what is in the
files. If nothing else is asked for, there are no other lines, and the command succeeds. Missing: CPUs which do not have some
of the C-states asked for, and CPUs without C-states, see C43. -/
theorem C95_info_partial {i : Info} {S : Sys} (hS : S.Of i) (descr : PyStr) {E : Env} (hd : E.driver = true)
    (hE : E.cacheOn = true) (known : List PyStr) (subprops : PyStr → List PyStr)
    (P : PropsPart W) (args : Args) {names : Names} (hnames : MeansAsked args names)
    {a : OpTarget.Args} (hw : Written args.tgt a)
    (hm : a.modSib ≠ [] → OpTarget.ModulesUnique i) (hV : Valid i a) (hex : ∃ c, Selected i a c) {s : St × W} (G : Good s.1)
    (hst : ∀ c, Selected i a c → ∃ f ∈ s.1.files, f.cpu = c)
    (hall : ∀ c c' n, Selected i a c → Selected i a c' → Meant names n → (names = .all → NameOf s.1.files c n) →
      NameOf s.1.files c' n)
    (hmech : ∀ text, args.mechanisms = some text → ∃ ms, MeansMechs text ms ∧ ∀ m ∈ ms, m ∈ known) :
    ∃ l0 l1, (infoCmd i descr E known subprops P args s).2.1 = l0 ++ l1 ∧
      TellsStates S descr (args.csnames == some "default".toList) s.1.files (Selected i a) names l0 ∧
      (args.csnames ≠ some "default".toList → args.oargs.getD [] = [] →
        l1 = [] ∧ (infoCmd i descr E known subprops P args s).2.2 = .ok ()) := by
  obtain ⟨m, hm'⟩ : ∃ m, mechsOpt known args.mechanisms = .ok m := by
    cases hme : args.mechanisms with
    | none => exact ⟨none, rfl⟩
    | some text =>
      obtain ⟨ms, h1, h2⟩ := hmech text hme
      exact ⟨_, (mechsOpt_means known h1).1 h2⟩
  rcases target_written hS.wf hw hm with ⟨h, _⟩ | ⟨_, t, ht, hcp⟩
  · exact absurd hV h
  rcases hcp with ⟨h, _⟩ | ⟨r, hr, hne, hnd, hrs⟩
  · exact absurd hex.choose_spec (h _)
  have hpred : (· ∈ r) = Selected i a := funext fun c => propext (hrs c)
  have hnm : ∀ ns, names = .list ns → ns ≠ [] := by
    rintro ns rfl
    rcases hnames with ⟨_, h⟩ | ⟨_, _, h⟩ | ⟨_, _, _, h⟩
    · cases h
    · cases h
    · exact h.1
  have hspec : ∀ group, (printStep i descr E names (.ok r) false group none s).2.2 = .ok () ∧
      TellsStates S descr group s.1.files (Selected i a) names
        (printStep i descr E names (.ok r) false group none s).2.1 := by
    intro group
    have := printStep_spec (W := W) hS descr hd hE G (names := names) hne hnd (fun c hc => by
        rw [hS.online]
        exact HotplugCmd.selected_online hS.wf hw.2.2.2.2.2.2.2 hV ((hrs c).1 hc)) (fun c hc => hst c ((hrs c).1 hc)) hnm
      (by
        intro c hc n ha
        cases names with
        | all =>
          obtain ⟨c', hc', h⟩ := ha
          exact hall c' c n ((hrs c').1 hc') ((hrs c).1 hc) trivial (fun _ => h)
        | list ns => exact hall c c n ((hrs c).1 hc) ((hrs c).1 hc) ha (fun h => nomatch h)) group
    rw [hpred] at this
    exact this
  unfold infoCmd
  rw [hm']
  dsimp only
  rw [ht]
  dsimp only
  rw [hr]
  by_cases hdef : args.csnames = some "default".toList
  · have hnn : args.oargs = none ∧ names = .all := by
      rcases hnames with ⟨h, _⟩ | ⟨_, h⟩ | ⟨text, h1, h2, _⟩
      · rw [hdef] at h; cases h
      · exact h
      · rw [hdef] at h1; cases h1; exact absurd rfl h2
    obtain ⟨ho, rfl⟩ := hnn
    rw [if_pos ⟨by rw [ho]; rfl, hdef⟩, andThen_of_ok (hspec true).1]
    refine ⟨_, _, rfl, ?_, fun h => absurd hdef h⟩
    rw [hdef, beq_self_eq_true]
    exact (hspec true).2
  · rw [if_neg (fun h => hdef h.2), if_neg hdef]
    have hnn : askedNames args.csnames = names := by
      rcases hnames with ⟨h, rfl⟩ | ⟨h, _⟩ | ⟨text, h1, h2, h3⟩
      · rw [h]
        rfl
      · exact absurd h hdef
      · rw [h1]
        exact namesOfStr_means h3
    rw [hnn, andThen_of_ok (hspec false).1]
    refine ⟨_, _, rfl, ?_, fun _ h => ?_⟩
    · rw [beq_eq_false_iff_ne.2 hdef]
      exact (hspec false).2
    · rw [h]
      exact ⟨rfl, rfl⟩

/-! ### Examples -/

/-- Nothing is known about properties. -/
def exP : PropsPart Unit :=
  ⟨fun _ _ => ((), [], .ok 0), fun _ _ _ => ((), ["print".toList], .ok 1), fun _ _ _ => ((), ["set".toList], .ok ())⟩

def exConfig (args : Args) : (St × Unit) × (List PyStr × Except Exn Unit) :=
  configCmd CPUInfo.exInfo "sysfs".toList CPUIdle.exEnv ["sysfs".toList, "msr".toList] exP args (CPUIdle.exSt, ())

/-- "--disable C6,c1e --enable C6 --cpus 0-1". -/
def exArgs : Args :=
  { oargs := some [("disable".toList, some "C6,c1e".toList), ("enable".toList, some "C6".toList)],
    tgt := { cpus := some "0-1".toList } }

def exTgt : OpTarget.Args := { cpus := some (.nums [0, 1]) }

def exOpts : List (Bool × Names) := [(false, .list ["C6".toList, "c1e".toList]), (true, .list ["C6".toList])]

theorem exTgt_written : Written exArgs.tgt exTgt := by
  refine ⟨.inr ⟨[0, 1], rfl, [.range 0 1], by simp, by simp [HotplugCmd.Item.Ok], by decide +kernel, ?_⟩,
    ⟨none, rfl, rfl⟩, rfl, ⟨none, rfl, rfl⟩, rfl, rfl, rfl, rfl⟩
  intro n
  simp [HotplugCmd.Item.Has]
  omega

theorem exOpts_means : MeansOpts [("disable".toList, some "C6,c1e".toList), ("enable".toList, some "C6".toList)] exOpts := by
  refine ⟨[("disable".toList, "C6,c1e".toList, .list ["C6".toList, "c1e".toList]),
    ("enable".toList, "C6".toList, .list ["C6".toList])], by decide +kernel, rfl, ?_⟩
  intro x hx
  rcases List.mem_cons.1 hx with rfl | hx
  · exact ⟨by decide +kernel, by unfold CStatesYaml.Clean; decide +kernel, by decide +kernel, by decide +kernel⟩
  · rw [List.mem_singleton.1 hx]
    exact ⟨by decide +kernel, by unfold CStatesYaml.Clean; decide +kernel, by decide +kernel, by decide +kernel⟩

/-- The hypotheses of the theorems hold for "--disable C6,c1e --enable C6 --cpus 0-1": "C1E" is disabled, "C6" is enabled. -/
example : HumanPrint.exSys.Of CPUInfo.exInfo ∧ Good CPUIdle.exSt ∧ Written exArgs.tgt exTgt ∧
    MeansOpts [("disable".toList, some "C6,c1e".toList), ("enable".toList, some "C6".toList)] exOpts ∧
    (exConfig exArgs).2.2 = .ok () ∧
    CPUIdle.exFlags (exConfig exArgs).1.1 = [(10, 1, "0"), (10, 0, "0"), (0, 0, "0"), (0, 1, "1"), (0, 2, "0"),
      (1, 0, "0"), (1, 1, "1"), (1, 2, "0")] ∧
    (exConfig exArgs).2.1 = ["C6: set to 'off' for CPUs 0,1".toList, "C1E: set to 'off' for CPUs 0,1".toList,
      "C6: set to 'on' for CPUs 0,1".toList] :=
  ⟨HumanPrint.exSys_of, CPUIdle.exSt_good, exTgt_written, exOpts_means, by decide +kernel, by decide +kernel,
    by decide +kernel⟩

/-- An option without an argument, "all", and a property. -/
example : (exConfig { oargs := some [("disable".toList, none), ("enable".toList, some "all".toList),
      ("governor".toList, some "menu".toList)], tgt := { cpus := some "1".toList } }).2 =
    (["POLL: 'on' for CPU 1".toList, " - description: MWAIT".toList, " - expected latency: 0 us".toList,
      " - target residency: 0 us".toList, "C1E: 'on' for CPU 1".toList, " - description: MWAIT".toList,
      " - expected latency: 4 us".toList, " - target residency: 12 us".toList, "C6: 'off' for CPU 1".toList,
      " - description: MWAIT".toList, " - expected latency: 190 us".toList, " - target residency: 570 us".toList,
      "POLL: set to 'on' for CPU 1".toList, "C1E: set to 'on' for CPU 1".toList, "C6: set to 'on' for CPU 1".toList,
      "set".toList], .ok ()) := by decide +kernel

/-- "cstates info --cstates C6 --cpus 0-1". -/
example : MeansAsked { exArgs with oargs := none, csnames := some "C6".toList } (.list ["C6".toList]) ∧
    (infoCmd CPUInfo.exInfo "sysfs".toList CPUIdle.exEnv ["sysfs".toList, "msr".toList] (fun _ => []) exP
      { exArgs with oargs := none, csnames := some "C6".toList } (CPUIdle.exSt, ())).2 =
    (["C6: 'on' for CPU 0".toList, "C6: 'off' for CPU 1".toList, " - description: MWAIT".toList,
      " - expected latency: 170 us".toList, " - expected latency: 190 us".toList, " - target residency: 510 us".toList,
      " - target residency: 570 us".toList], .ok ()) :=
  ⟨.inr (.inr ⟨_, rfl, by decide +kernel, by decide +kernel, by unfold CStatesYaml.Clean; decide +kernel, by decide +kernel,
    by decide +kernel⟩), by decide +kernel⟩

/-- Refusals: an unknown mechanism, and a CPU which does not exist. -/
example : (exConfig { exArgs with mechanisms := some "sysfs,cppc".toList }).2 = ([], .error .notSupported) ∧
    (exConfig { exArgs with tgt := { cpus := some "0,99".toList } }).2 = ([], .error .error) ∧
    (exConfig { exArgs with oargs := none }).2 = ([], .error .error) := by decide +kernel

/-- The '--mechanisms' option does not matter for '--enable' and '--disable': the user allows only "msr", and C-states are
changed through "sysfs". -/
theorem C95_mechanism_counterexample :
    (exConfig { exArgs with mechanisms := some "msr".toList }).2.2 = .ok () ∧
    (exConfig { exArgs with mechanisms := some "msr".toList }).1.1.files ≠ CPUIdle.exSt.files := by decide +kernel

/-- The command is not atomic: a wrong name in the second option is an error, and the first option has been obeyed. -/
theorem C95_atomic_counterexample :
    (exConfig { exArgs with oargs := some [("disable".toList, some "C6".toList), ("enable".toList, some "C9".toList)] }).2 =
      (["C6: set to 'off' for CPUs 0,1".toList], .error .error) ∧
    CPUIdle.exFlags (exConfig { exArgs with
        oargs := some [("disable".toList, some "C6".toList), ("enable".toList, some "C9".toList)] }).1.1 =
      [(10, 1, "0"), (10, 0, "0"), (0, 0, "0"), (0, 1, "1"), (0, 2, "1"), (1, 0, "0"), (1, 1, "0"), (1, 2, "1")] := by
  decide +kernel

/-- '--disable' with an argument which names nothing succeeds, and says that the system, which has C-states, does not support
them. -/
theorem C95_empty_counterexample :
    (exConfig { exArgs with oargs := some [("disable".toList, some ",".toList)] }).2 =
      (["This system does not support C-states".toList], .ok ()) := by decide +kernel

end Verif.CStatesCmd
