import Verif.Lemmas.CmdLine

/-!
C102: the options which say where a command runs work before and after the sub-command, no argument is ignored, and options
whose order matters keep their order.
-/

namespace Verif.CmdLine

theorem reads_setAll {ns : Namespace} {before us : List Use} (h : Reads ns before) :
    Reads (setAll ns us) (before ++ us) := by
  intro g
  rw [valueOf_append]
  exact setAll_attr us ns g _ (h g)

theorem given_dataset {ns : Namespace} {us : List Use} (h : Reads ns us) :
    given ns "dataset".toList = true ↔ valueOf .dataset us ≠ none ∧ valueOf .dataset us ≠ some [] := by
  unfold given
  rw [show ns.get? "dataset".toList = _ from h .dataset]
  cases valueOf .dataset us with
  | none => exact ⟨(nomatch ·), fun h => absurd rfl h.1⟩
  | some v =>
    dsimp only
    rw [decide_eq_true_iff]
    exact ⟨fun h => ⟨(nomatch ·), fun e => h (Option.some.inj e)⟩, fun h e => h.2 (congrArg some e)⟩

/-- The check of the dataset is the check of the specification. -/
theorem conflict_iff {ns : Namespace} {us : List Use} (h : Reads ns us) :
    (given ns "dataset".toList = true ∧ ns.get? "hostname".toList ≠ some (some "localhost".toList)) ↔ Conflict us := by
  rw [given_dataset h, show ns.get? "hostname".toList = _ from h .host]
  unfold Conflict
  constructor
  · rintro ⟨⟨h1, h2⟩, h3⟩
    exact ⟨h1, h2, fun e => h3 (congrArg some e)⟩
  · rintro ⟨h1, h2, h3⟩
    exact ⟨⟨h1, h2⟩, fun e => h3 (Option.some.inj e)⟩

/-- C102: options after the sub-command have their values, whatever the order; an option which is also given before the
sub-command has the value from after it; the others keep the value from before, or the default. A dataset for a remote host is
refused.

Missing from the full statement: the same value for two options after the sub-command (`C102_same_value_counterexample`,
`C102_swapped_counterexample`), and the same option twice (`C102_twice_counterexample`; before the sub-command it is fine). -/
theorem C102_global_partial {ns : Namespace} {before after : List Use} (hns : Reads ns before) (hne : after ≠ [])
    (hp : ∀ u ∈ after, u.Plain) (hn : (after.map Use.opt).Nodup) (hv : (after.map Use.value).Nodup) :
    (Conflict (before ++ after) → parseArgs ns (after.flatMap Use.args) = .error .error) ∧
      (¬ Conflict (before ++ after) → ∃ ns', parseArgs ns (after.flatMap Use.args) = .ok ns' ∧ Reads ns' (before ++ after)) := by
  obtain ⟨vs, h1, h2⟩ := parseArgs_ok ns after hne hp hn hv
  have hr : Reads (setAll ns vs) (before ++ after) := by
    intro g
    rw [valueOf_append, lastOf_perm h1 hn, ← valueOf_append]
    exact reads_setAll hns g
  constructor
  · intro hc
    rw [h2, if_pos ((conflict_iff hr).2 hc)]
  · intro hc
    exact ⟨_, h2.trans (if_neg fun h => hc ((conflict_iff hr).1 h)), hr⟩

theorem defaults_read : Reads defaults [] := by
  intro g
  cases g <;> rfl

example : ∃ after : List Use, after ≠ [] ∧ (∀ u ∈ after, u.Plain) ∧ (after.map Use.opt).Nodup ∧ (after.map Use.value).Nodup ∧
    parseArgs defaults (after.flatMap Use.args) = .ok [("hostname".toList, some "sut".toList), ("username".toList, some "me".toList),
      ("privkey".toList, none), ("timeout".toList, some "8".toList), ("dataset".toList, none)] :=
  ⟨[⟨.user, true, "me".toList⟩, ⟨.host, false, "sut".toList⟩], by decide, by unfold Use.Plain; decide, by decide, by decide,
    by decide +kernel⟩

/-- C102: without options after the sub-command, the values from before it are used. -/
theorem C102_before (ns : Namespace) : parseArgs ns [] = .ok ns := rfl

/-- C102: all the other attributes stay what they were, whatever the arguments. -/
theorem C102_frame {ns ns' : Namespace} {uargs : List PyStr} (h : parseArgs ns uargs = .ok ns') {k : PyStr}
    (hk : ∀ g : Glob, g.attribute ≠ k) : ns'.get? k = ns.get? k := by
  obtain ⟨us, -, -, -, rfl⟩ := parseArgs_sound ns uargs h
  exact setAll_get us ns k fun u _ => hk u.opt

example : ∃ ns ns' uargs, parseArgs ns uargs = .ok ns' ∧ ns' ≠ ns ∧ ns.get? "cpus".toList = some (some "all".toList) :=
  ⟨[("cpus".toList, some "all".toList)], _, ["-H".toList, "sut".toList], rfl, by decide, by decide⟩

/-- C102: if the command line is accepted, no argument after the sub-command is ignored: they are different options with
values, and the values are used. -/
theorem C102_nothing_ignored {ns ns' : Namespace} {before : List Use} (hns : Reads ns before) {uargs : List PyStr}
    (h : parseArgs ns uargs = .ok ns') :
    ∃ us : List Use, (us.map Use.opt).Nodup ∧ uargs.Perm (us.flatMap Use.args) ∧ Reads ns' (before ++ us) := by
  obtain ⟨us, h1, -, h3, rfl⟩ := parseArgs_sound ns uargs h
  exact ⟨us, h1, h3, reads_setAll hns⟩

theorem refused_of {ns : Namespace} {uargs : List PyStr}
    (h : ¬ ∃ us : List Use, (us.map Use.opt).Nodup ∧ (∀ u ∈ us, u.Plain) ∧ uargs.Perm (flat us)) :
    parseArgs ns uargs = .error .error := by
  cases h1 : parseArgs ns uargs with
  | error e => rw [parseArgs_error ns uargs h1]
  | ok ns' =>
    obtain ⟨us, a, b, c, -⟩ := parseArgs_sound ns uargs h1
    exact absurd ⟨us, a, b, c⟩ h

/-- C102: an unknown option after the sub-command is refused. -/
theorem C102_unknown_refused (ns : Namespace) {uargs : List PyStr} {a : PyStr} (ha : a ∈ uargs) (hd : a.head? = some '-')
    (hu : ∀ (g : Glob) (l : Bool), a ≠ g.written l) : parseArgs ns uargs = .error .error := by
  refine refused_of ?_
  rintro ⟨us, -, h2, h3⟩
  obtain ⟨u, hu1, e | e⟩ := mem_flat.1 (h3.mem_iff.1 ha)
  · exact hu _ _ e
  · exact h2 u hu1 (e ▸ hd)

example : ∃ (uargs : List PyStr) (a : PyStr), a ∈ uargs ∧ a.head? = some '-' ∧ (∀ (g : Glob) (l : Bool), a ≠ g.written l) :=
  ⟨["-H".toList, "sut".toList, "--what".toList], "--what".toList, by decide, by decide,
    fun g l => by cases g <;> cases l <;> decide⟩

/-- C102: an argument after the sub-command which is neither an option nor follows something is refused: the number of
arguments has to be even. -/
theorem C102_odd_refused (ns : Namespace) {uargs : List PyStr} (h : uargs.length % 2 = 1) :
    parseArgs ns uargs = .error .error := by
  refine refused_of ?_
  rintro ⟨us, -, -, h3⟩
  have hl : (flat us).length = 2 * us.length := by
    clear h3
    induction us with
    | nil => rfl
    | cons u us ih =>
      show (List.flatMap _ _).length = _
      rw [List.flatMap_cons, List.length_append, ih, List.length_cons]
      show 2 + _ = _
      omega
  have := h3.length_eq
  omega

example : parseArgs defaults ["-H".toList, "sut".toList, "cpu0".toList] = .error .error := C102_odd_refused _ rfl

/-- C102: an option which is given twice after the sub-command, by the same or the other name, is refused. -/
theorem C102_twice_refused (ns : Namespace) (g : Glob) {uargs : List PyStr}
    (h : 2 ≤ uargs.count (g.written false) + uargs.count (g.written true)) : parseArgs ns uargs = .error .error := by
  refine refused_of ?_
  rintro ⟨us, h1, h2, h3⟩
  rw [h3.count_eq, h3.count_eq] at h
  have key : ∀ us : List Use, (∀ u ∈ us, u.Plain) →
      (flat us).count (g.written false) + (flat us).count (g.written true) = (us.map Use.opt).count g := by
    intro us hp
    induction us with
    | nil => rfl
    | cons u us ih =>
      have ih := ih fun u hu => hp u (List.mem_cons_of_mem _ hu)
      have hval : ∀ l, (u.value == g.written l) = false := by
        intro l
        rw [beq_eq_false_iff_ne]
        exact fun e => hp u (List.mem_cons_self ..) (e ▸ written_dash g l)
      have hc : ∀ l, (flat (u :: us)).count (g.written l) =
          (flat us).count (g.written l) + if u.opt = g ∧ u.long = l then 1 else 0 := by
        intro l
        show (u.opt.written u.long :: u.value :: flat us).count _ = _
        rw [List.count_cons, List.count_cons, hval l, if_neg Bool.false_ne_true, Nat.add_zero]
        congr 1
        by_cases e : u.opt = g ∧ u.long = l
        · rw [if_pos e, if_pos (beq_iff_eq.2 (by rw [e.1, e.2]))]
        · rw [if_neg e, if_neg (fun h => e (written_inj (beq_iff_eq.1 h)))]
      rw [hc, hc, List.map_cons, List.count_cons, ← ih]
      by_cases e : u.opt = g
      · rw [if_pos (beq_iff_eq.2 e)]
        cases u.long <;> simp [e] <;> omega
      · rw [if_neg (fun h => e (beq_iff_eq.1 h)), if_neg (fun h => e h.1), if_neg (fun h => e h.1)]
        omega
  rw [key us h2] at h
  have := List.nodup_iff_count.1 h1 g
  omega

example : parseArgs defaults ["-H".toList, "a".toList, "--host".toList, "b".toList] = .error .error :=
  C102_twice_refused _ .host (by decide)

/-- C102, where a command runs: on the emulated systems if there is a dataset, otherwise on the host. The user name, the key
and the timeout are used for a remote host only. -/
theorem C102_place (K : Classes) {ns : Namespace} {us : List Use} (h : Reads ns us) (f : PyStr) :
    plan K ns none false = .ok .noCommand ∧
      (∀ d, valueOf .dataset us = some d → d ≠ [] → plan K ns (some f) false = .ok (.run (.emulated d))) ∧
      ((valueOf .dataset us = none ∨ valueOf .dataset us = some []) →
        (valueOf .host us = some "localhost".toList →
          plan K ns (some f) false = .ok (.run (.host "localhost".toList none none none))) ∧
        ∀ name, valueOf .host us = some name → name ≠ "localhost".toList → plan K ns (some f) false =
          .ok (.run (.host name (valueOf .user us) (valueOf .key us) (valueOf .timeout us)))) := by
  have hattr : ∀ g : Glob, attr ns g.attribute = valueOf g us := by
    intro g
    unfold attr
    rw [h g]; rfl
  refine ⟨rfl, ?_, ?_⟩
  · intro d hd hne
    have hg := (given_dataset h).2 ⟨by rw [hd]; exact (nomatch ·), by rw [hd]; exact fun e => hne (Option.some.inj e)⟩
    unfold plan
    dsimp only
    rw [if_neg Bool.false_ne_true, if_pos hg, show attr ns "dataset".toList = _ from hattr .dataset, hd]
    rfl
  · intro hd
    have hg : ¬ given ns "dataset".toList = true := by
      rw [given_dataset h]
      rintro ⟨h1, h2⟩
      rcases hd with e | e
      · exact h1 e
      · exact h2 e
    constructor
    · intro hh
      unfold plan
      dsimp only
      rw [if_neg Bool.false_ne_true, if_neg hg, show attr ns "hostname".toList = _ from hattr .host, hh]
      rfl
    · intro name hh hne
      unfold plan
      dsimp only
      rw [if_neg Bool.false_ne_true, if_neg hg, show attr ns "hostname".toList = _ from hattr .host, hh,
        show attr ns "username".toList = _ from hattr .user, show attr ns "privkey".toList = _ from hattr .key,
        show attr ns "timeout".toList = _ from hattr .timeout]
      have hb : decide ((some name).getD [] = "localhost".toList) = false := decide_eq_false hne
      rw [hb]
      rfl

/-- C102, from the command line to the place: with the host after the sub-command, the command runs on this host, and not
locally. -/
theorem C102_remote_partial (K : Classes) {ns : Namespace} {before after : List Use} (hns : Reads ns before) (f : PyStr)
    (hp : ∀ u ∈ after, u.Plain) (hn : (after.map Use.opt).Nodup) (hv : (after.map Use.value).Nodup)
    {u : Use} (hu : u ∈ after) (ho : u.opt = .host) (hl : u.value ≠ "localhost".toList)
    (hd : valueOf .dataset (before ++ after) = none) :
    ∃ ns', parseArgs ns (after.flatMap Use.args) = .ok ns' ∧ plan K ns' (some f) false =
      .ok (.run (.host u.value (valueOf .user (before ++ after)) (valueOf .key (before ++ after))
        (valueOf .timeout (before ++ after)))) := by
  obtain ⟨ns', h1, h2⟩ := (C102_global_partial hns (List.ne_nil_of_mem hu) hp hn hv).2 (fun h => h.1 hd)
  refine ⟨ns', h1, ((C102_place K h2 f).2.2 (.inl hd)).2 u.value ?_ hl⟩
  rw [valueOf_append, ← ho]
  exact lastOf_mem hn hu

example : ∃ (after : List Use) (u : Use), (∀ u ∈ after, u.Plain) ∧ (after.map Use.opt).Nodup ∧ (after.map Use.value).Nodup ∧
    u ∈ after ∧ u.opt = .host ∧ u.value ≠ "localhost".toList ∧ valueOf .dataset ([] ++ after) = none :=
  ⟨[⟨.user, false, "me".toList⟩, ⟨.host, true, "sut".toList⟩], ⟨.host, true, "sut".toList⟩,
    by unfold Use.Plain; decide, by decide, by decide, by decide, rfl, by decide, by decide⟩

theorem valueOf_host (us : List Use) : ∃ name, valueOf .host us = some name := by
  have : ∀ (us : List Use) (x : PyStr), ∃ name, lastOf .host (some x) us = some name := by
    intro us
    induction us with
    | nil => exact fun x => ⟨x, rfl⟩
    | cons u us ih =>
      intro x
      show ∃ name, lastOf .host (if u.opt = .host then some u.value else some x) us = some name
      by_cases h : u.opt = .host
      · rw [if_pos h]; exact ih _
      · rw [if_neg h]; exact ih _
  exact this us _

/-- C102, for all arguments: if the command line is accepted, the command runs on the emulated system or on the host with the
name from the command line, and nowhere else. -/
theorem C102_never_elsewhere (K : Classes) {ns ns' : Namespace} {before : List Use} (hns : Reads ns before) {uargs : List PyStr}
    (h : parseArgs ns uargs = .ok ns') (f : PyStr) :
    ∃ us : List Use, (us.map Use.opt).Nodup ∧ uargs.Perm (us.flatMap Use.args) ∧
      ((∃ d, d ≠ [] ∧ valueOf .dataset (before ++ us) = some d ∧ plan K ns' (some f) false = .ok (.run (.emulated d))) ∨
       ∃ name x y z, valueOf .host (before ++ us) = some name ∧
        plan K ns' (some f) false = .ok (.run (.host name x y z))) := by
  obtain ⟨us, h1, h2, h3⟩ := C102_nothing_ignored hns h
  refine ⟨us, h1, h2, ?_⟩
  obtain ⟨-, p1, p2⟩ := C102_place K h3 f
  by_cases hd : valueOf .dataset (before ++ us) = none ∨ valueOf .dataset (before ++ us) = some []
  · right
    obtain ⟨name, hh⟩ := valueOf_host (before ++ us)
    by_cases e : name = "localhost".toList
    · subst e
      exact ⟨_, _, _, _, hh, (p2 hd).1 hh⟩
    · exact ⟨_, _, _, _, hh, (p2 hd).2 name hh e⟩
  · left
    cases hx : valueOf .dataset (before ++ us) with
    | none => exact absurd (.inl hx) hd
    | some d =>
      have hne : d ≠ [] := fun e => hd (.inr (by rw [hx, e]))
      exact ⟨d, hne, rfl, p1 d hx hne⟩

/-- The command line up to the call of the function of the command. -/
def start (K : Classes) (ns : Namespace) (uargs : List PyStr) (f : Option PyStr) (lm : Bool) : Except Exn Plan :=
  match parseArgs ns uargs with
  | .error e => .error e
  | .ok ns => plan K ns f lm

theorem plan_reads (K : Classes) {ns ns' : Namespace} {us us' : List Use} (h : Reads ns us) (h' : Reads ns' us')
    (he : ∀ g, valueOf g us = valueOf g us') (f : Option PyStr) (lm : Bool) : plan K ns f lm = plan K ns' f lm := by
  have hattr : ∀ g : Glob, attr ns g.attribute = attr ns' g.attribute := by
    intro g
    unfold attr
    rw [h g, h' g, he]
  have hg : given ns "dataset".toList = given ns' "dataset".toList := by
    unfold given
    rw [show ns.get? "dataset".toList = _ from h .dataset, show ns'.get? "dataset".toList = _ from h' .dataset, he]
  unfold plan
  rw [show attr ns "hostname".toList = attr ns' "hostname".toList from hattr .host, show attr ns "username".toList = attr ns' "username".toList from hattr .user,
    show attr ns "privkey".toList = attr ns' "privkey".toList from hattr .key, show attr ns "timeout".toList = attr ns' "timeout".toList from hattr .timeout,
    show attr ns "dataset".toList = attr ns' "dataset".toList from hattr .dataset, hg]

/-- C102: it does not matter whether an option is before or after the sub-command, nor in which order the options are: the same
options give the same effect.

Missing from the full statement: equal values of two options and repeated options, see `C102_global_partial`; a dataset for a
remote host is not noticed if nothing is after the sub-command (`C102_conflict_counterexample`). -/
theorem C102_position_partial (K : Classes) {ns ns' : Namespace} {before after before' after' : List Use} (hns : Reads ns before)
    (hns' : Reads ns' before') (hperm : (before ++ after).Perm (before' ++ after')) (hp : ∀ u ∈ before ++ after, u.Plain)
    (hn : ((before ++ after).map Use.opt).Nodup) (hv : ((before ++ after).map Use.value).Nodup)
    (hc : ¬ Conflict (before ++ after)) (f : Option PyStr) (lm : Bool) :
    start K ns (after.flatMap Use.args) f lm = start K ns' (after'.flatMap Use.args) f lm := by
  have he : ∀ g, valueOf g (before ++ after) = valueOf g (before' ++ after') := fun g => lastOf_perm hperm hn
  have hc' : ¬ Conflict (before' ++ after') := by
    unfold Conflict at hc ⊢
    rw [he, he] at hc
    exact hc
  have key : ∀ {ns : Namespace} {b a : List Use}, Reads ns b → (∀ u ∈ b ++ a, u.Plain) → ((b ++ a).map Use.opt).Nodup →
      ((b ++ a).map Use.value).Nodup → ¬ Conflict (b ++ a) →
      ∃ ns', parseArgs ns (a.flatMap Use.args) = .ok ns' ∧ Reads ns' (b ++ a) := by
    intro ns b a h1 h2 h3 h4 h5
    cases a with
    | nil => exact ⟨ns, rfl, by rw [List.append_nil]; exact h1⟩
    | cons u l =>
      rw [List.map_append] at h3 h4
      exact (C102_global_partial h1 (List.cons_ne_nil _ _) (fun w hw => h2 w (List.mem_append_right _ hw))
        (List.nodup_append.1 h3).2.1 (List.nodup_append.1 h4).2.1).2 h5
  obtain ⟨m, m1, m2⟩ := key hns hp hn hv hc
  obtain ⟨m', k1, k2⟩ := key hns' (fun u hu => hp u (hperm.mem_iff.2 hu)) ((hperm.map _).nodup_iff.1 hn)
    ((hperm.map _).nodup_iff.1 hv) hc'
  unfold start
  rw [m1, k1]
  exact plan_reads K m2 k2 he f lm

example : ∃ before after before' after' : List Use, (before ++ after).Perm (before' ++ after') ∧
    (∀ u ∈ before ++ after, u.Plain) ∧ ((before ++ after).map Use.opt).Nodup ∧ ((before ++ after).map Use.value).Nodup ∧
    ¬ Conflict (before ++ after) ∧ before ≠ before' ∧ after ≠ after' :=
  ⟨[⟨.host, false, "sut".toList⟩], [⟨.user, true, "me".toList⟩], [], [⟨.user, true, "me".toList⟩, ⟨.host, false, "sut".toList⟩],
    List.Perm.swap _ _ _, by unfold Use.Plain; decide, by decide, by decide, by decide, by decide, by decide⟩

/-- C102: `--list-mechanisms` lists every mechanism which some property of the class has, once, in the order of the table, and
nothing else; nothing runs. For the commands of other classes it fails. -/
theorem C102_mechanisms (K : Classes) (ns : Namespace) (rest : PyStr) :
    plan K ns (some ("_pstates_".toList ++ rest)) true =
        .ok (.mechanisms ((K.mechs.filter fun m => K.pstates.any fun p => p.contains m.1).map fun m => m.1 ++ " - ".toList ++ m.2)) ∧
      plan K ns (some ("_cstates_".toList ++ rest)) true =
        .ok (.mechanisms ((K.mechs.filter fun m => K.cstates.any fun p => p.contains m.1).map fun m => m.1 ++ " - ".toList ++ m.2)) ∧
      plan K ns (some ("_power_".toList ++ rest)) true =
        .ok (.mechanisms ((K.mechs.filter fun m => K.power.any fun p => p.contains m.1).map fun m => m.1 ++ " - ".toList ++ m.2)) ∧
      plan K ns (some ("_pmqos_".toList ++ rest)) true = .error .error := by
  have hm : ∀ props, mechLines K.mechs (mechNames props) =
      (K.mechs.filter fun m => props.any fun p => p.contains m.1).map fun m => m.1 ++ " - ".toList ++ m.2 := by
    intro props
    unfold mechLines mechNames
    refine congrArg (List.map _) (List.filter_congr fun m _ => ?_)
    rw [Bool.eq_iff_iff]
    simp [List.mem_flatten]
  rw [← hm, ← hm, ← hm]
  exact ⟨rfl, rfl, rfl, rfl⟩

/-- C102: options whose order matters are kept with their last value, in the order in which they are first given; every option
which is given is there. -/
theorem C102_ordered {V : Type} (l : List (PyStr × V)) :
    (∀ k, (orderedArgs l).get? k = lastValue k l) ∧ (orderedArgs l).map Prod.fst = (l.map Prod.fst).eraseDups := by
  constructor
  · intro k
    unfold orderedArgs
    rw [orderedFrom_get, foldl_last]
    exact Option.or_none
  · refine (orderedFrom_keys l []).trans ?_
    show [] ++ (List.filter (fun _ => !(List.contains [] _)) _).eraseDups = _
    rw [List.nil_append, List.filter_eq_self.2]
    intro a _
    rfl

/-- C102: without repeated options, they are exactly what is given, in the same order. -/
theorem C102_ordered_exact {V : Type} (l : List (PyStr × V)) (hn : (l.map Prod.fst).Nodup) : orderedArgs l = l :=
  orderedFrom_nodup l [] hn

example : orderedArgs [("max_freq".toList, 3), ("min_freq".toList, 1), ("max_freq".toList, 2)] =
    [("max_freq".toList, 2), ("min_freq".toList, 1)] := by decide +kernel

/-- C102, the tools for developers: the SSH options are moved to the end, with their values, and all the others keep their order. -/
theorem C102_reorder (items : List Item) (hp : ∀ i ∈ items, i.Proper) :
    reorder (items.flatMap Item.args) = items.flatMap Item.otherArgs ++ items.flatMap Item.sshArgs := by
  unfold reorder
  rw [splitSsh_items items hp]

/-- C102: for all command lines, no argument is added or lost. -/
theorem C102_reorder_perm (args : List PyStr) : args.Perm (reorder args) := splitSsh_perm _ _ _

example : reorder ["-H".toList, "sut".toList, "info".toList, "-K".toList, "key".toList, "--all".toList] =
    ["info".toList, "--all".toList, "-H".toList, "sut".toList, "-K".toList, "key".toList] := by decide +kernel

/-! ### What does not work -/

/-- `-U root -K key -H root` after the sub-command is refused ("value required for argument '-U'"), though all the options have
values: of equal values the first one is removed. -/
theorem C102_same_value_counterexample :
    parseArgs defaults ["-U".toList, "root".toList, "-K".toList, "key".toList, "-H".toList, "root".toList] = .error .error := by
  decide +kernel

/-- With more equal values, an option silently gets the value of another one: the key is `a`, though `-K b` is given. -/
theorem C102_swapped_counterexample :
    ∃ ns, parseArgs defaults (["-T", "a", "-K", "b", "-H", "a", "-U", "b"].map String.toList) = .ok ns ∧
      ns.get? "privkey".toList = some (some "a".toList) ∧ ns.get? "timeout".toList = some (some "b".toList) :=
  ⟨_, rfl, by decide +kernel, by decide +kernel⟩

/-- An option without a value is accepted, if there is a value left by an option between them. -/
theorem C102_nested_counterexample :
    ∃ ns, parseArgs defaults (["-U", "-H", "a", "b"].map String.toList) = .ok ns ∧
      ns.get? "hostname".toList = some (some "a".toList) ∧ ns.get? "username".toList = some (some "b".toList) :=
  ⟨_, rfl, by decide +kernel, by decide +kernel⟩

/-- An option twice after the sub-command is refused, though the last one is used before the sub-command. -/
theorem C102_twice_counterexample :
    parseArgs defaults (["-H", "a", "-H", "b"].map String.toList) = .error .error ∧
      parseArgs (defaults.set "hostname".toList (some "b".toList)) [] =
        .ok (defaults.set "hostname".toList (some "b".toList)) := by
  decide +kernel

/-- A dataset for a remote host is not refused when both options are before the sub-command, and the command runs on the
emulated system. -/
theorem C102_conflict_counterexample (K : Classes) : ∃ (before : List Use) (ns : Namespace), Reads ns before ∧ Conflict before ∧
    parseArgs ns [] = .ok ns ∧ plan K ns (some "_pstates_info_command".toList) false = .ok (.run (.emulated "bdw".toList)) := by
  refine ⟨[⟨.host, false, "sut".toList⟩, ⟨.dataset, false, "bdw".toList⟩],
    setAll defaults [⟨.host, false, "sut".toList⟩, ⟨.dataset, false, "bdw".toList⟩], reads_setAll (before := []) defaults_read,
    by decide, rfl, rfl⟩

end Verif.CmdLine
