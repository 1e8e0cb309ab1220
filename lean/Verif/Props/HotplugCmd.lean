import Verif.Lemmas.HotplugCmd
import Verif.Props.Trivial

/-!
C92: the 'cpu-hotplug' commands.
-/

namespace Verif.HotplugCmd

open CPUInfo (Info Nums WF)
open CPUOnline (Env St)
open OpTarget (Args Selected Valid)

/-- **C92** (offline): after success, the targeted CPUs which support it are offline, and nothing else has changed.
CPUs which do not support it may only be among the targeted ones if the user has not named CPUs. What is missing: with
module siblings indexes module numbers must not repeat in different packages (see
`C52_module_siblings_counterexample`). -/
theorem C92_offline_partial (E : Env) (i : Info) (wf : WF i) (o : Opts) (a : Args) (hw : Written o a)
    (hm : a.modSib ≠ [] → OpTarget.ModulesUnique i) (s : St) (hd : Describes i E s)
    (h : (offlineCmd E i o s).2 = .ok ()) :
    (∃ c, Selected i a c) ∧
    (∀ c, Selected i a c → E.hasFile c = true → (offlineCmd E i o s).1.online c = false) ∧
    (∀ c, ¬ (Selected i a c ∧ E.hasFile c = true) → (offlineCmd E i o s).1.online c = s.online c) ∧
    (Named o → ∀ c, Selected i a c → E.hasFile c = true) := by
  rcases offlineCmd_written (E := E) wf hw hm s with ⟨-, e, h'⟩ | ⟨hV, r, hr, hne, h'⟩
  · rw [h'] at h; cases h
  rw [h'] at h ⊢
  refine ⟨?_, fun c hc hf => ?_, fun c hc => ?_, fun hn c hc => ?_⟩
  · obtain ⟨x, hx⟩ := List.exists_mem_of_ne_nil r hne
    exact ⟨x, (hr x).1 hx⟩
  · exact (CPUOnline.C45_effect E _ _ _ s h c ((hr c).2 hc)).2.1 hf
  · refine (CPUOnline.C45_frame E _ _ _ s c).1 ?_
    rintro ⟨h1, h2⟩
    exact hc ⟨(hr c).1 h1, h2⟩
  · cases hf : E.hasFile c with
    | true => rfl
    | false =>
      exfalso
      have hon : s.online c = true :=
        ((hd.1 c).1 (selected_online wf hw.2.2.2.2.2.2.2 hV hc)).2
      rcases (CPUOnline.C45_effect E _ _ _ s h c ((hr c).2 hc)).2.2 hf with h | h | h
      · rw [hon] at h; cases h
      · cases h
      · obtain ⟨text, e, hne⟩ := hn
        unfold skipUnsupported at h
        rw [e] at h
        simp only [Bool.or_eq_true, beq_iff_eq, Option.some.injEq, reduceCtorEq, or_false] at h
        exact hne h

/-- C92 (offline, whatever the outcome is): targeted CPUs may be offline after a failure, everything else is as it was. -/
theorem C92_offline_outcome_partial (E : Env) (i : Info) (wf : WF i) (o : Opts) (a : Args) (hw : Written o a)
    (hm : a.modSib ≠ [] → OpTarget.ModulesUnique i) (s : St) (c : Nat) :
    (¬ (Selected i a c ∧ E.hasFile c = true) → (offlineCmd E i o s).1.online c = s.online c) ∧
    ((offlineCmd E i o s).1.online c = s.online c ∨ (offlineCmd E i o s).1.online c = false) := by
  rcases offlineCmd_written (E := E) wf hw hm s with ⟨-, e, h'⟩ | ⟨hV, r, hr, hne, h'⟩
  · rw [h']; exact ⟨fun _ => rfl, .inl rfl⟩
  · rw [h']
    obtain ⟨h1, h2⟩ := CPUOnline.C45_frame E (.list r) false (skipUnsupported o) s c
    refine ⟨fun hn => h1 ?_, h2⟩
    rintro ⟨k1, k2⟩
    exact hn ⟨(hr c).1 k1, k2⟩

/-- C92 (offline, any texts): no text whatsoever can bring a CPU online or touch a CPU without hotplug support. -/
theorem C92_offline_any (E : Env) (i : Info) (o : Opts) (s : St) (c : Nat) :
    (E.hasFile c = false → (offlineCmd E i o s).1.online c = s.online c) ∧
    ((offlineCmd E i o s).1.online c = s.online c ∨ (offlineCmd E i o s).1.online c = false) := by
  unfold offlineCmd
  cases toArgs o with
  | error e => exact ⟨fun _ => rfl, .inl rfl⟩
  | ok a =>
    dsimp only
    cases OpTarget.init i a with
    | error e => exact ⟨fun _ => rfl, .inl rfl⟩
    | ok tc =>
      obtain ⟨t, ca⟩ := tc
      dsimp only
      cases (OpTarget.getCpus i t ca).1 with
      | error e => exact ⟨fun _ => rfl, .inl rfl⟩
      | ok r =>
        dsimp only
        obtain ⟨h1, h2⟩ := CPUOnline.C45_frame E (.list r) false (skipUnsupported o) s c
        exact ⟨fun hn => h1 (fun h => by rw [hn] at h; cases h.2), h2⟩

/-- C92 (offline, refusals): numbers which do not exist, CPUs which are not online, and options selecting no CPUs are
refused, and nothing changes. -/
theorem C92_offline_refused (E : Env) (i : Info) (wf : WF i) (o : Opts) (a : Args) (hw : Written o a)
    (hm : a.modSib ≠ [] → OpTarget.ModulesUnique i) (s : St)
    (h : ¬ Valid i a ∨ ∀ c, ¬ Selected i a c) : ∃ e, offlineCmd E i o s = (s, .error e) := by
  rcases offlineCmd_written (E := E) wf hw hm s with ⟨-, e, h'⟩ | ⟨hV, r, hr, hne, h'⟩
  · exact ⟨e, h'⟩
  · exfalso
    rcases h with h | h
    · exact h hV
    · obtain ⟨x, hx⟩ := List.exists_mem_of_ne_nil r hne
      exact h x ((hr x).1 hx)

/-- C92 (offline, CPUs without hotplug support): if CPUs are named, the command fails if any of the targeted CPUs does
not support offlining. -/
theorem C92_offline_unsupported (E : Env) (i : Info) (wf : WF i) (o : Opts) (a : Args) (hw : Written o a)
    (hm : a.modSib ≠ [] → OpTarget.ModulesUnique i) (s : St) (hd : Describes i E s) (hn : Named o) (c : Nat)
    (hc : Selected i a c) (hf : E.hasFile c = false) : ∃ e, (offlineCmd E i o s).2 = .error e := by
  cases h : (offlineCmd E i o s).2 with
  | error e => exact ⟨e, rfl⟩
  | ok u =>
    have := (C92_offline_partial E i wf o a hw hm s hd h).2.2.2 hn c hc
    rw [hf] at this
    cases this

/-- C92 (offline, success): the command succeeds if the numbers exist, some CPU is targeted and the kernel agrees. CPUs
without hotplug support do not matter unless CPUs are named. -/
theorem C92_offline_works (E : Env) (i : Info) (wf : WF i) (o : Opts) (a : Args) (hw : Written o a)
    (hm : a.modSib ≠ [] → OpTarget.ModulesUnique i) (s : St) (hd : Describes i E s) (hV : Valid i a)
    (hex : ∃ c, Selected i a c) (hdir : ∀ c ∈ E.present, E.hasDir c = true)
    (hk : ∀ f c, Selected i a c → E.hasFile c = true → E.kern f c false = .stored)
    (hn : Named o → ∀ c, Selected i a c → E.hasFile c = true) :
    (offlineCmd E i o s).2 = .ok () := by
  rcases offlineCmd_written (E := E) wf hw hm s with ⟨h, -⟩ | ⟨-, r, hr, -, h'⟩
  · exfalso
    rcases h with h | h
    · exact h hV
    · obtain ⟨c, hc⟩ := hex
      exact h c hc
  · rw [h']
    have hpres : ∀ c ∈ r, c ∈ E.present := fun c hc =>
      ((hd.1 c).1 (selected_online wf hw.2.2.2.2.2.2.2 hV ((hr c).1 hc))).1
    refine CPUOnline.C45_succeeds E r false _ s hpres (fun c hc => ?_) (fun f c hc => hk f c ((hr c).1 hc))
    cases hs : skipUnsupported o with
    | true => exact .inr (.inr ⟨hdir c (hpres c hc), rfl⟩)
    | false =>
      refine .inl (hn ?_ c ((hr c).1 hc))
      unfold skipUnsupported at hs
      cases hcpus : o.cpus with
      | none => rw [hcpus] at hs; simp at hs
      | some text =>
        refine ⟨text, hcpus, fun e => ?_⟩
        rw [hcpus, e] at hs
        simp at hs

/-- C92 (offline without options): everything that can be offlined is. -/
theorem C92_offline_everything (E : Env) (i : Info) (wf : WF i) (s : St) (hd : Describes i E s)
    (h : (offlineCmd E i {} s).2 = .ok ()) (c : Nat) :
    (offlineCmd E i {} s).1.online c =
      (if c ∈ E.present ∧ E.hasFile c = true then false else s.online c) := by
  have hw : Written {} ({} : Args) := ⟨rfl, ⟨none, rfl, rfl⟩, rfl, ⟨none, rfl, rfl⟩, rfl, rfl, rfl, rfl⟩
  obtain ⟨-, h1, h2, -⟩ := C92_offline_partial E i wf {} {} hw (fun h => absurd rfl h) s hd h
  have hsel : ∀ c, Selected i {} c ↔ c ∈ i.online := by
    intro c
    constructor
    · refine selected_online (a := {}) wf rfl ⟨?_, ?_, ?_, trivial, trivial⟩
      · intro l e; cases e
      · intro l e; cases e
      · intro l e; cases e
    · intro hc
      refine ⟨.inl ⟨⟨fun h => h, fun h => h, fun h => h, fun h => h, fun h => h⟩, hc⟩, fun h => absurd rfl h,
        fun h => absurd rfl h⟩
  split
  · rename_i hp
    cases hs : s.online c with
    | true => exact h1 c ((hsel c).2 ((hd.1 c).2 ⟨hp.1, hs⟩)) hp.2
    | false =>
      rw [h2 c (fun h => ?_), hs]
      have := ((hd.1 c).1 ((hsel c).1 h.1)).2
      rw [hs] at this
      cases this
  · rename_i hp
    exact h2 c (fun h => hp ⟨((hd.1 c).1 ((hsel c).1 h.1)).1, h.2⟩)

/-- **C92** (online): after success with a list of CPUs or "all", these CPUs are online, and nothing else has changed. -/
theorem C92_online (E : Env) (text : PyStr) (n : Option Nums) (hw : Means (some text) n) (s : St)
    (h : (onlineCmd E (some text) s).2 = .ok ()) (c : Nat) :
    (OpTarget.Picks n c → n = some .all ∨ c ∈ E.present) ∧
    (OpTarget.Picks n c → c ∈ E.present → E.hasFile c = true → (onlineCmd E (some text) s).1.online c = true) ∧
    (¬ (OpTarget.Picks n c ∧ c ∈ E.present ∧ E.hasFile c = true) →
      (onlineCmd E (some text) s).1.online c = s.online c) ∧
    (OpTarget.Picks n c → c ∈ E.present → n ≠ some .all → E.hasFile c = false → s.online c = true) := by
  rcases hw with ⟨rfl, rfl⟩ | ⟨l, rfl, hl⟩
  · have e : onlineCmd E (some "all".toList) s = CPUOnline.toggle E .all true false s := by
      have : numsText "all".toList = .ok .all := by decide +kernel
      have h0 : ("all".toList).isEmpty = false := by decide +kernel
      unfold onlineCmd
      dsimp only
      rw [if_neg (by rw [h0]; exact Bool.false_ne_true), this]
    rw [e] at h ⊢
    refine ⟨fun _ => .inl rfl, fun _ hp hf => ?_, fun hn => ?_, fun _ _ h => absurd rfl h⟩
    · exact (CPUOnline.C45_effect E _ _ _ s h c hp).2.1 hf
    · exact (CPUOnline.C45_frame E _ _ _ s c).1 (fun h => hn ⟨trivial, h.1, h.2⟩)
  · obtain ⟨l', h1, h2, h3⟩ := numsText_lists hl
    have e : onlineCmd E (some text) s = CPUOnline.toggle E (.list l') true false s := by
      unfold onlineCmd
      dsimp only
      rw [if_neg (by rw [(lists_ne_nil hl).1]; exact Bool.false_ne_true), h1]
    rw [e] at h ⊢
    refine ⟨fun hc => .inr ?_, fun hc hp hf => ?_, fun hn => ?_, fun hc hp _ hf => ?_⟩
    · exact (CPUOnline.C45_effect E _ _ _ s h c ((h3 c).2 hc)).1
    · exact (CPUOnline.C45_effect E _ _ _ s h c ((h3 c).2 hc)).2.1 hf
    · refine (CPUOnline.C45_frame E _ _ _ s c).1 (fun hh => hn ⟨(h3 c).1 hh.1, ?_, hh.2⟩)
      exact (CPUOnline.C45_effect E _ _ _ s h c hh.1).1
    · rcases (CPUOnline.C45_effect E _ _ _ s h c ((h3 c).2 hc)).2.2 hf with h | h | h
      · exact h
      · cases h
      · cases h

/-- C92 (online, refusals): without the option, or with a CPU which does not exist, nothing changes. -/
theorem C92_online_refused (E : Env) (s : St) :
    (∃ e, onlineCmd E none s = (s, .error e)) ∧
    ∀ text l, Lists text l → ∀ c ∈ l, c ∉ E.present →
      (onlineCmd E (some text) s).1.online = s.online ∧ ∃ e, (onlineCmd E (some text) s).2 = .error e := by
  refine ⟨⟨_, rfl⟩, fun text l hl c hc hp => ?_⟩
  obtain ⟨l', h1, h2, h3⟩ := numsText_lists hl
  have e : onlineCmd E (some text) s = CPUOnline.toggle E (.list l') true false s := by
    unfold onlineCmd
    dsimp only
    rw [if_neg (by rw [(lists_ne_nil hl).1]; exact Bool.false_ne_true), h1]
  rw [e]
  exact CPUOnline.C45_no_such_cpu E l' true false s ((h3 c).2 hc) hp

/-- C92 (off and on again): whatever was successfully offlined, a successful 'cpu-hotplug online --cpus all' brings every
CPU with hotplug support online. -/
theorem C92_back (E : Env) (i : Info) (o : Opts) (s : St)
    (h2 : (onlineCmd E (some "all".toList) (offlineCmd E i o s).1).2 = .ok ()) (c : Nat) :
    (onlineCmd E (some "all".toList) (offlineCmd E i o s).1).1.online c =
      (if c ∈ E.present ∧ E.hasFile c = true then true else (offlineCmd E i o s).1.online c) := by
  obtain ⟨-, k2, k3, -⟩ := C92_online E "all".toList (some .all) (.inl ⟨rfl, rfl⟩) _ h2 c
  split
  · rename_i hp
    exact k2 trivial hp.1 hp.2
  · rename_i hp
    exact k3 (fun h => hp h.2)

/-- The line tells about exactly the CPUs with property `P`. -/
def Tells (word host line : PyStr) (P : Nat → Prop) : Prop :=
  ((∀ c, ¬ P c) ∧ line = "No ".toList ++ word ++ " CPUs".toList ++ host) ∨
  ∃ text, line = "The following CPUs are ".toList ++ word ++ host ++ ": ".toList ++ text ∧
    ∃ l, Trivial.splitCsvLineInt text ',' false = .ok (l.map Int.ofNat) ∧ l ≠ [] ∧ l.Pairwise (· ≤ ·) ∧
      ∀ c, c ∈ l ↔ P c

theorem tells_infoLine (word host : PyStr) (l : List Nat) (P : Nat → Prop) (h : ∀ c, c ∈ l ↔ P c) :
    Tells word host (infoLine word host l) P := by
  unfold infoLine
  split
  · rename_i he
    refine .inl ⟨fun c hc => ?_, rfl⟩
    rw [List.isEmpty_iff.1 he] at h
    exact absurd ((h c).2 hc) (by simp)
  · rename_i he
    obtain ⟨r, h1, h2, h3⟩ := Trivial.C23_rangify_roundtrip l
    refine .inr ⟨_, rfl, r, h1, fun e => ?_, h3, fun c => ?_⟩
    · rw [e] at h2
      exact he (List.isEmpty_iff.2 h2.symm.eq_nil)
    · rw [h2.mem_iff, h]

/-- **C92** (info): the two lines tell which CPUs are online and which ones are offline. The object is new, or has been
told about hotplugging. -/
theorem C92_info (E : Env) (host : PyStr) (s : St) (hf : CPUOnline.Fresh E s) :
    ∃ l1 l2, (infoCmd E host s).2 = [l1, l2] ∧
      Tells "online".toList host l1 (fun c => c ∈ E.present ∧ s.online c = true) ∧
      Tells "offline".toList host l2 (fun c => c ∈ E.present ∧ s.online c = false) ∧
      (infoCmd E host s).1.online = s.online := by
  obtain ⟨h1, h2, h3⟩ := CPUOnline.ready_spec hf true
  simp only [if_true] at h1 h2 h3
  obtain ⟨k1, k2, k3⟩ := CPUOnline.ready_spec h2 false
  simp only [Bool.false_eq_true, if_false] at k1 k2 k3
  rw [h1] at k1 k3
  unfold infoCmd
  generalize CPUOnline.getCpus E s = x at h1 h3 k1 k3 ⊢
  obtain ⟨s1, on⟩ := x
  dsimp only at k1 k3 ⊢
  generalize CPUOnline.getOffline E s1 = y at k1 k3 ⊢
  obtain ⟨s2, off⟩ := y
  exact ⟨_, _, rfl, tells_infoLine _ _ _ _ h3, tells_infoLine _ _ _ _ k3, k1⟩

/-! ### Disagreements -/

/-- Two packages with CPUs 0, 1 and 2, 3. -/
def exI : Info :=
  let topology : List CPUInfo.TLine := [⟨0, 0, 0, 0, 0, 0⟩, ⟨1, 1, 1, 0, 0, 0⟩, ⟨2, 0, 2, 0, 1, 1⟩, ⟨3, 1, 3, 0, 1, 1⟩]
  ⟨topology, CPUInfo.cpuNums topology, CPUInfo.cpuNums topology, fun _ => []⟩

theorem exI_wf : WF exI := CPUInfo.wf_of_check (by decide +kernel) (by decide +kernel)

/-- CPU 0 does not support hotplug. -/
def exE : Env := ⟨[0, 1, 2, 3], fun c => c ∈ [1, 2, 3], fun c => c ≤ 3, fun _ _ _ => .stored⟩

/-- All CPUs are online. -/
def exS : St := ⟨fun c => c ∈ [0, 1, 2, 3], []⟩

/-- The topology while CPU 1 is offline. -/
def exI1 : Info :=
  let topology : List CPUInfo.TLine := [⟨0, 0, 0, 0, 0, 0⟩, ⟨2, 0, 2, 0, 1, 1⟩, ⟨3, 1, 3, 0, 1, 1⟩]
  ⟨topology, CPUInfo.cpuNums topology, [0, 1, 2, 3], fun _ => []⟩

theorem exI1_wf : WF exI1 := by
  have hon : ∀ c, c ∈ exI1.online ↔ c ≠ CPUInfo.NA ∧ ∃ t ∈ exI1.topology, t.cpu = c := by
    intro c
    rw [show exI1.online = [0, 2, 3] by decide +kernel]
    simp only [exI1, List.mem_cons, List.not_mem_nil, or_false, CPUInfo.NA]
    constructor
    · rintro (rfl | rfl | rfl) <;> simp
    · rintro ⟨-, t, rfl | rfl | rfl, rfl⟩ <;> simp
  refine ⟨by decide +kernel, by decide +kernel, by decide +kernel, by decide +kernel, hon, ?_, by decide +kernel,
    by decide +kernel⟩
  decide +kernel

/-- The intent stated in the code (pepctool/_PepcCPUHotplug.py:60-63): CPUs without hotplug support are fine if they are
specified indirectly, by '--packages 0'. Together with '--cpus 2' they are not: the command fails, and CPU 2 is offline
already. -/
theorem C92_indirect_counterexample : WF exI ∧ Describes exI exE exS ∧
    (offlineCmd exE exI { packages := some "0".toList } exS).2 = .ok () ∧
    (offlineCmd exE exI { packages := some "0".toList, cpus := some "2".toList } exS).2 = .error .notSupported ∧
    (offlineCmd exE exI { packages := some "0".toList, cpus := some "2".toList } exS).1.online 2 = false := by
  refine ⟨exI_wf, ⟨fun c => ?_, fun c => ?_⟩, by decide +kernel, by decide +kernel, by decide +kernel⟩
  · rw [show exI.online = [0, 1, 2, 3] by decide +kernel]
    simp [exE, exS]
  · rw [show exI.present = [0, 1, 2, 3] by decide +kernel]
    rfl

/-- The library call can be repeated (`C45_idempotent`), the command cannot: offlining CPU 1 again is an error, while
onlining it twice is not. -/
theorem C92_repeat_counterexample :
    (offlineCmd exE exI { cpus := some "1".toList } exS).2 = .ok () ∧
    Describes exI1 exE (offlineCmd exE exI { cpus := some "1".toList } exS).1 ∧ WF exI1 ∧
    (offlineCmd exE exI1 { cpus := some "1".toList } (offlineCmd exE exI { cpus := some "1".toList } exS).1).2 =
      .error .error ∧
    (onlineCmd exE (some "1".toList) exS).2 = .ok () := by
  refine ⟨by decide +kernel, ⟨fun c => ?_, fun c => Iff.rfl⟩, exI1_wf,
    by decide +kernel, by decide +kernel⟩
  have hfr := CPUOnline.C45_frame exE (.list [1]) false false exS c
  have heff := CPUOnline.C45_effect exE (.list [1]) false false exS (by decide +kernel) 1 (List.mem_singleton.2 rfl)
  have e : offlineCmd exE exI { cpus := some "1".toList } exS = CPUOnline.toggle exE (.list [1]) false false exS := by
    have h1 : toArgs { cpus := some "1".toList } = .ok { cpus := some (.nums [1]) } := by
      have : optNums (some "1".toList) = .ok (some (.nums [1])) := by decide +kernel
      unfold toArgs
      rw [this]
      rfl
    have h2 : OpTarget.init exI { cpus := some (.nums [1]) } = .ok ({ cpus := [1] }, {}) := by rfl
    have h3 : (OpTarget.getCpus exI { cpus := [1] } {}).1 = .ok [1] := by decide +kernel
    have h4 : skipUnsupported { cpus := some "1".toList } = false := by decide +kernel
    unfold offlineCmd
    rw [h1]
    dsimp only
    rw [h2]
    dsimp only
    rw [h3]
    dsimp only
    rw [h4]
  rw [e, show exI1.online = [0, 2, 3] by decide +kernel]
  by_cases hc : c = 1
  · subst hc
    rw [heff.2.1 (by decide +kernel)]
    simp
  · rw [hfr.1 (fun h => hc (List.mem_singleton.1 h.1))]
    simp [exE, exS]
    omega

/-! ### Examples -/

/-- The hypotheses of the theorems about the offline command: '--packages 1 --core-siblings 0'. -/
example : Written { packages := some "1".toList, coreSib := some "0-0".toList }
      { packages := some (.nums [1]), coreSib := [0] } ∧
    (offlineCmd exE exI { packages := some "1".toList, coreSib := some "0-0".toList } exS).2 = .ok () ∧
    exE.present.filter (offlineCmd exE exI { packages := some "1".toList, coreSib := some "0-0".toList } exS).1.online =
      [0, 1] := by
  refine ⟨⟨rfl, ⟨none, rfl, rfl⟩, rfl, ⟨none, rfl, rfl⟩, .inr ⟨[1], rfl, [.one 1], by simp, by simp [Item.Ok], ?_, ?_⟩,
    ⟨[.range 0 0], by simp, by simp [Item.Ok], ?_, ?_⟩, rfl, rfl⟩, by decide +kernel, by decide +kernel⟩
  · decide +kernel
  · intro n; simp [Item.Has]
  · decide +kernel
  · intro n; simp [Item.Has]

/-- '--cpus 1-2,3' and '--cpus all', and CPUs which cannot be offlined or do not exist. -/
example : exE.present.filter (offlineCmd exE exI { cpus := some "1-2,3".toList } exS).1.online = [0] ∧
    (offlineCmd exE exI { cpus := some "all".toList } exS).2 = .ok () ∧
    exE.present.filter (offlineCmd exE exI { cpus := some "all".toList } exS).1.online = [0] ∧
    (offlineCmd exE exI { cpus := some "0".toList } exS).2 = .error .notSupported ∧
    (offlineCmd exE exI { cpus := some "7".toList } exS).2 = .error .error ∧
    (offlineCmd exE exI { cpus := some "x".toList } exS).2 = .error .badFormat ∧
    (offlineCmd exE exI {} exS).2 = .ok () := by decide +kernel

/-- The online command and the information about CPUs. -/
example : (infoCmd exE " on host".toList (offlineCmd exE exI { packages := some "1".toList } exS).1).2.length = 2 ∧
    (onlineCmd exE (some "3".toList) (offlineCmd exE exI {} exS).1).2 = .ok () ∧
    exE.present.filter (onlineCmd exE (some "3".toList) (offlineCmd exE exI {} exS).1).1.online = [0, 3] ∧
    (onlineCmd exE none exS).2 = .error .error ∧
    (infoCmd exE [] exS).2 = ["The following CPUs are online: 0-3".toList, "No offline CPUs".toList] := by
  decide +kernel

end Verif.HotplugCmd
