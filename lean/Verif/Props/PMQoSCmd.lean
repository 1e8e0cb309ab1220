import Verif.Lemmas.PMQoSCmd
import Verif.Props.PropsCmd

/-!
C98: the 'pmqos info' and 'pmqos config' commands, end to end: C97 for the PM QoS properties.
-/

namespace Verif.PMQoSCmd

open PyStr
open CPUInfo OpTarget
open Human (Flt)
open HumanPrint (Sys Val)
open PropsBase (Mech PropDesc toTry)
open PropsTarget (Shows Plain)
open PropsCmd (Host configCmd infoCmd TellsAbout Reading SetReading asked given wanted PlainFor)
open HotplugCmd (Written)
open PMQoS (Files Kernel)

variable {S : Sys} {H : Host Flt} {E : Env}

theorem On.fmt_ne (h : On S H E) (p : PyStr) (n : Int) : H.F.unitInt p n ≠ [] := by
  rw [h.fmt]
  exact HumanPrint.ofInt_ne_nil n

theorem plainFor {i : Info} {a : OpTarget.Args} (hm : a.modSib ≠ [] → ModulesUnique i) (names : List PyStr) :
    PlainFor i a (cls E) names := by
  intro p _ P hP
  rcases desc_cases hP with ⟨-, rfl⟩ | ⟨-, -, rfl⟩ <;>
    exact ⟨hm, fun h => (nomatch h), fun h => nomatch h⟩

theorem norm_latency (E : Env) : (cls E).norm latency = norm E :=
  if_pos (c := latency = latency) (t := norm E) (e := fun _ => .error .error) rfl

theorem norm_other (E : Env) {p : PyStr} (h : p ≠ latency) : (cls E).norm p = fun _ => .error .error :=
  if_neg (c := p = latency) (t := norm E) h

theorem init_inv (F : Files) : Inv F (init F) := ⟨List.nodup_nil, fun _ => rfl⟩

theorem init_held (F : Files) (p : PyStr) : held p (init F) = hw p (init F) := rfl

theorem rd_notSupported {F : Files} {s : St} (hs : Inv F s) (p : PyStr) (m : Mech) (c : Nat) :
    rd E p m c (hw p s c) = .error .notSupported ↔ (p = latency ∧ F c = none) ∨ (p = globalLatency ∧ E.cdev = none) := by
  have hg : globalLatency ≠ latency := by decide +kernel
  unfold rd readCpu hw
  by_cases h1 : p = latency
  · subst h1
    rw [if_pos rfl, if_pos rfl]
    have := hs.2 c
    cases hf : s.files c with
    | none =>
      rw [hf] at this
      have : F c = none := by
        cases h : F c with
        | none => rfl
        | some t => rw [h] at this; cases this
      exact ⟨fun _ => .inl ⟨rfl, this⟩, fun _ => rfl⟩
    | some t =>
      rw [hf] at this
      refine ⟨fun h => ?_, fun h => ?_⟩
      · exfalso
        unfold readText at h
        dsimp only [Option.map] at h
        split at h
        · cases h
        · unfold toSec at h
          split at h <;> cases h
      · rcases h with ⟨-, h⟩ | ⟨h, -⟩
        · rw [h] at this; cases this
        · exact absurd h.symm hg
  · rw [if_neg h1]
    by_cases h2 : p = globalLatency
    · rw [if_pos h2]
      unfold readGlobal
      cases h : E.cdev with
      | none => exact ⟨fun _ => .inr ⟨h2, rfl⟩, fun _ => rfl⟩
      | some b =>
        refine ⟨(fun h => by cases h), fun h => ?_⟩
        rcases h with ⟨h, -⟩ | ⟨-, h⟩
        · exact absurd h h1
        · cases h
    · rw [if_neg h2]
      refine ⟨(fun h => by cases h), fun h => ?_⟩
      rcases h with ⟨h, -⟩ | ⟨h, -⟩
      · exact absurd h h1
      · exact absurd h h2

theorem uniform {T : Nat → Prop} {F : Files} (h : Uniform T F) {s : St} (hs : Inv F s) :
    PropsCmd.Uniform T (rd E) fun p c => hw p s c := by
  intro p m c d hc hd hr
  rw [rd_notSupported hs] at hr ⊢
  exact hr.imp (fun k => ⟨k.1, h c d hc hd k.2⟩) id

theorem toSec_val {fl : Rat → Rat} {us : Int} {v : Option (Val Flt)} (h : toSec fl us = .ok v) :
    v = some (.num (.fin (fl (us / 1000000)))) := by
  unfold toSec Human.mkFlt at h
  split at h
  · rename_i x hx
    split at hx
    · cases hx
    · split at hx
      · cases hx
      · cases hx; cases h; rfl
  · cases h

/-- What is read is what is to be shown. -/
theorem reading_shown {s : St} {ml : Option (List Mech)} {p : PyStr} {c : Nat} {v : Option (Val Flt)} {m : PyStr}
    (h : Reading (cls E) (rd E) (fun p c => hw p s c) ml p c v m) : Shown E s.files p c v ∧ (ml = none → m = mechOf p) := by
  obtain ⟨P, hP, h1, h2⟩ := h
  have hg : globalLatency ≠ latency := by decide +kernel
  have hs : Inv s.files ⟨s.files, [], s.writes⟩ := ⟨List.nodup_nil, fun _ => rfl⟩
  have hns : ∀ m, rd E p m c (hw p s c) = .error .notSupported ↔ _ := fun m => rd_notSupported (E := E) hs p m c
  have hsn : P.sname ≠ none := by
    rcases desc_cases hP with ⟨-, rfl⟩ | ⟨-, -, rfl⟩ <;> exact fun h => nomatch h
  obtain ⟨mech, rfl, hsh⟩ := h2 hsn
  have key : (∃ m, rd E p m c (hw p s c) = .ok v) ∨ ((∃ m, rd E p m c (hw p s c) = .error .notSupported) ∧ v = none) := by
    rcases hsh with ⟨pre, post, -, -, h⟩ | ⟨h, hv, hm⟩
    · exact .inl ⟨_, h⟩
    · exact .inr ⟨⟨mech, h mech hm⟩, hv⟩
  have hm : mech ∈ toTry P ml := by
    rcases hsh with ⟨pre, post, he, -⟩ | ⟨-, -, hm⟩
    · rw [he]; simp
    · exact hm
  refine ⟨?_, ?_⟩
  · rcases desc_cases hP with ⟨rfl, rfl⟩ | ⟨h0, rfl, rfl⟩
    · refine .inl ⟨rfl, fun hf => ?_, fun t ht => ?_⟩
      · rcases key with ⟨m, h⟩ | ⟨-, h⟩
        · rw [(hns m).2 (.inl ⟨rfl, hf⟩)] at h; cases h
        · exact h
      · rcases key with ⟨m, h⟩ | ⟨⟨m, h⟩, -⟩
        · unfold rd readCpu hw at h
          rw [if_pos rfl, if_pos rfl, ht] at h
          unfold readText at h
          dsimp only [Option.map] at h
          rw [Tpmi.strToInt_strip] at h
          split at h
          · cases h
          · rename_i us hus
            exact ⟨us, hus, toSec_val h⟩
        · rcases (hns m).1 h with ⟨-, h⟩ | ⟨h, -⟩
          · rw [ht] at h; cases h
          · exact absurd h.symm hg
    · refine .inr ⟨rfl, fun hf => ?_, fun b hb => ?_⟩
      · rcases key with ⟨m, h⟩ | ⟨-, h⟩
        · rw [(hns m).2 (.inr ⟨rfl, hf⟩)] at h; cases h
        · exact h
      · rcases key with ⟨m, h⟩ | ⟨⟨m, h⟩, -⟩
        · unfold rd readCpu readGlobal at h
          rw [if_neg h0, if_pos rfl, hb] at h
          cases h; rfl
        · rcases (hns m).1 h with ⟨h, -⟩ | ⟨-, h⟩
          · exact absurd h h0
          · rw [hb] at h; cases h
  · rintro rfl
    rcases desc_cases hP with ⟨rfl, rfl⟩ | ⟨h0, rfl, rfl⟩
    · rw [List.mem_singleton.1 hm]; exact (if_pos rfl).symm
    · rw [List.mem_singleton.1 hm]; exact (if_neg h0).symm

theorem setReading_shown {s : St} {ml : Option (List Mech)} {p : PyStr} {c : Nat} {v : Option (Val Flt)} {m : PyStr}
    (h : SetReading (cls E) (rd E) (fun p c => hw p s c) ml p c v m) :
    Shown E s.files p c v ∧ (ml = none → m = mechOf p) := by
  obtain ⟨mech, hr, P, hP, hm⟩ := h
  refine ⟨(reading_shown hr).1, ?_⟩
  rintro rfl
  obtain ⟨P', hP', -, h2⟩ := hr
  have e : P' = P := Option.some.inj (hP'.symm.trans hP)
  subst e
  have hsn : P'.sname ≠ none := by
    rcases desc_cases hP with ⟨-, rfl⟩ | ⟨-, -, rfl⟩ <;> exact fun h => nomatch h
  obtain ⟨m', rfl, hsh⟩ := h2 hsn
  have hm' : m' = mech := by
    have : m' ∈ toTry P' (some [mech]) := by
      rcases hsh with ⟨pre, post, he, -⟩ | ⟨-, -, hm⟩
      · rw [he]; simp
      · exact hm
    exact List.mem_singleton.1 this
  subst hm'
  rcases desc_cases hP with ⟨rfl, rfl⟩ | ⟨h0, rfl, rfl⟩
  · rw [List.mem_singleton.1 hm]; exact (if_pos rfl).symm
  · rw [List.mem_singleton.1 hm]; exact (if_neg h0).symm

/-- C98 (frame): whatever the outcome, the files of CPUs which are not targeted are not written, and no file is written unless
the '--latency-limit' option has a value. -/
theorem C98_frame_partial (hon : On S H E) (args : PropsCmd.Args) {o : Dict PyStr (Option PyStr)} (ho : args.oargs = some o)
    (hn : o.keys.Nodup) {a : OpTarget.Args} (hw' : Written args.tgt a) (hm : a.modSib ≠ [] → ModulesUnique H.i)
    (F : Files) (c : Nat) (h : ¬ Selected H.i a c ∨ ∀ text, o.get? "latency_limit".toList ≠ some (some text)) :
    (configCmd H (cls E) args (init F)).1.files c = F c ∧ (configCmd H (cls E) args (init F)).1.writes c = 0 := by
  have := PropsCmd.C97_invariant_partial hon.sys hon.online hon.fmt_ne hon.later (contract H.i hon.sys.wf E F) args ho hn hw'
    (plainFor hm _)
    (fun s => s.buf.keys.Nodup ∧ (∀ us, (c, us) ∉ s.buf) ∧ s.files c = F c ∧ s.writes c = 0) ?_ (fun _ h => h) ?_
    (s := init F) ⟨List.nodup_nil, fun us => List.not_mem_nil, rfl, rfl⟩
  · exact this.2.2
  · rintro p text x v m l s hp - - hl ⟨h1, h2, h3⟩
    rcases set_cases E p m v l s with ⟨e, -⟩ | ⟨rfl, f, us, -, -, e⟩
    · have e' : ((cls E).set p m v l s).1 = s := e
      rw [e']
      exact ⟨h1, h2, h3⟩
    · have e' : (cls E).set latency m v l s = ({ s with buf := addAll us l s.buf }, .ok ()) := e
      rw [e']
      refine ⟨addAll_nodup us l _ h1, fun u hu => ?_, h3⟩
      rcases addAll_mem us l _ h1 hu with ⟨hc, -⟩ | hu
      · rcases h with h | h
        · exact h (hl c hc).1
        · exact h text hp
      · exact h2 u hu
  · rintro s ⟨h1, h2, h3, h4⟩
    obtain ⟨k1, k2, -, k4, -⟩ := commit_state E.K s
    obtain ⟨f1, f2⟩ := flush_other E.K s.buf s h2
    have e1 : ((cls E).commit s).1.files c = F c := by show (commit E.K s).1.files c = F c; rw [k1, f1, h3]
    have e2 : ((cls E).commit s).1.writes c = 0 := by show (commit E.K s).1.writes c = 0; rw [k2, f2, h4]
    refine ⟨?_, ?_, e1, e2⟩
    · show (commit E.K s).1.buf.keys.Nodup
      rcases k4 with k | k <;> rw [k]
      · exact h1
      · exact List.nodup_nil
    · intro us
      show (c, us) ∉ (commit E.K s).1.buf
      rcases k4 with k | k <;> rw [k]
      · exact h2 us
      · exact List.not_mem_nil

/-- C98 (safety): whatever the outcome, a file is either as it was, or belongs to a targeted CPU and is what the kernel made of
the number of microseconds the '--latency-limit' option stands for; nothing else is ever written. -/
theorem C98_safe_partial (hf : IsRounding E.fl) (hon : On S H E) (args : PropsCmd.Args) {o : Dict PyStr (Option PyStr)}
    (ho : args.oargs = some o) (hn : o.keys.Nodup) {a : OpTarget.Args} (hw' : Written args.tgt a)
    (hm : a.modSib ≠ [] → ModulesUnique H.i) {text : PyStr} (ht : o.get? "latency_limit".toList = some (some text))
    {n : Nat} (hst : Stands text n) (hn44 : n ≤ 2 ^ 44) (F : Files) (c : Nat) :
    ((configCmd H (cls E) args (init F)).1.files c = F c ∧ (configCmd H (cls E) args (init F)).1.writes c = 0) ∨
    (Selected H.i a c ∧ ∃ t, E.K c (ofNat n) = .ok t ∧ (configCmd H (cls E) args (init F)).1.files c = some t) := by
  have := PropsCmd.C97_invariant_partial hon.sys hon.online hon.fmt_ne hon.later (contract H.i hon.sys.wf E F) args ho hn hw'
    (plainFor hm _)
    (fun s => s.buf.keys.Nodup ∧ (∀ d us, (d, us) ∈ s.buf → Selected H.i a d ∧ us = n) ∧
      ((s.files c = F c ∧ s.writes c = 0) ∨ (Selected H.i a c ∧ ∃ t, E.K c (ofNat n) = .ok t ∧ s.files c = some t)))
    ?_ (fun _ h => h) ?_ (s := init F) ⟨List.nodup_nil, fun _ us h => (nomatch h), .inl ⟨rfl, rfl⟩⟩
  · exact this.2.2
  · rintro p text' x v m l s hp hx hv hl ⟨h1, h2, h3⟩
    rcases set_cases E p m v l s with ⟨e, -⟩ | ⟨rfl, f, us, rfl, hus, e⟩
    · have e' : ((cls E).set p m v l s).1 = s := e
      rw [e']
      exact ⟨h1, h2, h3⟩
    · have e' : (cls E).set latency m (.num f) l s = ({ s with buf := addAll us l s.buf }, .ok ()) := e
      rw [e']
      refine ⟨addAll_nodup us l _ h1, fun d u hu => ?_, h3⟩
      rcases addAll_mem us l _ h1 hu with ⟨hc, rfl⟩ | hu
      · refine ⟨(hl d hc).1, ?_⟩
        have et : text' = text := by
          have := hp.symm.trans ht
          exact Option.some.inj (Option.some.inj this)
        subst et
        obtain ⟨r, k1, k2⟩ := stands_us E hf hst hn44 hx
        have hv' : norm E (.str x) = .ok (.num f) := by
          rw [norm_latency] at hv
          exact hv
        rw [k1] at hv'
        cases hv'
        exact Except.ok.inj (hus.symm.trans k2)
      · exact h2 d u hu
  · rintro s ⟨h1, h2, h3⟩
    refine commit_keeps E.K (fun s' => s'.buf.keys.Nodup ∧ (∀ d us, (d, us) ∈ s'.buf → Selected H.i a d ∧ us = n) ∧
      ((s'.files c = F c ∧ s'.writes c = 0) ∨ (Selected H.i a c ∧ ∃ t, E.K c (ofNat n) = .ok t ∧ s'.files c = some t))) s ?_
      (fun s' h => ⟨List.nodup_nil, fun _ us h => (nomatch h), h.2.2⟩) ⟨h1, h2, h3⟩
    rintro d us s' hd ⟨k1, k2, k3⟩
    refine ⟨k1, k2, ?_⟩
    obtain ⟨hsel, rfl⟩ := h2 d us hd
    by_cases hcd : c = d
    · subst hcd
      rcases flushOne_self E.K s' c n with ⟨j1, j2, -⟩ | ⟨t, j1, j2, -⟩
      · rw [j1, j2]; exact k3
      · exact .inr ⟨hsel, t, j1, j2⟩
    · obtain ⟨j1, j2⟩ := flushOne_other E.K s' n hcd
      rw [j1, j2]
      exact k3

/-- C98 (the 'config' command succeeds): the file of every targeted CPU has the number of microseconds the '--latency-limit'
option stands for. The lines tell the limits asked for as they were, and then the new limit as it is in the files. What is
missing: module numbers must be unique when module sibling indexes are used, and either all targeted CPUs have a file, or none
of them has one. -/
theorem C98_config_partial (hf : IsRounding E.fl) (hon : On S H E) (args : PropsCmd.Args) {o : Dict PyStr (Option PyStr)}
    (ho : args.oargs = some o) (hn : o.keys.Nodup) {a : OpTarget.Args} (hw' : Written args.tgt a)
    (hm : a.modSib ≠ [] → ModulesUnique H.i) {F : Files} (hu : Uniform (Selected H.i a) F) {ml : Option (List Mech)}
    (hml : PropsCmd.MeansMechs (cls E) args.mechanisms ml) {s : St} {lines : List PyStr}
    (h : configCmd H (cls E) args (init F) = (s, lines, .ok ())) :
    (∀ text, o.get? "latency_limit".toList = some (some text) →
      ∃ us : Int, (∀ c, Selected H.i a c → (s.files c).map strip = some (ofInt us)) ∧
        ∀ n : Nat, n ≤ 2 ^ 44 → Stands text n → us = n) ∧
    (∀ p ∈ given o, p = "latency_limit".toList) ∧
    ∃ l1 t1 l2 t2, lines = l1 ++ l2 ∧
      TellsAbout S H (cls E) false none (Selected H.i a) (asked o) false
        (fun p c v m => Shown E F p c v ∧ (ml = none → m = mechOf p)) l1 t1 ∧
      TellsAbout S H (cls E) false (some "set to".toList) (Selected H.i a) (given o) false
        (fun p c v m => Shown E s.files p c v ∧ (ml = none → m = mechOf p)) l2 t2 := by
  obtain ⟨h1, l1, t1, l2, t2, h2, h3, h4⟩ := PropsCmd.C97_config_partial hon.sys hon.online hon.fmt_ne hon.later
    (contract H.i hon.sys.wf E F) args ho hn hw' (plainFor hm _) (fun s hs => uniform hu hs) hml (init_inv F) (init_held F) h
  refine ⟨fun text ht => ?_, fun p hp => ?_, l1, t1, l2, t2, h2, h3.imp fun p _ c v m => reading_shown,
    h4.imp fun p _ c v m => setReading_shown⟩
  · obtain ⟨x, v, k1, k2, k3⟩ := h1 _ text ht
    have hv : norm E (.str x) = .ok v := by
      rw [show (cls E).norm "latency_limit".toList = norm E from norm_latency E] at k2
      exact k2
    by_cases hex : ∃ c, Selected H.i a c
    · obtain ⟨c0, hc0⟩ := hex
      obtain ⟨-, f, us, rfl, hus, -⟩ := k3 c0 hc0
      refine ⟨us, fun c hc => ?_, fun n hn44 hst => ?_⟩
      · obtain ⟨-, f', us', e, hus', hx⟩ := k3 c hc
        cases e
        cases hus.symm.trans hus'
        have : hw latency s c = ((s.files c).map strip, s.writes c) := if_pos rfl
        rw [show hw "latency_limit".toList s c = _ from this] at hx
        exact hx
      · obtain ⟨r, j1, j2⟩ := stands_us E hf hst hn44 k1
        rw [hv] at j1
        cases j1
        exact Except.ok.inj (hus.symm.trans j2)
    · by_cases hst : ∃ n : Nat, n ≤ 2 ^ 44 ∧ Stands text n
      · obtain ⟨n, hn44, hst⟩ := hst
        obtain ⟨r, j1, j2⟩ := stands_us E hf hst hn44 k1
        refine ⟨n, fun c hc => absurd ⟨c, hc⟩ hex, fun n' hn' hst' => ?_⟩
        obtain ⟨r', j1', j2'⟩ := stands_us E hf hst' hn' k1
        rw [j1] at j1'
        cases j1'
        exact Except.ok.inj (j2.symm.trans j2')
      · exact ⟨0, fun c hc => absurd ⟨c, hc⟩ hex, fun n hn' hst' => absurd ⟨n, hn', hst'⟩ hst⟩
  · obtain ⟨⟨q, t⟩, hq, rfl⟩ := List.mem_map.1 hp
    obtain ⟨hq1, hq2⟩ := List.mem_filter.1 hq
    cases t with
    | none => cases hq2
    | some t =>
      obtain ⟨x, v, -, k2, -⟩ := h1 q t (Dict.get?_of_mem hn hq1)
      by_contra hne
      rw [norm_other E hne] at k2
      cases k2

/-- C98 (bad values): with a value for an option other than '--latency-limit', or with a value of '--latency-limit' which cannot
be parsed, the 'config' command fails, and no file is written. -/
theorem C98_bad_partial (hon : On S H E) (args : PropsCmd.Args) {o : Dict PyStr (Option PyStr)} (ho : args.oargs = some o)
    (hn : o.keys.Nodup) {a : OpTarget.Args} (hw' : Written args.tgt a) (hm : a.modSib ≠ [] → ModulesUnique H.i)
    {F : Files} (hu : Uniform (Selected H.i a) F) {ml : Option (List Mech)}
    (hml : PropsCmd.MeansMechs (cls E) args.mechanisms ml)
    {p text : PyStr} (ht : o.get? p = some (some text))
    (hb : p ≠ "latency_limit".toList ∨ ∀ x, PropsCmd.Means (cls E) p text x →
      Human.isNum E.fl x = false ∧ ∃ e, Human.parseHuman E.fl x ['s'] none false = .error e) :
    (configCmd H (cls E) args (init F)).2.2 ≠ .ok () ∧
    ∀ c, (configCmd H (cls E) args (init F)).1.files c = F c ∧ (configCmd H (cls E) args (init F)).1.writes c = 0 := by
  have hbad : ∀ x v, PropsCmd.Means (cls E) p text x → (cls E).norm p (.str x) ≠ .ok v := by
    intro x v hx
    by_cases hp : p = latency
    · rw [hp, norm_latency]
      rcases hb with h | h
      · exact absurd hp h
      · obtain ⟨k1, e, k2⟩ := h x hx
        unfold norm
        dsimp only
        rw [k1, if_neg (by simp), k2]
        exact fun h => nomatch h
    · rw [norm_other E hp]
      exact fun h => nomatch h
  refine ⟨fun hok => ?_, ?_⟩
  · cases hr : configCmd H (cls E) args (init F) with
    | mk s y =>
      obtain ⟨lines, r⟩ := y
      rw [hr] at hok
      cases hok
      obtain ⟨h1, -⟩ := PropsCmd.C97_config_partial hon.sys hon.online hon.fmt_ne hon.later
        (contract H.i hon.sys.wf E F) args ho hn hw' (plainFor hm _) (fun s hs => uniform hu hs) hml (init_inv F)
        (init_held F) hr
      obtain ⟨x, v, k1, k2, -⟩ := h1 p text ht
      exact hbad x v k1 k2
  · rcases PropsCmd.C97_all_or_nothing_partial hon.sys hon.online hon.fmt_ne hon.later (contract H.i hon.sys.wf E F) args ho
      hn hw' (plainFor hm _) (fun p m v l s q => funext fun c => (set_held E p q m v l s).2 c) (init_inv F)
      (init_held F) with h | h | ⟨-, h⟩
    · have hwr : ∀ c, (configCmd H (cls E) args (init F)).1.writes c = 0 := by
        intro c
        have := congrFun (h latency) c
        unfold hw at this
        rw [if_pos rfl, if_pos rfl] at this
        exact congrArg Prod.snd this
      intro c
      refine ⟨?_, hwr c⟩
      have hinv := PropsCmd.C97_invariant_partial hon.sys hon.online hon.fmt_ne hon.later (contract H.i hon.sys.wf E F) args ho
        hn hw' (plainFor hm _) (fun s => s.writes c = 0 → s.files c = F c) ?_ (fun _ h => h) ?_ (s := init F) (fun _ => rfl)
      · exact hinv (hwr c)
      · intro p text x v m l s _ _ _ _ hs
        rcases set_cases E p m v l s with ⟨e, -⟩ | ⟨rfl, f, us, -, -, e⟩
        · rw [show ((cls E).set p m v l s).1 = s from e]; exact hs
        · rw [show (cls E).set latency m v l s = _ from e]; exact hs
      · intro s hs
        refine commit_keeps E.K (fun s' => s'.writes c = 0 → s'.files c = F c) s (fun d us s' _ h' => ?_) (fun _ h => h) hs
        by_cases hcd : c = d
        · subst hcd
          rcases flushOne_self E.K s' c us with ⟨j1, j2, -⟩ | ⟨t, -, -, j3, -⟩
          · rw [j1, j2]; exact h'
          · rw [j3]; intro h; omega
        · obtain ⟨j1, j2⟩ := flushOne_other E.K s' us hcd
          rw [j1, j2]; exact h'
    · obtain ⟨x, v, k1, k2, -⟩ := h p text ht
      exact absurd k2 (hbad x v k1)
    · obtain ⟨x, v, k1, k2⟩ := h p text ht
      exact absurd k2 (hbad x v k1)

/-- C98 (refusing): without options, with a mechanism other than "sysfs" and "cdev", or when the target does not exist, the
'config' command fails, prints nothing, and writes nothing. -/
theorem C98_refuses (hwf : WF H.i) (args : PropsCmd.Args)
    (h : args.oargs = none ∨
      (∃ text ms, args.mechanisms = some text ∧ CStatesCmd.MeansMechs text ms ∧
        ∃ m ∈ ms, m ≠ "sysfs".toList ∧ m ≠ "cdev".toList) ∨
      ∃ a, Written args.tgt a ∧ ¬ Valid H.i a) (s : St) :
    ∃ e, configCmd H (cls E) args s = (s, [], .error e) := by
  refine PropsCmd.C97_refuses hwf args (h.imp id (Or.imp ?_ id)) s
  rintro ⟨text, ms, h1, h2, m, h3, h4, h5⟩
  refine ⟨text, ms, h1, h2, m, h3, fun x hx => ?_⟩
  rcases List.mem_cons.1 hx with rfl | hx
  · exact h4.symm
  · rw [List.mem_singleton.1 hx]; exact h5.symm

/-- C98 (the 'config' command works): it succeeds if the target exists and has CPUs, their files have numbers, and the kernel
accepts the limit; the limit written is then in the files (`C98_config_partial`). -/
theorem C98_works_partial (hf : IsRounding E.fl) (hon : On S H E) (args : PropsCmd.Args) {o : Dict PyStr (Option PyStr)}
    (ho : args.oargs = some o) (hn : o.keys.Nodup) {a : OpTarget.Args} (hw' : Written args.tgt a)
    (hm : a.modSib ≠ [] → ModulesUnique H.i) (hV : Valid H.i a) (hex : ∃ c, Selected H.i a c)
    (hcpus : ∀ p, PkgEx H.i p → ∃ c, CpuWith H.i (InPackage p) c) (hml : args.mechanisms = none)
    (hopts : ∀ p v, o.get? p = some v → p = "latency_limit".toList ∨ (p = "global_latency_limit".toList ∧ v = none))
    {F : Files}
    (hread : ∀ c, Selected H.i a c → ∃ t us, F c = some t ∧ Trivial.strToInt t = .ok us ∧ |(us : Rat)| ≤ 2 ^ 44)
    (hset : ∀ text, o.get? "latency_limit".toList = some (some text) → ∃ n, Stands text n ∧ n ≤ 2 ^ 44 ∧
      ∀ c, Selected H.i a c → ∃ t, E.K c (ofNat n) = .ok t ∧ strip t = ofNat n) :
    (configCmd H (cls E) args (init F)).2.2 = .ok () := by
  have hg : globalLatency ≠ latency := by decide +kernel
  obtain ⟨Good, hGood⟩ : ∃ Good : St → Prop, Good = fun s => Inv F s ∧
    (∀ c us, (c, us) ∈ s.buf → Selected H.i a c ∧ ∃ (n : Nat) (t : PyStr), us = (n : Int) ∧ n ≤ 2 ^ 44 ∧
      E.K c (ofNat n) = .ok t ∧ strip t = ofNat n) ∧
    ∀ c, Selected H.i a c → ∃ t us, s.files c = some t ∧ Trivial.strToInt t = .ok us ∧ |(us : Rat)| ≤ 2 ^ 44 := ⟨_, rfl⟩
  have hkey : ∀ p ∈ o.keys, p = latency ∨ p = globalLatency := by
    intro p hp
    obtain ⟨⟨q, v⟩, hq, rfl⟩ := List.mem_map.1 hp
    exact (hopts q v (Dict.get?_of_mem hn hq)).imp id And.left
  refine PropsCmd.C97_works_partial hon.sys hon.online hon.fmt_ne hon.later (contract H.i hon.sys.wf E F) args ho hn hw'
    (plainFor hm _) hV hex (Good := Good) ?_ (ml := none) (by rw [hml]; rfl) hcpus ?_ ?_ (fun s h => ⟨rfl, h⟩) ?_
    (init_inv F) ?_ (init_held F)
  · intro s hs
    rw [hGood] at hs
    refine uniform (F := F) (fun c d hc _ h => ?_) hs.1
    obtain ⟨t, -, k, -⟩ := hread c hc
    rw [h] at k; cases k
  · intro s hs p hp
    rw [hGood] at hs
    rcases hkey p hp with rfl | rfl
    · refine ⟨⟨_, _, rfl, rfl, (nomatch ·), (nomatch ·), fun l h => nomatch h⟩, fun m c hc => .inr ?_⟩
      obtain ⟨t, us, k1, k2, k3⟩ := hs.2.2 c hc
      unfold rd readCpu hw
      rw [if_pos rfl, if_pos rfl, k1]
      unfold readText
      dsimp only [Option.map]
      rw [Tpmi.strToInt_strip, k2]
      dsimp only
      unfold toSec
      rw [Human.mkFlt_fin (by
        rw [abs_div]
        have : |(1000000 : Rat)| = 1000000 := by norm_num
        rw [this]
        have h0 := abs_nonneg (us : Rat)
        refine le_trans (div_le_self h0 (by norm_num)) (le_trans k3 (by norm_num)))]
      exact ⟨_, rfl⟩
    · refine ⟨⟨_, _, rfl, rfl, (nomatch ·), (nomatch ·), fun l h => nomatch h⟩, fun m c hc => ?_⟩
      unfold rd readCpu
      rw [if_neg hg, if_pos rfl]
      unfold readGlobal
      cases E.cdev with
      | none => exact .inl rfl
      | some b => exact .inr ⟨_, rfl⟩
  · intro p text x hpt hx
    rcases hopts p _ hpt with rfl | ⟨-, h⟩
    · obtain ⟨n, hst, hn44, hk⟩ := hset text hpt
      obtain ⟨r, j1, j2⟩ := stands_us E hf hst hn44 hx
      refine ⟨⟨_, .lvl .CPU, rfl, rfl, (nomatch ·), (nomatch ·), ?_, rfl, fun l h => nomatch h⟩, ⟨.num (.fin r), j1, ?_⟩⟩
      · rintro ⟨c, d, hc, hcd, hd⟩
        exact hd (same_cpu hcd ▸ hc)
      · intro m l s hl hs
        rw [hGood] at hs ⊢
        have e : (cls E).set "latency_limit".toList m (.num (.fin r)) l s = ({ s with buf := addAll n l s.buf }, .ok ()) := by
          show set E latency m (.num (.fin r)) l s = _
          unfold set
          rw [if_pos rfl]
          dsimp only
          rw [j2]
        rw [e]
        refine ⟨rfl, ⟨addAll_nodup _ l _ hs.1.1, hs.1.2⟩, fun c us hc => ?_, hs.2.2⟩
        rcases addAll_mem _ l _ hs.1.1 hc with ⟨hcl, rfl⟩ | hc
        · obtain ⟨t, k1, k2⟩ := hk c (hl c hcl)
          exact ⟨hl c hcl, n, t, rfl, hn44, k1, k2⟩
        · exact hs.2.1 c us hc
    · cases h
  · intro s hs
    have hb := hGood ▸ hs
    dsimp only at hb
    have step : ∀ d us s', (d, us) ∈ s.buf → Good s' → (flushOne E.K s' d us).2 = .ok () ∧ Good (flushOne E.K s' d us).1 := by
      intro d us s' hd hs'
      rw [hGood] at hs' ⊢
      dsimp only at hs' ⊢
      obtain ⟨hsel, n, t, rfl, hn44, k1, k2⟩ := hb.2.1 d us hd
      have hof : ofInt (n : Int) = ofNat n := rfl
      rcases flushOne_self E.K s' d n with ⟨-, -, j⟩ | ⟨t', j1, j2, -, j4⟩
      · exfalso
        apply j
        obtain ⟨tf, -, q, -⟩ := hs'.2.2 d hsel
        unfold flushOne PMQoS.writeInt
        rw [q, hof, k1]
        dsimp only
        rw [if_neg (fun h => h.2 k2)]
      · rw [hof, k1] at j1
        cases j1
        refine ⟨j4.2 k2, ⟨hs'.1.1, fun c => by rw [flushOne_some]; exact hs'.1.2 c⟩, hs'.2.1, fun c hc => ?_⟩
        by_cases hcd : c = d
        · subst hcd
          refine ⟨t, n, j2, ?_, ?_⟩
          · rw [← Tpmi.strToInt_strip, k2, Trivial.strToInt_ofNat]
          · have h2 : (n : Rat) ≤ 2 ^ 44 := by exact_mod_cast hn44
            rw [show ((n : Int) : Rat) = n by norm_cast, abs_of_nonneg (Nat.cast_nonneg n)]
            exact h2
        · rw [(flushOne_other E.K s' n hcd).1]
          exact hs'.2.2 c hc
    have all : ∀ l s', (∀ x ∈ l, x ∈ s.buf) → Good s' → (flush E.K l s').2 = .ok () ∧ Good (flush E.K l s').1 := by
      intro l
      induction l with
      | nil => exact fun s' _ h => ⟨rfl, h⟩
      | cons x l ih =>
        obtain ⟨d, us⟩ := x
        intro s' hl hs'
        obtain ⟨k1, k2⟩ := step d us s' (hl _ List.mem_cons_self) hs'
        unfold flush
        cases hx : flushOne E.K s' d us with
        | mk s1 r =>
          rw [hx] at k1 k2
          cases k1
          exact ih s1 (fun y hy => hl y (List.mem_cons_of_mem _ hy)) k2
    obtain ⟨q1, q2⟩ := all s.buf s (fun _ h => h) hs
    show (commit E.K s).2 = .ok () ∧ Good (commit E.K s).1
    unfold commit
    cases hx : flush E.K s.buf s with
    | mk s1 r =>
      rw [hx] at q1 q2
      cases q1
      rw [hGood] at q2 ⊢
      exact ⟨rfl, ⟨List.nodup_nil, q2.1.2⟩, (fun _ _ h => nomatch h), q2.2.2⟩
  · rw [hGood]
    exact ⟨init_inv F, (fun _ _ h => nomatch h), hread⟩

/-- C98 (the 'info' command): it writes nothing. If it succeeds, the lines tell the limits of the targeted CPUs as they are in
the files, and the global limit; without options, limits which are not supported are left out. That nothing is supported is
said if no limit is, and only then. -/
theorem C98_info_partial (hon : On S H E) (args : PropsCmd.Args) (hn : ∀ o, args.oargs = some o → o.keys.Nodup)
    {a : OpTarget.Args} (hw' : Written args.tgt a) (hm : a.modSib ≠ [] → ModulesUnique H.i) (hex : ∃ c, Selected H.i a c)
    {F : Files} (hu : Uniform (Selected H.i a) F) {ml : Option (List Mech)}
    (hml : PropsCmd.MeansMechs (cls E) args.mechanisms ml) :
    (infoCmd H (cls E) args (init F)).1 = init F ∧
    ((infoCmd H (cls E) args (init F)).2.2 = .ok () → ∃ names lines told,
      (args.oargs = none → names = ["latency_limit".toList, "global_latency_limit".toList]) ∧
      (∀ o, args.oargs = some o → names = o.keys) ∧
      TellsAbout S H (cls E) args.oargs.isNone none (Selected H.i a) names args.oargs.isNone
        (fun p c v m => Shown E F p c v ∧ (ml = none → m = mechOf p)) lines told ∧
      ((infoCmd H (cls E) args (init F)).2.1 = lines ∨ (infoCmd H (cls E) args (init F)).2.1 = lines ++ [H.nothing]) ∧
      ((infoCmd H (cls E) args (init F)).2.1 = lines ++ [H.nothing] ↔
        args.oargs = some [] ∨ (args.oargs = none ∧ E.cdev = none ∧ ∀ c, Selected H.i a c → F c = none))) := by
  have hwanted : ∀ o : Dict PyStr (Option PyStr), wanted (cls E) (some o) = o.keys := by
    intro o
    show (List.flatMap (fun x => x.1 :: []) o) = _
    induction o with
    | nil => rfl
    | cons x o ih => rw [List.flatMap_cons, ih]; rfl
  have hnd : (wanted (cls E) args.oargs).Nodup := by
    cases ho : args.oargs with
    | none => show (["latency_limit".toList, "global_latency_limit".toList] : List PyStr).Nodup; decide +kernel
    | some o => rw [hwanted]; exact hn o ho
  obtain ⟨h1, h2⟩ := PropsCmd.C97_info_partial hon.sys hon.online hon.fmt_ne hon.later (contract H.i hon.sys.wf E F) args hnd hw'
    (plainFor hm _) hex (uniform hu (init_inv F)) hml (init_inv F) (init_held F)
  refine ⟨h1, fun hok => ?_⟩
  obtain ⟨lines, told, k1, k2, k3⟩ := h2 hok
  refine ⟨_, lines, told, fun h => by rw [h]; rfl, fun o h => by rw [h, hwanted],
    k1.imp fun p _ c v m => reading_shown, k2, k3.trans ?_⟩
  have hne : ∀ P : PropDesc, P.mnames ≠ [] → ∃ m, m ∈ toTry P ml := by
    intro P hP
    cases ml with
    | none => exact List.exists_mem_of_ne_nil _ hP
    | some l =>
      cases l with
      | nil => exact List.exists_mem_of_ne_nil _ hP
      | cons m l => exact ⟨m, mem_pyDedup.2 List.mem_cons_self⟩
  have hnone : ∀ p P c, desc p = some P → ((∃ m, Reading (cls E) (rd E) (fun p c => hw p (init F) c) ml p c none m) ↔
      (p = latency ∧ F c = none) ∨ (p = globalLatency ∧ E.cdev = none)) := by
    intro p P c hP
    refine ⟨fun ⟨m, hr⟩ => ?_, fun h => ?_⟩
    · rcases (reading_shown hr).1 with ⟨rfl, -, h⟩ | ⟨rfl, -, h⟩
      · refine .inl ⟨rfl, ?_⟩
        cases hf : F c with
        | none => rfl
        | some t =>
          obtain ⟨us, -, k⟩ := h t hf
          cases k
      · refine .inr ⟨rfl, ?_⟩
        cases hf : E.cdev with
        | none => rfl
        | some t => cases h t hf
    · obtain ⟨m, hmm⟩ := hne P (by rcases desc_cases hP with ⟨-, rfl⟩ | ⟨-, -, rfl⟩ <;> exact fun h => nomatch h)
      exact ⟨_, P, hP, fun _ => rfl, fun _ => ⟨m, rfl, .inr ⟨fun q _ => (rd_notSupported (init_inv F) p q c).2 h, rfl, hmm⟩⟩⟩
  cases ho : args.oargs with
  | some o =>
    rw [hwanted]
    constructor
    · rintro (h | ⟨h, -⟩)
      · rw [List.map_eq_nil_iff.1 h]; exact .inl rfl
      · cases h
    · rintro (h | ⟨h, -⟩)
      · rw [Option.some.inj h]; exact .inl rfl
      · cases h
  | none =>
    have hw2 : wanted (cls E) none = [latency, globalLatency] := rfl
    rw [hw2]
    constructor
    · rintro (h | ⟨-, h⟩)
      · cases h
      · have hg : globalLatency ≠ latency := by decide +kernel
        obtain ⟨c0, hc0⟩ := hex
        refine .inr ⟨rfl, ?_, fun c hc => ?_⟩
        · rcases (hnone globalLatency _ c0 rfl).1 (h _ (by simp) c0 hc0) with ⟨h, -⟩ | ⟨-, h⟩
          · exact absurd h hg
          · exact h
        · rcases (hnone latency _ c rfl).1 (h _ (by simp) c hc) with ⟨-, h⟩ | ⟨h, -⟩
          · exact h
          · exact absurd h.symm hg
    · rintro (h | ⟨-, h1, h2⟩)
      · cases h
      · refine .inr ⟨rfl, fun p hp c hc => ?_⟩
        rcases List.mem_cons.1 hp with rfl | hp
        · exact (hnone latency _ c rfl).2 (.inl ⟨rfl, h2 c hc⟩)
        · rw [List.mem_singleton.1 hp]
          exact (hnone globalLatency _ c rfl).2 (.inr ⟨rfl, h1⟩)

/-! The examples: exact arithmetic, the kernel stores what is written, and the global limit is 2000 seconds. -/

def exEnv : Env := ⟨id, fun _ => "0.0".toList, fun _ t => .ok (t ++ ['\n']), some [0, 0x94, 0x35, 0x77]⟩

def exHost : Host Flt := ⟨CPUInfo.exInfo, fmt id, id, fun _ ca _ => ca, "Nothing".toList⟩

def exFiles : Files := fun _ => some "100\n".toList

/-- The options, and "--cpus 0-1". -/
def exArgs (o : Dict PyStr (Option PyStr)) : PropsCmd.Args := { oargs := some o, tgt := { cpus := some "0-1".toList } }

theorem exRounding : IsRounding exEnv.fl := by
  refine ⟨rfl, fun x _ _ => ?_⟩
  show |x - x| ≤ |x| / 2 ^ 53
  rw [sub_self, abs_zero]
  have := abs_nonneg x
  positivity

theorem exOn : On HumanPrint.exSys exHost exEnv :=
  ⟨HumanPrint.exSys_of, by decide +kernel, rfl, fun _ _ _ => ⟨[], ⟨List.not_mem_nil, List.not_mem_nil⟩, rfl⟩⟩

theorem exUniform (T : Nat → Prop) : Uniform T exFiles := fun _ _ _ _ h => nomatch h

/-- "--global-latency-limit --latency-limit 1.5ms". -/
def exOpts : Dict PyStr (Option PyStr) :=
  [("global_latency_limit".toList, none), ("latency_limit".toList, some "1.5ms".toList)]

theorem exStands : Stands "1.5ms".toList 1500 := by
  have := Stands.unit [] [] 1 [5] .milli 1500 (fun _ h => nomatch h) (fun _ h => nomatch h) (by decide)
    (by unfold Human.decVal; norm_num [Human.fracVal, Human.Prefix.val])
  have e : ([] : PyStr) ++ Human.decText 1 [5] ++ [] ++ (Human.Prefix.milli.text ++ ['s']) = "1.5ms".toList := by decide +kernel
  rw [e] at this
  exact this

/-- The hypotheses of C98_frame_partial, C98_safe_partial and C98_config_partial hold for the example, and what the command
does. -/
example : (∀ o, (exArgs exOpts).oargs = some o → o.keys.Nodup) ∧ Written (exArgs exOpts).tgt CStatesCmd.exTgt ∧
    (CStatesCmd.exTgt.modSib ≠ [] → ModulesUnique exHost.i) ∧
    exOpts.get? "latency_limit".toList = some (some "1.5ms".toList) ∧
    PropsCmd.MeansMechs (cls exEnv) (exArgs exOpts).mechanisms none ∧
    (configCmd exHost (cls exEnv) (exArgs exOpts) (init exFiles)).2 =
      (["Linux global PM QoS latency limit: 2000s".toList,
        "Linux per-CPU PM QoS latency limit: set to 1.50ms for CPUs 0,1".toList], .ok ()) ∧
    [0, 1, 2].map (configCmd exHost (cls exEnv) (exArgs exOpts) (init exFiles)).1.files =
      [some "1500\n".toList, some "1500\n".toList, some "100\n".toList] ∧
    [0, 1, 2].map (configCmd exHost (cls exEnv) (exArgs exOpts) (init exFiles)).1.writes = [1, 1, 0] :=
  ⟨fun o ho => by cases ho; decide +kernel, CStatesCmd.exTgt_written, fun h => absurd rfl h, by decide +kernel, rfl,
    by decide +kernel, by decide +kernel, by decide +kernel⟩

/-- The hypotheses of C98_works_partial hold for the example. -/
example : (configCmd exHost (cls exEnv) (exArgs exOpts) (init exFiles)).2.2 = .ok () := by
  refine C98_works_partial exRounding exOn (exArgs exOpts) rfl (by decide +kernel) CStatesCmd.exTgt_written
    (fun h => absurd rfl h) ?_ ⟨0, PropsCmd.exSel0⟩ ?_ rfl ?_ ?_ ?_
  · refine ⟨?_, (fun l h => by cases h), (fun l h => by cases h), trivial, trivial⟩
    rintro l hl c hc
    cases hl
    revert c
    decide +kernel
  · intro p hp
    have hall : ∀ t ∈ CPUInfo.exInfo.topology, t.package = NA ∨ t.package = 0 ∨ t.package = 1 := by decide +kernel
    obtain ⟨h0, t, ht, rfl⟩ := hp
    rcases hall t ht with h | h | h
    · exact absurd h h0
    · rw [h]; exact ⟨0, by decide, by unfold InPackage; decide +kernel⟩
    · rw [h]; exact ⟨2, by decide, by unfold InPackage; decide +kernel⟩
  · intro p v h
    rcases List.mem_cons.1 (Dict.mem_of_get? h) with h | h
    · exact .inr ⟨(Prod.mk.inj h).1, (Prod.mk.inj h).2⟩
    · exact .inl (Prod.mk.inj (List.mem_singleton.1 h)).1
  · intro c _
    exact ⟨_, 100, rfl, by decide +kernel, by norm_num⟩
  · intro text h
    have : text = "1.5ms".toList := by
      have e : exOpts.get? "latency_limit".toList = some (some "1.5ms".toList) := by decide +kernel
      exact Option.some.inj (Option.some.inj (h.symm.trans e))
    subst this
    exact ⟨1500, exStands, by norm_num, fun c _ => ⟨_, rfl, by decide +kernel⟩⟩

/-- Durations are accepted too. -/
example : Stands "1h 30m".toList 5400000000 := by
  have th : Human.timeVal 'h' = 3600 := by decide
  have tm : Human.timeVal 'm' = 60 := by decide
  have := Stands.time [⟨[], 1, [], 'h'⟩] [' '] [] [] 30 [] 'm' 5400000000 (by
      intro p hp; rw [List.mem_singleton.1 hp]; exact ⟨(fun _ h => nomatch h), fun _ h => nomatch h⟩)
    (by unfold Human.Blank; decide +kernel) (fun _ h => nomatch h) (fun _ h => nomatch h) (by decide) (by decide)
    (by decide) (by decide)
    (by unfold Human.decVal; norm_num [Human.fracVal, Human.Piece.secs, th, tm])
  have e : ([⟨[], 1, [], 'h'⟩] : List Human.Piece).flatMap Human.Piece.text ++ ([' '] ++ Human.decText 30 [] ++ []) ++ ['m'] ++ [] =
    "1h 30m".toList := by decide +kernel
  rw [e] at this
  exact this

/-- Bad values, see C98_bad_partial: the limit asked for is still told, the command fails, and nothing is written. -/
example : (∀ x, PropsCmd.Means (cls exEnv) "latency_limit".toList "10 ms.".toList x →
      Human.isNum exEnv.fl x = false ∧ ∃ e, Human.parseHuman exEnv.fl x ['s'] none false = .error e) ∧
    (configCmd exHost (cls exEnv) (exArgs [("latency_limit".toList, some "10 ms.".toList)]) (init exFiles)).2 =
      ([], .error .error) ∧
    (configCmd exHost (cls exEnv)
      (exArgs [("latency_limit".toList, none), ("global_latency_limit".toList, some "5".toList)]) (init exFiles)).2 =
      (["Linux per-CPU PM QoS latency limit: 100.00us for CPUs 0,1".toList], .error .error) := by
  refine ⟨fun x hx => ?_, by decide +kernel, by decide +kernel⟩
  have : x = "10 ms.".toList := hx.1 (.inr (by decide +kernel))
  subst this
  exact ⟨by decide +kernel, .error, by decide +kernel⟩

/-- Refusals: no options, an unknown mechanism, and a CPU which does not exist. -/
example : (configCmd exHost (cls exEnv) { exArgs [] with oargs := none } (init exFiles)).2 = ([], .error .error) ∧
    (configCmd exHost (cls exEnv) { exArgs exOpts with mechanisms := some "msr".toList } (init exFiles)).2 =
      ([], .error .notSupported) ∧
    (configCmd exHost (cls exEnv) { exArgs exOpts with tgt := { cpus := some "0,99".toList } } (init exFiles)).2 =
      ([], .error .error) := by
  decide +kernel

/-- The 'info' command, with and without options, and when nothing is supported. -/
example : (infoCmd exHost (cls exEnv) { exArgs [] with oargs := none } (init exFiles)).2 =
      (["Source: sysfs".toList, " - Linux per-CPU PM QoS latency limit: 100.00us for CPUs 0,1".toList,
        "Source: cdev".toList, " - Linux global PM QoS latency limit: 2000s".toList], .ok ()) ∧
    (infoCmd exHost (cls exEnv) (exArgs [("latency_limit".toList, none)]) (init exFiles)).2 =
      (["Linux per-CPU PM QoS latency limit: 100.00us for CPUs 0,1".toList], .ok ()) ∧
    (infoCmd exHost (cls { exEnv with cdev := none }) { exArgs [] with oargs := none } (init fun _ => none)).2 =
      (["Nothing".toList], .ok ()) := by
  decide +kernel

/-- An empty value is not an error: the limit is removed. -/
theorem C98_empty_counterexample :
    let r := configCmd exHost (cls exEnv) (exArgs [("latency_limit".toList, some [])]) (init exFiles)
    r.2 = (["Linux per-CPU PM QoS latency limit: set to 0 (no limit) for CPUs 0,1".toList], .ok ()) ∧
    r.1.files 0 = some "0\n".toList := by
  decide +kernel

/-- What is told is not exact: different limits look the same, and a fraction of a second may be missing. -/
theorem C98_told_counterexample :
    let r (text : String) := configCmd exHost (cls exEnv) (exArgs [("latency_limit".toList, some text.toList)]) (init exFiles)
    (r "1233").2 = (r "1234").2 ∧ (r "1233").1.files 0 ≠ (r "1234").1.files 0 ∧
    (r "150.9s").2 = (["Linux per-CPU PM QoS latency limit: set to 150s for CPUs 0,1".toList], .ok ()) ∧
    (r "150.9s").1.files 0 = some "150900000\n".toList := by
  decide +kernel

/-- The command is not atomic: when the kernel refuses to change the limit of a CPU, other CPUs may have been changed. -/
theorem C98_atomic_counterexample :
    let E := { exEnv with K := fun c t => if c = 1 then .error .error else .ok (t ++ ['\n']) }
    let r := configCmd exHost (cls E) (exArgs exOpts) (init exFiles)
    r.2.2 = .error .error ∧ [0, 1].map r.1.files = [some "1500\n".toList, some "100\n".toList] := by
  decide +kernel

end Verif.PMQoSCmd
