import Verif.Lemmas.PropsCmd
import Verif.Props.CStatesCmd

/-!
C97: the 'info' and 'config' commands of P-states, power and PM QoS properties, end to end.
-/

namespace Verif.PropsCmd

open CPUInfo OpTarget
open PropsBase (Mech PropDesc toTry)
open PropsTarget
open HumanPrint (Sys Val Entry)
open HotplugCmd (Written)
open CStatesCmd (Step)

variable {σ Q X : Type} [DecidableEq Q] {H : Host Q} {S : Sys} {K : Cls σ Q} {Inv : σ → Prop}
  {R : PyStr → Nat → Val Q → X → Prop} {held hw : PyStr → σ → Nat → X}
  {rd : PyStr → Mech → Nat → X → Except Exn (Option (Val Q))}

theorem printStep_state (E : Env Q) (K : Cls σ Q) (mnames : Option (List Mech)) (skipRo skip group : Bool)
    (action : Option PyStr) (pnames : Option (List PyStr)) (s : σ) :
    (printStep E K mnames skipRo skip group action pnames s).1 = s := rfl

/-- C97 (frame): whatever the options and the outcome, the 'config' command changes nothing for CPUs which are not targeted,
and nothing for properties without a value among the options. What is missing: the options must be `Plain` (see C86). -/
theorem C97_frame_partial (hS : S.Of H.i) (hon : H.i.online ≠ []) (hF : ∀ p n, H.F.unitInt p n ≠ []) (hl : Later H)
    (hK : Contract H.i K Inv R held hw rd) (args : Args) {o : Dict PyStr (Option PyStr)} (ho : args.oargs = some o)
    (hn : o.keys.Nodup) {a : OpTarget.Args} (hw' : Written args.tgt a) (hp : PlainFor H.i a K o.keys)
    {s : σ} (hs : Inv s) (hc : ∀ p, held p s = hw p s) (p : PyStr) (c : Nat)
    (h : ¬ Selected H.i a c ∨ ∀ text, o.get? p ≠ some (some text)) :
    hw p (configCmd H K args s).1 c = hw p s c := by
  obtain ⟨t1, t2⟩ := target_same hS.wf hw'
  unfold configCmd
  rw [ho]
  dsimp only
  cases allowed K args.mechanisms with
  | error e => rfl
  | ok ml =>
    dsimp only
    by_cases hV : Valid H.i a
    · obtain ⟨a', t, ca, e1, e2, hsame⟩ := t2 hV
      rw [e1]
      dsimp only
      have hsel : Selected H.i a' = Selected H.i a := funext fun c => propext (hsame.selected H.i c)
      have r : Ready H S a' t ca := ⟨hS, hon, hl, e2, hF⟩
      have hset := (setProps_about r hK ml (setOpts o) (by rw [setOpts_given]; exact given_nodup hn)
        (by
          rw [setOpts_given]
          exact fun q hq P hP => same_plain hsame (hp q (given_sub hq) P hP)) hs hc).1 p c (by
        rw [hsel]
        refine h.imp id fun h => ?_
        intro hm
        obtain ⟨⟨q, text⟩, hq, rfl⟩ := List.mem_map.1 hm
        exact h text (Dict.get?_of_mem hn (mem_setOpts.1 hq)))
      refine CStatesCmd.andThen_inv (fun s' : σ => hw p s' c = hw p s c) ?_ ?_
      · split <;> rfl
      · have : ((if (printOpts o).isEmpty = true then Step.skip
            else printStep (H.env (t, ca)) K ml false false false none (some (printOpts o))) s).1 = s := by
          split <;> rfl
        rw [this]
        split
        · rfl
        · exact hset
    · obtain ⟨e, he⟩ := t1 hV
      rw [he]
      rfl

/-- C97 (the 'config' command succeeds): every property with a value is set for all targeted CPUs to the value, the default
unit of the property is used for a number without a unit. The lines tell the values of the properties without a value, as they
were, and then what was set, as it is read back with the mechanism used. What is missing: the options must be `Plain`, and
mechanisms must be supported by all targeted CPUs or by none of them (see C86 and C87). -/
theorem C97_config_partial (hS : S.Of H.i) (hon : H.i.online ≠ []) (hF : ∀ p n, H.F.unitInt p n ≠ []) (hl : Later H)
    (hK : Contract H.i K Inv R held hw rd) (args : Args) {o : Dict PyStr (Option PyStr)} (ho : args.oargs = some o)
    (hn : o.keys.Nodup) {a : OpTarget.Args} (hw' : Written args.tgt a) (hp : PlainFor H.i a K o.keys)
    (hu : ∀ s, Inv s → Uniform (Selected H.i a) rd fun p c => hw p s c) {ml : Option (List Mech)}
    (hm : MeansMechs K args.mechanisms ml) {s s' : σ} {lines : List PyStr} (hs : Inv s) (hc : ∀ p, held p s = hw p s)
    (h : configCmd H K args s = (s', lines, .ok ())) :
    (∀ p text, o.get? p = some (some text) →
      ∃ x v, Means K p text x ∧ K.norm p (.str x) = .ok v ∧ ∀ c, Selected H.i a c → R p c v (hw p s' c)) ∧
    ∃ l1 t1 l2 t2, lines = l1 ++ l2 ∧
      TellsAbout S H K false none (Selected H.i a) (asked o) false (Reading K rd (fun p c => hw p s c) ml) l1 t1 ∧
      TellsAbout S H K false (some "set to".toList) (Selected H.i a) (given o) false
        (SetReading K rd (fun p c => hw p s' c) ml) l2 t2 := by
  obtain ⟨t1, t2⟩ := target_same hS.wf hw'
  obtain ⟨ml', hml, hto⟩ := allowed_means hm
  have hrd : ∀ val p c v m, Reading K rd val ml' p c v m → Reading K rd val ml p c v m := by
    rintro val p c v m ⟨P, h1, h2, h3⟩
    exact ⟨P, h1, h2, by rw [← hto P]; exact h3⟩
  have hsrd : ∀ val p c v m, SetReading K rd val ml' p c v m → SetReading K rd val ml p c v m := by
    rintro val p c v m ⟨mech, h1, P, h2, h3⟩
    exact ⟨mech, h1, P, h2, by rw [← hto P]; exact h3⟩
  unfold configCmd at h
  rw [ho] at h
  dsimp only at h
  rw [hml] at h
  dsimp only at h
  by_cases hV : Valid H.i a
  · obtain ⟨a', t, ca, e1, e2, hsame⟩ := t2 hV
    rw [e1] at h
    dsimp only at h
    have hsel : Selected H.i a' = Selected H.i a := funext fun c => propext (hsame.selected H.i c)
    have r : Ready H S a' t ca := ⟨hS, hon, hl, e2, hF⟩
    have hu' : ∀ s, Inv s → Uniform (Selected H.i a') rd fun p c => hw p s c := by rw [hsel]; exact hu
    obtain ⟨-, p2, -, p4⟩ := setProps_about r hK ml' (setOpts o) (by rw [setOpts_given]; exact given_nodup hn)
      (by
        rw [setOpts_given]
        exact fun q hq P hP => same_plain hsame (hp q (given_sub hq) P hP)) hs hc
    -- The first part.
    have h1 : ∃ lines1 t1, (∀ e, ((if (printOpts o).isEmpty = true then Step.skip
          else printStep (H.env (t, ca)) K ml' false false false none (some (printOpts o))) s) ≠ (s, [], .error e)) →
        ((if (printOpts o).isEmpty = true then Step.skip
          else printStep (H.env (t, ca)) K ml' false false false none (some (printOpts o))) s) = (s, lines1, .ok ()) ∧
        TellsAbout S H K false none (Selected H.i a) (asked o) false (Reading K rd (fun p c => hw p s c) ml) lines1 t1 := by
      rw [printOpts_asked]
      by_cases he : (asked o).isEmpty = true
      · rw [if_pos he]
        refine ⟨[], [], fun _ => ⟨rfl, ?_⟩⟩
        rw [List.isEmpty_iff.1 he]
        exact TellsAbout.nil
      · rw [if_neg he]
        by_cases hknown : ∀ q ∈ asked o, ∃ pi, K.props.get? q = some pi
        · have hnm : HumanPrint.Named K.props false (some (asked o)) (asked o) := by
            refine ⟨asked o, fun l' e => ?_, nofun, ?_⟩
            · cases e; exact ⟨rfl, hknown⟩
            · exact (List.filter_eq_self.2 fun _ _ => rfl).symm
          have := printOut_about r hK (by rw [funext hc]; exact hu' s hs) hs ml' false false false none
            (some (asked o)) hnm (asked_nodup hn) (fun q hq P hP => same_plain hsame (hp q (asked_sub hq) P hP))
          unfold printStep
          rcases this with ⟨e, k, -⟩ | ⟨lines1, n, told, k1, k2, -⟩
          · rw [k]
            exact ⟨[], [], fun hne => absurd rfl (hne e)⟩
          · rw [k1]
            refine ⟨lines1, told, fun _ => ⟨rfl, ?_⟩⟩
            rw [hsel] at k2
            have heq : (fun p c => held p s c) = fun p c => hw p s c := by
              funext p c; rw [hc p]
            rw [heq] at k2
            exact k2.imp fun p _ c v m => hrd _ p c v m
        · refine ⟨[], [], fun hne => absurd ?_ (hne .error)⟩
          unfold printStep printOut HumanPrint.printProps HumanPrint.normalizePnames
          dsimp only
          rw [if_neg (c := _ = true)]
          · rfl
          · intro hall
            refine hknown fun q hq => ?_
            have := List.all_eq_true.1 hall q hq
            cases hg : K.props.get? q with
            | some pi => exact ⟨pi, rfl⟩
            | none =>
              rw [Dict.get?_eq_none_iff] at hg
              exact absurd (List.contains_iff_mem.1 this) hg
    obtain ⟨lines1, told1, h1⟩ := h1
    unfold Step.andThen at h
    cases hx : ((if (printOpts o).isEmpty = true then Step.skip
          else printStep (H.env (t, ca)) K ml' false false false none (some (printOpts o))) s) with
    | mk s1 y =>
      obtain ⟨ls, z⟩ := y
      rw [hx] at h h1
      cases z with
      | error e => cases h
      | ok u =>
        obtain ⟨k1, k2⟩ := h1 (fun e he => by cases he)
        cases k1
        dsimp only at h
        have key : ∃ l2 told2, lines = lines1 ++ l2 ∧
            Sets K R hw (Selected H.i a) (setOpts o) s' ∧
            TellsAbout S H K false (some "set to".toList) (Selected H.i a) (given o) false
              (SetReading K rd (fun p c => hw p s' c) ml) l2 told2 := by
          by_cases hse : (setOpts o).isEmpty = true
          · rw [if_pos hse] at h
            cases h
            have hnil := List.isEmpty_iff.1 hse
            refine ⟨[], [], rfl, ?_, ?_⟩
            · rw [hnil]; intro p text hm; cases hm
            · rw [← setOpts_given, hnil]
              exact TellsAbout.nil
          · rw [if_neg hse] at h
            cases hy : setProps (H.env (t, ca)) K ml' (setOpts o) s with
            | mk s2 w =>
              obtain ⟨l2, z2⟩ := w
              rw [hy] at h p2 p4
              dsimp only at h p2 p4
              cases h
              obtain ⟨told2, q⟩ := p4 hu' rfl
              refine ⟨l2, told2, rfl, ?_, ?_⟩
              · rw [← hsel]; exact p2 rfl
              · rw [hsel, setOpts_given] at q
                exact q.imp fun p _ c v m => hsrd _ p c v m
        obtain ⟨l2, told2, q1, q2, q3⟩ := key
        refine ⟨fun p text ht => q2 p text (mem_setOpts.2 (Dict.mem_of_get? ht)), lines1, told1, l2, told2, q1, k2, q3⟩
  · obtain ⟨e, he⟩ := t1 hV
    rw [he] at h
    cases h

/-- C97 (all or nothing): if a class writes nothing before the commit, the 'config' command changes nothing in the system, or
sets all the properties, whatever the outcome, unless the commit fails, and then all the values were good. -/
theorem C97_all_or_nothing_partial (hS : S.Of H.i) (hon : H.i.online ≠ []) (hF : ∀ p n, H.F.unitInt p n ≠ [])
    (hl : Later H) (hK : Contract H.i K Inv R held hw rd) (args : Args) {o : Dict PyStr (Option PyStr)}
    (ho : args.oargs = some o) (hn : o.keys.Nodup) {a : OpTarget.Args} (hw' : Written args.tgt a)
    (hp : PlainFor H.i a K o.keys) (hb : ∀ p m v l s q, hw q (K.set p m v l s).1 = hw q s)
    {s : σ} (hs : Inv s) (hc : ∀ p, held p s = hw p s) :
    (∀ p, hw p (configCmd H K args s).1 = hw p s) ∨
    (∀ p text, o.get? p = some (some text) → ∃ x v, Means K p text x ∧ K.norm p (.str x) = .ok v ∧
      ∀ c, Selected H.i a c → R p c v (hw p (configCmd H K args s).1 c)) ∨
    (∃ s1 e, K.commit s1 = ((configCmd H K args s).1, .error e)) ∧
      ∀ p text, o.get? p = some (some text) → ∃ x v, Means K p text x ∧ K.norm p (.str x) = .ok v := by
  obtain ⟨t1, t2⟩ := target_same hS.wf hw'
  unfold configCmd
  rw [ho]
  dsimp only
  cases allowed K args.mechanisms with
  | error e => exact .inl fun _ => rfl
  | ok ml =>
    dsimp only
    by_cases hV : Valid H.i a
    · obtain ⟨a', t, ca, e1, e2, hsame⟩ := t2 hV
      rw [e1]
      dsimp only
      have hsel : Selected H.i a' = Selected H.i a := funext fun c => propext (hsame.selected H.i c)
      have r : Ready H S a' t ca := ⟨hS, hon, hl, e2, hF⟩
      have hset := (setProps_about r hK ml (setOpts o) (by rw [setOpts_given]; exact given_nodup hn)
        (by
          rw [setOpts_given]
          exact fun q hq P hP => same_plain hsame (hp q (given_sub hq) P hP)) hs hc).2.2.1 hb
      refine CStatesCmd.andThen_inv (fun s' : σ => (∀ p, hw p s' = hw p s) ∨
        (∀ p text, o.get? p = some (some text) → ∃ x v, Means K p text x ∧ K.norm p (.str x) = .ok v ∧
          ∀ c, Selected H.i a c → R p c v (hw p s' c)) ∨
        (∃ s1 e, K.commit s1 = (s', .error e)) ∧
          ∀ p text, o.get? p = some (some text) → ∃ x v, Means K p text x ∧ K.norm p (.str x) = .ok v) ?_ ?_
      · left
        intro p
        split <;> rfl
      · have : ((if (printOpts o).isEmpty = true then Step.skip
            else printStep (H.env (t, ca)) K ml false false false none (some (printOpts o))) s).1 = s := by
          split <;> rfl
        rw [this]
        split
        · exact .inl fun _ => rfl
        · refine hset.imp id (Or.imp (fun q p text ht => ?_) fun q => ⟨q.1, fun p text ht =>
            q.2 p text (mem_setOpts.2 (Dict.mem_of_get? ht))⟩)
          obtain ⟨x, v, k1, k2, k3⟩ := q p text (mem_setOpts.2 (Dict.mem_of_get? ht))
          exact ⟨x, v, k1, k2, by rw [← hsel]; exact k3⟩
    · obtain ⟨e, he⟩ := t1 hV
      rw [he]
      exact .inl fun _ => rfl

/-- C97 (invariants): what holds initially and is kept by every write asked for and by transactions, holds after the 'config'
command, whatever the outcome. -/
theorem C97_invariant_partial (hS : S.Of H.i) (hon : H.i.online ≠ []) (hF : ∀ p n, H.F.unitInt p n ≠ [])
    (hl : Later H) (hK : Contract H.i K Inv R held hw rd) (args : Args) {o : Dict PyStr (Option PyStr)}
    (ho : args.oargs = some o) (hn : o.keys.Nodup) {a : OpTarget.Args} (hw' : Written args.tgt a)
    (hp : PlainFor H.i a K o.keys) (I : σ → Prop)
    (hI : ∀ p text x v m l s, o.get? p = some (some text) → Means K p text x → K.norm p (.str x) = .ok v →
      (∀ d ∈ l, Selected H.i a d ∧ d ∈ H.i.online) → I s → I (K.set p m v l s).1)
    (hst : ∀ s, I s → I (K.start s).1) (hcm : ∀ s, I s → I (K.commit s).1) {s : σ} (hs : I s) :
    I (configCmd H K args s).1 := by
  obtain ⟨t1, t2⟩ := target_same hS.wf hw'
  unfold configCmd
  rw [ho]
  dsimp only
  cases allowed K args.mechanisms with
  | error e => exact hs
  | ok ml =>
    dsimp only
    by_cases hV : Valid H.i a
    · obtain ⟨a', t, ca, e1, e2, hsame⟩ := t2 hV
      rw [e1]
      dsimp only
      have hsel : Selected H.i a' = Selected H.i a := funext fun c => propext (hsame.selected H.i c)
      have r : Ready H S a' t ca := ⟨hS, hon, hl, e2, hF⟩
      refine CStatesCmd.andThen_inv I ?_ ?_
      · split <;> exact hs
      · have : ((if (printOpts o).isEmpty = true then Step.skip
            else printStep (H.env (t, ca)) K ml false false false none (some (printOpts o))) s).1 = s := by
          split <;> rfl
        rw [this]
        split
        · exact hs
        · refine setProps_inv r hK ml (setOpts o) (by
            rw [setOpts_given]
            exact fun q hq P hP => same_plain hsame (hp q (given_sub hq) P hP)) I ?_ hst hcm hs
          intro p text v m l s ht hv hd
          rw [hsel] at hd
          exact hI p text _ v m l s (Dict.get?_of_mem hn (mem_setOpts.1 ht)) (withUnit_means K p text) hv hd
    · obtain ⟨e, he⟩ := t1 hV
      rw [he]
      exact hs

/-- C97 (refusing): without options, with a mechanism the class does not have, or when the target does not exist, the 'config'
command fails, prints nothing and changes nothing. -/
theorem C97_refuses (wf : WF H.i) (args : Args)
    (h : args.oargs = none ∨
      (∃ text ms, args.mechanisms = some text ∧ CStatesCmd.MeansMechs text ms ∧ ∃ m ∈ ms, ∀ x ∈ K.mechs, mechName x ≠ m) ∨
      ∃ a, Written args.tgt a ∧ ¬ Valid H.i a) (s : σ) :
    ∃ e, configCmd H K args s = (s, [], .error e) := by
  unfold configCmd
  cases ho : args.oargs with
  | none => exact ⟨_, rfl⟩
  | some o =>
    dsimp only
    cases hal : allowed K args.mechanisms with
    | error e => exact ⟨e, rfl⟩
    | ok ml =>
      dsimp only
      rcases h with h | ⟨text, ms, h1, h2, h3⟩ | ⟨a, h1, h2⟩
      · rw [ho] at h; cases h
      · rw [h1, allowed_unknown h2 h3] at hal; cases hal
      · obtain ⟨e, he⟩ := (target_same wf h1).1 h2
        rw [he]
        exact ⟨e, rfl⟩

/-- C97 (the 'config' command works): it succeeds when the target exists and has CPUs, the properties can be read and set with
the mechanisms allowed, and the CPUs are entire units of the scope of the properties. What is missing: properties with die
scope. -/
theorem C97_works_partial (hS : S.Of H.i) (hon : H.i.online ≠ []) (hF : ∀ p n, H.F.unitInt p n ≠ []) (hl : Later H)
    (hK : Contract H.i K Inv R held hw rd) (args : Args) {o : Dict PyStr (Option PyStr)} (ho : args.oargs = some o)
    (hn : o.keys.Nodup) {a : OpTarget.Args} (hw' : Written args.tgt a) (hp : PlainFor H.i a K o.keys) (hV : Valid H.i a)
    (hex : ∃ c, Selected H.i a c) {Good : σ → Prop}
    (hu : ∀ s, Good s → Uniform (Selected H.i a) rd fun p c => hw p s c) {ml : Option (List Mech)}
    (hm : MeansMechs K args.mechanisms ml) (hcpus : ∀ p, PkgEx H.i p → ∃ c, CpuWith H.i (InPackage p) c)
    (hread : ∀ s, Good s → ∀ p ∈ o.keys, CanRead K rd (fun p c => hw p s c) (Selected H.i a) ml p)
    (hset : ∀ p text x, o.get? p = some (some text) → Means K p text x → CanSet H K Good a ml p (.str x))
    (hstart : ∀ s, Good s → (K.start s).2 = .ok () ∧ Good (K.start s).1)
    (hcommit : ∀ s, Good s → (K.commit s).2 = .ok () ∧ Good (K.commit s).1)
    {s : σ} (hs : Inv s) (hg : Good s) (hc : ∀ p, held p s = hw p s) : (configCmd H K args s).2.2 = .ok () := by
  obtain ⟨-, t2⟩ := target_same hS.wf hw'
  obtain ⟨ml', hml, hto⟩ := allowed_means hm
  have hmem : ∀ l, ml' = some l → ∀ m ∈ l, ∃ l', ml = some l' ∧ m ∈ l' := by
    intro l e m hml'
    subst e
    have h1 : m ∈ toTry ⟨[], none, .global, true⟩ (some l) := by
      cases l with
      | nil => cases hml'
      | cons y l => exact mem_pyDedup.2 hml'
    rw [hto] at h1
    cases ml with
    | none => cases h1
    | some l' =>
      cases l' with
      | nil => cases h1
      | cons y l' => exact ⟨_, rfl, mem_pyDedup.1 h1⟩
  unfold configCmd
  rw [ho]
  dsimp only
  rw [hml]
  dsimp only
  obtain ⟨a', t, ca, e1, e2, hsame⟩ := t2 hV
  rw [e1]
  dsimp only
  have hsel : Selected H.i a' = Selected H.i a := funext fun c => propext (hsame.selected H.i c)
  have r : Ready H S a' t ca := ⟨hS, hon, hl, e2, hF⟩
  have hu' : ∀ s, Good s → Uniform (Selected H.i a') rd fun p c => hw p s c := by rw [hsel]; exact hu
  have heq : (fun p c => held p s c) = fun p c => hw p s c := funext hc
  have hex' : ∃ c, Selected H.i a' c := by rw [hsel]; exact hex
  have hoff : ∀ c, Selected H.i a' c → c ∈ H.i.online := by
    rw [hsel]
    exact fun c hcs => HotplugCmd.selected_online hS.wf hw'.2.2.2.2.2.2.2 hV hcs
  have hread' : ∀ s, Good s → ∀ p ∈ o.keys, CanRead K rd (fun p c => hw p s c) (Selected H.i a') ml' p := by
    intro s hg p hpn
    obtain ⟨⟨P, sn, h1, h2, h3, h4, h5⟩, h6⟩ := hread s hg p hpn
    refine ⟨⟨P, sn, h1, h2, h3, h4, fun l e m hml' => ?_⟩, by rw [hsel]; exact h6⟩
    obtain ⟨l', k1, k2⟩ := hmem l e m hml'
    exact h5 l' k1 m k2
  have hp' : PlainFor H.i a' K o.keys := fun q hq P hP => same_plain hsame (hp q hq P hP)
  -- The two parts.
  have h1 : ((if (printOpts o).isEmpty = true then Step.skip
      else printStep (H.env (t, ca)) K ml' false false false none (some (printOpts o))) s).2.2 = .ok () := by
    split
    · rfl
    · rw [printOpts_asked]
      have hnm : HumanPrint.Named K.props false (some (asked o)) (asked o) := by
        refine ⟨asked o, fun l' e => ?_, nofun, (List.filter_eq_self.2 fun _ _ => rfl).symm⟩
        cases e
        refine ⟨rfl, fun q hq => ?_⟩
        obtain ⟨⟨P, sn, h1, -⟩, -⟩ := hread s hg q (asked_sub hq)
        have := hK.table q
        rw [h1] at this
        cases hx : K.props.get? q with
        | none => rw [hx] at this; cases this
        | some pi => exact ⟨pi, rfl⟩
      have := printOut_about r hK (by rw [heq]; exact hu' s hg) hs ml' false false false none (some (asked o)) hnm (asked_nodup hn)
        (fun q hq => hp' q (asked_sub hq))
      unfold printStep
      rcases this with ⟨e, -, q, hq, k⟩ | ⟨lines1, n, told, k1, -⟩
      · obtain ⟨pvs, hpvs⟩ := finalRead_works r hK (by rw [heq]; exact hu' s hg) hs (p := q)
          (fun q' hq' => by rw [List.mem_singleton.1 hq']; exact hp' q (asked_sub hq))
          (by rw [heq]; exact hread' s hg q (asked_sub hq)) hex' hoff hcpus
        exact absurd hpvs (k pvs)
      · rw [k1]; rfl
  have h2 : ((if (setOpts o).isEmpty = true then Step.skip
      else setProps (H.env (t, ca)) K ml' (setOpts o)) s).2.2 = .ok () := by
    split
    · rfl
    · unfold setProps
      have hgn : ((setOpts o).map (·.1)).Nodup := by rw [setOpts_given]; exact given_nodup hn
      have hpg : PlainFor H.i a' K ((setOpts o).map (·.1)) := by
        rw [setOpts_given]; exact fun q hq => hp' q (given_sub hq)
      have hrg : ∀ s, Good s → ∀ p ∈ (setOpts o).map (·.1), CanRead K rd (fun p c => hw p s c) (Selected H.i a') ml' p := by
        rw [setOpts_given]; exact fun s hg q hq => hread' s hg q (given_sub hq)
      obtain ⟨k1, hg0⟩ := hstart s hg
      have hinv := (hK.inv s hs).1
      cases hx : K.start s with
      | mk s0 x0 =>
        rw [hx] at k1 hg0 hinv
        dsimp only at k1 hg0 hinv
        subst k1
        dsimp only
        obtain ⟨todo, htd⟩ : ∃ todo : Dict PyStr (Val Q),
            ((setOpts o).map fun x => (x.1, Val.str (withUnit K x.1 x.2))) = todo := ⟨_, rfl⟩
        rw [htd]
        have hkeys : todo.keys = (setOpts o).map (·.1) := by
          rw [← htd]; simp [Dict.keys, Function.comp_def]
        have hval : ∀ p x, todo.get? p = some x → ∃ text, (p, text) ∈ setOpts o ∧ x = .str (withUnit K p text) := by
          intro p x h
          have := Dict.mem_of_get? h
          rw [← htd] at this
          obtain ⟨⟨q, text⟩, h1, h2⟩ := List.mem_map.1 this
          cases h2
          exact ⟨text, h1, rfl⟩
        have hsp : ∀ sn, Splits H.i a' sn ↔ Splits H.i a sn := by
          intro sn; unfold Splits; rw [hsel]
        obtain ⟨k2, hg1⟩ := setAll_works r hK (ml := ml') hex' hoff ((setOpts o).map (·.1)) ⟨s0, todo, []⟩ hpg (hrg s hg) hg0
          (fun p hpn x hxv => by
            obtain ⟨text, h1, rfl⟩ := hval p x hxv
            obtain ⟨⟨P, sn, g1, g2, g3, g4, g5, g6, g7⟩, g8⟩ := hset p text (withUnit K p text)
              (Dict.get?_of_mem hn (mem_setOpts.1 h1)) (withUnit_means K p text)
            refine ⟨⟨P, sn, g1, g2, g3, g4, fun h => g5 ((hsp sn).1 h), g6, fun l e m hml' => ?_⟩, by rw [hsel]; exact g8⟩
            obtain ⟨l', q1, q2⟩ := hmem l e m hml'
            exact g7 l' q1 m q2)
        cases hy : setAll (H.env (t, ca)) K ml' ((setOpts o).map (·.1)) ⟨s0, todo, []⟩ with
        | mk g y =>
          rw [hy] at k2 hg1
          dsimp only at k2 hg1
          subst k2
          dsimp only
          obtain ⟨g1, g2, -⟩ := setAll_going r hK hpg ml' (todo := todo) (s0 := s0)
            (fun p v h => by
              obtain ⟨text, h1, -⟩ := hval p v h
              exact List.mem_map.2 ⟨_, h1, rfl⟩) _ (fun _ h => h)
            ⟨hinv, fun _ _ _ => ⟨rfl, rfl⟩, fun _ _ h => h, fun _ _ h => .inl h⟩ hy
          obtain ⟨k3, hg2⟩ := hcommit g.s hg1
          have hcm := hK.commit g.s g1.inv k3
          have hinv2 := (hK.inv g.s g1.inv).2.1
          cases hz : K.commit g.s with
          | mk s2 z =>
            rw [hz] at k3 hg2 hcm hinv2
            dsimp only at k3 hg2 hcm hinv2
            have heq2 : (fun p c => held p s2 c) = fun p c => hw p s2 c := by
              funext p c
              rw [(hcm p).1, (hcm p).2]
            subst k3
            dsimp only
            refine printSet_works r hK (by rw [heq2]; exact hu' s2 hg2) hinv2 g.used hex' hoff hcpus _ hpg
              (by rw [heq2]; exact hrg s2 hg2) fun p hpn => ?_
            obtain ⟨⟨q, text⟩, hq, rfl⟩ := List.mem_map.1 hpn
            have hgt : todo.get? q = some (.str (withUnit K q text)) := by
              refine Dict.get?_of_mem (by rw [hkeys]; exact hgn) ?_
              rw [← htd]
              exact List.mem_map.2 ⟨_, hq, rfl⟩
            rcases g1.todo q _ hgt with k | ⟨m, P, w, q1, q2, q3, q4, -⟩
            · rw [g2 rfl q hpn] at k; cases k
            · exact ⟨m, P, q2, q1, q4, q3⟩
  unfold Step.andThen
  have h0 : ((if (printOpts o).isEmpty = true then Step.skip
      else printStep (H.env (t, ca)) K ml' false false false none (some (printOpts o))) s).1 = s := by
    split <;> rfl
  cases hx : ((if (printOpts o).isEmpty = true then Step.skip
      else printStep (H.env (t, ca)) K ml' false false false none (some (printOpts o))) s) with
  | mk s1 y =>
    obtain ⟨ls, z⟩ := y
    rw [hx] at h0 h1
    dsimp only at h0 h1
    subst h0 h1
    exact h2

theorem shows_unique {V : Type} {read : Mech → Nat → Except Exn (Option V)} {ms : List Mech} {c : Nat} {v v' : Option V}
    {m m' : Mech} (h : Shows read ms c v m) (h' : Shows read ms c v' m') : v = v' := by
  have aux : ∀ {v v' : Option V} {m m' : Mech} {pre post pre' post' : List Mech}, pre ++ m :: post = pre' ++ m' :: post' →
      read m c = .ok v → read m' c = .ok v' → (∀ p ∈ pre, read p c = .error .notSupported) →
      (∀ p ∈ pre', read p c = .error .notSupported) → v = v' := by
    intro v v' m m' pre post pre' post' he h1 h2 h3 h4
    rcases List.append_eq_append_iff.1 he with ⟨l, e1, e2⟩ | ⟨l, e1, e2⟩
    · cases l with
      | nil => cases e2; rw [h1] at h2; cases h2; rfl
      | cons x l =>
        cases e2
        have := h4 m (by rw [e1]; simp)
        rw [h1] at this; cases this
    · cases l with
      | nil => cases e2; rw [h1] at h2; cases h2; rfl
      | cons x l =>
        cases e2
        have := h3 m' (by rw [e1]; simp)
        rw [h2] at this; cases this
  rcases h with ⟨pre, post, e, h1, h2⟩ | ⟨h1, h2, h3⟩
  · rcases h' with ⟨pre', post', e', h1', h2'⟩ | ⟨h1', h2', h3'⟩
    · exact aux (e.symm.trans e') h2 h2' h1 h1'
    · have := h1' m (by rw [e]; simp)
      rw [h2] at this; cases this
  · rcases h' with ⟨pre', post', e', h1', h2'⟩ | ⟨h1', h2', h3'⟩
    · have := h1 m' (by rw [e']; simp)
      rw [h2'] at this; cases this
    · rw [h2, h2']

theorem reading_unique {val : PyStr → Nat → X} {ml : Option (List Mech)} {p : PyStr} {c : Nat} {v v' : Option (Val Q)}
    {m m' : PyStr} (h : Reading K rd val ml p c v m) (h' : Reading K rd val ml p c v' m') : v = v' := by
  obtain ⟨P, h1, h2, h3⟩ := h
  obtain ⟨P', h1', h2', h3'⟩ := h'
  have : P = P' := Option.some.inj (h1.symm.trans h1')
  subst this
  by_cases hs : P.sname = none
  · rw [h2 hs, h2' hs]
  · obtain ⟨_, _, h4⟩ := h3 hs
    obtain ⟨_, _, h4'⟩ := h3' hs
    exact shows_unique h4 h4'

/-- The properties the 'info' command is about: all of them, or the options along with their sub-properties. -/
def wanted (K : Cls σ Q) : Option (Dict PyStr (Option PyStr)) → List PyStr
  | none => K.props.map (·.1)
  | some o => o.flatMap fun x => x.1 :: K.subprops x.1

/-- C97 (the 'info' command): it changes nothing. If it succeeds, the lines tell the values of the properties for the targeted
CPUs, and nothing else; without options the properties which are not supported are left out, and the values are grouped by
source. If nothing is supported, this is said, and only then. -/
theorem C97_info_partial (hS : S.Of H.i) (hon : H.i.online ≠ []) (hF : ∀ p n, H.F.unitInt p n ≠ []) (hl : Later H)
    (hK : Contract H.i K Inv R held hw rd) (args : Args) (hn : (wanted K args.oargs).Nodup)
    {a : OpTarget.Args} (hw' : Written args.tgt a) (hp : PlainFor H.i a K (wanted K args.oargs))
    (hex : ∃ c, Selected H.i a c)
    {s : σ} (hu : Uniform (Selected H.i a) rd fun p c => hw p s c) {ml : Option (List Mech)} (hm : MeansMechs K args.mechanisms ml)
    (hs : Inv s) (hc : ∀ p, held p s = hw p s) :
    (infoCmd H K args s).1 = s ∧
    ((infoCmd H K args s).2.2 = .ok () → ∃ lines told,
      TellsAbout S H K args.oargs.isNone none (Selected H.i a) (wanted K args.oargs) args.oargs.isNone
        (Reading K rd (fun p c => hw p s c) ml) lines told ∧
      ((infoCmd H K args s).2.1 = lines ∨ (infoCmd H K args s).2.1 = lines ++ [H.nothing]) ∧
      (((infoCmd H K args s).2.1 = lines ++ [H.nothing]) ↔ wanted K args.oargs = [] ∨ (args.oargs = none ∧
        ∀ p ∈ wanted K args.oargs, ∀ c, Selected H.i a c →
          ∃ m, Reading K rd (fun p c => hw p s c) ml p c none m))) := by
  obtain ⟨t1, t2⟩ := target_same hS.wf hw'
  obtain ⟨ml', hml, hto⟩ := allowed_means hm
  have hrd : ∀ val p c v m, Reading K rd val ml' p c v m → Reading K rd val ml p c v m := by
    rintro val p c v m ⟨P, h1, h2, h3⟩
    exact ⟨P, h1, h2, by rw [← hto P]; exact h3⟩
  unfold infoCmd
  rw [hml]
  dsimp only
  by_cases hV : Valid H.i a
  · obtain ⟨a', t, ca, e1, e2, hsame⟩ := t2 hV
    rw [e1]
    dsimp only
    have hsel : Selected H.i a' = Selected H.i a := funext fun c => propext (hsame.selected H.i c)
    have r : Ready H S a' t ca := ⟨hS, hon, hl, e2, hF⟩
    have hu' : Uniform (Selected H.i a') rd fun p c => held p s c := by
      rw [hsel, show (fun p c => held p s c) = fun p c => hw p s c from funext hc]; exact hu
    have heq : (fun p c => held p s c) = fun p c => hw p s c := by
      funext p c; rw [hc p]
    -- What is printed, for both cases.
    have key : ∀ (skip : Bool) (pnames : Option (List PyStr)) (names : List PyStr),
        wanted K args.oargs = names → args.oargs.isNone = skip → HumanPrint.Named K.props false pnames names →
        ((noteNothing H (printOut (H.env (t, ca)) K ml' false skip skip none pnames s)).2 = .ok () → ∃ lines told,
          TellsAbout S H K skip none (Selected H.i a) names skip (Reading K rd (fun p c => hw p s c) ml) lines told ∧
          ((noteNothing H (printOut (H.env (t, ca)) K ml' false skip skip none pnames s)).1 = lines ∨
            (noteNothing H (printOut (H.env (t, ca)) K ml' false skip skip none pnames s)).1 = lines ++ [H.nothing]) ∧
          (((noteNothing H (printOut (H.env (t, ca)) K ml' false skip skip none pnames s)).1 = lines ++ [H.nothing]) ↔
            names = [] ∨ (args.oargs = none ∧ ∀ p ∈ names, ∀ c, Selected H.i a c →
              ∃ m, Reading K rd (fun p c => hw p s c) ml p c none m))) := by
      intro skip pnames names hwn hsk hnm hok
      rw [hwn] at hn hp
      have := printOut_about r hK hu' hs ml' false skip skip none pnames hnm hn
        (fun q hq P hP => same_plain hsame (hp q hq P hP))
      rcases this with ⟨e, k, -⟩ | ⟨lines, n, told, k1, k2, k3, k4⟩
      · rw [k] at hok; cases hok
      · rw [k1]
        rw [hsel, heq] at k2
        simp only [hsel, heq] at k4
        refine ⟨lines, told, k2.imp fun p _ c v m => hrd _ p c v m, ?_⟩
        have hiff : n = 0 ↔ names = [] ∨ (args.oargs = none ∧ ∀ p ∈ names, ∀ c, Selected H.i a c →
            ∃ m, Reading K rd (fun p c => hw p s c) ml p c none m) := by
          rw [k3]
          constructor
          · intro hz
            by_cases hnil : names = []
            · exact .inl hnil
            · right
              obtain ⟨q, hq⟩ := List.exists_mem_of_ne_nil _ hnil
              obtain ⟨c0, hc0⟩ := hex
              refine ⟨?_, fun p hpn c hcs => ?_⟩
              · obtain ⟨pvs, pi, f1, -, f2⟩ := k4 q hq
                obtain ⟨pv, hpv, -⟩ := f2.all c0 hc0
                have := (hz q hq pv ⟨pvs, f1, hpv⟩).1
                rw [← hsk] at this
                exact Option.isNone_iff_eq_none.1 this
              · obtain ⟨pvs, pi, f1, -, f2⟩ := k4 p hpn
                obtain ⟨pv, hpv, hab⟩ := f2.all c hcs
                have hv := (hz p hpn pv ⟨pvs, f1, hpv⟩).2
                have := (f2.right pv hpv c hab).2
                rw [hv] at this
                exact ⟨_, hrd _ _ _ _ _ this⟩
          · rintro (hnil | ⟨hno, hall⟩) p hpn pv ⟨pvs, f1, hpv⟩
            · rw [hnil] at hpn; cases hpn
            · refine ⟨by rw [← hsk, hno]; rfl, Classical.byContradiction fun hne => hne ?_⟩
              obtain ⟨pvs', pi, f1', -, f2⟩ := k4 p hpn
              rw [f1] at f1'
              cases f1'
              obtain ⟨c, hab⟩ := f2.some pv hpv hne
              obtain ⟨g1, g2⟩ := f2.right pv hpv c hab
              obtain ⟨m, g3⟩ := hall p hpn c g1
              exact reading_unique (hrd _ _ _ _ _ g2) g3
        rw [← hiff]
        unfold noteNothing
        dsimp only
        by_cases hz : n = 0
        · rw [if_pos hz]
          exact ⟨.inr rfl, ⟨fun _ => hz, fun _ => rfl⟩⟩
        · rw [if_neg hz]
          refine ⟨.inl rfl, ⟨fun h => ?_, fun h => absurd h hz⟩⟩
          have := congrArg List.length h
          simp at this
    cases ho : args.oargs with
    | none =>
      rw [ho] at key
      dsimp only
      refine ⟨rfl, key true none (wanted K none) rfl rfl ?_⟩
      exact ⟨_, nofun, fun _ => rfl, (List.filter_eq_self.2 fun _ _ => rfl).symm⟩
    | some o =>
      rw [ho] at key
      dsimp only
      refine ⟨rfl, fun hok => ?_⟩
      have hexp : CStatesCmd.expandSubprops K.subprops (o.map (·.1)) = wanted K (some o) := by
        unfold CStatesCmd.expandSubprops wanted
        rw [List.flatMap_map]
      rw [hexp] at hok ⊢
      by_cases hknown : ∀ q ∈ wanted K (some o), ∃ pi, K.props.get? q = some pi
      · refine key false (some (wanted K (some o))) (wanted K (some o)) rfl rfl ?_ hok
        refine ⟨_, fun l' e => ?_, nofun, (List.filter_eq_self.2 fun _ _ => rfl).symm⟩
        cases e; exact ⟨rfl, hknown⟩
      · have : printOut (H.env (t, ca)) K ml' false false false none (some (wanted K (some o))) s = ([], .error .error) := by
          unfold printOut HumanPrint.printProps HumanPrint.normalizePnames
          dsimp only
          rw [if_neg (c := _ = true)]
          intro hall
          refine hknown fun q hq => ?_
          have := List.all_eq_true.1 hall q hq
          cases hg : K.props.get? q with
          | some pi => exact ⟨pi, rfl⟩
          | none =>
            rw [Dict.get?_eq_none_iff] at hg
            exact absurd (List.contains_iff_mem.1 this) hg
        rw [this] at hok
        cases hok
  · obtain ⟨e, he⟩ := t1 hV
    rw [he]
    exact ⟨rfl, nofun⟩


/-! The examples. -/

/-- The state of the example: what is held, including what is not committed, and what the system has. -/
structure ExSt where
  held : PyStr → Nat → Int
  hw : PyStr → Nat → Int

/-- Two frequencies which can be changed, and one which cannot. -/
def exDesc (p : PyStr) : Option PropDesc :=
  if p = "min_freq".toList then some ⟨[.msr, .sysfs], some (.lvl .CPU), .lvl .CPU, true⟩
  else if p = "max_freq".toList then some ⟨[.msr, .sysfs], some (.lvl .CPU), .lvl .CPU, true⟩
  else if p = "base_freq".toList then some ⟨[.msr, .sysfs], some (.lvl .CPU), .lvl .CPU, false⟩
  else none

def exProps : Dict PyStr HumanPrint.PropInfo :=
  [("min_freq".toList, ⟨"Min. frequency".toList, .int, false, true⟩),
   ("max_freq".toList, ⟨"Max. frequency".toList, .int, false, true⟩),
   ("base_freq".toList, ⟨"Base frequency".toList, .int, false, false⟩)]

/-- The minimum frequency must not be greater than the maximum frequency. -/
def exBad (p : PyStr) (n : Int) (l : List Nat) (s : ExSt) : Bool :=
  (p = "min_freq".toList && l.any fun c => s.held "max_freq".toList c < n) ||
  (p = "max_freq".toList && l.any fun c => n < s.held "min_freq".toList c)

/-- Setting a frequency; `chk` is whether the mechanism and the order of the frequencies are checked. -/
def exSet (chk : Bool) (p : PyStr) (m : Mech) (v : Val Int) (l : List Nat) (s : ExSt) : ExSt × Except Exn Unit :=
  match v with
  | .num n =>
    if chk && m = .msr then (s, .error .notSupported)
    else if chk && exBad p n l s then (s, .error .freqOrder)
    else ({ s with held := fun q c => if q = p && (l.contains c && CPUInfo.exInfo.online.contains c) then n else s.held q c },
      .ok ())
  | _ => (s, if chk then .error .error else .ok ())

/-- The "msr" mechanism is not supported. -/
def exRd (_ : PyStr) (m : Mech) (_ : Nat) (x : Int) : Except Exn (Option (Val Int)) :=
  if m = .msr then .error .notSupported else .ok (some (.num x))

def exNorm (_ : PyStr) : Val Int → Except Exn (Val Int)
  | .str t => (Trivial.strToInt t).map .num
  | _ => .error .error

/-- The example class: numbers without a unit are tens. -/
def exCls (chk : Bool) : Cls ExSt Int where
  props := exProps
  desc := exDesc
  mechs := [.msr, .sysfs]
  subprops := fun _ => []
  defUnit := fun p => if p = "max_freq".toList then some "0".toList else none
  numText := fun t => match Trivial.strToInt t with
    | .ok n => some (PyStr.ofInt n)
    | .error _ => none
  norm := exNorm
  set := exSet chk
  get := fun s p m l => readCpus (fun c => exRd p m c (s.held p c)) l
  start := fun s => (s, .ok ())
  commit := fun s => (⟨s.held, s.held⟩, .ok ())
  freqs := chk

def exHost : Host Int := ⟨CPUInfo.exInfo, HumanPrint.exFmt, id, fun _ ca _ => ca, "Nothing".toList⟩

/-- What is right after a property was set to a value. -/
def exR (_ : PyStr) (_ : Nat) (v : Val Int) (x : Int) : Prop := ∀ n, v = .num n → x = n

theorem ex_same {c d : Nat} : SameUnit CPUInfo.exInfo (.lvl .CPU) c d → c = d := by
  rintro ⟨tc, htc, td, htd, h1, h2, h3, h4, h5⟩
  simp only [ident, List.cons.injEq, and_true] at h5
  rw [← h1, ← h2]; exact h5

theorem exDesc_cpu {p : PyStr} {P : PropDesc} (h : exDesc p = some P) :
    P.sname = some (.lvl .CPU) ∧ P.iosname = .lvl .CPU ∧ P.mnames = [.msr, .sysfs] := by
  unfold exDesc at h
  split at h
  · cases h; exact ⟨rfl, rfl, rfl⟩
  · split at h
    · cases h; exact ⟨rfl, rfl, rfl⟩
    · split at h
      · cases h; exact ⟨rfl, rfl, rfl⟩
      · cases h

theorem exSet_held (chk : Bool) (p : PyStr) (m : Mech) (v : Val Int) (l : List Nat) (s : ExSt) :
    (exSet chk p m v l s).1.hw = s.hw ∧
    ((exSet chk p m v l s).1.held = s.held ∨ ∃ n, v = .num n ∧ (exSet chk p m v l s).1.held = fun q c =>
      if q = p && (l.contains c && CPUInfo.exInfo.online.contains c) then n else s.held q c) ∧
    ((exSet chk p m v l s).2 = .ok () → ∀ n, v = .num n → (exSet chk p m v l s).1.held = fun q c =>
      if q = p && (l.contains c && CPUInfo.exInfo.online.contains c) then n else s.held q c) := by
  cases v with
  | num n =>
    unfold exSet
    dsimp only
    split
    · exact ⟨rfl, .inl rfl, fun h => nomatch h⟩
    split
    · exact ⟨rfl, .inl rfl, fun h => nomatch h⟩
    · exact ⟨rfl, .inr ⟨n, rfl, rfl⟩, fun _ k hk => by cases hk; rfl⟩
  | _ => exact ⟨rfl, .inl rfl, fun _ k hk => nomatch hk⟩

theorem exContract (chk : Bool) : Contract exHost.i (exCls chk) (fun _ => True) exR (fun p s c => s.held p c)
    (fun p s c => s.hw p c) exRd where
  loc := by
    intro p P hP
    rw [(exDesc_cpu hP).2.1]
    refine ⟨?_, ?_⟩
    · intro m v l s _ c h
      obtain ⟨h1, h2, -⟩ := exSet_held chk p m v l s
      show ((exSet chk p m v l s).1.held p c, (exSet chk p m v l s).1.hw p c) = (s.held p c, s.hw p c)
      rw [h1]
      rcases h2 with h2 | ⟨n, -, h2⟩
      · rw [h2]
      · rw [h2]
        dsimp only
        rw [if_neg]
        intro hc
        rw [Bool.and_eq_true, Bool.and_eq_true] at hc
        exact h c (by simpa using hc.2.1) (PropsBase.sameUnit_refl CPUInfo.exInfo_wf (by simpa using hc.2.2) _)
    · intro m v l s _ h d hd c hs n hn
      obtain ⟨-, -, h3⟩ := exSet_held chk p m v l s
      show (exSet chk p m v l s).1.held p c = n
      rw [h3 h n hn]
      dsimp only
      rw [if_pos]
      rw [Bool.and_eq_true, Bool.and_eq_true]
      refine ⟨by simp, ?_, by simpa using PropsBase.sameUnit_online CPUInfo.exInfo_wf hs⟩
      rw [← ex_same hs]
      simpa using hd
  others := by
    intro p q m v l s hpq
    obtain ⟨h1, h2, -⟩ := exSet_held chk p m v l s
    refine ⟨funext fun c => ?_, funext fun c => ?_⟩
    · show (exSet chk p m v l s).1.held q c = s.held q c
      rcases h2 with h2 | ⟨n, -, h2⟩
      · rw [h2]
      · rw [h2]
        dsimp only
        rw [if_neg]
        intro hc
        rw [Bool.and_eq_true] at hc
        exact hpq (of_decide_eq_true hc.1).symm
    · show (exSet chk p m v l s).1.hw q c = s.hw q c
      rw [h1]
  get := fun _ _ _ _ _ => rfl
  start := fun _ _ => ⟨rfl, rfl⟩
  commit := fun _ _ _ _ => ⟨rfl, rfl⟩
  keeps := fun _ _ _ _ h => ⟨rfl, h⟩
  inv := fun _ _ => ⟨trivial, trivial, fun _ _ _ _ _ => trivial⟩
  unit := by
    intro p P m s c d hP _ h
    rw [(exDesc_cpu hP).2.1] at h
    rw [ex_same h]
  type := by
    intro p pi m c x v hp hv
    have ht : pi.type = .int := by
      have := Dict.mem_of_get? hp
      revert this
      show (p, pi) ∈ exProps → _
      intro this
      simp only [exProps, List.mem_cons, Prod.mk.injEq, List.not_mem_nil, or_false] at this
      rcases this with ⟨-, h⟩ | ⟨-, h⟩ | ⟨-, h⟩ <;> rw [h]
    unfold exRd at hv
    split at hv
    · cases hv
    · cases hv
      rw [ht]
      exact trivial
  scopes := by
    intro p P hP sn hsn
    obtain ⟨h1, h2, -⟩ := exDesc_cpu hP
    rw [h1] at hsn
    cases hsn
    rw [h2]
    exact fun _ _ h => h
  table := by
    intro p
    show (exDesc p).map (·.writable) = (Dict.get? exProps p).map (·.writable)
    by_cases h1 : p = "min_freq".toList
    · rw [h1]; decide +kernel
    · by_cases h2 : p = "max_freq".toList
      · rw [h2]; decide +kernel
      · by_cases h3 : p = "base_freq".toList
        · rw [h3]; decide +kernel
        · have e1 : exDesc p = none := by unfold exDesc; rw [if_neg h1, if_neg h2, if_neg h3]
          have e2 : Dict.get? exProps p = none :=
            (if_neg (Ne.symm h1)).trans ((if_neg (Ne.symm h2)).trans (if_neg (Ne.symm h3)))
          rw [e1, e2]; rfl

def exSt : ExSt :=
  let f := fun p _ => if p = "min_freq".toList then 10 else if p = "max_freq".toList then 30 else 20
  ⟨f, f⟩

/-- "--min-freq 40 --base-freq --max-freq 5 --cpus 0-1". -/
def exArgs : Args :=
  { oargs := some [("min_freq".toList, some "40".toList), ("base_freq".toList, none), ("max_freq".toList, some "5".toList)],
    tgt := { cpus := some "0-1".toList } }

theorem exPlain (chk : Bool) (names : List PyStr) : PlainFor exHost.i CStatesCmd.exTgt (exCls chk) names :=
  fun _ _ _ _ => plain_simple _ CPUInfo.exInfo_wf CStatesCmd.exTgt ⟨rfl, rfl⟩ (fun h : False => h.elim) _

theorem exLater : Later exHost := fun _ _ _ => ⟨[], ⟨List.not_mem_nil, List.not_mem_nil⟩, rfl⟩

theorem exUniform (T : Nat → Prop) (val : PyStr → Nat → Int) : Uniform T exRd val := by
  intro p m c d _ _ h
  unfold exRd at h ⊢
  split at h
  · rename_i hm; rw [if_pos hm]
  · cases h

theorem exSel0 : Selected CPUInfo.exInfo CStatesCmd.exTgt 0 :=
  ⟨.inr (.inl ⟨_, rfl, by unfold Requested; decide +kernel⟩), fun h => absurd rfl h, fun h => absurd rfl h⟩

/-- The hypotheses of C97_frame_partial, C97_config_partial and C97_all_or_nothing_partial hold for the example. The minimum
frequency must be set after the maximum frequency. -/
example : HumanPrint.exSys.Of exHost.i ∧ exHost.i.online ≠ [] ∧ (∀ p n, exHost.F.unitInt p n ≠ []) ∧ Later exHost ∧
    Contract exHost.i (exCls true) (fun _ => True) exR (fun p s c => s.held p c) (fun p s c => s.hw p c) exRd ∧
    (∀ o, exArgs.oargs = some o → o.keys.Nodup ∧ PlainFor exHost.i CStatesCmd.exTgt (exCls true) o.keys) ∧
    Written exArgs.tgt CStatesCmd.exTgt ∧ (∀ s : ExSt, Uniform (Selected exHost.i CStatesCmd.exTgt) exRd fun p c => s.hw p c) ∧
    MeansMechs (exCls true) exArgs.mechanisms none ∧
    (∀ p m v l s q, (exSet true p m v l s).1.hw q = s.hw q) ∧
    (∀ p, (fun c => exSt.held p c) = fun c => exSt.hw p c) ∧
    (configCmd exHost (exCls true) exArgs exSt).2 = (["Base frequency: 20 for CPUs 0,1".toList,
      "Min. frequency: set to 40 for CPUs 0,1".toList, "Max. frequency: set to 50 for CPUs 0,1".toList], .ok ()) ∧
    [0, 1, 2].map ((configCmd exHost (exCls true) exArgs exSt).1.hw "min_freq".toList) = [40, 40, 10] ∧
    [0, 1, 2].map ((configCmd exHost (exCls true) exArgs exSt).1.hw "max_freq".toList) = [50, 50, 30] :=
  ⟨HumanPrint.exSys_of, by decide +kernel, fun _ n => HumanPrint.ofInt_ne_nil n, exLater, exContract true,
    fun o ho => by cases ho; exact ⟨by decide +kernel, exPlain true _⟩, CStatesCmd.exTgt_written, fun _ => exUniform _ _, rfl,
    fun p m v l s q => by rw [(exSet_held true p m v l s).1], fun _ => rfl, by decide +kernel, by decide +kernel,
    by decide +kernel⟩

/-- The minimum frequency is not greater than the maximum frequency, for all CPUs, with and without what is not committed. -/
def exOrdered (s : ExSt) : Prop :=
  ∀ c, s.held "min_freq".toList c ≤ s.held "max_freq".toList c ∧ s.hw "min_freq".toList c ≤ s.hw "max_freq".toList c

theorem exSet_ordered (p : PyStr) (m : Mech) (v : Val Int) (l : List Nat) (s : ExSt) (h : exOrdered s) :
    exOrdered (exSet true p m v l s).1 := by
  cases v with
  | num n =>
    unfold exSet
    dsimp only
    split
    · exact h
    split
    · exact h
    · rename_i hb
      obtain ⟨mn, hmn⟩ : ∃ t, "min_freq".toList = t := ⟨_, rfl⟩
      obtain ⟨mx, hmx⟩ : ∃ t, "max_freq".toList = t := ⟨_, rfl⟩
      have hne : mn ≠ mx := by rw [← hmn, ← hmx]; decide +kernel
      unfold exBad at hb
      unfold exOrdered at h ⊢
      rw [hmn, hmx] at hb h ⊢
      intro c
      refine ⟨?_, (h c).2⟩
      have hc := (h c).1
      simp only [Bool.true_and, Bool.or_eq_true, Bool.and_eq_true, List.any_eq_true, decide_eq_true_eq, not_or, not_and,
        not_exists] at hb
      dsimp only
      by_cases hl : (l.contains c && CPUInfo.exInfo.online.contains c) = true
      · have hcl : c ∈ l := by simpa using (Bool.and_eq_true_iff.1 hl).1
        rw [hl, Bool.and_true, Bool.and_true]
        by_cases h1 : p = mn
        · subst h1
          have := hb.1 rfl c hcl
          rw [if_pos (by simp), if_neg (by simpa using hne.symm)]
          omega
        · by_cases h2 : p = mx
          · subst h2
            have := hb.2 rfl c hcl
            rw [if_neg (by simpa using hne), if_pos (by simp)]
            omega
          · rw [if_neg (by simpa using Ne.symm h1), if_neg (by simpa using Ne.symm h2)]
            exact hc
      · rw [Bool.not_eq_true] at hl
        rw [hl]
        simpa using hc
  | _ => exact h

/-- An invariant of the example: whatever the options are, the minimum frequency does not become greater than the maximum. -/
example (o : Dict PyStr (Option PyStr)) (hn : o.keys.Nodup) :
    exOrdered (configCmd exHost (exCls true) { exArgs with oargs := some o } exSt).1 :=
  C97_invariant_partial (S := HumanPrint.exSys) HumanPrint.exSys_of (by decide +kernel)
    (fun _ n => HumanPrint.ofInt_ne_nil n) exLater (exContract true) _ rfl hn CStatesCmd.exTgt_written (exPlain true _)
    exOrdered (fun p _ _ v m l s _ _ _ _ h => exSet_ordered p m v l s h) (fun _ h => h)
    (fun _ h c => ⟨(h c).1, (h c).1⟩) (fun c => by
      have : exSt.hw "min_freq".toList c = 10 ∧ exSt.hw "max_freq".toList c = 30 := by
        constructor <;> rfl
      exact ⟨by show exSt.hw _ c ≤ exSt.hw _ c; omega, by omega⟩)

/-- "--min-freq 40 --base-freq --cpus 0-1". -/
def exWorks : Args :=
  { oargs := some [("min_freq".toList, some "40".toList), ("base_freq".toList, none)], tgt := { cpus := some "0-1".toList } }

/-- The hypotheses of C97_works_partial hold for the example. -/
example : (configCmd exHost (exCls false) exWorks exSt).2.2 = .ok () := by
  refine C97_works_partial (S := HumanPrint.exSys) HumanPrint.exSys_of (by decide +kernel)
    (fun _ n => HumanPrint.ofInt_ne_nil n) exLater (exContract false) exWorks rfl (by decide +kernel)
    CStatesCmd.exTgt_written (exPlain false _) ?_ ⟨0, exSel0⟩ (Good := fun _ => True) (fun _ _ => exUniform _ _) (ml := none) rfl
    ?_ ?_ ?_ (fun _ _ => ⟨rfl, trivial⟩) (fun _ _ => ⟨rfl, trivial⟩) trivial trivial (fun _ => rfl)
  · refine ⟨?_, (fun l h => by cases h), (fun l h => by cases h), trivial, trivial⟩
    rintro l hl c hc
    cases hl
    revert c
    decide +kernel
  · intro p hp
    have hall : ∀ t ∈ CPUInfo.exInfo.topology, t.package = NA ∨ t.package = 0 ∨ t.package = 1 := by decide +kernel
    obtain ⟨h0, t, ht, rfl⟩ := hp
    rcases hall t ht with h | h | h
    · exact absurd h h0
    · rw [h]; exact ⟨0, by decide, by unfold InPackage; decide +kernel⟩
    · rw [h]; exact ⟨2, by decide, by unfold InPackage; decide +kernel⟩
  · intro s _ p hp
    have hex : ∃ P, exDesc p = some P := by
      rcases List.mem_cons.1 hp with rfl | hp
      · exact ⟨_, rfl⟩
      · rw [List.mem_singleton.1 hp]; exact ⟨_, rfl⟩
    obtain ⟨P, hP⟩ := hex
    obtain ⟨h1, -, h3⟩ := exDesc_cpu hP
    refine ⟨⟨P, _, hP, h1, (nomatch ·), by rw [h3]; exact (nomatch ·), fun l h => nomatch h⟩, ?_⟩
    intro m c _
    unfold exRd
    split
    · exact .inl rfl
    · exact .inr ⟨_, rfl⟩
  · intro p text x ho hx
    have hpt : p = "min_freq".toList ∧ text = "40".toList := by
      rcases List.mem_cons.1 (Dict.mem_of_get? ho) with h | h
      · exact ⟨(Prod.mk.inj h).1, Option.some.inj (Prod.mk.inj h).2⟩
      · have := (Prod.mk.inj (List.mem_singleton.1 h)).2
        cases this
    obtain ⟨rfl, rfl⟩ := hpt
    have hx' : x = "40".toList := hx.1 (.inl (by decide +kernel))
    subst hx'
    refine ⟨⟨_, .lvl .CPU, rfl, rfl, (nomatch ·), (nomatch ·), ?_, rfl, fun l h => nomatch h⟩, ⟨.num 40, by decide +kernel, ?_⟩⟩
    · rintro ⟨c, d, hc, hcd, hd⟩
      exact hd (ex_same hcd ▸ hc)
    · exact fun m l s _ _ => ⟨rfl, trivial⟩

/-- The 'info' command, with and without options. -/
example : (wanted (exCls true) none).Nodup ∧ PlainFor exHost.i CStatesCmd.exTgt (exCls true) (wanted (exCls true) none) ∧
    (infoCmd exHost (exCls true) { exArgs with oargs := none } exSt).2 = (["Source: sysfs".toList,
      " - Min. frequency: 10 for CPUs 0,1".toList, " - Max. frequency: 30 for CPUs 0,1".toList,
      " - Base frequency: 20 for CPUs 0,1".toList], .ok ()) ∧
    (infoCmd exHost (exCls true) { exArgs with oargs := none, mechanisms := some "msr".toList } exSt).2 =
      (["Nothing".toList], .ok ()) ∧
    (infoCmd exHost (exCls true) exArgs exSt).2 = (["Min. frequency: 10 for CPUs 0,1".toList,
      "Base frequency: 20 for CPUs 0,1".toList, "Max. frequency: 30 for CPUs 0,1".toList], .ok ()) :=
  ⟨by decide +kernel, exPlain true _, by decide +kernel, by decide +kernel, by decide +kernel⟩

/-- Refusals: no options, an unknown mechanism, and a CPU which does not exist. -/
example : (configCmd exHost (exCls true) { exArgs with oargs := none } exSt).2 = ([], .error .error) ∧
    (configCmd exHost (exCls true) { exArgs with mechanisms := some "cppc".toList } exSt).2 = ([], .error .notSupported) ∧
    (configCmd exHost (exCls true) { exArgs with tgt := { cpus := some "0,99".toList } } exSt).2 = ([], .error .error) := by
  decide +kernel

/-- The order of the options matters: the minimum and the maximum frequency are both lowered below the current minimum.
This works if the minimum is given first, and fails if the maximum is given first: the code looks for an option with a
misspelled name, so it does not try the other order. -/
theorem C97_order_counterexample :
    let low (o : Dict PyStr (Option PyStr)) := (configCmd exHost (exCls true) { exArgs with oargs := some o } exSt).2
    low [("min_freq".toList, some "0".toList), ("max_freq".toList, some "0".toList)] =
      (["Min. frequency: set to 0 for CPUs 0,1".toList, "Max. frequency: set to 0 for CPUs 0,1".toList], .ok ()) ∧
    low [("max_freq".toList, some "0".toList), ("min_freq".toList, some "0".toList)] = ([], .error .freqOrder) := by
  decide +kernel

end Verif.PropsCmd
