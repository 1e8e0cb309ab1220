import Verif.Lemmas.RestoreSave

/-!
Lemmas for C99: when restoring works.
-/

namespace Verif.RestoreCmd

open CPUInfo OpTarget
open PropsBase (Mech PropDesc setPropCpus setPropPackages toTry oneMech)
open PropsTarget (Where)
open PropsYaml (SName TNums Entry File entryCall)
open HumanPrint (Val Sys)
open PropsCmd (Cls Host Contract Later Ready printStep finalRead_works)
open CStatesCmd (Step)

variable {σ Q X : Type} [DecidableEq Q] {H : Host Q} {S : Sys} {K : Cls σ Q} {Inv : σ → Prop}
  {R : PyStr → Nat → Val Q → X → Prop} {held hw : PyStr → σ → Nat → X}
  {rd : PyStr → Mech → Nat → X → Except Exn (Option (Val Q))} {Good : σ → Prop}

theorem There.nonEmpty {i : Info} {w : Where} (h : There i w) : NonEmpty w := by
  cases w with
  | cpus l => exact h.1
  | packages l => exact h.1
  | dies d => exact h.1

theorem means_there {V : Type} {x : PyStr × Entry V} {w w' : Where} (h : Means x.2 w) (h' : Does x w') {i : Info} (ht : There i w) :
    There i w' := by
  obtain ⟨w0, h0, hm⟩ := means_does h
  obtain rfl := does_unique h' h0
  obtain ⟨p, v, sn, nums⟩ := x
  cases w with
  | cpus l =>
    obtain ⟨rfl, t, rfl, hl⟩ := h
    obtain ⟨L, l', g1, g2, -, g4⟩ := parse_lists hl
    obtain rfl : w' = .cpus l' := does_unique h' ⟨⟨.cpus L, by simp only [entryCall, g1], by simp only [toWhere, g2]; rfl⟩, nofun, nofun, nofun⟩
    obtain ⟨c, hc⟩ := List.exists_mem_of_ne_nil _ ht.1
    exact ⟨List.ne_nil_of_mem ((g4 c).2 hc), fun c hc => ht.2 c ((g4 c).1 hc)⟩
  | packages l =>
    obtain ⟨rfl, t, rfl, hl⟩ := h
    obtain ⟨L, l', g1, g2, -, g4⟩ := parse_lists hl
    obtain rfl : w' = .packages l' :=
      does_unique h' ⟨⟨.packages L, by simp only [entryCall, g1], by simp only [toWhere, g2]; rfl⟩, nofun, nofun, fun _ _ => rfl⟩
    obtain ⟨c, hc⟩ := List.exists_mem_of_ne_nil _ ht.1
    exact ⟨List.ne_nil_of_mem ((g4 c).2 hc), fun c hc => ht.2 c ((g4 c).1 hc)⟩
  | dies d =>
    obtain ⟨rfl, hk, d', rfl, hd⟩ := h
    obtain ⟨D, D', g1, g2, g3, g4⟩ := parse_dies hd
    obtain rfl : w' = .dies D' :=
      does_unique h' ⟨⟨.dies D, by simp only [entryCall, g1], by simp only [toWhere, g2]; rfl⟩, fun d0 e => by cases e; rw [g3]; exact hk,
        fun _ _ => rfl, nofun⟩
    refine ⟨fun e => ?_, fun pd hpd => ⟨?_, fun u hu => ?_⟩⟩
    · rw [e] at g3
      cases d with
      | nil => exact ht.1 rfl
      | cons y d => cases g3
    · have : pd.1 ∈ Dict.keys D' := List.mem_map_of_mem hpd
      rw [g3] at this
      obtain ⟨y, hy, e⟩ := List.mem_map.1 this
      rw [← e]
      exact (ht.2 y hy).1
    · obtain ⟨y, k1, k2, k3⟩ := (g4 pd.1 u).1 ⟨pd, hpd, rfl, hu⟩
      rw [← k2]
      exact (ht.2 y k1).2 u k3

/-- Setting a property calls the class for some of the CPUs, with the first mechanism. -/
theorem setMech_first {i : Info} (wf : WF i) (hK : Contract i K Inv R held hw rd) {w : Where} (hth : There i w) {p : PyStr}
    (hc : Writable i K (fun c => OnCpu i c w) p) {P : PropDesc} (hP : K.desc p = some P) (hsu : Suits P w) {x y : Val Q}
    (hn : K.norm p x = .ok y) (s : σ) :
    ∃ m r, (∀ d ∈ r, OnCpu i d w) ∧
      ((K.set p m y r s).2 = .ok () → setMech i K P p (some x) w s = ((K.set p m y r s).1, .ok m)) ∧
      ((K.set p m y r s).2 = .error .freqOrder →
        setMech i K P p (some x) w s = ((K.set p m y r s).1, .error .freqOrder)) := by
  obtain ⟨P', sn, h1, h2, h3, h4, r3, r4, h5, h6⟩ := hc
  rw [hP] at h1
  cases h1
  obtain ⟨m0, ms0, hms⟩ : ∃ m0 ms0, toTry P none = m0 :: ms0 := by
    cases ht : toTry P none with
    | nil => exact absurd ht (PropsBase.toTry_ne r4 none)
    | cons m0 ms0 => exact ⟨m0, ms0, rfl⟩
  cases w with
  | cpus l =>
    obtain ⟨hne, hon⟩ := hth
    have hn' : ∃ l', normalizeCpus i (.nums l) false = .ok l' := by
      unfold normalizeCpus
      refine ⟨_, if_pos ?_⟩
      rw [List.all_eq_true]
      intro c hc
      simpa using hon c (by simpa [mem_pyDedup] using hc)
    obtain ⟨l', hl'⟩ := hn'
    obtain ⟨-, hm', -⟩ := normalizeCpus_ok hl'
    have hm' : ∀ c, c ∈ l' ↔ c ∈ l := hm'
    obtain ⟨c, hc⟩ := List.exists_mem_of_ne_nil _ hne
    refine ⟨m0, l', fun d hd => (hm' d).1 hd, ?_⟩
    have he : setMech i K P p (some x) (.cpus l) s = PropsBase.setLoop (fun m => K.set p m y l') (m0 :: ms0) false s := by
      unfold setMech
      dsimp only
      rw [((PropsBase.C29_scope i wf P (K.norm p) (K.set p) (some x) (.nums l) none s sn l' h2 ⟨h3, h4⟩ hl'
        (List.ne_nil_of_mem ((hm' c).2 hc))).2 x y rfl hn h5 nofun).1 (fun c hc d hcd => (hm' d).2 (h6 c d ((hm' c).1 hc) hcd)), hms]
    rw [he, PropsBase.setLoop]
    cases hx : K.set p m0 y l' s with
    | mk s1 z =>
      refine ⟨fun h => ?_, fun h => ?_⟩
      · dsimp only at h
        subst h
        rfl
      · dsimp only at h
        subst h
        rfl
  | packages l =>
    obtain ⟨r, hr', he⟩ := PropsBase.C28_set_prop_packages_partial i wf P (K.norm p) (K.set p) x y l none s nofun h5 hn hth.2 hth.1
      (.inl (hsu.packages l rfl)) (hK.scopes p P hP _ (hsu.packages l rfl))
    refine ⟨m0, r, fun d hd => hr'.2.1 d hd, ?_⟩
    unfold setMech
    dsimp only
    rw [he, hms, PropsBase.setLoop]
    unfold oneMech
    cases hx : K.set p m0 y r s with
    | mk s1 z =>
      refine ⟨fun h => ?_, fun h => ?_⟩
      · dsimp only at h
        subst h
        rfl
      · dsimp only at h
        subst h
        rfl
  | dies d => 
    have := (hsu.keys d rfl).2
    rw [h2] at this
    exact absurd (Option.some.inj this) r3

theorem partner_list {p q word : PyStr}
    (h : (p, q, word) ∈ [("min_freq".toList, "max_freq".toList, "max".toList), ("max_freq".toList, "min_freq".toList, "min".toList),
      ("min_uncore_freq".toList, "max_uncore_freq".toList, "max".toList),
      ("max_uncore_freq".toList, "min_uncore_freq".toList, "min".toList)]) : partner p = some (q, word) := by
  simp only [List.mem_cons, List.not_mem_nil, or_false, Prod.mk.injEq] at h
  rcases h with ⟨rfl, rfl, rfl⟩ | ⟨rfl, rfl, rfl⟩ | ⟨rfl, rfl, rfl⟩ | ⟨rfl, rfl, rfl⟩ <;> decide +kernel

/-- Restoring a property works. -/
theorem restoreOne_works {i : Info} (wf : WF i) (hK : Contract i K Inv R held hw rd) {w : Where} (hth : There i w) {p : PyStr}
    {v : Option (Val Q)} (hc : CanRestore i K R rd held Good (fun c => OnCpu i c w) p v)
    (hsu : ∀ q P, Touches K p q → K.desc q = some P → Suits P w) {s : σ} (hs : Inv s) (hg : Good s) :
    (restoreOne i K p v w s).2 = .ok () ∧ Good (restoreOne i K p v w s).1 := by
  obtain ⟨x, y, rfl, hn, hset⟩ := hc.norm
  obtain ⟨P, -, hP, -⟩ := id hc.desc
  have hsp : ∀ P, K.desc p = some P → Suits P w := fun P hP => hsu p P (.inl rfl) hP
  obtain ⟨m, r, hr, h1, h2⟩ := setMech_first wf hK hth hc.desc hP (hsp P hP) hn s
  rcases hset with hset | ⟨hf, q, word, z, hq, hcq, hnq, g1, g2, g3⟩
  · obtain ⟨k1, k2⟩ := hset m r s hr hg
    unfold restoreOne
    rw [setWhere_eq hP, h1 k1]
    exact ⟨rfl, k2⟩
  · have hinv := (setWhere_ok wf hK p (some x) hsp hs).inv
    obtain ⟨k1, k2⟩ := g1 m r s hr hg
    rcases k1 with k1 | k1
    · unfold restoreOne
      rw [setWhere_eq hP, h1 k1]
      exact ⟨rfl, k2⟩
    · unfold restoreOne
      rw [setWhere_eq hP, h2 k1] at hinv ⊢
      dsimp only [Except.map] at hinv ⊢
      generalize (K.set p m y r s).1 = s1 at hinv k2 ⊢
      rw [if_neg (by rw [hf]; decide), partner_list hq]
      dsimp only
      obtain ⟨P', -, hP', -⟩ := id hcq
      have ht : Touches K p q := .inr ⟨hf, partner_paired (partner_list hq)⟩
      have hsq : ∀ P, K.desc q = some P → Suits P w := fun P hP => hsu q P ht hP
      obtain ⟨m', r', hr', f1, -⟩ := setMech_first wf hK hth hcq hP' (hsq P' hP') hnq s1
      obtain ⟨j1, j2⟩ := g2 m' r' s1 hr' k2
      have hok := setWhere_ok wf hK q (some (.str word)) hsq hinv
      rw [setWhere_eq hP', f1 j1] at hok ⊢
      dsimp only [Except.map] at hok ⊢
      generalize (K.set q m' z r' s1).1 = s2 at hok j2 ⊢
      obtain ⟨-, x', z', -, -, e1, e2, e3, -⟩ := hok.done rfl
      cases e1
      rw [hnq] at e2
      cases e2
      obtain ⟨m2, r2, hr2, l1, -⟩ := setMech_first wf hK hth hc.desc hP (hsp P hP) hn s2
      rw [setWhere_eq hP, l1 (g3 m2 r2 s2 hr2 j2 fun d hd => e3 d (hr2 d hd))]
      exact ⟨rfl, (g1 m2 r2 s2 hr2 j2).2⟩

/-- Restoring an entry works. -/
theorem restoreEntry_works (hS : S.Of H.i) (hon : H.i.online ≠ []) (hF : ∀ p n, H.F.unitInt p n ≠ []) (hl : Later H)
    (hK : Contract H.i K Inv R held hw rd) (hcpus : ∀ p, PkgEx H.i p → ∃ c, CpuWith H.i (InPackage p) c)
    {x : PyStr × Entry (Val Q)} {w : Where} (hd : Does x w) (hsu : ∀ P, K.desc x.1 = some P → Suits P w) (hth : There H.i w)
    (hc : CanRestore H.i K R rd held Good (fun c => OnCpu H.i c w) x.1 x.2.value) (hfine : Fine K x) {s : σ} (hs : Inv s) (hg : Good s) :
    (restoreEntry H K x s).2.2 = .ok () ∧ Good (restoreEntry H K x s).1 ∧ Inv (restoreEntry H K x s).1 := by
  have hinv := (restoreEntry_ok hS hon hF hl hK hfine hs).inv
  obtain ⟨t, h1, h2⟩ := hd.call
  obtain ⟨P, sn, hP, hsn, -, -, -, -, hwr, -⟩ := hc.desc
  obtain ⟨w0, hd0, hsu0⟩ := hfine
  obtain rfl := does_unique hd hd0
  obtain ⟨k1, k2⟩ := restoreOne_works hS.wf hK hth hc hsu0 hs hg
  unfold restoreEntry at hinv ⊢
  rw [h1] at hinv ⊢
  dsimp only at hinv ⊢
  rw [h2] at hinv ⊢
  dsimp only at hinv ⊢
  unfold Step.andThen at hinv ⊢
  dsimp only at hinv ⊢
  cases hone : restoreOne H.i K x.1 x.2.value w s with
  | mk s1 z1 =>
  rw [hone] at k1 k2 hinv
  dsimp only at k1 k2 hinv ⊢
  subst k1
  dsimp only at hinv ⊢
  have hst : ((printRestored H K x.1 w s1).1) = s1 := by
    unfold printRestored
    cases init H.i (optarArgs w) <;> rfl
  rw [hst] at hinv ⊢
  refine ⟨?_, k2, hinv⟩
  have hV : Valid H.i (optarArgs w) := by
    cases w with
    | cpus l => exact ⟨fun l' e => by cases e; exact hth.2, nofun, nofun, trivial, trivial⟩
    | packages l => exact ⟨nofun, nofun, fun l' e => by cases e; exact hth.2, trivial, trivial⟩
    | dies d => exact ⟨nofun, nofun, nofun, trivial, hth.2⟩
  obtain ⟨⟨t, ca⟩, hi, -⟩ := (init_outcome H.i hS.wf (optarArgs w)).1 hV
  unfold printRestored
  rw [hi]
  dsimp only
  have r : Ready H S (optarArgs w) t ca := ⟨hS, hon, hl, hi, hF⟩
  have hsel := selected_where H.i hth.nonEmpty
  obtain ⟨pi, hpi, hpw⟩ : ∃ pi, K.props.get? x.1 = some pi ∧ pi.writable = true := by
    have := hK.table x.1
    rw [hP] at this
    cases hx : K.props.get? x.1 with
    | none => rw [hx] at this; cases this
    | some pi =>
      rw [hx] at this
      exact ⟨pi, rfl, (Option.some.inj this).symm.trans hwr⟩
  have hnm : HumanPrint.Named K.props true (some [x.1]) [x.1] := by
    refine ⟨[x.1], fun l' e => ?_, nofun, ?_⟩
    · cases e
      refine ⟨rfl, fun n hn => ?_⟩
      rw [List.mem_singleton.1 hn]
      exact ⟨pi, hpi⟩
    · rw [List.filter_cons_of_pos]
      · rfl
      · rw [hpi]
        simpa using hpw
  obtain ⟨hcr, hu⟩ := hc.reads s1 k2
  rw [← hsel] at hcr hu
  have hpl : PropsCmd.PlainFor H.i (optarArgs w) K [x.1] := fun q hq P hP => plain_where hS.wf w _
  have hex : ∃ c, OnCpu H.i c w := by
    cases w with
    | cpus l => exact List.exists_mem_of_ne_nil _ hth.1
    | packages l =>
      obtain ⟨p, hp⟩ := List.exists_mem_of_ne_nil _ hth.1
      obtain ⟨c, hc⟩ := hcpus p (hth.2 p hp)
      exact ⟨c, p, hp, hc⟩
    | dies d =>
      have := ((hsu P hP).keys d rfl).2
      obtain ⟨P', sn', r1, r2, r3, -⟩ := hcr.desc
      rw [hP] at r1
      cases r1
      rw [this] at r2
      exact absurd (Option.some.inj r2).symm r3
  have hoff : ∀ c, OnCpu H.i c w → c ∈ H.i.online := by
    intro c hc
    cases w with
    | cpus l => exact hth.2 c hc
    | packages l => obtain ⟨p, -, hc⟩ := hc; exact cpuWith_avail (off := false) hS.wf hc
    | dies d => obtain ⟨p, -, u, -, hc⟩ := hc; exact cpuWith_avail (off := false) hS.wf hc
  have hone' := PropsCmd.printOut_about r hK hu hinv none true false false
    (some "restored to".toList) (some [x.1]) hnm (List.nodup_singleton x.1) hpl
  unfold printStep
  rcases hone' with ⟨e, -, q, hq, h⟩ | ⟨lines, n, told, h, -⟩
  · rw [List.mem_singleton.1 hq] at h
    obtain ⟨pvs, hpvs⟩ := finalRead_works r hK hu hinv hpl hcr (by rw [hsel]; exact hex) (by rw [hsel]; exact hoff) hcpus
    exact absurd hpvs (h pvs)
  · rw [h]; rfl

/-- Restoring entries works. -/
theorem restoreEntries_works (hS : S.Of H.i) (hon : H.i.online ≠ []) (hF : ∀ p n, H.F.unitInt p n ≠ []) (hl : Later H)
    (hK : Contract H.i K Inv R held hw rd) (hcpus : ∀ p, PkgEx H.i p → ∃ c, CpuWith H.i (InPackage p) c)
    {l : List (PyStr × Entry (Val Q))} (hx : ∀ x ∈ l, Fine K x ∧ ∃ w, Does x w ∧ (∀ P, K.desc x.1 = some P → Suits P w) ∧
      There H.i w ∧ CanRestore H.i K R rd held Good (fun c => OnCpu H.i c w) x.1 x.2.value) {s : σ} (hs : Inv s) (hg : Good s) :
    (restoreEntries H K l s).2.2 = .ok () ∧ Good (restoreEntries H K l s).1 := by
  induction l generalizing s with
  | nil => exact ⟨rfl, hg⟩
  | cons x l ih =>
    obtain ⟨hf, w, h1, h2, h3, h4⟩ := hx x List.mem_cons_self
    obtain ⟨k1, k2, k3⟩ := restoreEntry_works hS hon hF hl hK hcpus h1 h2 h3 h4 hf hs hg
    rw [restoreEntries]
    unfold Step.andThen
    cases hr : restoreEntry H K x s with
    | mk s1 y =>
      obtain ⟨ls, z⟩ := y
      rw [hr] at k1 k2 k3
      dsimp only at k1 k2 k3
      subst k1
      exact ih (fun x hx' => hx x (List.mem_cons_of_mem _ hx')) k3 k2

theorem restoreProps_works (hS : S.Of H.i) (hon : H.i.online ≠ []) (hF : ∀ p n, H.F.unitInt p n ≠ []) (hl : Later H)
    (hK : Contract H.i K Inv R held hw rd) (hcpus : ∀ p, PkgEx H.i p → ∃ c, CpuWith H.i (InPackage p) c)
    (hstart : ∀ s, Good s → (K.start s).2 = .ok () ∧ Good (K.start s).1)
    (hcommit : ∀ s, Good s → (K.commit s).2 = .ok ())
    {f : File (Val Q)} (hx : ∀ x ∈ items f, Fine K x ∧ ∃ w, Does x w ∧ (∀ P, K.desc x.1 = some P → Suits P w) ∧
      There H.i w ∧ CanRestore H.i K R rd held Good (fun c => OnCpu H.i c w) x.1 x.2.value) {s : σ} (hs : Inv s) (hg : Good s) :
    (restoreProps H K f s).2.2 = .ok () := by
  unfold restoreProps Step.andThen
  dsimp only
  obtain ⟨k1, k2⟩ := hstart s hg
  have k3 := (hK.inv s hs).1
  cases h0 : K.start s with
  | mk s0 y0 =>
    rw [h0] at k1 k2 k3
    dsimp only at k1 k2 k3
    subst k1
    dsimp only
    obtain ⟨g1, g2⟩ := restoreEntries_works hS hon hF hl hK hcpus hx k3 k2
    cases h1 : restoreEntries H K (items f) s0 with
    | mk s1 y =>
      obtain ⟨ls, z⟩ := y
      rw [h1] at g1 g2
      dsimp only at g1 g2
      subst g1
      exact hcommit s1 g2

/-- Saving works. -/
theorem saveCmd_works (hS : S.Of H.i) (hon : H.i.online ≠ []) (hF : ∀ p n, H.F.unitInt p n ≠ []) (hl : Later H)
    (hK : Contract H.i K Inv R held hw rd) (hcpus : ∀ p, PkgEx H.i p → ∃ c, CpuWith H.i (InPackage p) c)
    {o : HotplugCmd.Opts} {a : OpTarget.Args} (hw' : HotplugCmd.Written o a) (hV : Valid H.i a)
    (hp : PropsCmd.PlainFor H.i a K K.props.keys) (hn : K.props.keys.Nodup) {s : σ}
    (hu : PropsCmd.Uniform (Selected H.i a) rd fun p c => held p s c) (hs : Inv s)
    (hr : ∀ p pi, K.props.get? p = some pi → pi.writable = true → PropsCmd.CanRead K rd (fun p c => held p s c) (Selected H.i a) none p)
    (hsel : ∃ c, Selected H.i a c) (hoff : ∀ c, Selected H.i a c → c ∈ H.i.online) :
    ∃ f, saveCmd H K o s = .ok f := by
  obtain ⟨-, t2⟩ := PropsCmd.target_same hS.wf hw'
  obtain ⟨a', t, ca, e1, e2, hsame⟩ := t2 hV
  unfold saveCmd
  rw [e1]
  dsimp only
  have hsel' : Selected H.i a' = Selected H.i a := funext fun c => propext (hsame.selected H.i c)
  have r : Ready H S a' t ca := ⟨hS, hon, hl, e2, hF⟩
  rw [← hsel'] at hu hr hsel hoff
  have hp : PropsCmd.PlainFor H.i a' K K.props.keys := fun q hq P hP => PropsCmd.same_plain hsame (hp q hq P hP)
  have hprop : ∀ p ∈ K.props.keys.filter (writable K), ∃ pi, K.props.get? p = some pi ∧ pi.writable = true := by
    intro p hpm
    obtain ⟨-, hwr⟩ := List.mem_filter.1 hpm
    unfold writable at hwr
    cases hg : K.props.get? p with
    | none => rw [hg] at hwr; cases hwr
    | some pi => rw [hg] at hwr; exact ⟨pi, rfl, hwr⟩
  have hall : ∀ p ∈ K.props.keys.filter (writable K), ∃ pvs, PropsYaml.finalRead (PropsCmd.readProp (H.env (t, ca)) K none s) p = .ok pvs := by
    intro p hpm
    obtain ⟨pi, h1, h2⟩ := hprop p hpm
    exact finalRead_works r hK hu hs (fun q hq P hP => hp q (by rw [List.mem_singleton.1 hq]; exact (List.mem_filter.1 hpm).1) P hP)
      (hr p pi h1 h2) hsel hoff hcpus
  obtain ⟨RR, hRR⟩ : ∃ RR : PyStr → List (PropsYaml.PV (Val Q)), ∀ p ∈ K.props.keys.filter (writable K),
      PropsYaml.finalRead (PropsCmd.readProp (H.env (t, ca)) K none s) p = .ok (RR p) := by
    refine ⟨fun p => match PropsYaml.finalRead (PropsCmd.readProp (H.env (t, ca)) K none s) p with
      | .ok pvs => pvs
      | .error _ => [], fun p hpm => ?_⟩
    obtain ⟨pvs, hpvs⟩ := hall p hpm
    dsimp only
    rw [hpvs]
  have hok : ∀ p ∈ K.props.keys.filter (writable K), ∃ ty, PropsCmd.ReadOk H.i S (Selected H.i a') ty
      (PropsCmd.Reading K rd (fun p c => held p s c) none p) (RR p) := by
    intro p hpm
    obtain ⟨pi, hpi, -⟩ := hprop p hpm
    obtain ⟨P, hP⟩ : ∃ P, K.desc p = some P := by
      have := hK.table p
      rw [hpi] at this
      cases hd : K.desc p with
      | none => rw [hd] at this; cases this
      | some P => exact ⟨P, rfl⟩
    obtain ⟨b, hb⟩ : ∃ perCpu, PropsCmd.readProp (H.env (t, ca)) K none s p perCpu = .ok (RR p) := by
      have := hRR p hpm
      unfold PropsYaml.finalRead at this
      split at this
      · exact ⟨true, this⟩
      · exact ⟨false, this⟩
    exact ⟨_, PropsCmd.readProp_ok r hK hu hs hP (hp p (List.mem_filter.1 hpm).1 P hP) hpi none b hb⟩
  obtain ⟨f, -, h, -⟩ := PropsYaml.C76_exact K.props.keys (writable K) _ RR hn
    ⟨hRR, fun p hpm => (hok p hpm).choose_spec.nodup, fun p hpm => (hok p hpm).choose_spec.scope⟩
  exact ⟨f, h⟩

end Verif.RestoreCmd
