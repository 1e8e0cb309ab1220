import Verif.Props.SystemctlSpec
import Verif.Lemmas.FreqInfo

/-! Lemmas for C110. -/

namespace Verif.Systemctl

variable {σ : Type} {sys : Sys σ} {st : σ → PyStr → Bool}

theorem isActive_eq (h : Shows sys st) (u : PyStr) (s : σ) : isActive sys u s = .ok (st s u) := by
  obtain ⟨t, ht, hi⟩ := h s u
  unfold isActive isSmth
  rw [ht]
  dsimp only
  cases hs : st s u with
  | true => rw [decide_eq_true (hi.2 hs)]
  | false =>
    rw [decide_eq_false]
    intro e
    rw [hi.1 e] at hs
    cases hs

theorem want_eq (a : Action) : decide (a = .start ∨ a = .restart) = decide (a ≠ .stop) := by
  cases a <;> rfl

/-- What is saved for a list of units. -/
def saveAll (save : Bool) (a : Action) (units : List PyStr) (d : Dict PyStr Action) : Dict PyStr Action :=
  units.foldl (fun d u => saveUnit save u a d) d

/-- The error which is reported for a unit. -/
def Failed (sys : Sys σ) (st : σ → PyStr → Bool) (a : Action) (u : PyStr) (s0 : σ) (e : Exn) : Prop :=
  (sys.act a u s0).2 = some e ∨
    ((sys.act a u s0).2 = none ∧ st (sys.act a u s0).1 u ≠ decide (a ≠ .stop) ∧ e = .error)

theorem runAction_spec (hs : Shows sys st) (hf : Frame sys st) (a : Action) (save : Bool) (units : List PyStr) :
    ∀ (s : σ) (d : Dict PyStr Action) (s' : σ) (d' : Dict PyStr Action) (r : Option Exn),
      runAction sys a save units s d = (s', d', r) →
      (r = none → d' = saveAll save a units d ∧
        ∀ u, st s' u = if u ∈ units then decide (a ≠ .stop) else st s u) ∧
      ∀ e, r = some e → ∃ pre x post s0, units = pre ++ x :: post ∧ d' = saveAll save a pre d ∧
        Failed sys st a x s0 e ∧ s' = (sys.act a x s0).1 ∧
        ∀ u, u ≠ x → st s' u = if u ∈ pre then decide (a ≠ .stop) else st s u := by
  induction units with
  | nil =>
    intro s d s' d' r h
    cases h
    exact ⟨fun _ => ⟨rfl, fun u => rfl⟩, fun e he => by cases he⟩
  | cons x rest ih =>
    intro s d s' d' r h
    unfold runAction at h
    have hfx := hf a x s
    cases hr : sys.act a x s with
    | mk s1 r1 =>
      rw [hr] at h hfx
      cases r1 with
      | some e =>
        cases h
        refine ⟨(nomatch ·), ?_⟩
        intro e' he
        cases he
        exact ⟨[], x, rest, s, rfl, rfl, .inl (by rw [hr]), by rw [hr], fun u hu => hfx u hu⟩
      | none =>
        dsimp only at h
        rw [isActive_eq hs] at h
        dsimp only at h
        rw [want_eq] at h
        by_cases hb : st s1 x = decide (a ≠ .stop)
        · rw [if_pos hb] at h
          obtain ⟨g1, g2⟩ := ih s1 _ s' d' r h
          refine ⟨?_, ?_⟩
          · intro hn
            obtain ⟨e1, e2⟩ := g1 hn
            refine ⟨e1, fun u => ?_⟩
            rw [e2 u]
            by_cases hu : u ∈ rest
            · rw [if_pos hu, if_pos (List.mem_cons_of_mem _ hu)]
            · rw [if_neg hu]
              by_cases hx : u = x
              · rw [if_pos (by rw [hx]; exact List.mem_cons_self), hx, hb]
              · rw [if_neg (fun h => (List.mem_cons.1 h).elim hx hu)]
                exact hfx u hx
          · intro e he
            obtain ⟨pre, y, post, s0, e1, e2, e3, e4, e5⟩ := g2 e he
            refine ⟨x :: pre, y, post, s0, by rw [e1]; rfl, e2, e3, e4, fun u hu => ?_⟩
            rw [e5 u hu]
            by_cases hp : u ∈ pre
            · rw [if_pos hp, if_pos (List.mem_cons_of_mem _ hp)]
            · rw [if_neg hp]
              by_cases hx : u = x
              · rw [if_pos (by rw [hx]; exact List.mem_cons_self), hx, hb]
              · rw [if_neg (fun h => (List.mem_cons.1 h).elim hx hp)]
                exact hfx u hx
        · rw [if_neg hb] at h
          cases h
          refine ⟨(nomatch ·), ?_⟩
          intro e' he
          cases he
          refine ⟨[], x, rest, s, rfl, rfl, .inr ⟨by rw [hr], ?_, rfl⟩, by rw [hr], fun u hu => hfx u hu⟩
          rw [hr]
          exact hb

theorem runAction_works (hs : Shows sys st) (hf : Frame sys st) {a : Action} (hw : Works sys st a) (save : Bool)
    (units : List PyStr) (s : σ) (d : Dict PyStr Action) :
    ∃ s', runAction sys a save units s d = (s', saveAll save a units d, none) ∧
      ∀ u, st s' u = if u ∈ units then decide (a ≠ .stop) else st s u := by
  cases h : runAction sys a save units s d with
  | mk s' dr =>
    obtain ⟨d', r⟩ := dr
    obtain ⟨g1, g2⟩ := runAction_spec hs hf a save units s d s' d' r h
    cases r with
    | none =>
      obtain ⟨rfl, e⟩ := g1 rfl
      exact ⟨s', rfl, e⟩
    | some e =>
      obtain ⟨pre, x, post, s0, _, _, hfl, _, _⟩ := g2 e rfl
      have := hw x s0
      rcases hfl with h | ⟨_, h, _⟩
      · rw [this.1] at h; cases h
      · exact absurd this.2 h

/-! ### Saved units -/

theorem saveUnit_get (save : Bool) (u : PyStr) (a : Action) (d : Dict PyStr Action) (v : PyStr) :
    (saveUnit save u a d).get? v =
      match d.get? v with
      | some b => some b
      | none => if v = u ∧ save = true then some a else none := by
  unfold saveUnit
  cases save with
  | false =>
    rw [if_neg Bool.false_ne_true]
    cases hv : d.get? v with
    | some b => rfl
    | none => exact (if_neg fun h => Bool.false_ne_true h.2).symm
  | true =>
    rw [if_pos rfl]
    cases hu : d.get? u with
    | none =>
      dsimp only
      rw [Dict.get?_set]
      by_cases e : u = v
      · subst e
        rw [if_pos rfl, hu]
        exact (if_pos ⟨rfl, rfl⟩).symm
      · rw [if_neg e]
        cases hv : d.get? v with
        | some b => rfl
        | none => exact (if_neg fun h => e h.1.symm).symm
    | some b =>
      dsimp only
      cases hv : d.get? v with
      | some b => rfl
      | none =>
        refine (if_neg ?_).symm
        rintro ⟨rfl, _⟩
        rw [hu] at hv
        cases hv

theorem saveUnit_nodup (save : Bool) (u : PyStr) (a : Action) {d : Dict PyStr Action} (h : d.keys.Nodup) :
    (saveUnit save u a d).keys.Nodup := by
  unfold saveUnit
  split
  · split
    · exact Dict.nodup_keys_set h _ _
    · exact h
  · exact h

theorem saveAll_get (save : Bool) (a : Action) (units : List PyStr) : ∀ (d : Dict PyStr Action) (v : PyStr),
    (saveAll save a units d).get? v =
      match d.get? v with
      | some b => some b
      | none => if v ∈ units ∧ save = true then some a else none := by
  induction units with
  | nil =>
    intro d v
    show d.get? v = _
    cases d.get? v with
    | some b => rfl
    | none => exact (if_neg fun h => by cases h.1).symm
  | cons u units ih =>
    intro d v
    show (saveAll save a units (saveUnit save u a d)).get? v = _
    rw [ih, saveUnit_get]
    cases d.get? v with
    | some b => rfl
    | none =>
      dsimp only
      by_cases h1 : v = u ∧ save = true
      · obtain ⟨rfl, hs⟩ := h1
        rw [if_pos ⟨rfl, hs⟩]
        exact (if_pos ⟨List.mem_cons_self, hs⟩).symm
      · rw [if_neg h1]
        dsimp only
        by_cases h2 : v ∈ units ∧ save = true
        · rw [if_pos h2, if_pos ⟨List.mem_cons_of_mem _ h2.1, h2.2⟩]
        · rw [if_neg h2, if_neg]
          rintro ⟨h3, h4⟩
          exact (List.mem_cons.1 h3).elim (fun e => h1 ⟨e, h4⟩) fun e => h2 ⟨e, h4⟩

theorem saveAll_nodup (save : Bool) (a : Action) (units : List PyStr) : ∀ (d : Dict PyStr Action),
    d.keys.Nodup → (saveAll save a units d).keys.Nodup := by
  induction units with
  | nil => exact fun d h => h
  | cons u units ih => exact fun d h => ih _ (saveUnit_nodup save u a h)

theorem runOps_spec (hs : Shows sys st) (hf : Frame sys st) (hw : ∀ a, Works sys st a) (ops : List Op) :
    ∀ (s : σ) (o : Obj), o.units.keys.Nodup → ∃ s' o', runOps sys ops s o = (s', o', none) ∧
      (∀ u, st s' u = afterOps ops (st s) u) ∧ o'.units.keys.Nodup ∧
      ∀ u, o'.units.get? u = match o.units.get? u with
        | some b => some b
        | none => (firstSaved u ops (st s)).map Prod.fst := by
  induction ops with
  | nil =>
    intro s o hn
    refine ⟨s, o, rfl, fun _ => rfl, hn, fun u => ?_⟩
    cases o.units.get? u <;> rfl
  | cons op ops ih =>
    intro s o hn
    obtain ⟨s1, h1, h2⟩ := runAction_works hs hf (hw op.action) (op.save && decide (op.action ≠ .restart)) op.units s
      o.units
    obtain ⟨s', o', g1, g2, g3, g4⟩ := ih s1
      { o with units := saveAll (op.save && decide (op.action ≠ .restart)) op.action op.units o.units } (saveAll_nodup _ _ _ _ hn)
    have e : st s1 = op.after (st s) := by
      funext u
      rw [h2 u]
      rfl
    refine ⟨s', o', ?_, ?_, g3, ?_⟩
    · unfold runOps action
      rw [h1]
      exact g1
    · intro u
      rw [g2 u, e]
      rfl
    · intro u
      rw [g4 u, e]
      dsimp only
      rw [saveAll_get]
      cases o.units.get? u with
      | some b => rfl
      | none =>
        dsimp only
        rw [show firstSaved u (op :: ops) (st s) = if u ∈ op.units ∧ op.save = true ∧ op.action ≠ .restart then
          some (op.action, st s u) else firstSaved u ops (op.after (st s)) from rfl]
        have eb : ((op.save && decide (op.action ≠ .restart)) = true) ↔ op.save = true ∧ op.action ≠ .restart := by
          rw [Bool.and_eq_true, decide_eq_true_eq]
        by_cases hc : u ∈ op.units ∧ op.save = true ∧ op.action ≠ .restart
        · rw [if_pos hc, if_pos ⟨hc.1, eb.2 hc.2⟩]
          rfl
        · rw [if_neg hc, if_neg (fun h => hc ⟨h.1, eb.1 h.2⟩)]

theorem restoreLoop_spec (hs : Shows sys st) (hf : Frame sys st) (hw : ∀ a, Works sys st a) (d : Dict PyStr Action) :
    ∀ s, d.keys.Nodup → ∃ s', restoreLoop sys d s = (s', none) ∧
      ∀ u, st s' u = match d.get? u with
        | some a => decide (a = .stop)
        | none => st s u := by
  induction d with
  | nil => exact fun s _ => ⟨s, rfl, fun _ => rfl⟩
  | cons p d ih =>
    obtain ⟨x, a⟩ := p
    intro s hn
    have hn' : x ∉ Dict.keys d ∧ (Dict.keys d).Nodup := List.nodup_cons.1 hn
    obtain ⟨s1, h1, h2⟩ := runAction_works hs hf (hw (if a = .stop then .start else .stop)) false [x] s []
    obtain ⟨s', g1, g2⟩ := ih s1 hn'.2
    refine ⟨s', ?_, ?_⟩
    · unfold restoreLoop
      rw [h1]
      exact g1
    · intro u
      rw [g2 u, Dict.get?]
      by_cases e : x = u
      · subst e
        rw [if_pos rfl, (Dict.get?_eq_none_iff d x).2 hn'.1]
        dsimp only
        rw [h2, if_pos List.mem_cons_self]
        cases a <;> rfl
      · rw [if_neg e]
        cases Dict.get? d u with
        | some b => rfl
        | none =>
          dsimp only
          rw [h2, if_neg (fun h => e (List.mem_singleton.1 h).symm)]

/-! ### NTP services -/

theorem ntpLoop_spec (hs : Shows sys st) (hf : Frame sys st) (svcs : List PyStr) :
    ∀ (saved : List PyStr) (s s' : σ) (saved' : List PyStr) (r : Option Exn), svcs.Nodup →
      ntpLoop sys svcs saved s = (s', saved', r) →
      (r = none → saved' = saved ++ svcs.filter (st s) ∧ ∀ u, st s' u = if u ∈ svcs then false else st s u) ∧
      ∀ e, r = some e → ∃ pre x post, svcs = pre ++ x :: post ∧ saved' = saved ++ pre.filter (st s) ∧
        st s x = true ∧ ∀ u, u ≠ x → st s' u = if u ∈ pre then false else st s u := by
  induction svcs with
  | nil =>
    intro saved s s' saved' r _ h
    cases h
    exact ⟨fun _ => ⟨(List.append_nil _).symm, fun _ => rfl⟩, fun e he => by cases he⟩
  | cons x rest ih =>
    intro saved s s' saved' r hn h
    obtain ⟨hx, hn⟩ := List.nodup_cons.1 hn
    unfold ntpLoop at h
    rw [isActive_eq hs] at h
    have step : ∀ (s1 : σ) (saved1 : List PyStr), saved1 = saved ++ [x].filter (st s) →
        st s1 x = false → (∀ u, u ≠ x → st s1 u = st s u) → ntpLoop sys rest saved1 s1 = (s', saved', r) →
        (r = none → saved' = saved ++ (x :: rest).filter (st s) ∧
          ∀ u, st s' u = if u ∈ x :: rest then false else st s u) ∧
        ∀ e, r = some e → ∃ pre y post, x :: rest = pre ++ y :: post ∧ saved' = saved ++ pre.filter (st s) ∧
          st s y = true ∧ ∀ u, u ≠ y → st s' u = if u ∈ pre then false else st s u := by
      intro s1 saved1 e1 e2 e3 hl
      obtain ⟨g1, g2⟩ := ih saved1 s1 s' saved' r hn hl
      have fe : ∀ l : List PyStr, x ∉ l → l.filter (st s1) = l.filter (st s) := by
        intro l hl
        exact List.filter_congr fun u hu => e3 u fun e => hl (e ▸ hu)
      have fc : ∀ l : List PyStr, (x :: l).filter (st s) = [x].filter (st s) ++ l.filter (st s) := by
        intro l
        rw [← List.filter_append]
        rfl
      have stu : ∀ (l : List PyStr) u, (if u ∈ l then false else st s1 u) = if u ∈ x :: l then false else st s u := by
        intro l u
        by_cases hu : u ∈ l
        · rw [if_pos hu, if_pos (List.mem_cons_of_mem _ hu)]
        · rw [if_neg hu]
          by_cases hux : u = x
          · rw [if_pos (by rw [hux]; exact List.mem_cons_self), hux, e2]
          · rw [if_neg (fun h => (List.mem_cons.1 h).elim hux hu), e3 u hux]
      refine ⟨?_, ?_⟩
      · intro hr
        obtain ⟨k1, k2⟩ := g1 hr
        refine ⟨?_, fun u => (k2 u).trans (stu rest u)⟩
        rw [k1, e1, fe rest hx, fc rest, List.append_assoc]
      · intro e he
        obtain ⟨pre, y, post, k1, k2, k3, k4⟩ := g2 e he
        have hxp : x ∉ pre := fun h => hx (by rw [k1]; exact List.mem_append_left _ h)
        have hxy : y ≠ x := fun h => hx (by rw [k1, h]; exact List.mem_append_right _ List.mem_cons_self)
        refine ⟨x :: pre, y, post, by rw [k1]; rfl, ?_, ?_, fun u hu => (k4 u hu).trans (stu pre u)⟩
        · rw [k2, e1, fe pre hxp, fc pre, List.append_assoc]
        · rw [← e3 y hxy, k3]
    cases hb : st s x with
    | false =>
      rw [hb] at h
      refine step s saved ?_ hb (fun _ _ => rfl) h
      rw [List.filter_cons_of_neg (by rw [hb]; exact Bool.false_ne_true), List.filter_nil, List.append_nil]
    | true =>
      rw [hb] at h
      dsimp only at h
      cases hr : runAction sys .stop false [x] s [] with
      | mk s1 dr =>
        obtain ⟨d1, r1⟩ := dr
        rw [hr] at h
        obtain ⟨g1, g2⟩ := runAction_spec hs hf .stop false [x] s [] s1 d1 r1 hr
        cases r1 with
        | some e =>
          cases h
          refine ⟨(nomatch ·), ?_⟩
          intro e' he
          cases he
          obtain ⟨pre, y, post, s0, k1, _, _, _, k5⟩ := g2 e rfl
          have hp : pre = [] ∧ y = x := by
            cases pre with
            | nil =>
              cases k1
              exact ⟨rfl, rfl⟩
            | cons c pre =>
              have := congrArg List.length k1
              simp only [List.length_cons, List.length_append, List.length_nil] at this
              omega
          obtain ⟨rfl, rfl⟩ := hp
          exact ⟨[], y, rest, rfl, (List.append_nil _).symm, hb, fun u hu => k5 u hu⟩
        | none =>
          dsimp only at h
          obtain ⟨_, k⟩ := g1 rfl
          refine step s1 _ ?_ ?_ ?_ h
          · rw [List.filter_cons_of_pos hb, List.filter_nil]
          · rw [k x, if_pos List.mem_cons_self]
            rfl
          · intro u hu
            rw [k u, if_neg (fun h => hu (List.mem_singleton.1 h))]

theorem ntp_nodup : ntpServices.Nodup := by decide +kernel

theorem restoreNtp_spec (hs : Shows sys st) (hf : Frame sys st) (hw : Works sys st .start) (l : List PyStr) (s : σ)
    (o : Obj) (ho : o.ntp = some l) : ∃ s' o', restoreNtp sys s o = (s', o', .ok (some l)) ∧ o'.ntp = none ∧
      ∀ u, st s' u = if u ∈ l then true else st s u := by
  unfold restoreNtp
  rw [ho]
  cases l with
  | nil => exact ⟨s, _, rfl, rfl, fun _ => rfl⟩
  | cons x l =>
    dsimp only
    obtain ⟨s', h1, h2⟩ := runAction_works hs hf hw false (x :: l) s []
    rw [h1]
    exact ⟨s', _, rfl, rfl, h2⟩

/-! ### Timers -/

theorem splitWs_table {s : PyStr} {ws : List PyStr} (h : Table s ws) : FreqInfo.splitWs s = ws := by
  induction h with
  | nil => rfl
  | gap hc _ ih =>
    unfold FreqInfo.splitWs
    rw [if_pos hc, ih]
  | @word w s ws hne hw hs _ ih =>
    induction w with
    | nil => exact absurd rfl hne
    | cons c w ihw =>
      rw [List.cons_append]
      unfold FreqInfo.splitWs
      rw [if_neg (by rw [hw c List.mem_cons_self]; exact Bool.false_ne_true)]
      cases w with
      | nil =>
        rw [List.nil_append, ih]
        unfold FreqInfo.pushChar
        cases s with
        | nil => rfl
        | cons d s =>
          rw [List.head?_cons]
          dsimp only
          rw [if_pos (hs d rfl)]
      | cons d w =>
        rw [ihw (List.cons_ne_nil _ _) fun c hc => hw c (List.mem_cons_of_mem _ hc)]
        unfold FreqInfo.pushChar
        rw [List.cons_append, List.head?_cons]
        dsimp only
        rw [if_neg (by rw [hw d (.tail _ (.head _))]; exact Bool.false_ne_true)]

end Verif.Systemctl
