import Verif.Lemmas.Systemctl

/-!
C110: systemd units get the state they should have, and the state they had before is restored.
-/

namespace Verif.Systemctl

variable {σ : Type} {sys : Sys σ} {st : σ → PyStr → Bool}

/-- C110: `start()`, `stop()` and `restart()` succeed only if all units are in the desired state at the end, and they
change no other unit. If they fail, the units before the failed one are in the desired state and the units after it
are not touched; a unit which is not in the desired state after a successful command is an error, too. -/
theorem C110_action (hs : Shows sys st) (hf : Frame sys st) {a : Action} {units : List PyStr} {save : Bool} {s s' : σ}
    {o o' : Obj} {r : Option Exn} (h : action sys a units save s o = (s', o', r)) :
    (r = none → ∀ u, st s' u = if u ∈ units then decide (a ≠ .stop) else st s u) ∧
    ∀ e, r = some e → ∃ pre x post s0, units = pre ++ x :: post ∧
      ((sys.act a x s0).2 = some e ∨
        ((sys.act a x s0).2 = none ∧ st (sys.act a x s0).1 x ≠ decide (a ≠ .stop) ∧ e = .error)) ∧
      ∀ u, u ≠ x → st s' u = if u ∈ pre then decide (a ≠ .stop) else st s u := by
  unfold action at h
  cases hr : runAction sys a (save && decide (a ≠ .restart)) units s o.units with
  | mk s1 dr =>
    obtain ⟨d1, r1⟩ := dr
    rw [hr] at h
    cases h
    obtain ⟨g1, g2⟩ := runAction_spec hs hf a _ units s _ _ _ _ hr
    refine ⟨fun hn => (g1 hn).2, fun e he => ?_⟩
    obtain ⟨pre, x, post, s0, k1, _, k3, _, k5⟩ := g2 e he
    exact ⟨pre, x, post, s0, k1, k3, k5⟩

/-- C110 (partial): after any calls, `restore()` brings each saved unit to the state it had right before the first call
which saved it, and it does not touch other units. Missing: units for which this call did not change the state, see
`C110_unchanged_counterexample`. -/
theorem C110_restore_partial (hs : Shows sys st) (hf : Frame sys st) (hw : ∀ a, Works sys st a) (ops : List Op) (s : σ)
    (hc : ∀ u a b, firstSaved u ops (st s) = some (a, b) → b ≠ decide (a ≠ .stop)) :
    ∃ s1 o s2, runOps sys ops s .init = (s1, o, none) ∧ restore sys s1 o = (s2, none) ∧
      (∀ u, st s1 u = afterOps ops (st s) u) ∧
      ∀ u, st s2 u = match firstSaved u ops (st s) with
        | some (_, b) => b
        | none => st s1 u := by
  obtain ⟨s1, o, h1, h2, h3, h4⟩ := runOps_spec hs hf hw ops s .init List.nodup_nil
  obtain ⟨s2, g1, g2⟩ := restoreLoop_spec hs hf hw o.units s1 h3
  refine ⟨s1, o, s2, h1, g1, h2, fun u => ?_⟩
  rw [g2 u, h4 u]
  rw [show Obj.init.units.get? u = none from rfl]
  dsimp only
  cases hfs : firstSaved u ops (st s) with
  | none => rfl
  | some p =>
    obtain ⟨a, b⟩ := p
    have := hc u a b hfs
    show decide (a = .stop) = b
    cases a <;> cases b <;> first | rfl | exact absurd rfl this

/-- C110: `stop_ntp()` returns the NTP services which were active, no NTP service is active then, and
`restore_ntp()` brings all units to the state they had. If it fails because of a service, `restore_ntp()` still
restores all other units. -/
theorem C110_ntp (hs : Shows sys st) (hf : Frame sys st) (hw : Works sys st .start) {s s1 : σ} {o o1 : Obj}
    {r : Except Exn (List PyStr)} (h : stopNtp sys s o = (s1, o1, r)) :
    (∀ l, r = .ok l →
      l = ["ntpd".toList, "ntpdate".toList, "sntp".toList, "systemd-timesyncd".toList, "chronyd".toList].filter (st s) ∧
      (∀ u, st s1 u = if u ∈ ["ntpd".toList, "ntpdate".toList, "sntp".toList, "systemd-timesyncd".toList,
        "chronyd".toList] then false else st s u) ∧
      ∃ s2 o2, restoreNtp sys s1 o1 = (s2, o2, .ok (some l)) ∧ ∀ u, st s2 u = st s u) ∧
    ∀ e, r = .error e → ∃ x s2 o2 l, st s x = true ∧
      x ∈ ["ntpd".toList, "ntpdate".toList, "sntp".toList, "systemd-timesyncd".toList, "chronyd".toList] ∧
      restoreNtp sys s1 o1 = (s2, o2, .ok (some l)) ∧ ∀ u, u ≠ x → st s2 u = st s u := by
  unfold stopNtp at h
  cases hl : ntpLoop sys ntpServices [] s with
  | mk s' sr =>
    obtain ⟨saved, r1⟩ := sr
    rw [hl] at h
    obtain ⟨g1, g2⟩ := ntpLoop_spec hs hf ntpServices [] s s' saved r1 ntp_nodup hl
    cases r1 with
    | none =>
      cases h
      refine ⟨?_, fun e he => by cases he⟩
      intro l e
      cases e
      obtain ⟨k1, k2⟩ := g1 rfl
      rw [List.nil_append] at k1
      obtain ⟨s2, o2, q1, _, q3⟩ := restoreNtp_spec hs hf hw saved s1 { o with ntp := some saved } rfl
      refine ⟨k1, k2, s2, o2, q1, fun u => ?_⟩
      rw [q3 u, k1, k2 u]
      by_cases hm : u ∈ ntpServices
      · rw [if_pos hm]
        cases hb : st s u with
        | true => rw [if_pos (List.mem_filter.2 ⟨hm, hb⟩)]
        | false =>
          rw [if_neg]
          intro h
          rw [(List.mem_filter.1 h).2] at hb
          cases hb
      · rw [if_neg hm, if_neg (fun h => hm (List.mem_filter.1 h).1)]
    | some e =>
      cases h
      refine ⟨fun l e => (by cases e), ?_⟩
      intro e' he
      obtain ⟨pre, x, post, k1, k2, k3, k4⟩ := g2 e rfl
      rw [List.nil_append] at k2
      obtain ⟨s2, o2, q1, _, q3⟩ := restoreNtp_spec hs hf hw saved s1 { o with ntp := some saved } rfl
      refine ⟨x, s2, o2, saved, k3, ?_, q1, fun u hu => ?_⟩
      · show x ∈ ntpServices
        rw [k1]
        exact List.mem_append_right _ List.mem_cons_self
      · rw [q3 u, k2, k4 u hu]
        by_cases hm : u ∈ pre
        · rw [if_pos hm]
          cases hb : st s u with
          | true => rw [if_pos (List.mem_filter.2 ⟨hm, hb⟩)]
          | false =>
            rw [if_neg]
            intro h
            rw [(List.mem_filter.1 h).2] at hb
            cases hb
        · rw [if_neg hm, if_neg (fun h => hm (List.mem_filter.1 h).1)]

/-- C110: if all listed timers are active, `stop_timers()` stops exactly the words of the list which end with ".timer"
and returns them, and `restore_timers()` brings all units to the state they had. -/
theorem C110_timers (hs : Shows sys st) (hf : Frame sys st) (hstart : Works sys st .start) (hstop : Works sys st .stop)
    {s : σ} {out : PyStr} {ws : List PyStr} (ht : sys.listTimers s = .ok out) (hw : Table out ws)
    (ha : ∀ w pre, w = pre ++ ".timer".toList → w ∈ ws → st s w = true) (o : Obj) :
    ∃ s1 o1 l, stopTimers sys s o = (s1, o1, .ok l) ∧
      (∀ w, w ∈ l ↔ w ∈ ws ∧ ∃ pre, w = pre ++ ".timer".toList) ∧
      (∀ u, st s1 u = if u ∈ l then false else st s u) ∧
      ∃ s2 o2, restoreTimers sys s1 o1 = (s2, o2, none) ∧ ∀ u, st s2 u = st s u := by
  have mem : ∀ w, w ∈ ws.filter isTimer ↔ w ∈ ws ∧ ∃ pre, w = pre ++ ".timer".toList := by
    intro w
    rw [List.mem_filter]
    unfold isTimer
    rw [List.isSuffixOf_iff_suffix]
    exact ⟨fun ⟨h1, pre, h2⟩ => ⟨h1, pre, h2.symm⟩, fun ⟨h1, pre, h2⟩ => ⟨h1, pre, h2.symm⟩⟩
  obtain ⟨s1, h1, h2⟩ := runAction_works hs hf hstop false (ws.filter isTimer) s []
  obtain ⟨s2, g1, g2⟩ := runAction_works hs hf hstart false (ws.filter isTimer) s1 []
  refine ⟨s1, { o with timers := some (ws.filter isTimer) }, ws.filter isTimer, ?_, mem, h2, s2,
    { o with timers := none }, ?_, ?_⟩
  · unfold stopTimers
    rw [ht]
    dsimp only
    rw [splitWs_table hw, h1]
  · unfold restoreTimers
    rw [show (some (ws.filter isTimer)).getD [] = ws.filter isTimer from rfl, g1]
  · intro u
    rw [g2 u]
    by_cases hu : u ∈ ws.filter isTimer
    · rw [if_pos hu]
      obtain ⟨h3, pre, h4⟩ := (mem u).1 hu
      rw [ha u pre h4 h3]
      rfl
    · rw [if_neg hu, h2 u, if_neg hu]

/-- C110: the warning about the 'tuned' service is printed if and only if the service is active; a system without
'systemctl' is no problem, and no exception of the project breaks the command. -/
theorem C110_tuned (sys : Sys σ) (s : σ) :
    (sys.which s = .ok () → Shows sys st → checkTuned sys s = .ok (if st s "tuned".toList then [.tunedActive] else [])) ∧
    (sys.which s = .error .notFound → checkTuned sys s = .ok []) ∧
    ((∀ e, sys.which s = .error e → isPy e = false) →
      (∀ e, sys.query "active".toList "tuned".toList s = .error e → isPy e = false) →
      ∃ l, checkTuned sys s = .ok l) := by
  refine ⟨?_, ?_, ?_⟩
  · intro h hs
    unfold checkTuned
    rw [h, isActive_eq hs]
  · intro h
    unfold checkTuned
    rw [h]
    rfl
  · intro hw hq
    unfold checkTuned
    cases h : sys.which s with
    | error e =>
      dsimp only
      rw [hw e h]
      by_cases he : e = .notFound
      · exact ⟨_, if_pos he⟩
      · exact ⟨_, (if_neg he).trans (if_neg Bool.false_ne_true)⟩
    | ok x =>
      cases x
      dsimp only
      unfold isActive isSmth
      cases h2 : sys.query "active".toList "tuned".toList s with
      | ok t => exact ⟨_, rfl⟩
      | error e =>
        dsimp only
        rw [hq e h2]
        by_cases he : e = .notFound
        · exact ⟨_, if_pos he⟩
        · exact ⟨_, (if_neg he).trans (if_neg Bool.false_ne_true)⟩

/-! ### Examples and counterexamples -/

/-- A system: the state is the list of active units, `bad` can not be stopped. -/
def toy (bad : List PyStr) : Sys (List PyStr) where
  act a u s := if a = .stop then (if u ∈ bad then (s, some .error) else (s.filter (· ≠ u), none)) else (u :: s, none)
  query _ u s := .ok (if u ∈ s then "active\n".toList else "inactive\n".toList)
  listTimers s := .ok (PyStr.joinC '\n' (s.map (· ++ " foo.service".toList)))
  which _ := .ok ()

/-- The active units of the system. -/
def toySt (s : List PyStr) (u : PyStr) : Bool := decide (u ∈ s)

theorem toy_shows (bad : List PyStr) : Shows (toy bad) toySt := by
  intro s u
  refine ⟨_, rfl, ?_⟩
  unfold toySt
  rw [decide_eq_true_eq]
  by_cases h : u ∈ s
  · rw [if_pos h]
    exact ⟨fun _ => h, fun _ => by decide +kernel⟩
  · rw [if_neg h]
    exact ⟨fun e => absurd e (by decide +kernel), fun e => absurd e h⟩

theorem toy_frame (bad : List PyStr) : Frame (toy bad) toySt := by
  intro a u s v hv
  unfold toySt
  rw [decide_eq_decide]
  unfold toy
  dsimp only
  by_cases ha : a = .stop
  · rw [if_pos ha]
    by_cases hb : u ∈ bad
    · rw [if_pos hb]
    · rw [if_neg hb]
      dsimp only
      rw [List.mem_filter, decide_eq_true_eq]
      exact ⟨fun h => h.1, fun h => ⟨h, hv⟩⟩
  · rw [if_neg ha]
    dsimp only
    rw [List.mem_cons]
    exact ⟨fun h => h.resolve_left hv, .inr⟩

theorem toy_works (a : Action) : Works (toy []) toySt a := by
  intro u s
  unfold toySt
  rw [decide_eq_decide]
  unfold toy
  dsimp only
  by_cases ha : a = .stop
  · rw [if_pos ha, if_neg List.not_mem_nil]
    refine ⟨rfl, ?_⟩
    dsimp only
    rw [List.mem_filter, decide_eq_true_eq]
    exact ⟨fun h => absurd rfl h.2, fun h => absurd ha h⟩
  · rw [if_neg ha]
    exact ⟨rfl, fun _ => ha, fun _ => List.mem_cons_self⟩

/-- C110 is false for units which are stopped already: `stop()` saves that such a unit was stopped, and `restore()`
starts it, although it was not active before. -/
theorem C110_unchanged_counterexample :
    let (s1, o, _) := runOps (toy []) [⟨.stop, ["irqbalance".toList], true⟩] [] .init
    toySt [] "irqbalance".toList = false ∧ toySt (restore (toy []) s1 o).1 "irqbalance".toList = true := by
  decide +kernel

/-- C110 is false if the object is used again after `restore()`: what was saved is not forgotten. Here the unit is
stopped and restored, then it is stopped by the user, and then it is started and restored: it is active although it
was not active before the second use. -/
theorem C110_again_counterexample :
    let u := "irqbalance".toList
    let (s1, o1, _) := runOps (toy []) [⟨.stop, [u], true⟩] [u] .init
    let s2 := (restore (toy []) s1 o1).1
    let s3 := ((toy []).act .stop u s2).1
    let (s4, o4, _) := runOps (toy []) [⟨.start, [u], true⟩] s3 o1
    toySt s3 u = false ∧ toySt (restore (toy []) s4 o4).1 u = true := by
  decide +kernel

/-- C110 is false for two calls of `stop_ntp()`: the second one forgets what the first one stopped. -/
theorem C110_ntp_twice_counterexample :
    let u := "chronyd".toList
    let (s1, o1, _) := stopNtp (toy []) [u] .init
    let (s2, o2, _) := stopNtp (toy []) s1 o1
    toySt [u] u = true ∧ toySt (restoreNtp (toy []) s2 o2).1 u = false := by
  decide +kernel

/-- C110 is false if a timer can not be stopped: the timers which were stopped before it are not restored. -/
theorem C110_timers_counterexample :
    let s := ["a.timer".toList, "b.timer".toList]
    let sys := toy ["b.timer".toList]
    let (s1, o1, r) := stopTimers sys s .init
    r = .error .error ∧ toySt s "a.timer".toList = true ∧
      toySt (restoreTimers sys s1 o1).1 "a.timer".toList = false := by
  decide +kernel

/-- Two calls: "a" is stopped, then "a" and "b" are started. "a" was active and "b" was not. -/
def ops2 : List Op := [⟨.stop, ["a".toList], true⟩, ⟨.start, ["a".toList, "b".toList], true⟩]

example : firstSaved "a".toList ops2 (toySt ["a".toList]) = some (.stop, true) ∧
    firstSaved "b".toList ops2 (toySt ["a".toList]) = some (.start, false) ∧
    firstSaved "c".toList ops2 (toySt ["a".toList]) = none := by decide +kernel

example :
    let (s1, o, _) := runOps (toy []) ops2 ["a".toList] .init
    toySt s1 "b".toList = true ∧ toySt (restore (toy []) s1 o).1 "b".toList = false ∧
      toySt (restore (toy []) s1 o).1 "a".toList = true := by decide +kernel

example : (stopNtp (toy []) ["chronyd".toList, "sshd".toList, "ntpd".toList] .init).2.2 =
    .ok ["ntpd".toList, "chronyd".toList] := by decide +kernel

/-- The second service can not be stopped, the first one is restored. -/
example :
    let s := ["chronyd".toList, "ntpd".toList]
    let (s1, o1, r) := stopNtp (toy ["chronyd".toList]) s .init
    r = .error .error ∧ toySt s1 "ntpd".toList = false ∧
      toySt (restoreNtp (toy ["chronyd".toList]) s1 o1).1 "ntpd".toList = true := by decide +kernel

example : Table "a.timer a.service\n".toList ["a.timer".toList, "a.service".toList] := by
  refine .word (w := "a.timer".toList) (s := " a.service\n".toList) (by decide) (by decide +kernel) ?_
    (.gap (by decide) (.word (w := "a.service".toList) (s := "\n".toList) (by decide) (by decide +kernel) ?_
      (.gap (by decide) .nil)))
  · intro c hc
    cases hc
    decide
  · intro c hc
    cases hc
    decide

example : checkTuned (toy []) ["tuned".toList] = .ok [.tunedActive] ∧ checkTuned (toy []) [] = .ok [] := by
  decide +kernel

end Verif.Systemctl
