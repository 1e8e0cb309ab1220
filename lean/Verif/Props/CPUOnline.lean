import Verif.Model.CPUOnline

/-!
C45: onlining and offlining CPUs.
-/

namespace Verif.CPUOnline

/-! ### Lemmas -/

/-- The cache is empty or right. -/
def Fresh (E : Env) (s : St) : Prop := s.cached = [] ∨ ∀ c, c ∈ s.cached ↔ c ∈ E.present ∧ s.online c = true

theorem onlineSet_spec {E : Env} {s : St} (h : Fresh E s) :
    (onlineSet E s).1.online = s.online ∧ Fresh E (onlineSet E s).1 ∧
    ∀ c, c ∈ (onlineSet E s).2 ↔ c ∈ E.present ∧ s.online c = true := by
  unfold onlineSet
  by_cases he : s.cached.isEmpty = true
  · rw [if_pos he]
    have : ∀ c, c ∈ readOnline E s ↔ c ∈ E.present ∧ s.online c = true := by
      intro c; simp [readOnline]
    exact ⟨rfl, Or.inr this, this⟩
  · rw [if_neg he]
    refine ⟨rfl, h, ?_⟩
    rcases h with h | h
    · rw [h] at he; exact absurd rfl he
    · exact h

theorem fresh_hotplugged (E : Env) (s : St) : Fresh E (hotplugged s) := Or.inl rfl

/-- CPUs which are in the state already (or still). -/
theorem ready_spec {E : Env} {s : St} (h : Fresh E s) (online : Bool) :
    let o := if online then getCpus E s else getOffline E s
    o.1.online = s.online ∧ Fresh E o.1 ∧ ∀ c, c ∈ o.2 ↔ c ∈ E.present ∧ s.online c = online := by
  obtain ⟨h1, h2, h3⟩ := onlineSet_spec h
  cases online with
  | true =>
    refine ⟨h1, h2, ?_⟩
    intro c
    show c ∈ sortNat (onlineSet E s).2 ↔ _
    rw [mem_sortNat]
    exact h3 c
  | false =>
    refine ⟨h1, h2, ?_⟩
    intro c
    show c ∈ E.present.filter (fun c => c ∉ (onlineSet E s).2) ↔ _
    simp only [List.mem_filter, decide_eq_true_eq, h3]
    constructor
    · rintro ⟨a, b⟩
      refine ⟨a, ?_⟩
      cases hs : s.online c
      · rfl
      · exact absurd ⟨a, hs⟩ b
    · rintro ⟨a, b⟩
      exact ⟨a, fun h => by rw [b] at h; cases h.2⟩

theorem write_spec (E : Env) (c : Nat) (b : Bool) (s : St) :
    (∀ c', c' ≠ c → (write E c b s).1.online c' = s.online c') ∧
    ((write E c b s).1.online c = s.online c ∨ (write E c b s).1.online c = b) ∧
    (E.kern s.online c b = .stored → (write E c b s).1.online c = b ∧ (write E c b s).2 = .ok ()) := by
  unfold write
  cases E.kern s.online c b with
  | stored =>
    refine ⟨fun c' h => ?_, Or.inr ?_, fun _ => ⟨?_, rfl⟩⟩
    · exact if_neg h
    · exact if_pos rfl
    · exact if_pos rfl
  | ignored => exact ⟨fun _ _ => rfl, Or.inl rfl, fun h => by cases h⟩
  | refused => exact ⟨fun _ _ => rfl, Or.inl rfl, fun h => by cases h⟩

/-- What the loop does, whatever the outcome is. -/
theorem loop_frame (E : Env) (online skip : Bool) (ready cpus : List Nat) : ∀ toggled s c,
    let o := loop E online skip ready cpus toggled s
    (¬ (c ∈ cpus ∧ c ∉ ready ∧ E.hasFile c = true) → o.1.online c = s.online c) ∧
    (o.1.online c = s.online c ∨ o.1.online c = online) := by
  induction cpus with
  | nil => intro toggled s c; exact ⟨fun _ => rfl, Or.inl rfl⟩
  | cons d cpus ih =>
    intro toggled s c
    have hskip : ∀ t, (¬ (c ∈ d :: cpus ∧ c ∉ ready ∧ E.hasFile c = true) →
        (loop E online skip ready cpus t s).1.online c = s.online c) ∧
        ((loop E online skip ready cpus t s).1.online c = s.online c ∨
          (loop E online skip ready cpus t s).1.online c = online) := by
      intro t
      obtain ⟨h1, h2⟩ := ih t s c
      exact ⟨fun h => h1 (fun e => h ⟨List.mem_cons_of_mem _ e.1, e.2⟩), h2⟩
    unfold loop
    by_cases hr : d ∈ ready
    · rw [if_pos hr]
      exact hskip toggled
    · rw [if_neg hr]
      unfold verifyPath
      by_cases hf : E.hasFile d = true
      · simp only [hf, Bool.not_true, Bool.false_eq_true, if_false]
        obtain ⟨w1, w2, _⟩ := write_spec E d online s
        have hw : (¬ (c ∈ d :: cpus ∧ c ∉ ready ∧ E.hasFile c = true) →
            (write E d online s).1.online c = s.online c) ∧
            ((write E d online s).1.online c = s.online c ∨ (write E d online s).1.online c = online) := by
          by_cases e : c = d
          · subst e
            exact ⟨fun h => absurd ⟨List.mem_cons_self .., hr, hf⟩ h, w2⟩
          · exact ⟨fun _ => w1 c e, Or.inl (w1 c e)⟩
        cases hwr : write E d online s with
        | mk s1 r =>
          rw [hwr] at hw
          cases r with
          | error e => exact hw
          | ok u =>
            obtain ⟨h1, h2⟩ := ih (toggled ++ [d]) s1 c
            simp only
            simp only at h1 h2 hw
            refine ⟨fun h => (h1 (fun e => h ⟨List.mem_cons_of_mem _ e.1, e.2⟩)).trans (hw.1 h), ?_⟩
            rcases h2 with h2 | h2
            · rw [h2]; exact hw.2
            · exact Or.inr h2
      · simp only [hf, Bool.not_false, if_true]
        by_cases hd : E.hasDir d = true
        · simp only [hd, if_true]
          cases skip with
          | false => exact ⟨fun _ => rfl, Or.inl rfl⟩
          | true => exact hskip toggled
        · simp only [hd]
          exact ⟨fun _ => rfl, Or.inl rfl⟩

/-- What a successful loop has done. -/
theorem loop_ok (E : Env) (online skip : Bool) (ready cpus : List Nat) : ∀ toggled s s' t,
    loop E online skip ready cpus toggled s = (s', .ok t) →
    (∀ c ∈ toggled, c ∈ t) ∧ (∀ c ∈ cpus, c ∈ ready ∨ c ∈ t ∨ (E.hasFile c = false ∧ E.hasDir c = true ∧ skip = true)) ∧
    (∀ c ∈ t, c ∈ toggled ∨ (c ∈ cpus ∧ c ∉ ready ∧ E.hasFile c = true)) := by
  induction cpus with
  | nil =>
    intro toggled s s' t h
    simp only [loop, Prod.mk.injEq, Except.ok.injEq] at h
    obtain ⟨_, rfl⟩ := h
    exact ⟨fun _ h => h, fun c hc => (by cases hc), fun _ h => Or.inl h⟩
  | cons d cpus ih =>
    intro toggled s s' t h
    have hskip : ∀ s1, loop E online skip ready cpus toggled s1 = (s', .ok t) →
        (d ∈ ready ∨ (E.hasFile d = false ∧ E.hasDir d = true ∧ skip = true)) →
        (∀ c ∈ toggled, c ∈ t) ∧
        (∀ c ∈ d :: cpus, c ∈ ready ∨ c ∈ t ∨ (E.hasFile c = false ∧ E.hasDir c = true ∧ skip = true)) ∧
        (∀ c ∈ t, c ∈ toggled ∨ (c ∈ d :: cpus ∧ c ∉ ready ∧ E.hasFile c = true)) := by
      intro s1 h hd
      obtain ⟨h1, h2, h3⟩ := ih toggled s1 s' t h
      refine ⟨h1, ?_, ?_⟩
      · intro c hc
        rcases List.mem_cons.1 hc with rfl | hc
        · rcases hd with hd | hd
          · exact Or.inl hd
          · exact Or.inr (Or.inr hd)
        · exact h2 c hc
      · intro c hc
        rcases h3 c hc with h | h
        · exact Or.inl h
        · exact Or.inr ⟨List.mem_cons_of_mem _ h.1, h.2⟩
    unfold loop at h
    by_cases hr : d ∈ ready
    · rw [if_pos hr] at h
      exact hskip s h (Or.inl hr)
    · rw [if_neg hr] at h
      unfold verifyPath at h
      by_cases hf : E.hasFile d = true
      · simp only [hf, Bool.not_true, Bool.false_eq_true, if_false] at h
        cases hwr : write E d online s with
        | mk s1 r =>
          rw [hwr] at h
          cases r with
          | error e =>
            simp only [Prod.mk.injEq] at h
            cases h.2
          | ok u =>
            simp only at h
            obtain ⟨h1, h2, h3⟩ := ih (toggled ++ [d]) s1 s' t h
            refine ⟨fun c hc => h1 c (List.mem_append_left _ hc), ?_, ?_⟩
            · intro c hc
              rcases List.mem_cons.1 hc with rfl | hc
              · exact Or.inr (Or.inl (h1 c (by simp)))
              · exact h2 c hc
            · intro c hc
              rcases h3 c hc with h | h
              · rcases List.mem_append.1 h with h | h
                · exact Or.inl h
                · rw [List.mem_singleton] at h
                  subst h
                  exact Or.inr ⟨List.mem_cons_self .., hr, hf⟩
              · exact Or.inr ⟨List.mem_cons_of_mem _ h.1, h.2⟩
      · simp only [hf, Bool.not_false, if_true] at h
        by_cases hd : E.hasDir d = true
        · simp only [hd, if_true] at h
          cases skip with
          | false =>
            simp only [Bool.not_false, if_true, Prod.mk.injEq] at h
            cases h.2
          | true =>
            simp only [Bool.not_true, Bool.false_eq_true, if_false] at h
            exact hskip s h (Or.inr ⟨by simpa using hf, hd, rfl⟩)
        · simp only [hd] at h
          cases h

/-- Everything is in the state already: nothing happens. -/
theorem loop_noop (E : Env) (online skip : Bool) (ready cpus : List Nat) (s : St)
    (h : ∀ c ∈ cpus, c ∈ ready ∨ (E.hasFile c = false ∧ E.hasDir c = true ∧ skip = true)) :
    loop E online skip ready cpus [] s = (s, .ok []) := by
  induction cpus with
  | nil => rfl
  | cons d cpus ih =>
    have ih := ih (fun c hc => h c (List.mem_cons_of_mem _ hc))
    unfold loop
    rcases h d (List.mem_cons_self ..) with hd | ⟨h1, h2, h3⟩
    · rw [if_pos hd]; exact ih
    · by_cases hd : d ∈ ready
      · rw [if_pos hd]; exact ih
      · rw [if_neg hd]
        unfold verifyPath
        simp only [h1, h2, h3, Bool.not_false, if_true, Bool.not_true, Bool.false_eq_true, if_false]
        rw [h3] at ih
        exact ih

/-- When the kernel takes all the writes, the loop succeeds. -/
theorem loop_succeeds (E : Env) (online skip : Bool) (ready cpus : List Nat)
    (hf : ∀ c ∈ cpus, E.hasFile c = true ∨ c ∈ ready ∨ (E.hasDir c = true ∧ skip = true))
    (hk : ∀ f, ∀ c ∈ cpus, c ∉ ready → E.hasFile c = true → E.kern f c online = .stored) : ∀ toggled s,
    (∀ c ∈ toggled, s.online c = online) →
    ∃ s' t, loop E online skip ready cpus toggled s = (s', .ok t) ∧ ∀ c ∈ t, s'.online c = online := by
  induction cpus with
  | nil => intro toggled s h; exact ⟨s, toggled, rfl, h⟩
  | cons d cpus ih =>
    intro toggled s h
    have ih := ih (fun c hc => hf c (List.mem_cons_of_mem _ hc))
      (fun f c hc => hk f c (List.mem_cons_of_mem _ hc))
    unfold loop
    by_cases hr : d ∈ ready
    · rw [if_pos hr]; exact ih toggled s h
    · rw [if_neg hr]
      unfold verifyPath
      by_cases hfd : E.hasFile d = true
      · simp only [hfd, Bool.not_true, Bool.false_eq_true, if_false]
        obtain ⟨w1, w2, w3⟩ := write_spec E d online s
        obtain ⟨w3, w4⟩ := w3 (hk _ d (List.mem_cons_self ..) hr hfd)
        cases hwr : write E d online s with
        | mk s1 r =>
          rw [hwr] at w1 w2 w3 w4
          simp only at w1 w2 w3 w4
          subst w4
          refine ih (toggled ++ [d]) s1 ?_
          intro c hc
          by_cases e : c = d
          · subst e; exact w3
          · rw [w1 c e]
            rcases List.mem_append.1 hc with hc | hc
            · exact h c hc
            · rw [List.mem_singleton] at hc; exact absurd hc e
      · rcases hf d (List.mem_cons_self ..) with h' | h' | ⟨h1, h2⟩
        · exact absurd h' hfd
        · exact absurd h' hr
        · simp only [hfd, h1, h2, Bool.not_false, if_true, Bool.not_true, Bool.false_eq_true, if_false]
          rw [h2] at ih
          exact ih toggled s h

theorem validate_spec {E : Env} {s : St} (h : Fresh E s) (cpus : List Nat) (online : Bool) :
    (validate E cpus online s).1.online = s.online ∧ Fresh E (validate E cpus online s).1 ∧
    ((validate E cpus online s).2 = .ok () ↔ ∀ c ∈ cpus, c ∈ E.present ∧ s.online c = online) := by
  obtain ⟨h1, h2, h3⟩ := ready_spec h online
  unfold validate
  cases ho : (if online = true then getCpus E s else getOffline E s) with
  | mk s1 valid =>
    rw [ho] at h1 h2 h3
    simp only at h1 h2 h3 ⊢
    by_cases hv : cpus.all (fun c => c ∈ valid) = true
    · rw [if_pos hv]
      refine ⟨h1, h2, ⟨fun _ => ?_, fun _ => rfl⟩⟩
      intro c hc
      exact (h3 c).1 (by simpa using List.all_eq_true.1 hv c hc)
    · rw [if_neg hv]
      refine ⟨h1, h2, ⟨fun h => (by cases h), fun h => absurd ?_ hv⟩⟩
      rw [List.all_eq_true]
      intro c hc
      simpa using (h3 c).2 (h c hc)

/-! ### Specification -/

/-- The CPUs a request is about. -/
def Requested (E : Env) : Cpus → Nat → Prop
  | .all, c => c ∈ E.present
  | .list l, c => c ∈ l

/-- The part after the loop. -/
def finish (E : Env) (online : Bool) : St × Except Exn (List Nat) → St × Except Exn Unit
  | (s, .error e) => (s, .error e)
  | (s, .ok toggled) => if toggled.isEmpty then (s, .ok ()) else validate E toggled online (hotplugged s)

/-- Unfold `toggle`. -/
theorem toggle_cases (E : Env) (cpus : Cpus) (online skip : Bool) (s : St) :
    (∃ s' e l, cpus = .list l ∧ (∃ c ∈ l, c ∉ E.present) ∧ toggle E cpus online skip s = (s', .error e) ∧
      s'.online = s.online) ∨
    (∃ s', cpus = .all ∧ (∀ c ∈ E.present, s.online c = online) ∧
      toggle E cpus online skip s = (s', .ok ()) ∧ s'.online = s.online) ∨
    (∃ s1 ready l, s1.online = s.online ∧ (∀ c, c ∈ ready ↔ c ∈ E.present ∧ s.online c = online) ∧
      (∀ c ∈ l, c ∈ E.present) ∧
      (∀ c, Requested E cpus c → c ∈ l ∨ c ∈ ready) ∧ (∀ c ∈ l, Requested E cpus c) ∧
      toggle E cpus online skip s = finish E online (loop E online (skips cpus skip) ready l [] s1)) := by
  obtain ⟨h1, h2, h3⟩ := ready_spec (fresh_hotplugged E s) online
  unfold toggle
  cases ho : (if online = true then getCpus E (hotplugged s) else getOffline E (hotplugged s)) with
  | mk s1 ready =>
    rw [ho] at h1 h2 h3
    simp only at h1 h2 h3 ⊢
    rw [ho]
    simp only
    have hon : s1.online = s.online := h1
    cases cpus with
    | list l =>
      unfold target normalize
      by_cases hn : ((pyDedup l).all (fun c => c ∈ E.present)) = true
      · right; right
        refine ⟨s1, ready, pyDedup l, hon, h3, ?_, ?_, ?_, ?_⟩
        · intro c hc; simpa using List.all_eq_true.1 hn c hc
        · exact fun c hc => Or.inl (mem_pyDedup.2 hc)
        · exact fun c hc => mem_pyDedup.1 hc
        · simp only [if_pos hn]
          cases loop E online (skips (.list l) skip) ready (pyDedup l) [] s1 with
          | mk a b => cases b <;> rfl
      · left
        simp only [if_neg hn]
        refine ⟨s1, .error, l, rfl, ?_, rfl, hon⟩
        rw [List.all_eq_true] at hn
        apply Classical.byContradiction
        intro h
        apply hn
        intro c hc
        have : c ∈ E.present := Classical.byContradiction (fun h' => h ⟨c, mem_pyDedup.1 hc, h'⟩)
        simpa using this
    | all =>
      unfold target
      have hr2 := ready_spec h2 (!online)
      have he : (if online = true then getOffline E s1 else getCpus E s1) =
          (if (!online) = true then getCpus E s1 else getOffline E s1) := by cases online <;> rfl
      rw [← he] at hr2
      cases ho2 : (if online = true then getOffline E s1 else getCpus E s1) with
      | mk s2 l =>
        rw [ho2] at hr2
        simp only at hr2
        obtain ⟨g1, g2, g3⟩ := hr2
        by_cases hl : l.isEmpty = true
        · right; left
          simp only [if_pos hl]
          refine ⟨s2, trivial, ?_, rfl, g1.trans hon⟩
          intro c hc
          by_cases e : s.online c = online
          · exact e
          · have : c ∈ l := (g3 c).2 ⟨hc, by rw [hon]; revert e; cases s.online c <;> cases online <;> simp⟩
            rw [List.isEmpty_iff.1 hl] at this
            cases this
        · right; right
          simp only [if_neg hl]
          refine ⟨s2, ready, l, g1.trans hon, h3, fun c hc => ((g3 c).1 hc).1, ?_, fun c hc => ((g3 c).1 hc).1, ?_⟩
          rotate_left
          · cases loop E online (skips .all skip) ready l [] s2 with
            | mk a b => cases b <;> rfl
          intro c hc
          by_cases e : s.online c = online
          · exact Or.inr ((h3 c).2 ⟨hc, e⟩)
          · exact Or.inl ((g3 c).2 ⟨hc, by rw [hon]; revert e; cases s.online c <;> cases online <;> simp⟩)

/-- The part after the loop does not change the state of CPUs. -/
theorem after_loop_online {E : Env} {online : Bool} (o : St × Except Exn (List Nat)) :
    (finish E online o).1.online = o.1.online := by
  obtain ⟨s, r⟩ := o
  cases r with
  | error e => rfl
  | ok t =>
    unfold finish
    simp only
    split
    · rfl
    · exact (validate_spec (fresh_hotplugged E s) t online).1

/-! ### C45 -/

/-- C45 (nothing else changes): whatever the outcome is, and whatever was cached before, only requested CPUs
which support hotplug may change, and only to the requested state. -/
theorem C45_frame (E : Env) (cpus : Cpus) (online skip : Bool) (s : St) (c : Nat) :
    (¬ (Requested E cpus c ∧ E.hasFile c = true) →
      (toggle E cpus online skip s).1.online c = s.online c) ∧
    ((toggle E cpus online skip s).1.online c = s.online c ∨
      (toggle E cpus online skip s).1.online c = online) := by
  rcases toggle_cases E cpus online skip s with ⟨s', e, l, _, _, h, ho⟩ | ⟨s', _, _, h, ho⟩ |
    ⟨s1, ready, l, h1, h2, _, h3, h4, h⟩
  · rw [h]; exact ⟨fun _ => by rw [ho], Or.inl (by rw [ho])⟩
  · rw [h]; exact ⟨fun _ => by rw [ho], Or.inl (by rw [ho])⟩
  · rw [h, after_loop_online]
    obtain ⟨g1, g2⟩ := loop_frame E online (skips cpus skip) ready l [] s1 c
    rw [h1] at g1 g2
    exact ⟨fun hn => g1 (fun e => hn ⟨h4 c e.1, e.2.2⟩), g2⟩

/-- C45 (effect): after success every requested CPU exists; those which support hotplug are in the requested
state, and the others are in the requested state already, or were skipped because it was asked for. -/
theorem C45_effect (E : Env) (cpus : Cpus) (online skip : Bool) (s : St)
    (h : (toggle E cpus online skip s).2 = .ok ()) (c : Nat) (hc : Requested E cpus c) :
    c ∈ E.present ∧
    (E.hasFile c = true → (toggle E cpus online skip s).1.online c = online) ∧
    (E.hasFile c = false → s.online c = online ∨ (cpus = .all ∨ skip = true)) := by
  rcases toggle_cases E cpus online skip s with ⟨s', e, l, _, _, h', ho⟩ | ⟨s', rfl, ha, h', ho⟩ |
    ⟨s1, ready, l, h1, h2, hp, h3, h4, h'⟩
  · rw [h'] at h; cases h
  · rw [h']
    refine ⟨hc, fun _ => ?_, fun _ => Or.inr (Or.inl rfl)⟩
    rw [ho]
    exact ha c hc
  · have hpres : c ∈ E.present := by
      rcases h3 c hc with h | h
      · exact hp c h
      · exact ((h2 c).1 h).1
    refine ⟨hpres, ?_⟩
    rw [h'] at h
    rw [h', after_loop_online]
    cases hl : loop E online (skips cpus skip) ready l [] s1 with
    | mk s2 r =>
      rw [hl] at h
      cases r with
      | error e => cases h
      | ok t =>
        simp only [finish] at h ⊢
        obtain ⟨g1, g2, g3⟩ := loop_ok E online (skips cpus skip) ready l [] s1 s2 t hl
        have ht : ∀ d ∈ t, s2.online d = online := by
          intro d hd
          by_cases he : t.isEmpty = true
          · rw [List.isEmpty_iff.1 he] at hd; cases hd
          · rw [if_neg he] at h
            exact ((validate_spec (fresh_hotplugged E s2) t online).2.2.1 h d hd).2
        have hcase : c ∈ ready ∨ c ∈ t ∨ (E.hasFile c = false ∧ E.hasDir c = true ∧ skips cpus skip = true) := by
          rcases h3 c hc with h | h
          · exact g2 c h
          · exact Or.inl h
        obtain ⟨f1, f2⟩ := loop_frame E online (skips cpus skip) ready l [] s1 c
        rw [hl] at f1 f2
        simp only at f1 f2
        rcases hcase with hr | hr | ⟨hr1, hr2, hr3⟩
        · have hs := ((h2 c).1 hr).2
          refine ⟨fun _ => ?_, fun _ => Or.inl hs⟩
          rw [f1 (fun e => e.2.1 hr), h1]
          exact hs
        · refine ⟨fun _ => ht c hr, fun hf => ?_⟩
          rcases g3 c hr with h | h
          · cases h
          · rw [h.2.2] at hf; cases hf
        · refine ⟨fun hf => (by rw [hf] at hr1; cases hr1), fun _ => Or.inr ?_⟩
          cases cpus with
          | all => exact Or.inl rfl
          | list l => exact Or.inr hr3

/-- C45 (CPUs which do not exist): the request is refused and nothing changes. -/
theorem C45_no_such_cpu (E : Env) (l : List Nat) (online skip : Bool) (s : St) {c : Nat} (hc : c ∈ l)
    (hp : c ∉ E.present) :
    (toggle E (.list l) online skip s).1.online = s.online ∧
    ∃ e, (toggle E (.list l) online skip s).2 = .error e := by
  rcases toggle_cases E (.list l) online skip s with ⟨s', e, l, _, _, h', ho⟩ | ⟨s', h, _⟩ |
    ⟨s1, ready, l', _, h2, h3, h4, _⟩
  · rw [h']; exact ⟨ho, e, rfl⟩
  · cases h
  · exfalso
    rcases h4 c hc with h | h
    · exact hp (h3 c h)
    · exact hp ((h2 c).1 h).1

/-- C45 (CPUs without hotplug support): unless skipping was asked for, requesting another state of such a CPU
fails. -/
theorem C45_unsupported (E : Env) (l : List Nat) (online : Bool) (s : St) {c : Nat} (hc : c ∈ l)
    (hf : E.hasFile c = false) (hs : s.online c ≠ online) :
    ∃ e, (toggle E (.list l) online false s).2 = .error e := by
  cases h : (toggle E (.list l) online false s).2 with
  | error e => exact ⟨e, rfl⟩
  | ok u =>
    rcases (C45_effect E (.list l) online false s h c hc).2.2 hf with h | h | h
    · exact absurd h hs
    · cases h
    · cases h

/-- When there is only such a CPU, the exception is 'ErrorNotSupported'. -/
theorem C45_unsupported_exception (E : Env) (online : Bool) (s : St) {c : Nat} (hp : c ∈ E.present)
    (hf : E.hasFile c = false) (hd : E.hasDir c = true) (hs : s.online c ≠ online) :
    (toggle E (.list [c]) online false s).2 = .error .notSupported := by
  obtain ⟨_, _, h3⟩ := ready_spec (fresh_hotplugged E s) online
  unfold toggle
  cases ho : (if online = true then getCpus E (hotplugged s) else getOffline E (hotplugged s)) with
  | mk s1 ready =>
    rw [ho] at h3
    simp only at h3
    have hr : c ∉ ready := fun h => hs ((h3 c).1 h).2
    have hdd : pyDedup [c] = [c] := pyDedup_of_nodup (by simp)
    simp only [ho, target, normalize, hdd, List.all_cons, List.all_nil, hp, decide_true, Bool.and_true, if_true,
      loop, hr, if_false, verifyPath, hf, hd, Bool.not_false, skips]

/-- C45 (repeating): after success, the same request succeeds and changes nothing. -/
theorem C45_idempotent (E : Env) (cpus : Cpus) (online skip : Bool) (s : St)
    (hdir : ∀ c ∈ E.present, E.hasDir c = true)
    (h : (toggle E cpus online skip s).2 = .ok ()) :
    let s' := (toggle E cpus online skip s).1
    (toggle E cpus online skip s').2 = .ok () ∧ (toggle E cpus online skip s').1.online = s'.online := by
  intro s'
  have heff := C45_effect E cpus online skip s h
  have hfr := C45_frame E cpus online skip s
  rcases toggle_cases E cpus online skip s' with ⟨s2, e, l, rfl, ⟨c, hc, hp⟩, h', ho⟩ | ⟨s2, _, _, h', ho⟩ |
    ⟨s1, ready, l, h1, h2, hp, h3, h4, h'⟩
  · exact absurd (heff c hc).1 hp
  · rw [h']; exact ⟨rfl, ho⟩
  · have hno : ∀ c ∈ l, c ∈ ready ∨ (E.hasFile c = false ∧ E.hasDir c = true ∧ skips cpus skip = true) := by
      intro c hc
      obtain ⟨g1, g2, g3⟩ := heff c (h4 c hc)
      cases hf : E.hasFile c with
      | true => exact Or.inl ((h2 c).2 ⟨g1, g2 hf⟩)
      | false =>
        rcases g3 hf with h | h | h
        · left
          refine (h2 c).2 ⟨g1, ?_⟩
          rw [← h]
          exact (hfr c).1 (fun e => by rw [hf] at e; cases e.2)
        · right
          subst h
          exact ⟨rfl, hdir c g1, rfl⟩
        · right
          refine ⟨rfl, hdir c g1, ?_⟩
          rw [h]
          cases cpus <;> rfl
    rw [loop_noop E online _ ready l s1 hno] at h'
    rw [h']
    exact ⟨rfl, h1⟩

/-- C45 (the request succeeds when it should): the CPUs exist and support hotplug (or are to be skipped), and
the kernel does what it is asked for. -/
theorem C45_succeeds (E : Env) (l : List Nat) (online skip : Bool) (s : St)
    (hp : ∀ c ∈ l, c ∈ E.present)
    (hf : ∀ c ∈ l, E.hasFile c = true ∨ s.online c = online ∨ (E.hasDir c = true ∧ skip = true))
    (hk : ∀ f, ∀ c ∈ l, E.hasFile c = true → E.kern f c online = .stored) :
    (toggle E (.list l) online skip s).2 = .ok () := by
  rcases toggle_cases E (.list l) online skip s with ⟨s', e, l', he, ⟨c, hc, hn⟩, _⟩ | ⟨s', h, _⟩ |
    ⟨s1, ready, l', h1, h2, hp', h3, h4, h'⟩
  · injection he with he
    subst he
    exact absurd (hp c hc) hn
  · cases h
  · obtain ⟨s2, t, hl, ht⟩ := loop_succeeds E online (skips (.list l) skip) ready l'
      (fun c hc => by
        rcases hf c (h4 c hc) with h | h | h
        · exact Or.inl h
        · exact Or.inr (Or.inl ((h2 c).2 ⟨hp' c hc, h⟩))
        · exact Or.inr (Or.inr h))
      (fun f c hc _ hfc => hk f c (h4 c hc) hfc) [] s1 (fun c hc => by cases hc)
    rw [h', hl]
    simp only [finish]
    split
    · rfl
    · refine (validate_spec (fresh_hotplugged E s2) t online).2.2.2 ?_
      intro c hc
      refine ⟨?_, ht c hc⟩
      rcases (loop_ok E online _ ready l' [] s1 s2 t hl).2.2 c hc with h | h
      · cases h
      · exact hp' c h.1

/-- C45: `is_online()` tells the state of every CPU which supports hotplug, in particular the requested state
after success. -/
theorem C45_is_online (E : Env) (cpus : Cpus) (online skip : Bool) (s : St)
    (h : (toggle E cpus online skip s).2 = .ok ()) (c : Nat) (hc : Requested E cpus c)
    (hf : E.hasFile c = true) : isOnline E c (toggle E cpus online skip s).1 = .ok online := by
  unfold isOnline
  rw [if_pos hf, (C45_effect E cpus online skip s h c hc).2.1 hf]

/-- `is_online()` and CPUs without hotplug support: these are online. -/
theorem C45_is_online_nofile (E : Env) (s : St) (c : Nat) (hf : E.hasFile c = false)
    (hd : E.hasDir c = true) (ho : s.online c = true) : isOnline E c s = .ok (s.online c) := by
  unfold isOnline
  simp only [hf, hd, ho, Bool.false_eq_true, Bool.not_true, if_false]

/-- Requests. -/
structure Req where
  cpus : Cpus
  online : Bool
  skip : Bool

/-- The state of CPUs after a request, according to the specification. -/
def specStep (E : Env) (f : Nat → Bool) (r : Req) : Nat → Bool := fun c =>
  if (match r.cpus with | .all => decide (c ∈ E.present) | .list l => decide (c ∈ l)) && E.hasFile c then r.online
  else f c

/-- Run requests one after another. -/
def runAll (E : Env) : List Req → St → St × Bool
  | [], s => (s, true)
  | r :: rs, s =>
    match toggle E r.cpus r.online r.skip s with
    | (s, .ok ()) => runAll E rs s
    | (s, .error _) => (s, false)

/-- C45 (sequences): after any successful sequence of requests, the CPUs are in the states of the
specification. -/
theorem C45_sequence (E : Env) (rs : List Req) : ∀ s, (runAll E rs s).2 = true →
    (runAll E rs s).1.online = rs.foldl (specStep E) s.online := by
  induction rs with
  | nil => intro s _; rfl
  | cons r rs ih =>
    intro s h
    unfold runAll at h ⊢
    have heff := C45_effect E r.cpus r.online r.skip s
    have hfr := C45_frame E r.cpus r.online r.skip s
    cases ht : toggle E r.cpus r.online r.skip s with
    | mk s1 res =>
      rw [ht] at h heff hfr
      cases res with
      | error e => cases h
      | ok u =>
        simp only at h heff hfr ⊢
        rw [ih s1 h, List.foldl_cons]
        congr 1
        funext c
        unfold specStep
        have hreq : ((match r.cpus with | .all => decide (c ∈ E.present) | .list l => decide (c ∈ l)) = true) ↔
            Requested E r.cpus c := by
          cases r.cpus <;> simp [Requested]
        by_cases hc : Requested E r.cpus c ∧ E.hasFile c = true
        · rw [if_pos (by rw [Bool.and_eq_true]; exact ⟨hreq.2 hc.1, hc.2⟩)]
          exact (heff trivial c hc.1).2.1 hc.2
        · rw [if_neg (by rw [Bool.and_eq_true, hreq]; exact hc)]
          exact (hfr c).1 hc

/-! ### Examples -/

/-- CPUs 0-5, CPU 0 does not support hotplug. -/
def exE : Env := ⟨[0, 1, 2, 3, 4, 5], fun c => c ∈ [1, 2, 3, 4, 5], fun c => c ≤ 5, fun _ _ _ => .stored⟩

/-- CPUs 4 and 5 are offline; the cached data are stale. -/
def exS : St := ⟨fun c => c ∈ [0, 1, 2, 3], [0, 1, 2, 3, 4, 5]⟩

example : (toggle exE (.list [2, 4, 2]) true false exS).2 = .ok () ∧
    exE.present.filter (toggle exE (.list [2, 4, 2]) true false exS).1.online = [0, 1, 2, 3, 4] := by
  decide +kernel

example : (toggle exE .all false false exS).2 = .ok () ∧
    exE.present.filter (toggle exE .all false false exS).1.online = [0] := by decide +kernel

example : (toggle exE (.list [0]) false false exS).2 = .error .notSupported ∧
    (toggle exE (.list [0, 1]) false true exS).2 = .ok () ∧ (toggle exE (.list [6]) false true exS).2 = .error .error ∧
    (toggle exE (.list [0]) true false exS).2 = .ok () := by decide +kernel

/-- A kernel which ignores the write: the request fails. -/
example : (toggle { exE with kern := fun _ _ _ => .ignored } (.list [1]) false false exS).2 = .error .error := by
  decide +kernel

/-- Hypotheses of `C45_succeeds` and `C45_idempotent`. -/
example : (∀ c ∈ [1, 4], c ∈ exE.present) ∧
    (∀ c ∈ [1, 4], exE.hasFile c = true ∨ exS.online c = false ∨ (exE.hasDir c = true ∧ false = true)) ∧
    (∀ c ∈ exE.present, exE.hasDir c = true) := by decide +kernel

example : (runAll exE [⟨.all, true, false⟩, ⟨.list [1, 3, 5], false, false⟩, ⟨.list [1], true, true⟩] exS).2 = true ∧
    exE.present.filter (runAll exE [⟨.all, true, false⟩, ⟨.list [1, 3, 5], false, false⟩,
      ⟨.list [1], true, true⟩] exS).1.online = [0, 1, 2, 4] := by decide +kernel

end Verif.CPUOnline
