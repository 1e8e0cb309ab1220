import Verif.Lemmas.TopoDies

/-!
Lemmas about building and updating the topology table.
-/

namespace Verif.TopoBuild

open PyStr Trivial
open CPUInfo (Level)

variable {m : Machine} {on : List Nat} {H : Nat → Level → Prop} {D : Nat → Prop} {Done : Int → Int → Prop} {t : TInfo}
  {st : St}

/-! ### Adding levels -/

/-- The found dies after adding levels. -/
def Found (m : Machine) (Done : Int → Int → Prop) (want : Bool) (cpus : List Int) (p d : Int) : Prop :=
  Done p d ∨ (want = true ∧ More m Done cpus p d)

theorem addLevels_spec {h : Host} (hs : Shows m on h) (want : Level → Bool) (cpus : List Int)
    (hcpus : ∀ k ∈ cpus, ∃ c ∈ on, k = (c : Int)) (hcore : ∀ c ∈ on, H c .core) (hp : ∀ c ∈ on, H c .package)
    (ht : TI m on H (DD m Done) t) (hd : DI m Done st.computeDies st.ioDies) :
    ∃ cd io t', addLevels h want st t cpus = .ok ({ st with computeDies := cd, ioDies := io }, t') ∧
      TI m on (Plus H cpus fun l => want l = true ∧ (l = .module ∨ l = .die ∨ l = .node))
        (DD m (Found m Done (want .die) cpus)) t' ∧
      DI m (Found m Done (want .die) cpus) cd io := by
  unfold addLevels
  obtain ⟨t1, h1, h2⟩ : ∃ t1, (if want .module then addModulesLoop h false cpus t else .ok t) = .ok t1 ∧
      TI m on (Plus H cpus fun l => want l = true ∧ l = .module) (DD m Done) t1 := by
    by_cases hm : want .module = true
    · rw [if_pos hm]
      obtain ⟨t1, h1, h2⟩ := addModulesLoop_spec hs cpus hcpus hcore ht false (by intro h; cases h)
      exact ⟨t1, h1, h2.mono (fun c _ l hl => hl.imp id fun h => ⟨h.1, h.2.2⟩) fun _ _ h => h⟩
    · rw [if_neg hm]
      refine ⟨t, rfl, ht.mono (fun c _ l hl => ?_) fun _ _ h => h⟩
      rcases hl with hl | ⟨_, h1, rfl⟩
      · exact hl
      · exact absurd h1 hm
  rw [h1]
  dsimp only
  obtain ⟨cd, io, t2, h3, h4, h5⟩ : ∃ cd io t2, (if want .die then addDies h st t1 cpus else .ok (st, t1)) =
      .ok ({ st with computeDies := cd, ioDies := io }, t2) ∧
      TI m on (Plus H cpus fun l => want l = true ∧ (l = .module ∨ l = .die))
        (DD m (Found m Done (want .die) cpus)) t2 ∧ DI m (Found m Done (want .die) cpus) cd io := by
    by_cases hm : want .die = true
    · rw [if_pos hm]
      obtain ⟨cd, io, t2, h3, h4, h5⟩ := addDies_spec hs cpus hcpus (fun c hc => Or.inl (hp c hc)) h2 hd
      refine ⟨cd, io, t2, h3, h4.mono (fun c _ l hl => ?_) (fun c _ h => Or.inr ⟨hm, h⟩), h5.congr fun p d => ?_⟩
      · rcases hl with hl | ⟨g1, g2, g3 | g3⟩
        · exact Or.inl (Or.inl hl)
        · exact Or.inl (Or.inr ⟨g1, g2, g3⟩)
        · exact Or.inr ⟨g1, g3⟩
      · exact ⟨fun h => Or.inr ⟨hm, h⟩, fun h => h.elim Or.inl And.right⟩
    · rw [if_neg hm]
      refine ⟨st.computeDies, st.ioDies, t1, rfl, h2.mono (fun c _ l hl => ?_) (fun c _ h => Or.inl h),
        hd.congr fun p d => ⟨Or.inl, fun h => h.elim id fun h => absurd h.1 hm⟩⟩
      rcases hl with hl | ⟨g1, g2, g3 | g3⟩
      · exact Or.inl hl
      · exact Or.inr ⟨g1, g2, g3⟩
      · rw [g3] at g2; exact absurd g2 hm
  rw [h3]
  dsimp only
  by_cases hm : want .node = true
  · rw [if_pos hm]
    obtain ⟨t3, h6, h7⟩ := addNodes_spec hs h4
    rw [h6]
    refine ⟨cd, io, t3, rfl, h7.mono (fun c _ l hl => ?_) (fun _ _ h => h), h5⟩
    rcases hl with hl | ⟨g1, g2, g3 | g3 | g3⟩
    · exact Or.inl (Or.inl hl)
    · exact Or.inl (Or.inr ⟨g1, g2, Or.inl g3⟩)
    · exact Or.inl (Or.inr ⟨g1, g2, Or.inr g3⟩)
    · exact Or.inr g3
  · rw [if_neg hm]
    refine ⟨cd, io, t2, rfl, h4.mono (fun c _ l hl => ?_) (fun _ _ h => h), h5⟩
    rcases hl with hl | ⟨g1, g2, g3 | g3 | g3⟩
    · exact Or.inl hl
    · exact Or.inr ⟨g1, g2, Or.inl g3⟩
    · exact Or.inr ⟨g1, g2, Or.inr g3⟩
    · rw [g3] at g2; exact absurd g2 hm

/-! ### Sorting -/

theorem lexLe_total (a b : List Int) : lexLe a b = true ∨ lexLe b a = true := by
  induction a generalizing b with
  | nil => exact Or.inl rfl
  | cons x xs ih =>
    cases b with
    | nil => exact Or.inr rfl
    | cons y ys =>
      simp only [lexLe]
      by_cases h1 : x < y
      · simp [h1]
      · by_cases h2 : y < x
        · simp [h2]
        · simp only [h1, h2, if_false]
          exact ih ys

theorem lexLe_trans {a b c : List Int} (h1 : lexLe a b = true) (h2 : lexLe b c = true) : lexLe a c = true := by
  induction a generalizing b c with
  | nil => rfl
  | cons x xs ih =>
    cases b with
    | nil => cases h1
    | cons y ys =>
      cases c with
      | nil => cases h2
      | cons z zs =>
        simp only [lexLe] at h1 h2 ⊢
        by_cases e1 : x < y
        · by_cases e2 : y < z
          · rw [if_pos (by omega)]
          · rw [if_neg e2] at h2
            by_cases e3 : z < y
            · rw [if_pos e3] at h2; cases h2
            · rw [if_pos (by omega)]
        · rw [if_neg e1] at h1
          by_cases e1' : y < x
          · rw [if_pos e1'] at h1; cases h1
          · rw [if_neg e1'] at h1
            have : x = y := by omega
            subst this
            by_cases e2 : x < z
            · rw [if_pos e2]
            · rw [if_neg e2] at h2 ⊢
              by_cases e3 : z < x
              · rw [if_pos e3] at h2; cases h2
              · rw [if_neg e3] at h2 ⊢
                exact ih h1 h2

/-- The lines in order. -/
def sortRows (order : Level) (rows : List Row) : List Row := sortBy (fun a b => lexLe (a.key order) (b.key order)) rows

theorem sortRows_sorted (order : Level) (rows : List Row) :
    (sortRows order rows).Pairwise fun a b => lexLe (a.key order) (b.key order) = true :=
  sortBy_sorted (le := fun a b : Row => lexLe (a.key order) (b.key order)) (fun _ _ => lexLe_total _ _)
    (fun _ _ _ => lexLe_trans) rows

theorem sortRows_perm (order : Level) (rows : List Row) : (sortRows order rows).Perm rows := sortBy_perm _ _

theorem sortAll_spec (base : List Row) (L : List Level) (st : St)
    (hr : ∀ r ∈ base, ∀ o ∈ L, ∀ l ∈ sortingMap o, (r.get l).isSome = true) :
    ∃ T, sortAll base L st = .ok { st with topology := T } ∧
      ∀ l, T.get? l = if l ∈ L then some (sortRows l base) else st.topology.get? l := by
  induction L generalizing st with
  | nil => exact ⟨st.topology, rfl, fun l => by simp⟩
  | cons o L ih =>
    have h1 : sortTopology st base o = .ok { st with topology := st.topology.set o (sortRows o base) } := by
      unfold sortTopology
      rw [if_pos]
      · rfl
      · rw [List.all_eq_true]
        intro r hr'
        rw [List.all_eq_true]
        exact hr r hr' o List.mem_cons_self
    obtain ⟨T, h2, h3⟩ := ih { st with topology := st.topology.set o (sortRows o base) }
      fun r hr' o' ho' => hr r hr' o' (List.mem_cons_of_mem _ ho')
    refine ⟨T, ?_, fun l => ?_⟩
    · rw [sortAll, h1]; exact h2
    · rw [h3]
      by_cases hl : l ∈ L
      · rw [if_pos hl, if_pos (List.mem_cons_of_mem _ hl)]
      · rw [if_neg hl, Dict.get?_set]
        by_cases e : o = l
        · subst e
          rw [if_pos rfl, if_pos List.mem_cons_self]
        · rw [if_neg e, if_neg (by
            intro h
            rcases List.mem_cons.1 h with h | h
            · exact e h.symm
            · exact hl h)]

/-! ### Tables -/

/-- The lines of a table with the given initialised levels. -/
structure Base (m : Machine) (on : List Nat) (lv : List Level) (base : List Row) : Prop where
  sub : ∀ c ∈ on, c ∈ m.present
  lines : ∃ t ios, base = values t ++ ios ∧
    TI m on (fun _ l => l = .CPU ∨ l ∈ lv) (fun _ => Level.die ∈ lv) t ∧
    (Level.die ∈ lv → IoRows m ios) ∧ (Level.die ∉ lv → ios = [])

theorem cpu_ne_na (hw : m.WF) {c : Nat} (hc : c ∈ m.present) : (c : Int) ≠ NA := by
  have := hw.small c hc .CPU
  rw [hw.cpu] at this
  unfold NA
  omega

theorem TI.values_row (h : TI m on H D t) {r : Row} (hr : r ∈ values t) : ∃ c ∈ on, RowOK m H D c r := by
  obtain ⟨⟨k, r'⟩, h1, rfl⟩ := List.mem_map.1 hr
  have h2 := Dict.get?_of_mem h.keys h1
  obtain ⟨c, hc, rfl⟩ := h.mem k (List.mem_map.2 ⟨_, h1, rfl⟩)
  obtain ⟨r, h3, h4⟩ := h.row c hc
  rw [h2] at h3
  cases h3
  exact ⟨c, hc, h4⟩

theorem TI.values_cpus (h : TI m on H D t) : (values t).map Row.cpu = t.keys := by
  unfold values Dict.keys
  rw [List.map_map]
  apply List.map_congr_left
  rintro ⟨k, r⟩ h1
  have h2 := Dict.get?_of_mem h.keys h1
  obtain ⟨c, hc, rfl⟩ := h.mem k (List.mem_map.2 ⟨_, h1, rfl⟩)
  obtain ⟨r', h3, h4⟩ := h.row c hc
  rw [h2] at h3
  cases h3
  exact h4.cpu

theorem TI.mem_keys (h : TI m on H D t) (k : Int) : k ∈ t.keys ↔ ∃ c ∈ on, k = (c : Int) := by
  refine ⟨h.mem k, ?_⟩
  rintro ⟨c, hc, rfl⟩
  obtain ⟨r, h1, _⟩ := h.row c hc
  exact List.mem_map.2 ⟨_, Dict.mem_of_get? h1, rfl⟩

theorem IoRows.na {rows : List Row} (h : IoRows m rows) {r : Row} (hr : r ∈ rows) : r.cpu = NA := by
  obtain ⟨p, d, _, rfl⟩ := (h.mem r).1 hr
  rfl

theorem Base.row {lv : List Level} {base : List Row} (h : Base m on lv base) {r : Row} (hr : r ∈ base)
    (hc : r.cpu ≠ NA) : ∃ c ∈ on, RowOK m (fun _ l => l = .CPU ∨ l ∈ lv) (fun _ => Level.die ∈ lv) c r := by
  obtain ⟨t, ios, rfl, h1, h2, h3⟩ := h.lines
  rcases List.mem_append.1 hr with hr | hr
  · exact h1.values_row hr
  · by_cases hd : Level.die ∈ lv
    · exact absurd ((h2 hd).na hr) hc
    · rw [h3 hd] at hr; cases hr

theorem Base.has {lv : List Level} {base : List Row} (h : Base m on lv base) {c : Nat} (hc : c ∈ on) :
    ∃ r ∈ base, r.cpu = (c : Int) := by
  obtain ⟨t, ios, rfl, h1, _, _⟩ := h.lines
  obtain ⟨r, h4, h5⟩ := h1.row c hc
  exact ⟨r, List.mem_append_left _ (List.mem_map.2 ⟨_, Dict.mem_of_get? h4, rfl⟩), h5.cpu⟩

/-- Only the set of CPUs matters. -/
theorem Base.congr {on' : List Nat} {lv : List Level} {base : List Row} (h : Base m on lv base)
    (e : ∀ c, c ∈ on ↔ c ∈ on') : Base m on' lv base := by
  obtain ⟨t, ios, h0, h1, h2⟩ := h.lines
  refine ⟨fun c hc => h.sub c ((e c).2 hc), t, ios, h0, ⟨h1.keys, fun k hk => ?_, fun c hc => ?_⟩, h2⟩
  · obtain ⟨c, hc, rfl⟩ := h1.mem k hk
    exact ⟨c, (e c).1 hc, rfl⟩
  · exact h1.row c ((e c).2 hc)

theorem Base.keys {lv : List Level} {base : List Row} (h : Base m on lv base)
    (hp : Level.package ∈ lv) {r : Row} (hr : r ∈ base) {o l : Level} (ho : o ∈ lv)
    (hl : l ∈ sortingMap o) : (r.get l).isSome = true := by
  obtain ⟨t, ios, rfl, h1, h2, h3⟩ := h.lines
  rcases List.mem_append.1 hr with hr | hr
  · obtain ⟨c, _, h4⟩ := h1.values_row hr
    have : l = .CPU ∨ l ∈ lv := by
      cases o <;> simp only [sortingMap, List.mem_cons, List.not_mem_nil, or_false] at hl
      · exact Or.inl hl
      · rcases hl with rfl | rfl | rfl
        · exact Or.inr hp
        · exact Or.inr ho
        · exact Or.inl rfl
      · rcases hl with rfl | rfl
        · exact Or.inr ho
        · exact Or.inl rfl
      · rcases hl with rfl | rfl | rfl
        · exact Or.inr hp
        · exact Or.inr ho
        · exact Or.inl rfl
      · rcases hl with rfl | rfl
        · exact Or.inr ho
        · exact Or.inl rfl
      · rcases hl with rfl | rfl
        · exact Or.inr ho
        · exact Or.inl rfl
    rw [h4.has l this]; rfl
  · by_cases hd : Level.die ∈ lv
    · obtain ⟨p, d, _, rfl⟩ := ((h2 hd).mem r).1 hr
      cases l <;> rfl
    · rw [h3 hd] at hr; cases hr

/-! ### The lines to start with -/

/-- Save the lines satisfying the condition. -/
def fill (cond : Row → Bool) (rows : List Row) (t : TInfo) : TInfo :=
  rows.foldl (fun d r => if cond r then d.set r.cpu r else d) t

theorem fill_spec (cond : Row → Bool) (rows : List Row) (t : TInfo) (hk : t.keys.Nodup) :
    (fill cond rows t).keys.Nodup ∧
    (∀ k, k ∈ (fill cond rows t).keys → k ∈ t.keys ∨ ∃ r ∈ rows, cond r = true ∧ r.cpu = k) ∧
    (∀ k, (∃ r ∈ rows, cond r = true ∧ r.cpu = k) →
      ∃ r ∈ rows, cond r = true ∧ r.cpu = k ∧ (fill cond rows t).get? k = some r) ∧
    ∀ k, (¬ ∃ r ∈ rows, cond r = true ∧ r.cpu = k) → (fill cond rows t).get? k = t.get? k := by
  induction rows generalizing t with
  | nil =>
    refine ⟨hk, fun k h => Or.inl h, fun k h => ?_, fun k _ => rfl⟩
    obtain ⟨r, h, _⟩ := h
    cases h
  | cons r rows ih =>
    have e : fill cond (r :: rows) t = fill cond rows (if cond r then t.set r.cpu r else t) := rfl
    rw [e]
    obtain ⟨h1, h2, h3, h4⟩ := ih (if cond r then t.set r.cpu r else t) (by
      split
      · exact Dict.nodup_keys_set hk _ _
      · exact hk)
    refine ⟨h1, fun k hk' => ?_, fun k hk' => ?_, fun k hk' => ?_⟩
    · rcases h2 k hk' with h | ⟨r', hr, h⟩
      · split at h
        · rename_i hc
          rw [Dict.mem_keys_set] at h
          rcases h with h | h
          · exact Or.inr ⟨r, List.mem_cons_self, hc, h.symm⟩
          · exact Or.inl h
        · exact Or.inl h
      · exact Or.inr ⟨r', List.mem_cons_of_mem _ hr, h⟩
    · by_cases hx : ∃ r ∈ rows, cond r = true ∧ r.cpu = k
      · obtain ⟨r', hr, h⟩ := h3 k hx
        exact ⟨r', List.mem_cons_of_mem _ hr, h⟩
      · obtain ⟨r', hr, hc, hk'⟩ := hk'
        rcases List.mem_cons.1 hr with rfl | hr
        · refine ⟨r', List.mem_cons_self, hc, hk', ?_⟩
          rw [h4 k hx, if_pos hc, hk', Dict.get?_set_self]
        · exact absurd ⟨r', hr, hc, hk'⟩ hx
    · rw [h4 k fun ⟨r', hr, h⟩ => hk' ⟨r', List.mem_cons_of_mem _ hr, h⟩]
      split
      · rename_i hc
        rw [Dict.get?_set_ne]
        intro e
        exact hk' ⟨r, List.mem_cons_self, hc, e⟩
      · rfl

theorem keptLines_eq (online : List Int) (rows : List Row) (t : TInfo) :
    keptLines online rows t = fill (fun r => decide (r.cpu ∈ online)) rows t := by
  induction rows generalizing t with
  | nil => rfl
  | cons r rows ih =>
    rw [keptLines, ih]
    show _ = fill _ rows (if decide (r.cpu ∈ online) = true then t.set r.cpu r else t)
    by_cases h : r.cpu ∈ online
    · rw [if_pos h, if_pos (by simpa using h)]
    · rw [if_neg h, if_neg (by simpa using h)]

theorem linesOf_eq (rows : List Row) : linesOf rows = fill (fun r => decide (r.cpu ≠ NA)) rows [] := by
  unfold linesOf fill
  congr 1
  funext d r
  by_cases h : r.cpu ≠ NA
  · rw [if_pos h, if_pos (by simpa using h)]
  · rw [if_neg h, if_neg (by simpa using h)]

theorem newLines_eq (cpus : List Int) : newLines cpus = fill (fun _ => true) (cpus.map Row.new) [] := by
  unfold newLines fill
  rw [List.foldl_map]
  rfl

theorem newLines_spec (cpus : List Int) :
    (newLines cpus).keys.Nodup ∧ (∀ k ∈ (newLines cpus).keys, k ∈ cpus) ∧
      ∀ k ∈ cpus, (newLines cpus).get? k = some (Row.new k) := by
  rw [newLines_eq]
  obtain ⟨h1, h2, h3, _⟩ := fill_spec (fun _ => true) (cpus.map Row.new) [] List.nodup_nil
  refine ⟨h1, fun k hk => ?_, fun k hk => ?_⟩
  · rcases h2 k hk with h | ⟨r, hr, _, rfl⟩
    · cases h
    · obtain ⟨c, hc, rfl⟩ := List.mem_map.1 hr
      exact hc
  · obtain ⟨r, hr, _, e, hg⟩ := h3 k ⟨Row.new k, List.mem_map.2 ⟨k, hk, rfl⟩, rfl, rfl⟩
    obtain ⟨c, hc, rfl⟩ := List.mem_map.1 hr
    have : c = k := e
    rw [hg, this]

/-- The list of the online CPUs. -/
def IsOn (on : List Nat) (l : List Int) : Prop := l.Nodup ∧ ∀ k : Int, k ∈ l ↔ ∃ c ∈ on, k = (c : Int)

theorem rowOK_new (hw : m.WF) (c : Nat) : RowOK m (fun _ l => l = .CPU) D c (Row.new c) := by
  refine ⟨rfl, fun l hl => ?_, fun l v hv => ?_, fun h => absurd rfl h⟩
  · subst hl
    rw [hw.cpu]; rfl
  · cases l
    case CPU => cases hv; rw [hw.cpu]; rfl
    all_goals cases hv

theorem TI_new (hw : m.WF) {l : List Int} (hl : IsOn on l) : TI m on (fun _ l => l = .CPU) D (newLines l) := by
  obtain ⟨h1, h2, h3⟩ := newLines_spec l
  exact ⟨h1, fun k hk => (hl.2 k).1 (h2 k hk), fun c hc => ⟨_, h3 c ((hl.2 c).2 ⟨c, hc, rfl⟩), rowOK_new hw c⟩⟩

theorem TI_lines (hw : m.WF) {lv : List Level} {base rows : List Row} (h : Base m on lv base)
    (hr : ∀ r, r ∈ rows ↔ r ∈ base) :
    TI m on (fun _ l => l = .CPU ∨ l ∈ lv) (fun _ => Level.die ∈ lv) (linesOf rows) := by
  rw [linesOf_eq]
  obtain ⟨h1, h2, h3, _⟩ := fill_spec (fun r => decide (r.cpu ≠ NA)) rows [] List.nodup_nil
  refine ⟨h1, fun k hk => ?_, fun c hc => ?_⟩
  · rcases h2 k hk with hk | ⟨r, hr', hna, rfl⟩
    · cases hk
    · obtain ⟨c, hc, h4⟩ := h.row ((hr r).1 hr') (by simpa using hna)
      exact ⟨c, hc, h4.cpu⟩
  · obtain ⟨r0, g1, g2⟩ := h.has hc
    have hna := cpu_ne_na hw (h.sub c hc)
    obtain ⟨r, g3, _, g5, g6⟩ := h3 c ⟨r0, (hr _).2 g1, by simpa [g2] using hna, g2⟩
    obtain ⟨c', _, g7⟩ := h.row ((hr r).1 g3) (by rw [g5]; exact hna)
    have : c' = c := by have := g7.cpu; omega
    subst this
    exact ⟨r, g6, g7⟩

theorem TI_kept (hw : m.WF) {on0 : List Nat} {lv : List Level} {base rows : List Row} {online : List Int}
    (h : Base m on0 lv base) (hr : ∀ r, r ∈ rows ↔ r ∈ base) (hon : IsOn on online) (hsub : ∀ c ∈ on, c ∈ m.present) :
    TI m on (fun c l => l = .CPU ∨ ((c : Int) ∉ online.filter (fun c => !(rows.map Row.cpu).contains c) ∧ l ∈ lv))
      (fun _ => Level.die ∈ lv)
      (keptLines online rows (newLines (online.filter fun c => !(rows.map Row.cpu).contains c))) := by
  rw [keptLines_eq]
  obtain ⟨n1, n2, n3⟩ := newLines_spec (online.filter fun c => !(rows.map Row.cpu).contains c)
  obtain ⟨h1, h2, h3, h4⟩ := fill_spec (fun r => decide (r.cpu ∈ online)) rows _ n1
  refine ⟨h1, fun k hk => ?_, fun c hc => ?_⟩
  · rcases h2 k hk with hk | ⟨r, hr', hna, rfl⟩
    · exact (hon.2 k).1 (List.mem_filter.1 (n2 k hk)).1
    · exact (hon.2 _).1 (by simpa using hna)
  · have hmem := (hon.2 c).2 ⟨c, hc, rfl⟩
    have hna := cpu_ne_na hw (hsub c hc)
    by_cases hx : ∃ r ∈ rows, r.cpu = (c : Int)
    · obtain ⟨r0, g1, g2⟩ := hx
      obtain ⟨r, g3, _, g5, g6⟩ := h3 c ⟨r0, g1, by simpa [g2] using hmem, g2⟩
      obtain ⟨c', _, g7⟩ := h.row ((hr r).1 g3) (by rw [g5]; exact hna)
      have : c' = c := by have := g7.cpu; omega
      subst this
      exact ⟨r, g6, g7.mono (fun l hl => hl.imp id And.right) id⟩
    · have hfresh : (c : Int) ∈ online.filter fun c => !(rows.map Row.cpu).contains c := by
        rw [List.mem_filter]
        refine ⟨hmem, ?_⟩
        simp only [Bool.not_eq_true', List.contains_eq_mem, decide_eq_false_iff_not]
        intro hm
        obtain ⟨r, hr', e⟩ := List.mem_map.1 hm
        exact hx ⟨r, hr', e⟩
      refine ⟨Row.new c, ?_, (rowOK_new (D := fun _ => Level.die ∈ lv) hw c).mono (fun l hl => ?_) id⟩
      · rw [h4 c fun ⟨r, hr', _, e⟩ => hx ⟨r, hr', e⟩]
        exact n3 _ hfresh
      · exact hl.elim id fun hl => absurd hfresh hl.1

theorem onlineCpus_spec {h : Host} (hs : Shows m on h) (hc : st.cpus = [] ∨ IsOn on st.cpus) :
    ∃ l, onlineCpus h st = .ok ({ st with cpus := l }, l) ∧ IsOn on l := by
  unfold onlineCpus
  by_cases he : st.cpus = []
  · rw [if_pos he]
    obtain ⟨tx, h1, h2⟩ := hs.online
    obtain ⟨l, h3, h4⟩ := readRange_lists h2
    rw [h1, h3]
    refine ⟨pyDedup l, rfl, nodup_pyDedup l, fun k => ?_⟩
    rw [mem_pyDedup, h4]
    exact ⟨fun ⟨n, e, hn⟩ => ⟨n, hn, e⟩, fun ⟨n, hn, e⟩ => ⟨n, e, hn⟩⟩
  · rw [if_neg he]
    exact ⟨st.cpus, rfl, hc.resolve_left he⟩

/-! ### Building and updating -/

/-- The table is built for the CPUs. -/
structure Built (m : Machine) (on : List Nat) (st : St) : Prop where
  cpu : Level.CPU ∈ st.levels
  package : Level.package ∈ st.levels
  core : Level.core ∈ st.levels
  table : ∃ base, Base m on st.levels base ∧ ∀ l ∈ st.levels, st.topology.get? l = some (sortRows l base)

/-- The cached dies. -/
structure DiesOK (m : Machine) (st : St) : Prop where
  di : DI m (fun p d => Level.die ∈ st.levels ∧ m.HasCpus p d) st.computeDies st.ioDies
  all : Level.die ∈ st.levels → ∀ p d, m.IsIo p d → Mem st.ioDies p d

theorem hasCpus_of_on {h : Host} (hs : Shows m on h) {c : Nat} (hc : c ∈ on) :
    m.HasCpus (m.num .package c) (m.num .die c) := ⟨c, hs.sub c hc, rfl, rfl⟩

/-- After adding levels, with the dies requested or found before. -/
theorem found_iff {h : Host} (hs : Shows m on h) {lv : List Level} {want : Bool} {cpus : List Int}
    (hcpus : ∀ k ∈ cpus, ∃ c ∈ on, k = (c : Int)) (hw : Level.die ∈ lv ∨ Covers m on ∧ ∀ c ∈ on, (c : Int) ∈ cpus)
    (hall : Level.die ∈ lv ∨ want = true) (p d : Int) :
    Found m (fun p d => Level.die ∈ lv ∧ m.HasCpus p d) want cpus p d ↔ m.HasCpus p d := by
  have hsub : More m (fun p d => Level.die ∈ lv ∧ m.HasCpus p d) cpus p d → m.HasCpus p d := by
    rintro (h' | ⟨c, hc, h1, h2⟩)
    · exact h'.2
    · obtain ⟨c', hc', e⟩ := hcpus _ hc
      have : c = c' := by omega
      subst this
      rw [h1, h2]
      exact hasCpus_of_on hs hc'
  constructor
  · rintro (h' | ⟨_, h'⟩)
    · exact h'.2
    · exact hsub h'
  · intro hh
    by_cases hd : Level.die ∈ lv
    · exact Or.inl ⟨hd, hh⟩
    · obtain ⟨c, hc, h1, h2⟩ := hh
      obtain ⟨c', hc', h3, h4⟩ := (hw.resolve_left hd).1 c hc
      exact Or.inr ⟨hall.resolve_left hd, Or.inr ⟨c', (hw.resolve_left hd).2 c' hc', by omega, by omega⟩⟩

theorem rebuild_spec {h : Host} (hw : m.WF) (hs : Shows m on h) {on0 : List Nat} {base old : List Row}
    {online : List Int} (hon : IsOn on online) (hb : Base m on0 st.levels base) (hold : ∀ r, r ∈ old ↔ r ∈ base)
    (hlc : Level.CPU ∈ st.levels) (hlp : Level.package ∈ st.levels) (hlk : Level.core ∈ st.levels)
    (hd : DiesOK m st) :
    ∃ cd io T, rebuild h st old online = .ok { st with computeDies := cd, ioDies := io, topology := T } ∧
      Built m on { st with computeDies := cd, ioDies := io, topology := T } ∧
      DiesOK m { st with computeDies := cd, ioDies := io, topology := T } := by
  have hT0 := TI_kept hw hb hold hon hs.sub
  unfold rebuild
  dsimp only
  generalize hfr : online.filter (fun c => !(old.map Row.cpu).contains c) = fresh at hT0 ⊢
  have hfresh : ∀ k ∈ fresh, ∃ c ∈ on, k = (c : Int) := by
    intro k hk
    rw [← hfr] at hk
    exact (hon.2 k).1 (List.mem_filter.1 hk).1
  rw [if_pos (Or.inl hlp)]
  obtain ⟨t1, h1, h2⟩ := addCores_spec hs fresh hfresh hT0
  rw [h1]
  dsimp only
  have hall : ∀ l, l ∈ st.levels → (l = .package ∨ l = .core) → ∀ c ∈ on,
      Plus (fun c l => l = .CPU ∨ ((c : Int) ∉ fresh ∧ l ∈ st.levels)) fresh (fun l => l = .package ∨ l = .core) c l := by
    intro l hl hl' c _
    by_cases hf : (c : Int) ∈ fresh
    · exact Or.inr ⟨hf, hl'⟩
    · exact Or.inl (Or.inr ⟨hf, hl⟩)
  obtain ⟨cd, io, t2, h3, h4, h5⟩ := addLevels_spec hs (fun l => decide (l ∈ st.levels)) fresh hfresh
    (hall _ hlk (Or.inr rfl)) (hall _ hlp (Or.inl rfl))
    (h2.mono (D' := DD m fun p d => Level.die ∈ st.levels ∧ m.HasCpus p d) (fun _ _ _ h => h)
      fun c hc hdie => ⟨hdie, hasCpus_of_on hs hc⟩) hd.di
  rw [h3]
  dsimp only
  have ht2 : TI m on (fun _ l => l = .CPU ∨ l ∈ st.levels) (fun _ => Level.die ∈ st.levels) t2 := by
    refine h4.mono (fun c _ l hl => ?_) fun c _ hdie => ?_
    · rcases hl with hl | hl
      · exact Or.inl (Or.inl (Or.inl hl))
      · by_cases hf : (c : Int) ∈ fresh
        · cases l
          · exact Or.inl (Or.inl (Or.inl rfl))
          · exact Or.inl (Or.inr ⟨hf, Or.inr rfl⟩)
          · exact Or.inr ⟨hf, by simpa using hl, Or.inl rfl⟩
          · exact Or.inr ⟨hf, by simpa using hl, Or.inr (Or.inl rfl)⟩
          · exact Or.inr ⟨hf, by simpa using hl, Or.inr (Or.inr rfl)⟩
          · exact Or.inl (Or.inr ⟨hf, Or.inl rfl⟩)
        · exact Or.inl (Or.inl (Or.inr ⟨hf, hl⟩))
    · rcases hdie with hdie | ⟨hdie, _⟩
      · exact hdie.1
      · simpa using hdie
  by_cases hdie : Level.die ∈ st.levels
  · rw [if_pos hdie]
    have h5' : DI m m.HasCpus cd io := h5.congr fun p d => found_iff hs hfresh (Or.inl hdie) (Or.inl hdie) p d
    obtain ⟨io', ios, g1, g2, g3, g4⟩ := addIoDies_spec (st := { st with computeDies := cd, ioDies := io }) hw hs h5'
      (values t2)
    rw [g1]
    dsimp only
    have hbase : Base m on st.levels (values t2 ++ ios) :=
      ⟨hs.sub, t2, ios, rfl, ht2, fun _ => g2, fun h => absurd hdie h⟩
    obtain ⟨T, k1, k2⟩ := sortAll_spec (values t2 ++ ios) st.levels { st with computeDies := cd, ioDies := io' }
      fun r hr o ho l hl => hbase.keys hlp hr ho hl
    refine ⟨cd, io', T, k1, ⟨hlc, hlp, hlk, _, hbase, fun l hl => ?_⟩, ?_, fun _ => g4⟩
    · show T.get? l = _
      rw [k2, if_pos hl]
    · exact g3.congr fun p d => ⟨fun h => ⟨hdie, h⟩, And.right⟩
  · rw [if_neg hdie]
    dsimp only
    have hbase : Base m on st.levels (values t2) :=
      ⟨hs.sub, t2, [], by simp, ht2, fun h => absurd h hdie, fun _ => rfl⟩
    obtain ⟨T, k1, k2⟩ := sortAll_spec (values t2) st.levels { st with computeDies := cd, ioDies := io }
      fun r hr o ho l hl => hbase.keys hlp hr ho hl
    refine ⟨cd, io, T, k1, ⟨hlc, hlp, hlk, _, hbase, fun l hl => ?_⟩, ?_, fun h => absurd h hdie⟩
    · show T.get? l = _
      rw [k2, if_pos hl]
    · refine h5.congr fun p d => ⟨?_, fun h => absurd h.1 hdie⟩
      rintro (h | ⟨h, _⟩)
      · exact h
      · exact absurd (by simpa using h) hdie

theorem sameSet_iff {a b : List Int} : sameSet a b = true ↔ ∀ k, k ∈ a ↔ k ∈ b := by
  unfold sameSet
  rw [Bool.and_eq_true, List.all_eq_true, List.all_eq_true]
  simp only [List.contains_eq_mem, decide_eq_true_eq]
  exact ⟨fun h k => ⟨h.1 k, h.2 k⟩, fun h => ⟨fun k => (h k).1, fun k => (h k).2⟩⟩

theorem updateTopology_spec {h : Host} (hw : m.WF) (hs : Shows m on h) {on0 : List Nat}
    (hc : st.cpus = [] ∨ IsOn on st.cpus) (hb : Built m on0 st) (hd : DiesOK m st) :
    ∃ st', updateTopology h st = .ok st' ∧ Built m on st' ∧ DiesOK m st' ∧ st'.levels = st.levels ∧
      IsOn on st'.cpus ∧ st'.mustUpdate = false := by
  obtain ⟨l, h1, h2⟩ := onlineCpus_spec hs hc
  obtain ⟨base, h3, h4⟩ := hb.table
  unfold updateTopology
  rw [h1]
  dsimp only
  rw [h4 _ hb.cpu]
  dsimp only
  have hrows : ∀ r, r ∈ sortRows .CPU base ↔ r ∈ base := fun r => (sortRows_perm .CPU base).mem_iff
  by_cases hsame : sameSet l ((sortRows .CPU base).map Row.cpu) = true
  · rw [if_pos hsame]
    rw [sameSet_iff] at hsame
    have e : ∀ c, c ∈ on0 ↔ c ∈ on := by
      intro c
      constructor
      · intro hc
        obtain ⟨r, g1, g2⟩ := h3.has hc
        have : (c : Int) ∈ l := (hsame c).2 (List.mem_map.2 ⟨r, (hrows r).2 g1, g2⟩)
        obtain ⟨c', hc', e⟩ := (h2.2 _).1 this
        have : c = c' := by omega
        rw [this]; exact hc'
      · intro hc
        obtain ⟨r, g1, g2⟩ := List.mem_map.1 ((hsame c).1 ((h2.2 c).2 ⟨c, hc, rfl⟩))
        obtain ⟨c', hc', g3⟩ := h3.row ((hrows r).1 g1) (by rw [g2]; exact cpu_ne_na hw (hs.sub c hc))
        have : c = c' := by have := g3.cpu; omega
        rw [this]; exact hc'
    exact ⟨_, rfl, ⟨hb.cpu, hb.package, hb.core, base, h3.congr e, h4⟩, ⟨hd.di, hd.all⟩, rfl, h2, rfl⟩
  · rw [if_neg hsame]
    obtain ⟨cd, io, T, g1, g2, g3⟩ := rebuild_spec (st := { st with cpus := l }) hw hs h2 h3 hrows hb.cpu hb.package
      hb.core ⟨hd.di, hd.all⟩
    rw [g1]
    exact ⟨_, rfl, ⟨g2.cpu, g2.package, g2.core, g2.table⟩, ⟨g3.di, g3.all⟩, rfl, h2, rfl⟩

theorem mem_addLevelsTo {a b : List Level} {l : Level} : l ∈ addLevelsTo a b ↔ l ∈ a ∨ l ∈ b := by
  unfold addLevelsTo
  rw [List.mem_append, List.mem_filter]
  by_cases h : l ∈ a <;> simp [h]

/-- Adding levels to a table which is up to date, or building it. -/
theorem extend_spec {h : Host} (hw : m.WF) (hs : Shows m on h) (hcov : Covers m on) (hc : st.cpus = [] ∨ IsOn on st.cpus)
    (hb : (st.levels = [] ∧ st.topology = []) ∨ Built m on st) (hd : DiesOK m st) (levels : List Level) (order : Level)
    (hcpu : Level.CPU ∈ st.levels ∨ Level.CPU ∈ levels)
    (ho : order ∈ st.levels ∨ order ∈ levels) :
    ∃ st' base, extend h st levels order = .ok (st', sortRows order base) ∧ Base m on st'.levels base ∧
      Built m on st' ∧ DiesOK m st' ∧ IsOn on st'.cpus ∧ st'.mustUpdate = st.mustUpdate ∧
      ∀ l, l ∈ st'.levels ↔ l ∈ st.levels ∨ l ∈ levels ∨ l = .package ∨ l = .core := by
  obtain ⟨online, h1, h2⟩ := onlineCpus_spec hs hc
  unfold extend
  rw [h1]
  dsimp only
  obtain ⟨t0, h3, h4⟩ : ∃ t0, startLines { st with cpus := online } online = .ok t0 ∧
      TI m on (fun _ l => l = .CPU ∨ l ∈ st.levels) (fun _ => Level.die ∈ st.levels) t0 := by
    unfold startLines
    rcases hb with ⟨hb1, hb2⟩ | hb
    · rw [if_pos hb2]
      refine ⟨_, rfl, (TI_new (D := fun _ => Level.die ∈ st.levels) hw h2).mono (fun c _ l hl => ?_) fun _ _ h => h⟩
      rcases hl with hl | hl
      · exact hl
      · rw [hb1] at hl; cases hl
    · obtain ⟨base, g1, g2⟩ := hb.table
      have g3 := g2 _ hb.cpu
      rw [if_neg (by
        intro e
        have e : st.topology = [] := e
        rw [e] at g3; cases g3)]
      rw [g3]
      exact ⟨_, rfl, TI_lines hw g1 fun r => (sortRows_perm .CPU base).mem_iff⟩
  rw [h3]
  dsimp only
  have hcpus : ∀ k ∈ online, ∃ c ∈ on, k = (c : Int) := fun k hk => (h2.2 k).1 hk
  have hin : ∀ c ∈ on, (c : Int) ∈ online := fun c hc => (h2.2 c).2 ⟨c, hc, rfl⟩
  obtain ⟨t1, h5, h6⟩ := addCores_spec hs online hcpus h4
  rw [h5]
  dsimp only
  obtain ⟨cd, io, t2, h7, h8, h9⟩ := addLevels_spec (st := { st with cpus := online }) hs
    (fun l => decide (l ∈ levels)) online hcpus
    (fun c hc => Or.inr ⟨hin c hc, Or.inr rfl⟩) (fun c hc => Or.inr ⟨hin c hc, Or.inl rfl⟩)
    (h6.mono (D' := DD m fun p d => Level.die ∈ st.levels ∧ m.HasCpus p d) (fun _ _ _ h => h)
      fun c hc hdie => ⟨hdie, hasCpus_of_on hs hc⟩) hd.di
  rw [h7]
  dsimp only
  generalize hall : addLevelsTo st.levels (addLevelsTo levels [.package, .core]) = all
  have hmem : ∀ l, l ∈ all ↔ l ∈ st.levels ∨ l ∈ levels ∨ l = .package ∨ l = .core := by
    intro l
    rw [← hall, mem_addLevelsTo, mem_addLevelsTo]
    simp
  have ht2 : TI m on (fun _ l => l = .CPU ∨ l ∈ all) (fun _ => Level.die ∈ all) t2 := by
    refine h8.mono (fun c hc l hl => ?_) fun c _ hdie => ?_
    · rcases hl with hl | hl
      · exact Or.inl (Or.inl (Or.inl hl))
      · rcases (hmem l).1 hl with hl | hl | hl
        · exact Or.inl (Or.inl (Or.inr hl))
        · cases l
          · exact Or.inl (Or.inl (Or.inl rfl))
          · exact Or.inl (Or.inr ⟨hin c hc, Or.inr rfl⟩)
          · exact Or.inr ⟨hin c hc, by simpa using hl, Or.inl rfl⟩
          · exact Or.inr ⟨hin c hc, by simpa using hl, Or.inr (Or.inl rfl)⟩
          · exact Or.inr ⟨hin c hc, by simpa using hl, Or.inr (Or.inr rfl)⟩
          · exact Or.inl (Or.inr ⟨hin c hc, Or.inl rfl⟩)
        · exact Or.inl (Or.inr ⟨hin c hc, hl⟩)
    · rcases hdie with hdie | ⟨hdie, _⟩
      · exact (hmem _).2 (Or.inl hdie.1)
      · exact (hmem _).2 (Or.inr (Or.inl (by simpa using hdie)))
  have hdieAll : Level.die ∈ all ↔ Level.die ∈ st.levels ∨ Level.die ∈ levels := by
    rw [hmem]
    constructor
    · rintro (h | h | h | h)
      · exact Or.inl h
      · exact Or.inr h
      · cases h
      · cases h
    · exact fun h => h.imp id Or.inl
  -- The lines of I/O dies.
  obtain ⟨io', ios, g1, g2, g3, g4, g5⟩ : ∃ io' ios,
      (if Level.die ∈ levels then
        addIoDies h { st with cpus := online, computeDies := cd, ioDies := io } (values t2)
      else if Level.die ∈ st.levels then
        .ok ({ st with cpus := online, computeDies := cd, ioDies := io },
          addIoDiesCached { st with cpus := online, computeDies := cd, ioDies := io } (values t2))
      else .ok ({ st with cpus := online, computeDies := cd, ioDies := io }, values t2)) =
        .ok ({ st with cpus := online, computeDies := cd, ioDies := io' }, values t2 ++ ios) ∧
      (Level.die ∈ all → IoRows m ios) ∧ (Level.die ∉ all → ios = []) ∧
      DI m (fun p d => Level.die ∈ all ∧ m.HasCpus p d) cd io' ∧
      (Level.die ∈ all → ∀ p d, m.IsIo p d → Mem io' p d) := by
    by_cases e1 : Level.die ∈ levels
    · rw [if_pos e1]
      have ha := hdieAll.2 (Or.inr e1)
      have h9' : DI m m.HasCpus cd io :=
        h9.congr fun p d => found_iff hs hcpus (Or.inr ⟨hcov, hin⟩) (Or.inr (by simpa using e1)) p d
      obtain ⟨io', ios, k1, k2, k3, k4⟩ := addIoDies_spec
        (st := { st with cpus := online, computeDies := cd, ioDies := io }) hw hs h9' (values t2)
      exact ⟨io', ios, k1, fun _ => k2, fun h => absurd ha h, k3.congr fun p d => ⟨fun h => ⟨ha, h⟩, And.right⟩,
        fun _ => k4⟩
    · rw [if_neg e1]
      have hcd : ∀ p d, Found m (fun p d => Level.die ∈ st.levels ∧ m.HasCpus p d) (decide (Level.die ∈ levels)) online
          p d ↔ Level.die ∈ all ∧ m.HasCpus p d := by
        intro p d
        constructor
        · rintro (h | ⟨h, _⟩)
          · exact ⟨hdieAll.2 (Or.inl h.1), h.2⟩
          · exact absurd (by simpa using h) e1
        · intro h
          exact Or.inl ⟨(hdieAll.1 h.1).resolve_right e1, h.2⟩
      have h9' := h9.congr hcd
      by_cases e2 : Level.die ∈ st.levels
      · rw [if_pos e2]
        have ha := hdieAll.2 (Or.inl e2)
        have h9'' : DI m m.HasCpus cd io := h9'.congr fun p d => ⟨And.right, fun h => ⟨ha, h⟩⟩
        -- Nothing was added to the dies.
        have hio : io = st.ioDies := by
          unfold addLevels at h7
          split at h7
          · cases h7
          · rw [if_neg (by simpa using e1)] at h7
            dsimp only at h7
            split at h7
            · cases h7
            · injection h7 with h7
              injection h7 with h7
              injection h7 with _ _ h7
              exact h7.symm
        obtain ⟨ios, k1, k2⟩ := addIoDiesCached_spec
          (st := { st with cpus := online, computeDies := cd, ioDies := io }) h9''
          (by intro p d hi; show Mem io p d; rw [hio]; exact hd.all e2 p d hi) (values t2)
        rw [k1]
        exact ⟨io, ios, rfl, fun _ => k2, fun h => absurd ha h, h9', by rw [hio]; exact fun _ => hd.all e2⟩
      · rw [if_neg e2]
        have ha : Level.die ∉ all := fun h => (hdieAll.1 h).elim e2 e1
        exact ⟨io, [], by simp, fun h => absurd h ha, fun _ => rfl, h9', fun h => absurd h ha⟩
  rw [g1]
  dsimp only
  have hpk : Level.package ∈ all := (hmem _).2 (by simp)
  have hco : Level.core ∈ all := (hmem _).2 (by simp)
  have hcp : Level.CPU ∈ all := (hmem _).2 (by
    rcases hcpu with h | h
    · exact Or.inl h
    · exact Or.inr (Or.inl h))
  have hord : order ∈ all := (hmem _).2 (by
    rcases ho with h | h
    · exact Or.inl h
    · exact Or.inr (Or.inl h))
  have hbase : Base m on all (values t2 ++ ios) := ⟨hs.sub, t2, ios, rfl, ht2, g2, g3⟩
  obtain ⟨T, k1, k2⟩ := sortAll_spec (values t2 ++ ios) all
    { st with cpus := online, computeDies := cd, ioDies := io', levels := all }
    fun r hr o ho l hl => hbase.keys hpk hr ho hl
  rw [hall, k1]
  dsimp only
  unfold lookup
  dsimp only
  rw [k2, if_pos hord]
  refine ⟨_, values t2 ++ ios, rfl, hbase, ⟨hcp, hpk, hco, _, hbase, fun l hl => ?_⟩, ⟨g4, g5⟩, h2, rfl, hmem⟩
  show T.get? l = _
  rw [k2, if_pos hl]

/-! ### The invariant -/

/-- The invariant of the object. -/
structure Inv (m : Machine) (asked : Bool) (on : List Nat) (h : Host) (st : St) : Prop where
  shows : Shows m on h
  covers : Covers m on
  cpus : st.cpus = [] ∨ IsOn on st.cpus
  asked : asked = decide (Level.die ∈ st.levels)
  dies : DiesOK m st
  table : (st.levels = [] ∧ st.topology = [] ∧ st.mustUpdate = false) ∨
    ∃ on0, Built m on0 st ∧ (st.mustUpdate = false → ∀ c, c ∈ on0 ↔ c ∈ on)

theorem die_mem_sortingMap {o : Level} : Level.die ∈ sortingMap o ↔ o = .die := by cases o <;> decide

theorem getTopology_spec {h : Host} (hw : m.WF) {asked : Bool} (hi : Inv m asked on h st) (levels : List Level)
    (order : Level) :
    ∃ st' base, getTopology h st levels order = .ok (st', sortRows order base) ∧ Base m on st'.levels base ∧
      (∀ l ∈ levels, l ∈ st'.levels) ∧
      Inv m (asked || decide (Level.die ∈ levels) || decide (order = .die)) on h st' := by
  have hs := hi.shows
  -- The table is made up to date.
  obtain ⟨st1, h1, h2, h3, h4, h5, h6⟩ : ∃ st1, (if st.mustUpdate then updateTopology h st else .ok st) = .ok st1 ∧
      ((st1.levels = [] ∧ st1.topology = []) ∨ Built m on st1) ∧ DiesOK m st1 ∧ st1.levels = st.levels ∧
      (st1.cpus = [] ∨ IsOn on st1.cpus) ∧ st1.mustUpdate = false := by
    rcases hi.table with ⟨e1, e2, e3⟩ | ⟨on0, hb, e⟩
    · rw [if_neg (by rw [e3]; decide)]
      exact ⟨st, rfl, Or.inl ⟨e1, e2⟩, hi.dies, rfl, hi.cpus, e3⟩
    · by_cases hm : st.mustUpdate = true
      · rw [if_pos hm]
        obtain ⟨st', g1, g2, g3, g4, g5, g6⟩ := updateTopology_spec hw hs hi.cpus hb hi.dies
        exact ⟨st', g1, Or.inr g2, g3, g4, Or.inr g5, g6⟩
      · rw [if_neg hm]
        have hm : st.mustUpdate = false := by simpa using hm
        obtain ⟨base, g1, g2⟩ := hb.table
        exact ⟨st, rfl, Or.inr ⟨hb.cpu, hb.package, hb.core, base, g1.congr (e hm), g2⟩, hi.dies, rfl, hi.cpus, hm⟩
  unfold getTopology
  rw [h1]
  dsimp only
  have hasked : asked = decide (Level.die ∈ st1.levels) := by rw [h4]; exact hi.asked
  generalize htodo : (addLevelsTo levels (sortingMap order)).filter (fun l => !st1.levels.contains l) = todo
  have hmem : ∀ l, l ∈ todo ↔ (l ∈ levels ∨ l ∈ sortingMap order) ∧ l ∉ st1.levels := by
    intro l
    rw [← htodo, List.mem_filter, mem_addLevelsTo]
    simp
  have hord : order ∈ sortingMap order := by cases order <;> decide
  have hcpu : Level.CPU ∈ sortingMap order := by cases order <;> decide
  have key : ∀ l, l ∈ levels ∨ l ∈ sortingMap order → l ∈ st1.levels ∨ l ∈ todo := by
    intro l hl
    by_cases h : l ∈ st1.levels
    · exact Or.inl h
    · exact Or.inr ((hmem l).2 ⟨hl, h⟩)
  by_cases hnil : todo = []
  · rw [if_pos hnil]
    have key' : ∀ l, l ∈ levels ∨ l ∈ sortingMap order → l ∈ st1.levels := by
      intro l hl
      rcases key l hl with h | h
      · exact h
      · rw [hnil] at h; cases h
    rcases h2 with ⟨e1, _⟩ | hb
    · have := key' _ (Or.inr hcpu)
      rw [e1] at this
      cases this
    · obtain ⟨base, g1, g2⟩ := hb.table
      unfold lookup
      rw [g2 order (key' _ (Or.inr hord))]
      refine ⟨st1, base, rfl, g1, fun l hl => key' l (Or.inl hl), hs, hi.covers, h5, ?_, h3,
        Or.inr ⟨on, hb, fun _ _ => Iff.rfl⟩⟩
      rw [hasked]
      by_cases hd : Level.die ∈ st1.levels
      · simp [hd]
      · have n1 : Level.die ∉ levels := fun h => hd (key' _ (Or.inl h))
        have n2 : order ≠ .die := fun h => hd (key' _ (Or.inr (die_mem_sortingMap.2 h)))
        simp [hd, n1, n2]
  · rw [if_neg hnil]
    obtain ⟨st', base, g1, g2, g3, g4, g5, g6, g7⟩ := extend_spec hw hs hi.covers h5 h2 h3 todo order
      (key _ (Or.inr hcpu)) (key _ (Or.inr hord))
    refine ⟨st', base, g1, g2, fun l hl => ?_, hs, hi.covers, Or.inr g5, ?_, g4, Or.inr ⟨on, g3, fun _ _ => Iff.rfl⟩⟩
    · rw [g7]
      rcases key l (Or.inl hl) with h | h
      · exact Or.inl h
      · exact Or.inr (Or.inl h)
    · have : Level.die ∈ st'.levels ↔ Level.die ∈ st1.levels ∨ Level.die ∈ levels ∨ order = .die := by
        rw [g7, hmem, die_mem_sortingMap]
        constructor
        · rintro (h | ⟨h, _⟩ | h | h)
          · exact Or.inl h
          · exact Or.inr h
          · cases h
          · cases h
        · intro h
          by_cases hd : Level.die ∈ st1.levels
          · exact Or.inl hd
          · exact Or.inr (Or.inl ⟨h.resolve_left hd, hd⟩)
      rw [hasked, Bool.eq_iff_iff]
      simp only [Bool.or_eq_true, decide_eq_true_eq]
      rw [this, or_assoc]

theorem inv_of_reach (hw : m.WF) {asked : Bool} {h : Host} (hr : Reach m (Covers m) asked on h st) : Inv m asked on h st := by
  induction hr with
  | new on h hs hc =>
    refine ⟨hs, hc, Or.inl rfl, rfl, ⟨⟨fun p d => ?_, fun p l hl => ?_, List.nodup_nil, fun p => Iff.rfl, fun p d hm => ?_,
      fun p l hl => ?_⟩, fun h => ?_⟩, Or.inl ⟨rfl, rfl, rfl⟩⟩
    · constructor
      · rintro ⟨l, h, _⟩; cases h
      · rintro ⟨h, _⟩; cases h
    · cases hl
    · obtain ⟨l, h, _⟩ := hm; cases h
    · cases hl
    · cases h
  | hotplug asked on on' h h' st _ hs hc ih =>
    refine ⟨hs, hc, Or.inl rfl, ih.asked, ⟨ih.dies.di, ih.dies.all⟩, ?_⟩
    rcases ih.table with ⟨e1, e2, e3⟩ | ⟨on0, hb, _⟩
    · refine Or.inl ⟨e1, e2, ?_⟩
      show (if st.topology = [] then st.mustUpdate else true) = false
      rw [if_pos e2]; exact e3
    · refine Or.inr ⟨on0, ⟨hb.cpu, hb.package, hb.core, hb.table⟩, fun h => ?_⟩
      have hne : st.topology ≠ [] := by
        intro e
        obtain ⟨base, _, g⟩ := hb.table
        have := g _ hb.cpu
        rw [e] at this
        cases this
      have h : (if st.topology = [] then st.mustUpdate else true) = false := h
      rw [if_neg hne] at h
      cases h
  | cpus asked on h st st' l _ ho ih =>
    obtain ⟨l', h1, h2⟩ := onlineCpus_spec ih.shows ih.cpus
    rw [ho] at h1
    cases h1
    exact ⟨ih.shows, ih.covers, Or.inr h2, ih.asked, ⟨ih.dies.di, ih.dies.all⟩,
      ih.table.imp id fun ⟨on0, hb, e⟩ => ⟨on0, ⟨hb.cpu, hb.package, hb.core, hb.table⟩, e⟩⟩
  | get asked on h st st' levels order rows _ hg ih =>
    obtain ⟨st1, base, h1, _, _, h4⟩ := getTopology_spec hw ih levels order
    rw [hg] at h1
    cases h1
    exact h4

/-- Reading the table off. -/
theorem correct_of_base (hw : m.WF) {lv levels : List Level} {base : List Row} (hb : Base m on lv base)
    (hn : on.Nodup) (hl : ∀ l ∈ levels, l ∈ lv) (order : Level) :
    Correct m on (decide (Level.die ∈ lv)) levels order (sortRows order base) := by
  have hperm := sortRows_perm order base
  have hrows : ∀ r, r ∈ sortRows order base ↔ r ∈ base := fun r => hperm.mem_iff
  have hb' := hb
  obtain ⟨t, ios, rfl, h1, h2, h3⟩ := hb.lines
  have hv : ∀ r ∈ values t, r.cpu ≠ NA := by
    intro r hr
    obtain ⟨c, hc, h4⟩ := h1.values_row hr
    rw [h4.cpu]
    exact cpu_ne_na hw (hb'.sub c hc)
  have hio : ∀ r ∈ ios, r.cpu = NA := by
    intro r hr
    by_cases hd : Level.die ∈ lv
    · exact (h2 hd).na hr
    · rw [h3 hd] at hr; cases hr
  refine ⟨sortRows_sorted _ _, ?_, fun r hr c hc e l hl' => ?_, fun r => ?_, ?_⟩
  · have e1 : (values t ++ ios).filter (fun r => decide (r.cpu ≠ NA)) = values t := by
      rw [List.filter_append, List.filter_eq_self.2 (by intro r hr; simpa using hv r hr),
        List.filter_eq_nil_iff.2 (by intro r hr; simpa using hio r hr), List.append_nil]
    refine ((hperm.filter _).map _).trans ?_
    rw [e1, h1.values_cpus]
    refine (List.perm_ext_iff_of_nodup h1.keys ?_).2 fun k => ?_
    · rw [List.Nodup, List.pairwise_map]
      exact hn.imp fun h e => h (by injection e)
    · rw [h1.mem_keys, List.mem_map]
      exact ⟨fun ⟨c, hc, e⟩ => ⟨c, hc, e.symm⟩, fun ⟨c, hc, e⟩ => ⟨c, hc, e.symm⟩⟩
  · obtain ⟨c', hc', h4⟩ := hb'.row ((hrows r).1 hr) (by rw [e]; exact cpu_ne_na hw (hb'.sub c hc))
    have : c' = c := by have := h4.cpu; omega
    subst this
    exact h4.has l (Or.inr (hl l hl'))
  · rw [hrows, List.mem_append, decide_eq_true_eq]
    constructor
    · rintro ⟨hr | hr, hna⟩
      · exact absurd hna (hv r hr)
      · by_cases hd : Level.die ∈ lv
        · exact ⟨hd, ((h2 hd).mem r).1 hr⟩
        · rw [h3 hd] at hr; cases hr
    · rintro ⟨hd, hr⟩
      have := ((h2 hd).mem r).2 hr
      exact ⟨Or.inr this, hio r this⟩
  · have e1 : (values t ++ ios).filter (fun r => decide (r.cpu = NA)) = ios := by
      rw [List.filter_append, List.filter_eq_nil_iff.2 (by intro r hr; simpa using hv r hr),
        List.filter_eq_self.2 (by intro r hr; simpa using hio r hr), List.nil_append]
    refine ((hperm.filter _).nodup_iff).2 ?_
    rw [e1]
    by_cases hd : Level.die ∈ lv
    · exact (h2 hd).nodup
    · rw [h3 hd]; exact List.nodup_nil

end Verif.TopoBuild
