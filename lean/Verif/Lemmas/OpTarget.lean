import Verif.Props.OpTargetSpec

/-!
Lemmas about the OpTarget model.
-/

namespace Verif.OpTarget

open Verif.CPUInfo

/-- `x` succeeds with a result satisfying `S` if `V` holds, and fails with `Error` otherwise. -/
def Outcome {α : Type} (x : Except Exn α) (V : Prop) (S : α → Prop) : Prop :=
  (V → ∃ r, x = .ok r ∧ S r) ∧ (¬ V → x = .error .error)

theorem Outcome.of_ok {α : Type} {x : Except Exn α} {V : Prop} {S : α → Prop} (h : Outcome x V S)
    {r : α} (hr : x = .ok r) : V ∧ S r := by
  by_cases hv : V
  · obtain ⟨r', h1, h2⟩ := h.1 hv
    rw [hr] at h1
    cases h1
    exact ⟨hv, h2⟩
  · rw [h.2 hv] at hr; cases hr

theorem UnitEx.pkg {i : Info} {lvl : Level} {p u : Nat} (h : UnitEx i lvl p u) : PkgEx i p := by
  obtain ⟨-, h2, t, ht, h3, -⟩ := h
  exact ⟨h2, t, ht, h3⟩

/-- `u` is listed under `p`. -/
def InDict (d : Dict Nat (List Nat)) (p u : Nat) : Prop := ∃ us, d.get? p = some us ∧ u ∈ us

theorem inDict_nil {p u : Nat} : ¬ InDict [] p u := by
  rintro ⟨us, h, -⟩; simp at h

theorem inDict_addTo (d : Dict Nat (List Nat)) (k : Nat) (vs : List Nat) (p u : Nat) :
    InDict (addTo d k vs) p u ↔ InDict d p u ∨ (p = k ∧ u ∈ vs) := by
  unfold InDict addTo
  by_cases h : p = k
  · subst h
    rw [Dict.get?_set_self]
    cases hg : d.get? p with
    | none => simp
    | some us => simp
  · rw [Dict.get?_set_ne d _ (fun e => h e.symm)]
    simp [h]

theorem inDict_set_new (d : Dict Nat (List Nat)) (k : Nat) (vs : List Nat) (hk : d.get? k = none)
    (p u : Nat) : InDict (d.set k vs) p u ↔ InDict d p u ∨ (p = k ∧ u ∈ vs) := by
  have : d.set k vs = addTo d k vs := by unfold addTo; rw [hk]; rfl
  rw [this]; exact inDict_addTo d k vs p u

theorem nodup_addTo {d : Dict Nat (List Nat)} (h : d.keys.Nodup) (k : Nat) (vs : List Nat) :
    (addTo d k vs).keys.Nodup := Dict.nodup_keys_set h _ _

theorem mem_keys_addTo (d : Dict Nat (List Nat)) (k : Nat) (vs : List Nat) (p : Nat) :
    p ∈ (addTo d k vs).keys ↔ p = k ∨ p ∈ d.keys := Dict.mem_keys_set _ _ _ _

theorem addTo_ne (d : Dict Nat (List Nat)) (k : Nat) (vs : List Nat) : addTo d k vs ≠ [] := by
  intro h
  have : (addTo d k vs).get? k = none := by rw [h]; rfl
  unfold addTo at this
  rw [Dict.get?_set_self] at this
  cases this

/-! ### Numbers of cores, dies, modules -/

theorem levelNums_outcome (i : Info) (lvl : Level) (hlvl : lvl = .core ∨ lvl = .die) (p : Nat) :
    Outcome (getLevelNums i lvl .package (.nums [p]) lvl) (PkgEx i p)
      (fun us => us.Nodup ∧ ∀ u, u ∈ us ↔ UnitEx i lvl p u) := by
  have hiff : (∃ r, getLevelNums i lvl .package (.nums [p]) lvl = .ok r) ↔ PkgEx i p := by
    rw [getLevelNums_isOk]
    constructor
    · rintro ⟨-, h⟩; exact h _ rfl p (by simp)
    · intro h
      refine ⟨by rcases hlvl with rfl | rfl <;> simp [Level.idx], ?_⟩
      rintro l hl n hn
      cases hl
      rw [List.mem_singleton] at hn
      subst hn
      exact h
  constructor
  · intro h
    obtain ⟨r, hr⟩ := hiff.2 h
    refine ⟨r, hr, nodup_getLevelNums hr, fun u => ?_⟩
    rw [mem_getLevelNums hr]
    simp only [UnitEx, TLine.get, Selects, List.mem_singleton]
    constructor
    · rintro ⟨h1, t, ht, h2, h3, h4⟩; exact ⟨h1, by rw [← h3]; exact h2, t, ht, h3, h4⟩
    · rintro ⟨h1, h2, t, ht, h3, h4⟩; exact ⟨h1, t, ht, by rw [h3]; exact h2, h3, h4⟩
  · intro h
    exact getLevelNums_error (fun hex => h (hiff.1 hex))

theorem normalizeUnits_outcome (i : Info) (lvl : Level) (hlvl : lvl = .core ∨ lvl = .die) (nums : Nums)
    (p : Nat) :
    Outcome (normalizeUnits i lvl nums p)
      (PkgEx i p ∧ ∀ l, nums = .nums l → ∀ u ∈ l, UnitEx i lvl p u)
      (fun us => us.Nodup ∧ ∀ u, u ∈ us ↔ Selects nums u ∧ UnitEx i lvl p u) := by
  have h0 := levelNums_outcome i lvl hlvl p
  unfold normalizeUnits
  by_cases hp : PkgEx i p
  · obtain ⟨us, h1, h2, h3⟩ := h0.1 hp
    rw [h1]
    dsimp only
    cases nums with
    | all =>
      refine ⟨fun _ => ⟨us, rfl, h2, fun u => ?_⟩, fun h => absurd ⟨hp, by rintro l ⟨⟩⟩ h⟩
      simp [Selects, h3]
    | nums l =>
      dsimp only
      by_cases hall : (pyDedup l).all (fun u => us.contains u) = true
      · have hall' : ∀ u ∈ l, UnitEx i lvl p u := by
          intro u hu
          rw [List.all_eq_true] at hall
          have := hall u (mem_pyDedup.2 hu)
          rwa [List.contains_iff_mem, h3] at this
        rw [if_pos hall]
        refine ⟨fun _ => ⟨_, rfl, nodup_pyDedup _, fun u => ?_⟩, fun h => absurd ⟨hp, ?_⟩ h⟩
        · rw [mem_pyDedup]
          exact ⟨fun hu => ⟨hu, hall' u hu⟩, fun hu => hu.1⟩
        · rintro l' ⟨⟩; exact hall'
      · rw [if_neg hall]
        refine ⟨fun h => absurd ?_ hall, fun _ => rfl⟩
        rw [List.all_eq_true]
        intro u hu
        rw [List.contains_iff_mem, h3]
        exact h.2 l rfl u (mem_pyDedup.1 hu)
  · rw [h0.2 hp]
    exact ⟨fun h => absurd h.1 hp, fun _ => rfl⟩

theorem normalizeModules_outcome (i : Info) (nums : Nums) :
    Outcome (normalizeModules i nums) (∀ l, nums = .nums l → ∀ m ∈ l, ModEx i m)
      (fun ms => ∀ m, m ∈ ms ↔ Selects nums m ∧ ModEx i m) := by
  have hg : ∃ r, getModules i = .ok r := by
    unfold getModules
    rw [getLevelNums_isOk]
    exact ⟨by simp, by rintro l ⟨⟩⟩
  obtain ⟨us, hus⟩ := hg
  have h3 : ∀ u, u ∈ us ↔ ModEx i u := by
    intro u
    rw [mem_getLevelNums hus]
    constructor
    · rintro ⟨hp, t, ht, -, -, h⟩; exact ⟨hp, t, ht, h⟩
    · rintro ⟨hp, t, ht, h⟩
      exact ⟨hp, t, ht, by simp only [TLine.get, h]; exact hp, trivial, h⟩
  unfold normalizeModules
  rw [hus]
  dsimp only
  cases nums with
  | all =>
    refine ⟨fun _ => ⟨us, rfl, fun u => ?_⟩, fun h => absurd (by rintro l ⟨⟩) h⟩
    simp [Selects, h3]
  | nums l =>
    dsimp only
    by_cases hall : (pyDedup l).all (fun u => us.contains u) = true
    · have hall' : ∀ u ∈ l, ModEx i u := by
        intro u hu
        rw [List.all_eq_true] at hall
        have := hall u (mem_pyDedup.2 hu)
        rwa [List.contains_iff_mem, h3] at this
      rw [if_pos hall]
      refine ⟨fun _ => ⟨_, rfl, fun u => ?_⟩, fun h => absurd ?_ h⟩
      · rw [mem_pyDedup]
        exact ⟨fun hu => ⟨hu, hall' u hu⟩, fun hu => hu.1⟩
      · rintro l' ⟨⟩; exact hall'
    · rw [if_neg hall]
      refine ⟨fun h => absurd ?_ hall, fun _ => rfl⟩
      rw [List.all_eq_true]
      intro u hu
      rw [List.contains_iff_mem, h3]
      exact h l rfl u (mem_pyDedup.1 hu)

theorem normalizePackages_outcome (i : Info) (nums : Nums) :
    Outcome (normalizePackages i nums) (∀ l, nums = .nums l → ∀ p ∈ l, PkgEx i p)
      (fun ps => ps.Nodup ∧ ∀ p, p ∈ ps ↔ Selects nums p ∧ PkgEx i p) := by
  obtain ⟨us, hus, hnd, h3⟩ := getPackages_ok i
  unfold normalizePackages
  rw [hus]
  dsimp only
  cases nums with
  | all =>
    refine ⟨fun _ => ⟨us, rfl, hnd, fun u => ?_⟩, fun h => absurd (by rintro l ⟨⟩) h⟩
    simp [Selects, h3, PkgEx]
  | nums l =>
    dsimp only
    by_cases hall : (pyDedup l).all (fun u => us.contains u) = true
    · have hall' : ∀ u ∈ l, PkgEx i u := by
        intro u hu
        rw [List.all_eq_true] at hall
        have := hall u (mem_pyDedup.2 hu)
        rwa [List.contains_iff_mem, h3] at this
      rw [if_pos hall]
      refine ⟨fun _ => ⟨_, rfl, nodup_pyDedup _, fun u => ?_⟩, fun h => absurd ?_ h⟩
      · rw [mem_pyDedup]
        exact ⟨fun hu => ⟨hu, hall' u hu⟩, fun hu => hu.1⟩
      · rintro l' ⟨⟩; exact hall'
    · rw [if_neg hall]
      refine ⟨fun h => absurd ?_ hall, fun _ => rfl⟩
      rw [List.all_eq_true]
      intro u hu
      rw [List.contains_iff_mem, h3]
      exact h l rfl u (mem_pyDedup.1 hu)

theorem normalizeCpus_outcome (i : Info) (nums : Nums) (off : Bool) :
    Outcome (normalizeCpus i nums off)
      (∀ l, nums = .nums l → ∀ c ∈ l, c ∈ (if off then i.present else i.online))
      (fun r => r.Nodup ∧ ∀ c, c ∈ r ↔ Requested i off nums c) := by
  constructor
  · intro h
    have : ∃ r, normalizeCpus i nums off = .ok r := by
      unfold normalizeCpus
      cases nums with
      | all => exact ⟨_, rfl⟩
      | nums l =>
        dsimp only
        rw [if_pos]
        · exact ⟨_, rfl⟩
        · rw [List.all_eq_true]
          intro c hc
          rw [List.contains_iff_mem]
          exact h l rfl c (mem_pyDedup.1 hc)
    obtain ⟨r, hr⟩ := this
    exact ⟨r, hr, (normalizeCpus_ok hr).1, (normalizeCpus_ok hr).2.1⟩
  · intro h
    unfold normalizeCpus
    cases nums with
    | all => exact absurd (by rintro l ⟨⟩) h
    | nums l =>
      dsimp only
      rw [if_neg]
      intro hall
      refine h ?_
      rintro l' ⟨⟩ c hc
      rw [List.all_eq_true] at hall
      have := hall c (mem_pyDedup.2 hc)
      rwa [List.contains_iff_mem] at this

/-! ### Package-indexed dictionaries -/

theorem pkgUnits_outcome (i : Info) (lvl : Level) (hlvl : lvl = .core ∨ lvl = .die) (ps : List Nat) :
    Outcome (pkgUnits i lvl ps) (∀ p ∈ ps, PkgEx i p)
      (fun l => l.map Prod.fst = ps ∧ ∀ pu ∈ l, ∀ u, u ∈ pu.2 ↔ UnitEx i lvl pu.1 u) := by
  induction ps with
  | nil => exact ⟨fun _ => ⟨[], rfl, rfl, fun _ h => (by cases h)⟩, fun h => absurd (by simp) h⟩
  | cons p ps ih =>
    have h0 := levelNums_outcome i lvl hlvl p
    unfold pkgUnits
    by_cases hp : PkgEx i p
    · obtain ⟨us, h1, h2, h3⟩ := h0.1 hp
      rw [h1]
      dsimp only
      by_cases hps : ∀ p ∈ ps, PkgEx i p
      · obtain ⟨l, h4, h5, h6⟩ := ih.1 hps
        rw [h4]
        refine ⟨fun _ => ⟨_, rfl, by simp [h5], ?_⟩, fun h => absurd ?_ h⟩
        · intro pu hpu
          rcases List.mem_cons.1 hpu with rfl | hpu
          · exact h3
          · exact h6 pu hpu
        · intro q hq
          rcases List.mem_cons.1 hq with rfl | hq
          · exact hp
          · exact hps q hq
      · rw [ih.2 hps]
        exact ⟨fun h => absurd (fun q hq => h q (List.mem_cons_of_mem _ hq)) hps, fun _ => rfl⟩
    · rw [h0.2 hp]
      exact ⟨fun h => absurd (h p List.mem_cons_self) hp, fun _ => rfl⟩

theorem buildNums_outcome (pkg : Nat) (units ns : List Nat) (hnd : ns.Nodup) (m : Dict Nat Nat)
    (res : Dict Nat (List Nat)) (hres : res.keys.Nodup) :
    Outcome (buildNums pkg units ns (m, res)) (∀ n ∈ ns, n ∈ units → m.get? n = none)
      (fun st => st.2.keys.Nodup ∧ (∀ p ∈ st.2.keys, p ∈ res.keys ∨ p = pkg) ∧
        (∀ n, st.1.get? n = none ↔ m.get? n = none ∧ ¬ (n ∈ ns ∧ n ∈ units)) ∧
        ∀ p u, InDict st.2 p u ↔ InDict res p u ∨ (p = pkg ∧ u ∈ ns ∧ u ∈ units)) := by
  induction ns generalizing m res with
  | nil =>
    refine ⟨fun _ => ⟨_, rfl, hres, fun _ h => .inl h, by simp, by simp⟩, fun h => absurd (by simp) h⟩
  | cons n ns ih =>
    obtain ⟨hn, hnd⟩ := List.nodup_cons.1 hnd
    unfold buildNums
    by_cases hu : n ∈ units
    · rw [if_neg (by simpa using hu)]
      cases hm : m.get? n with
      | some v =>
        dsimp only
        refine ⟨fun h => ?_, fun _ => rfl⟩
        rw [h n List.mem_cons_self hu] at hm; cases hm
      | none =>
        dsimp only
        have := ih hnd (m.set n pkg) (addTo res pkg [n]) (nodup_addTo hres _ _)
        have hget : ∀ k, (m.set n pkg).get? k = none ↔ m.get? k = none ∧ k ≠ n := by
          intro k
          by_cases hk : k = n
          · subst hk; simp
          · rw [Dict.get?_set_ne m _ (fun e => hk e.symm)]; simp [hk]
        constructor
        · intro h
          have hV : ∀ k ∈ ns, k ∈ units → (m.set n pkg).get? k = none := by
            intro k hk hku
            rw [hget]
            exact ⟨h k (List.mem_cons_of_mem _ hk) hku, fun e => hn (e ▸ hk)⟩
          obtain ⟨st, h1, h2, h2', h3, h4⟩ := this.1 hV
          refine ⟨st, h1, h2, fun p hp => ?_, fun k => ?_, fun p u => ?_⟩
          · rcases h2' p hp with h | h
            · rw [mem_keys_addTo] at h
              exact h.symm
            · exact .inr h
          · rw [h3, hget]
            by_cases hk : k = n
            · subst hk; simp [hu]
            · simp [hk]
          · rw [h4, inDict_addTo]
            constructor
            · rintro ((h | ⟨rfl, h⟩) | ⟨rfl, h, h'⟩)
              · exact .inl h
              · rw [List.mem_singleton] at h
                subst h
                exact .inr ⟨rfl, List.mem_cons_self, hu⟩
              · exact .inr ⟨rfl, List.mem_cons_of_mem _ h, h'⟩
            · rintro (h | ⟨rfl, h, h'⟩)
              · exact .inl (.inl h)
              · rcases List.mem_cons.1 h with rfl | h
                · exact .inl (.inr ⟨rfl, by simp⟩)
                · exact .inr ⟨rfl, h, h'⟩
        · intro h
          apply this.2
          intro hV
          refine h fun k hk hku => ?_
          rcases List.mem_cons.1 hk with rfl | hk
          · exact hm
          · exact ((hget k).1 (hV k hk hku)).1
    · rw [if_pos (by simpa using hu)]
      have := ih hnd m res hres
      constructor
      · intro h
        obtain ⟨st, h1, h2, h2', h3, h4⟩ := this.1 (fun k hk => h k (List.mem_cons_of_mem _ hk))
        refine ⟨st, h1, h2, h2', fun k => ?_, fun p u => ?_⟩
        · rw [h3]
          by_cases hk : k = n
          · subst hk; simp [hu]
          · simp [hk]
        · rw [h4]
          by_cases hk : u = n
          · subst hk; simp [hu]
          · simp [hk]
      · intro h
        apply this.2
        intro hV
        refine h fun k hk hku => ?_
        rcases List.mem_cons.1 hk with rfl | hk
        · exact absurd hku hu
        · exact hV k hk hku

theorem buildPkgs_outcome (ns : List Nat) (hnd : ns.Nodup) (pl : List (Nat × List Nat)) (m : Dict Nat Nat)
    (res : Dict Nat (List Nat)) (hres : res.keys.Nodup) :
    Outcome (buildPkgs ns pl (m, res))
      ((∀ n ∈ ns, m.get? n ≠ none → ∀ pu ∈ pl, n ∉ pu.2) ∧
        pl.Pairwise (fun a b => ∀ n ∈ ns, n ∈ a.2 → n ∉ b.2))
      (fun st => st.2.keys.Nodup ∧ (∀ p ∈ st.2.keys, p ∈ res.keys ∨ p ∈ pl.map Prod.fst) ∧
        ∀ p u, InDict st.2 p u ↔
        InDict res p u ∨ (u ∈ ns ∧ ∃ us, (p, us) ∈ pl ∧ u ∈ us)) := by
  induction pl generalizing m res with
  | nil =>
    refine ⟨fun _ => ⟨_, rfl, hres, fun _ h => .inl h, by simp⟩, fun h => absurd (by simp) h⟩
  | cons a pl ih =>
    obtain ⟨pkg, units⟩ := a
    have h0 := buildNums_outcome pkg units ns hnd m res hres
    unfold buildPkgs
    by_cases hV : ∀ n ∈ ns, n ∈ units → m.get? n = none
    · obtain ⟨⟨m', res'⟩, h1, h2, h2', h3, h4⟩ := h0.1 hV
      rw [h1]
      dsimp only at h2 h2' h3 h4 ⊢
      have := ih m' res' h2
      constructor
      · rintro ⟨g1, g2⟩
        obtain ⟨g3, g4⟩ := List.pairwise_cons.1 g2
        obtain ⟨st, k1, k2, k2', k3⟩ := this.1 ⟨by
          intro n hn hm pu hpu
          by_cases hmn : m.get? n = none
          · have : n ∈ units := by
              refine Classical.byContradiction fun hu => hm ?_
              exact (h3 n).2 ⟨hmn, fun h => hu h.2⟩
            exact g3 pu hpu n hn this
          · exact g1 n hn hmn pu (List.mem_cons_of_mem _ hpu), g4⟩
        refine ⟨st, k1, k2, fun p hp => ?_, fun p u => ?_⟩
        · rw [List.map_cons, List.mem_cons]
          rcases k2' p hp with h | h
          · rcases h2' p h with h | h
            · exact .inl h
            · exact .inr (.inl h)
          · exact .inr (.inr h)
        rw [k3, h4]
        constructor
        · rintro ((h | ⟨rfl, h, h'⟩) | ⟨h, us, h', h''⟩)
          · exact .inl h
          · exact .inr ⟨h, units, List.mem_cons_self, h'⟩
          · exact .inr ⟨h, us, List.mem_cons_of_mem _ h', h''⟩
        · rintro (h | ⟨h, us, h', h''⟩)
          · exact .inl (.inl h)
          · rcases List.mem_cons.1 h' with h' | h'
            · cases h'
              exact .inl (.inr ⟨rfl, h, h''⟩)
            · exact .inr ⟨h, us, h', h''⟩
      · intro h
        apply this.2
        rintro ⟨g1, g2⟩
        refine h ⟨?_, List.pairwise_cons.2 ⟨?_, g2⟩⟩
        · intro n hn hm pu hpu
          rcases List.mem_cons.1 hpu with rfl | hpu
          · exact fun hu => hm (hV n hn hu)
          · refine g1 n hn (fun e => hm ((h3 n).1 e).1) pu hpu
        · intro pu hpu n hn hu
          refine g1 n hn (fun e => ((h3 n).1 e).2 ⟨hn, hu⟩) pu hpu
    · rw [h0.2 hV]
      refine ⟨?_, fun _ => rfl⟩
      rintro ⟨g1, -⟩
      refine absurd (fun n hn hu => ?_) hV
      refine Classical.byContradiction fun hm => g1 n hn hm (pkg, units) List.mem_cons_self hu

theorem pairwise_of_nodup {α β : Type} {f : α → β} {R : α → α → Prop} {l : List α}
    (hnd : (l.map f).Nodup) (h : ∀ a ∈ l, ∀ b ∈ l, f a ≠ f b → R a b) : l.Pairwise R := by
  induction l with
  | nil => exact List.Pairwise.nil
  | cons a l ih =>
    rw [List.map_cons, List.nodup_cons] at hnd
    refine List.pairwise_cons.2 ⟨fun b hb => h a List.mem_cons_self b (List.mem_cons_of_mem _ hb) ?_, ?_⟩
    · intro e; exact hnd.1 (e ▸ List.mem_map_of_mem hb)
    · exact ih hnd.2 (fun x hx y hy => h x (List.mem_cons_of_mem _ hx) y (List.mem_cons_of_mem _ hy))

theorem pairwise_forall {α : Type} {R : α → α → Prop} (hs : ∀ a b, R a b → R b a) {l : List α}
    (h : l.Pairwise R) : ∀ a ∈ l, ∀ b ∈ l, a ≠ b → R a b := by
  induction l with
  | nil => intro a ha; cases ha
  | cons x l ih =>
    obtain ⟨h1, h2⟩ := List.pairwise_cons.1 h
    intro a ha b hb hab
    rcases List.mem_cons.1 ha with ha' | ha' <;> rcases List.mem_cons.1 hb with hb' | hb'
    · exact absurd (ha'.trans hb'.symm) hab
    · subst ha'; exact h1 b hb'
    · subst hb'; exact hs _ _ (h1 a ha')
    · exact ih h2 a ha' b hb' hab

theorem buildDict_outcome (i : Info) (lvl : Level) (hlvl : lvl = .core ∨ lvl = .die) (l : List Nat)
    (hnd : l.Nodup) :
    Outcome (buildDict i lvl (.nums l))
      (∀ u ∈ l, (∃ p, UnitEx i lvl p u) ∧ ∀ p q, UnitEx i lvl p u → UnitEx i lvl q u → p = q)
      (fun d => d.keys.Nodup ∧ (∀ p ∈ d.keys, PkgEx i p) ∧ ∀ p u, InDict d p u ↔ u ∈ l ∧ UnitEx i lvl p u) := by
  obtain ⟨pkgs, hpkgs, hpn, hpm⟩ := getPackages_ok i
  unfold buildDict
  rw [hpkgs]
  dsimp only
  obtain ⟨pl, h1, h2, h3⟩ := (pkgUnits_outcome i lvl hlvl pkgs).1 (fun p hp => (hpm p).1 hp)
  rw [h1]
  dsimp only
  have hmem : ∀ p u, (∃ us, (p, us) ∈ pl ∧ u ∈ us) ↔ UnitEx i lvl p u := by
    intro p u
    constructor
    · rintro ⟨us, h4, h5⟩; exact (h3 _ h4 u).1 h5
    · intro h
      have : p ∈ pl.map Prod.fst := by rw [h2, hpm]; exact h.pkg
      obtain ⟨⟨p', us⟩, h4, rfl⟩ := List.mem_map.1 this
      exact ⟨us, h4, (h3 _ h4 u).2 h⟩
  have hkn : (pl.map Prod.fst).Nodup := by rw [h2]; exact hpn
  by_cases hall : (l.all fun n => pl.any fun pu => pu.2.contains n) = true
  · rw [if_neg (by simpa using hall)]
    have hex : ∀ u ∈ l, ∃ p, UnitEx i lvl p u := by
      intro u hu
      rw [List.all_eq_true] at hall
      have := hall u hu
      rw [List.any_eq_true] at this
      obtain ⟨⟨p, us⟩, h4, h5⟩ := this
      rw [List.contains_iff_mem] at h5
      exact ⟨p, (hmem p u).1 ⟨us, h4, h5⟩⟩
    have h0 := buildPkgs_outcome l hnd pl [] [] (by simp [Dict.keys])
    have hVV : ((∀ n ∈ l, Dict.get? ([] : Dict Nat Nat) n ≠ none → ∀ pu ∈ pl, n ∉ pu.2) ∧
        pl.Pairwise (fun a b => ∀ n ∈ l, n ∈ a.2 → n ∉ b.2)) ↔
        (∀ u ∈ l, (∃ p, UnitEx i lvl p u) ∧ ∀ p q, UnitEx i lvl p u → UnitEx i lvl q u → p = q) := by
      constructor
      · rintro ⟨-, g⟩ u hu
        refine ⟨hex u hu, fun p q hp hq => ?_⟩
        obtain ⟨us, a1, a2⟩ := (hmem p u).2 hp
        obtain ⟨vs, b1, b2⟩ := (hmem q u).2 hq
        refine Classical.byContradiction fun hne => ?_
        exact pairwise_forall (R := fun a b : Nat × List Nat => ∀ n ∈ l, n ∈ a.2 → n ∉ b.2)
          (fun a b hab n hn hb ha => hab n hn ha hb) g _ a1 _ b1
          (fun e => hne (congrArg Prod.fst e)) u hu a2 b2
      · intro h
        refine ⟨fun n _ hn => absurd rfl hn, ?_⟩
        refine pairwise_of_nodup hkn ?_
        intro a ha b hb hne n hn ha2 hb2
        exact hne ((h n hn).2 a.1 b.1 ((h3 a ha n).1 ha2) ((h3 b hb n).1 hb2))
    constructor
    · intro h
      obtain ⟨⟨m, d⟩, k1, k2, k2', k3⟩ := h0.1 (hVV.2 h)
      rw [k1]
      refine ⟨d, rfl, k2, fun p hp => ?_, fun p u => ?_⟩
      · rcases k2' p hp with h | h
        · simp [Dict.keys] at h
        · rw [h2, hpm] at h; exact h
      · have := k3 p u
        dsimp only at this
        rw [this, hmem]
        simp [inDict_nil]
    · intro h
      rw [h0.2 (fun hh => h (hVV.1 hh))]
  · rw [if_pos (by simpa using hall)]
    refine ⟨fun h => absurd ?_ hall, fun _ => rfl⟩
    rw [List.all_eq_true]
    intro u hu
    obtain ⟨p, hp⟩ := (h u hu).1
    obtain ⟨us, a1, a2⟩ := (hmem p u).2 hp
    rw [List.any_eq_true]
    exact ⟨_, a1, by rw [List.contains_iff_mem]; exact a2⟩

theorem perPackage_outcome (i : Info) (lvl : Level) (hlvl : lvl = .core ∨ lvl = .die) (nums : Nums)
    (ps : List Nat) (hnd : ps.Nodup) (d : Dict Nat (List Nat)) (hd : d.keys.Nodup)
    (hdis : ∀ p ∈ ps, d.get? p = none) :
    Outcome (perPackage i lvl nums ps d)
      (∀ p ∈ ps, PkgEx i p ∧ ∀ l, nums = .nums l → ∀ u ∈ l, UnitEx i lvl p u)
      (fun r => r.keys.Nodup ∧ (∀ p, p ∈ r.keys ↔ p ∈ d.keys ∨ p ∈ ps) ∧
        ∀ p u, InDict r p u ↔ InDict d p u ∨ (p ∈ ps ∧ Selects nums u ∧ UnitEx i lvl p u)) := by
  induction ps generalizing d with
  | nil => exact ⟨fun _ => ⟨_, rfl, hd, by simp, by simp⟩, fun h => absurd (by simp) h⟩
  | cons p ps ih =>
    obtain ⟨hp, hps⟩ := List.nodup_cons.1 hnd
    have h0 := normalizeUnits_outcome i lvl hlvl nums p
    unfold perPackage
    by_cases hV : PkgEx i p ∧ ∀ l, nums = .nums l → ∀ u ∈ l, UnitEx i lvl p u
    · obtain ⟨us, h1, h2, h3⟩ := h0.1 hV
      rw [h1]
      dsimp only
      have := ih hps (d.set p us) (Dict.nodup_keys_set hd _ _) (by
        intro q hq
        have hne : p ≠ q := by rintro rfl; exact hp hq
        rw [Dict.get?_set_ne d _ hne]
        exact hdis q (List.mem_cons_of_mem _ hq))
      constructor
      · intro h
        obtain ⟨r, k1, k2, k3, k4⟩ := this.1 (fun q hq => h q (List.mem_cons_of_mem _ hq))
        refine ⟨r, k1, k2, fun q => ?_, fun q u => ?_⟩
        · rw [k3, Dict.mem_keys_set, List.mem_cons]
          constructor
          · rintro ((h | h) | h)
            · first | exact .inr (.inl h) | exact .inl h
            · first | exact .inl h | exact .inr (.inl h)
            · exact .inr (.inr h)
          · rintro (h | h | h)
            · first | exact .inl (.inl h) | exact .inl (.inr h)
            · first | exact .inl (.inl h) | exact .inl (.inr h)
            · exact .inr h
        · rw [k4, inDict_set_new d p us (hdis p List.mem_cons_self)]
          constructor
          · rintro ((h | ⟨rfl, h'⟩) | ⟨h, h'⟩)
            · exact .inl h
            · exact .inr ⟨List.mem_cons_self, (h3 u).1 h'⟩
            · exact .inr ⟨List.mem_cons_of_mem _ h, h'⟩
          · rintro (h | ⟨h, h'⟩)
            · exact .inl (.inl h)
            · rcases List.mem_cons.1 h with rfl | h
              · exact .inl (.inr ⟨rfl, (h3 u).2 h'⟩)
              · exact .inr ⟨h, h'⟩
      · intro h
        apply this.2
        intro hh
        refine h fun q hq => ?_
        rcases List.mem_cons.1 hq with rfl | hq
        · exact hV
        · exact hh q hq
    · rw [h0.2 hV]
      exact ⟨fun h => absurd (h p List.mem_cons_self) hV, fun _ => rfl⟩

theorem dictUnits_outcome (i : Info) (lvl : Level) (hlvl : lvl = .core ∨ lvl = .die) (pkg : Nat)
    (hp : PkgEx i pkg) (us : List Nat) (d : Dict Nat (List Nat)) (hd : d.keys.Nodup) :
    Outcome (dictUnits i lvl pkg us d) (∀ u ∈ us, UnitEx i lvl pkg u)
      (fun r => r.keys.Nodup ∧ (r = [] ↔ d = [] ∧ us = []) ∧
        (∀ p ∈ r.keys, p ∈ d.keys ∨ p = pkg) ∧
        ∀ p u, InDict r p u ↔ InDict d p u ∨ (p = pkg ∧ u ∈ us)) := by
  induction us generalizing d with
  | nil => exact ⟨fun _ => ⟨_, rfl, hd, by simp, fun _ h => .inl h, by simp⟩, fun h => absurd (by simp) h⟩
  | cons u us ih =>
    have h0 := normalizeUnits_outcome i lvl hlvl (.nums [u]) pkg
    unfold dictUnits
    by_cases hV : UnitEx i lvl pkg u
    · obtain ⟨_, h1, -, -⟩ := h0.1 ⟨hp, by
        rintro l hl v hv
        cases hl
        rw [List.mem_singleton] at hv
        subst hv
        exact hV⟩
      rw [h1]
      dsimp only
      generalize hd' : (if ((d.get? pkg).getD []).contains u = true then d else addTo d pkg [u]) = d'
      have e1 : d'.keys.Nodup := by
        subst hd'; split
        · exact hd
        · exact nodup_addTo hd _ _
      have e2 : ∀ p v, InDict d' p v ↔ InDict d p v ∨ (p = pkg ∧ v = u) := by
        intro p v
        subst hd'; split
        · rename_i hc
          refine ⟨.inl, ?_⟩
          rintro (h | ⟨rfl, rfl⟩)
          · exact h
          · rw [List.contains_iff_mem] at hc
            cases hg : d.get? p with
            | none => rw [hg] at hc; simp at hc
            | some us => rw [hg] at hc; exact ⟨us, hg, hc⟩
        · rw [inDict_addTo]; simp
      have e3 : d' ≠ [] := by
        intro h
        have : InDict d' pkg u := (e2 pkg u).2 (.inr ⟨rfl, rfl⟩)
        rw [h] at this
        exact inDict_nil this
      have e4 : ∀ p ∈ d'.keys, p ∈ d.keys ∨ p = pkg := by
        intro p hp
        subst hd'; split at hp
        · exact .inl hp
        · rw [mem_keys_addTo] at hp; exact hp.symm
      have := ih d' e1
      constructor
      · intro h
        obtain ⟨r, k1, k2, k3, k3', k4⟩ := this.1 (fun v hv => h v (List.mem_cons_of_mem _ hv))
        refine ⟨r, k1, k2, ?_, fun p hp => ?_, fun p v => ?_⟩
        · rw [k3]; simp [e3]
        · rcases k3' p hp with h | h
          · exact e4 p h
          · exact .inr h
        · rw [k4, e2, List.mem_cons]
          constructor
          · rintro ((h | ⟨h, h'⟩) | ⟨h, h'⟩)
            · exact .inl h
            · exact .inr ⟨h, .inl h'⟩
            · exact .inr ⟨h, .inr h'⟩
          · rintro (h | ⟨h, h' | h'⟩)
            · exact .inl (.inl h)
            · exact .inl (.inr ⟨h, h'⟩)
            · exact .inr ⟨h, h'⟩
      · intro h
        apply this.2
        intro hh
        refine h fun v hv => ?_
        rcases List.mem_cons.1 hv with rfl | hv
        · exact hV
        · exact hh v hv
    · rw [h0.2 (fun h => hV (h.2 _ rfl u (by simp)))]
      exact ⟨fun h => absurd (h u List.mem_cons_self) hV, fun _ => rfl⟩

theorem dictPkgs_outcome (i : Info) (lvl : Level) (hlvl : lvl = .core ∨ lvl = .die)
    (pl : List (Nat × List Nat)) (d : Dict Nat (List Nat)) (hd : d.keys.Nodup) :
    Outcome (dictPkgs i lvl pl d) (∀ pu ∈ pl, PkgEx i pu.1 ∧ ∀ u ∈ pu.2, UnitEx i lvl pu.1 u)
      (fun r => r.keys.Nodup ∧ (r = [] ↔ d = [] ∧ ∀ pu ∈ pl, pu.2 = []) ∧
        (∀ p ∈ r.keys, p ∈ d.keys ∨ p ∈ pl.map Prod.fst) ∧
        ∀ p u, InDict r p u ↔ InDict d p u ∨ ∃ us, (p, us) ∈ pl ∧ u ∈ us) := by
  induction pl generalizing d with
  | nil => exact ⟨fun _ => ⟨_, rfl, hd, by simp, fun _ h => .inl h, by simp⟩, fun h => absurd (by simp) h⟩
  | cons a pl ih =>
    obtain ⟨p, us⟩ := a
    have h0 := normalizePackages_outcome i (.nums [p])
    unfold dictPkgs
    by_cases hp : PkgEx i p
    · obtain ⟨_, h1, -, -⟩ := h0.1 (by
        rintro l hl v hv
        cases hl
        rw [List.mem_singleton] at hv
        subst hv
        exact hp)
      rw [h1]
      dsimp only
      have h2 := dictUnits_outcome i lvl hlvl p hp us d hd
      by_cases hV : ∀ u ∈ us, UnitEx i lvl p u
      · obtain ⟨d', k1, k2, k3, k3', k4⟩ := h2.1 hV
        rw [k1]
        dsimp only
        have := ih d' k2
        constructor
        · intro h
          obtain ⟨r, g1, g2, g3, g3', g4⟩ := this.1 (fun v hv => h v (List.mem_cons_of_mem _ hv))
          refine ⟨r, g1, g2, ?_, fun q hq => ?_, fun q v => ?_⟩
          rotate_left
          · rw [List.map_cons, List.mem_cons]
            rcases g3' q hq with h | h
            · rcases k3' q h with h | h
              · exact .inl h
              · exact .inr (.inl h)
            · exact .inr (.inr h)
          rotate_left
          · rw [g3, k3]
            simp only [List.mem_cons, forall_eq_or_imp]
            exact and_assoc
          · rw [g4, k4]
            constructor
            · rintro ((h | ⟨rfl, h'⟩) | ⟨vs, h, h'⟩)
              · exact .inl h
              · exact .inr ⟨us, List.mem_cons_self, h'⟩
              · exact .inr ⟨vs, List.mem_cons_of_mem _ h, h'⟩
            · rintro (h | ⟨vs, h, h'⟩)
              · exact .inl (.inl h)
              · rcases List.mem_cons.1 h with h | h
                · cases h
                  exact .inl (.inr ⟨rfl, h'⟩)
                · exact .inr ⟨vs, h, h'⟩
        · intro h
          apply this.2
          intro hh
          refine h fun v hv => ?_
          rcases List.mem_cons.1 hv with rfl | hv
          · exact ⟨hp, hV⟩
          · exact hh v hv
      · rw [h2.2 hV]
        exact ⟨fun h => absurd (h _ List.mem_cons_self).2 hV, fun _ => rfl⟩
    · rw [h0.2 (fun h => hp (h _ rfl p (by simp)))]
      exact ⟨fun h => absurd (h _ List.mem_cons_self).1 hp, fun _ => rfl⟩

/-! ### The constructor -/

theorem truthy_iff (o : Option Nums) : truthy o = true ↔ Given o := by
  cases o with
  | none => simp [truthy, Given]
  | some n => cases n <;> simp [truthy, Given]

theorem unitTruthy_iff (a : UnitArg) : a.truthy = true ↔ UnitGiven a := by
  cases a with
  | none => simp [UnitArg.truthy, UnitGiven]
  | nums n => exact truthy_iff (some n)
  | dict d => simp [UnitArg.truthy, UnitGiven]

theorem isAll_iff (a : UnitArg) : a.isAll = true ↔ a = .nums .all := by
  cases a with
  | none => simp [UnitArg.isAll]
  | nums n => cases n <;> simp [UnitArg.isAll]
  | dict d => simp [UnitArg.isAll]

theorem selects_parse (n : Nums) (u : Nat) : Selects (parse n) u ↔ Picks (some n) u := by
  cases n with
  | all => simp [parse, Selects, Picks]
  | nums l => simp [parse, Selects, Picks, mem_pyDedup]

theorem requested_parse (i : Info) (off : Bool) (n : Nums) (c : Nat) :
    Requested i off (parse n) c ↔ Requested i off n c := by
  cases n with
  | all => rfl
  | nums l => simp [parse, Requested, mem_pyDedup]

/-- The cores (dies) argument is fine, if `pkgs` are the packages given (`pk`). -/
def ArgOk (i : Info) (lvl : Level) (pk : Bool) (pkgs : List Nat) : UnitArg → Prop
  | .none => True
  | .nums .all => True
  | .nums (.nums l) =>
    if pk = true then ∀ p ∈ pkgs, ∀ u ∈ l, UnitEx i lvl p u
    else ∀ u ∈ l, (∃ p, UnitEx i lvl p u) ∧ ∀ p q, UnitEx i lvl p u → UnitEx i lvl q u → p = q
  | .dict d => ∀ pu ∈ d, PkgEx i pu.1 ∧ ∀ u ∈ pu.2, UnitEx i lvl pu.1 u

/-- What the cores (dies) argument selects, if `pkgs` are the packages given (`pk`). -/
def ArgPicks (i : Info) (lvl : Level) (pk : Bool) (pkgs : List Nat) : UnitArg → Nat → Nat → Prop
  | .none, _, _ => False
  | .nums n, p, u => Picks (some n) u ∧ UnitEx i lvl p u ∧ (pk = true → p ∈ pkgs)
  | .dict d, p, u => ∃ us, (p, us) ∈ d ∧ u ∈ us

/-- What is known about `self.cores` and `self.dies`. -/
structure UnitsOk (i : Info) (lvl : Level) (d : Dict Nat (List Nat)) : Prop where
  nodup : d.keys.Nodup
  pkgs : ∀ p ∈ d.keys, PkgEx i p
  units : ∀ p u, InDict d p u → UnitEx i lvl p u

theorem initUnits_outcome (i : Info) (lvl : Level) (hlvl : lvl = .core ∨ lvl = .die) (arg : UnitArg)
    (pk : Bool) (pkgs : List Nat) (hnd : pkgs.Nodup) (hex : ∀ p ∈ pkgs, PkgEx i p)
    (hall : arg = .nums .all → pk = true) :
    Outcome (initUnits i lvl arg pk pkgs) (ArgOk i lvl pk pkgs arg)
      (fun d => UnitsOk i lvl d ∧ (∀ p u, InDict d p u ↔ ArgPicks i lvl pk pkgs arg p u) ∧
        (UnitNumbers arg → d = [] → pk = true ∧ pkgs = []) ∧ (¬ UnitNumbers arg → d = [])) := by
  have hempty : UnitsOk i lvl [] :=
    ⟨by simp [Dict.keys], by simp [Dict.keys], fun p u h => absurd h inDict_nil⟩
  unfold initUnits
  cases arg with
  | none =>
    refine ⟨fun _ => ⟨[], rfl, hempty, ?_, fun h => h.elim, fun _ => rfl⟩, fun h => absurd trivial h⟩
    intro p u
    simp [ArgPicks, inDict_nil]
  | nums n =>
    cases ht : (UnitArg.nums n).truthy with
    | false =>
      rw [if_pos (by rfl)]
      have hn : n = .nums [] := by
        cases n with
        | all => simp [UnitArg.truthy, truthy] at ht
        | nums l => simpa [UnitArg.truthy, truthy] using ht
      subst hn
      refine ⟨fun _ => ⟨[], rfl, hempty, ?_, fun h => absurd rfl h, fun _ => rfl⟩, fun h => absurd ?_ h⟩
      · intro p u
        simp [ArgPicks, Picks, inDict_nil]
      · simp [ArgOk]
    | true =>
      rw [if_neg (by simp)]
      dsimp only
      have hgiven : UnitNumbers (.nums n) := (truthy_iff (some n)).1 ht
      cases pk with
      | true =>
        rw [if_neg (by simp)]
        have h0 := perPackage_outcome i lvl hlvl (parse n) pkgs hnd [] (by simp [Dict.keys])
          (fun _ _ => rfl)
        have hV : (∀ p ∈ pkgs, PkgEx i p ∧ ∀ l, parse n = .nums l → ∀ u ∈ l, UnitEx i lvl p u) ↔
            ArgOk i lvl true pkgs (.nums n) := by
          cases n with
          | all =>
            refine ⟨fun _ => trivial, fun _ p hp => ⟨hex p hp, ?_⟩⟩
            rintro l hl
            cases hl
          | nums l =>
            simp only [ArgOk, if_true]
            constructor
            · intro h p hp u hu
              exact (h p hp).2 _ rfl u (mem_pyDedup.2 hu)
            · intro h p hp
              refine ⟨hex p hp, ?_⟩
              rintro l' hl u hu
              cases hl
              exact h p hp u (mem_pyDedup.1 hu)
        constructor
        · intro h
          obtain ⟨d, k1, k2, k3, k4⟩ := h0.1 (hV.2 h)
          have hin : ∀ p u, InDict d p u ↔ ArgPicks i lvl true pkgs (.nums n) p u := by
            intro p u
            rw [k4, selects_parse]
            simp only [ArgPicks, forall_const]
            constructor
            · rintro (h | ⟨h1, h2, h3⟩)
              · exact absurd h inDict_nil
              · exact ⟨h2, h3, h1⟩
            · rintro ⟨h2, h3, h1⟩
              exact .inr ⟨h1, h2, h3⟩
          refine ⟨d, k1, ⟨k2, ?_, fun p u h => ((hin p u).1 h).2.1⟩, hin, ?_, fun h => absurd hgiven h⟩
          · intro p hp
            rcases (k3 p).1 hp with h | h
            · simp [Dict.keys] at h
            · exact hex p h
          · intro _ hd
            refine ⟨rfl, List.eq_nil_iff_forall_not_mem.2 fun p hp => ?_⟩
            have := (k3 p).2 (.inr hp)
            rw [hd] at this
            simp [Dict.keys] at this
        · intro h
          exact h0.2 (fun hh => h (hV.1 hh))
      | false =>
        rw [if_pos (by simp)]
        cases n with
        | all => exact absurd (hall rfl) (by simp)
        | nums l =>
          have h0 := buildDict_outcome i lvl hlvl (pyDedup l) (nodup_pyDedup l)
          have hV : (∀ u ∈ pyDedup l, (∃ p, UnitEx i lvl p u) ∧
              ∀ p q, UnitEx i lvl p u → UnitEx i lvl q u → p = q) ↔
              ArgOk i lvl false pkgs (.nums (.nums l)) := by
            simp only [ArgOk, mem_pyDedup]
            simp
          constructor
          · intro h
            obtain ⟨d, k1, k2, k3, k4⟩ := h0.1 (hV.2 h)
            have hin : ∀ p u, InDict d p u ↔ ArgPicks i lvl false pkgs (.nums (.nums l)) p u := by
              intro p u
              rw [k4, mem_pyDedup]
              simp [ArgPicks, Picks]
            refine ⟨d, k1, ⟨k2, k3, fun p u h => ((hin p u).1 h).2.1⟩, hin, ?_,
              fun h => absurd hgiven h⟩
            intro _ hd
            exfalso
            obtain ⟨u, hu⟩ := List.exists_mem_of_ne_nil _ hgiven
            obtain ⟨p, hp⟩ := ((hV.2 h) u (mem_pyDedup.2 hu)).1
            have := (k4 p u).2 ⟨mem_pyDedup.2 hu, hp⟩
            rw [hd] at this
            exact inDict_nil this
          · intro h
            exact h0.2 (fun hh => h (hV.1 hh))
  | dict l =>
    have h0 := dictPkgs_outcome i lvl hlvl l [] (by simp [Dict.keys])
    have hS : ∀ d : Dict Nat (List Nat), (d.keys.Nodup ∧ (d = [] ↔ ([] : Dict Nat (List Nat)) = [] ∧ ∀ pu ∈ l, pu.2 = []) ∧
        (∀ p ∈ d.keys, p ∈ Dict.keys ([] : Dict Nat (List Nat)) ∨ p ∈ l.map Prod.fst) ∧
        ∀ p u, InDict d p u ↔ InDict [] p u ∨ ∃ us, (p, us) ∈ l ∧ u ∈ us) →
        ArgOk i lvl pk pkgs (.dict l) →
        UnitsOk i lvl d ∧ (∀ p u, InDict d p u ↔ ArgPicks i lvl pk pkgs (.dict l) p u) ∧
        (UnitNumbers (.dict l) → d = [] → pk = true ∧ pkgs = []) ∧ (¬ UnitNumbers (.dict l) → d = []) := by
      rintro d ⟨k1, k2, k3, k4⟩ hok
      have hin : ∀ p u, InDict d p u ↔ ArgPicks i lvl pk pkgs (.dict l) p u := by
        intro p u
        rw [k4]
        simp [ArgPicks, inDict_nil]
      refine ⟨⟨k1, ?_, ?_⟩, hin, ?_, ?_⟩
      · intro p hp
        rcases k3 p hp with h | h
        · simp [Dict.keys] at h
        · obtain ⟨pu, h1, rfl⟩ := List.mem_map.1 h
          exact (hok pu h1).1
      · intro p u h
        obtain ⟨us, h1, h2⟩ := (hin p u).1 h
        exact (hok _ h1).2 u h2
      · rintro ⟨pu, h1, h2⟩ hd
        exact absurd ((k2.1 hd).2 pu h1) h2
      · intro h
        refine k2.2 ⟨rfl, fun pu hpu => Classical.byContradiction fun hne => h ⟨pu, hpu, hne⟩⟩
    have hsame : (if (!(UnitArg.dict l).truthy) = true then Except.ok []
        else dictPkgs i lvl l []) = dictPkgs i lvl l [] := by
      cases l with
      | nil => rfl
      | cons a l => rfl
    dsimp only
    rw [hsame]
    constructor
    · intro h
      obtain ⟨d, k1, k2⟩ := h0.1 h
      exact ⟨d, k1, hS d k2 h⟩
    · intro h
      exact h0.2 h

theorem optional_outcome (arg : Option Nums) (f : Nums → Except Exn (List Nat)) (V : List Nat → Prop)
    (S : Nums → List Nat → Prop)
    (h : ∀ n, Outcome (f (parse n)) (∀ l, n = .nums l → V l) (S n)) (hV : V []) :
    Outcome (optional arg f) (∀ l, arg = some (.nums l) → V l)
      (fun r => (¬ Given arg → r = []) ∧ ∀ n, arg = some n → Given arg → S n r) := by
  unfold optional
  cases arg with
  | none =>
    refine ⟨fun _ => ⟨[], rfl, fun _ => rfl, ?_⟩, fun h => absurd ?_ h⟩
    · rintro n hn; cases hn
    · rintro n hn; cases hn
  | some n =>
    dsimp only
    by_cases ht : truthy (some n) = true
    · rw [if_pos ht]
      have h0 := h n
      have hg := (truthy_iff _).1 ht
      constructor
      · intro hv
        obtain ⟨r, k1, k2⟩ := h0.1 (fun l hl => hv l (by rw [hl]))
        refine ⟨r, k1, fun h => absurd hg h, ?_⟩
        rintro n' hn' -
        cases hn'
        exact k2
      · intro hv
        exact h0.2 (fun hh => hv (fun l hl => hh l (by cases hl; rfl)))
    · rw [if_neg ht]
      have hg : ¬ Given (some n) := fun h => ht ((truthy_iff _).2 h)
      refine ⟨fun _ => ⟨[], rfl, fun _ => rfl, fun _ _ h => absurd h hg⟩, fun h => absurd ?_ h⟩
      rintro l hl
      cases hl
      cases l with
      | nil => exact hV
      | cons a l => exact absurd (by simp [Given]) hg

open Classical in
theorem defaults_eq (a : Args) : defaults a =
    if Nothing a then { a with cpus := some .all, dies := .nums .all, packages := some .all }
    else if ¬ Given a.packages ∧ PerPackage a then { a with packages := some .all }
    else a := by
  have hN : (!truthy a.cpus && !a.cores.truthy && !truthy a.modules && !a.dies.truthy &&
      !truthy a.packages) = true ↔ Nothing a := by
    simp only [Nothing, ← truthy_iff, ← unitTruthy_iff, Bool.and_eq_true, Bool.not_eq_true',
      Bool.not_eq_true]
    constructor
    · rintro ⟨⟨⟨⟨h1, h2⟩, h3⟩, h4⟩, h5⟩; exact ⟨h1, h2, h3, h4, h5⟩
    · rintro ⟨h1, h2, h3, h4, h5⟩; exact ⟨⟨⟨⟨h1, h2⟩, h3⟩, h4⟩, h5⟩
  unfold defaults
  by_cases h : Nothing a
  · rw [if_pos h]
    dsimp only
    rw [if_pos (hN.2 h)]
    rfl
  · rw [if_neg h]
    dsimp only
    rw [if_neg (fun hh => h (hN.1 hh))]
    have hP : (!truthy a.packages && (a.dies.truthy || a.cores.truthy) && (a.dies.isAll || a.cores.isAll)) =
        true ↔ (¬ Given a.packages ∧ PerPackage a) := by
      have hd : a.dies.isAll = true → a.dies.truthy = true := by
        intro h; rw [isAll_iff] at h; rw [h]; rfl
      have hc : a.cores.isAll = true → a.cores.truthy = true := by
        intro h; rw [isAll_iff] at h; rw [h]; rfl
      simp only [PerPackage, ← truthy_iff, ← isAll_iff, Bool.and_eq_true, Bool.or_eq_true,
        Bool.not_eq_true', Bool.not_eq_true]
      constructor
      · rintro ⟨⟨h1, -⟩, h2⟩; exact ⟨h1, .inr h2⟩
      · rintro ⟨h1, h2 | h2⟩
        · rw [h1] at h2; cases h2
        · refine ⟨⟨h1, ?_⟩, h2⟩
          rcases h2 with h2 | h2
          · exact .inl (hd h2)
          · exact .inr (hc h2)
    by_cases hp : ¬ Given a.packages ∧ PerPackage a
    · rw [if_pos hp, if_pos (hP.2 hp)]
    · rw [if_neg hp, if_neg (fun hh => hp (hP.1 hh))]

/-- What the attributes of the object are. -/
structure TgtOk (i : Info) (a : Args) (t : Tgt) : Prop where
  off : t.offlineOk = a.offlineOk
  cpus : ∀ c, c ∈ t.cpus ↔ (Nothing a ∧ c ∈ (if a.offlineOk then i.present else i.online)) ∨
    ∃ n, a.cpus = some n ∧ Requested i a.offlineOk n c
  avail : ∀ c ∈ t.cpus, c ∈ (if a.offlineOk then i.present else i.online)
  modules : ∀ m, m ∈ t.modules ↔ Picks a.modules m ∧ ModEx i m
  pkgNodup : t.packages.Nodup
  packages : ∀ p, p ∈ t.packages ↔ PkgIn a p ∧ PkgEx i p
  coresOk : UnitsOk i .core t.cores
  cores : ∀ p u, InDict t.cores p u ↔ PicksUnit a a.cores p u ∧ UnitEx i .core p u
  diesOk : UnitsOk i .die t.dies
  dies : ∀ p u, InDict t.dies p u ↔ (Nothing a ∨ PicksUnit a a.dies p u) ∧ UnitEx i .die p u
  coresNum : UnitNumbers a.cores → t.cores = [] → t.packages = []
  coresNo : ¬ UnitNumbers a.cores → t.cores = []
  diesNum : UnitNumbers a.dies → t.dies = [] → t.packages = []
  diesNo : ¬ Nothing a → ¬ UnitNumbers a.dies → t.dies = []
  empty : Nothing a → t.dies = [] → t.packages = []

theorem not_unitNumbers {a : UnitArg} (h : ¬ UnitGiven a) : ¬ UnitNumbers a := by
  cases a with
  | none => exact id
  | nums n => exact h
  | dict d =>
    rintro ⟨pu, h1, -⟩
    refine h ?_
    rintro rfl
    cases h1

theorem picks_given {o : Option Nums} {n : Nat} (h : Picks o n) : Given o := by
  cases o with
  | none => exact h
  | some m =>
    cases m with
    | all => trivial
    | nums l => exact List.ne_nil_of_mem h

theorem requested_given {i : Info} {off : Bool} {n : Nums} {c : Nat} (h : Requested i off n c) :
    Given (some n) := by
  cases n with
  | all => trivial
  | nums l => exact List.ne_nil_of_mem h

theorem requested_avail {i : Info} {off : Bool} {n : Nums} {c : Nat} (h : Requested i off n c)
    (hl : ∀ l, n = .nums l → ∀ c ∈ l, c ∈ (if off then i.present else i.online)) :
    c ∈ (if off then i.present else i.online) := by
  cases n with
  | all => exact h
  | nums l => exact hl l rfl c h

theorem not_unitPicks {a : Args} {arg : UnitArg} (h : ¬ UnitNumbers arg) (p u : Nat) :
    ¬ PicksUnit a arg p u := by
  cases arg with
  | none => exact id
  | nums n => exact fun hh => h (picks_given hh.1)
  | dict d =>
    rintro ⟨us, h1, h2⟩
    exact h ⟨_, h1, List.ne_nil_of_mem h2⟩

/-- The condition the code checks for the arguments in force. -/
theorem initTgt_raw (i : Info) (a b : Args) (hb : defaults a = b)
    (hcore : b.cores = .nums .all → truthy b.packages = true)
    (hdie : b.dies = .nums .all → truthy b.packages = true) :
    Outcome (initTgt i a)
      ((∀ l, b.cpus = some (.nums l) → ∀ c ∈ l, c ∈ (if b.offlineOk then i.present else i.online)) ∧
       (∀ l, b.modules = some (.nums l) → ∀ m ∈ l, ModEx i m) ∧
       (∀ l, b.packages = some (.nums l) → ∀ p ∈ l, PkgEx i p) ∧
       ∀ ps : List Nat, (∀ p, p ∈ ps ↔ Picks b.packages p ∧ PkgEx i p) →
         ArgOk i .core (truthy b.packages) ps b.cores ∧ ArgOk i .die (truthy b.packages) ps b.dies)
      (fun t => t.offlineOk = b.offlineOk ∧ t.coreSib = [] ∧ t.modSib = [] ∧
        (∀ c, c ∈ t.cpus ↔ ∃ n, b.cpus = some n ∧ Requested i b.offlineOk n c) ∧
        (∀ m, m ∈ t.modules ↔ Picks b.modules m ∧ ModEx i m) ∧
        t.packages.Nodup ∧ (∀ p, p ∈ t.packages ↔ Picks b.packages p ∧ PkgEx i p) ∧
        (UnitsOk i .core t.cores ∧
          (∀ p u, InDict t.cores p u ↔ ArgPicks i .core (truthy b.packages) t.packages b.cores p u) ∧
          (UnitNumbers b.cores → t.cores = [] → truthy b.packages = true ∧ t.packages = []) ∧
          (¬ UnitNumbers b.cores → t.cores = [])) ∧
        (UnitsOk i .die t.dies ∧
          (∀ p u, InDict t.dies p u ↔ ArgPicks i .die (truthy b.packages) t.packages b.dies p u) ∧
          (UnitNumbers b.dies → t.dies = [] → truthy b.packages = true ∧ t.packages = []) ∧
          (¬ UnitNumbers b.dies → t.dies = []))) := by
  have o1 := optional_outcome b.cpus (fun n => normalizeCpus i n b.offlineOk)
    (fun l => ∀ c ∈ l, c ∈ (if b.offlineOk then i.present else i.online))
    (fun n r => ∀ c, c ∈ r ↔ Requested i b.offlineOk n c)
    (by
      intro n
      have h0 := normalizeCpus_outcome i (parse n) b.offlineOk
      constructor
      · intro h
        obtain ⟨r, k1, k2, k3⟩ := h0.1 (by
          rintro l hl c hc
          cases n with
          | all => cases hl
          | nums l' => cases hl; exact h l' rfl c (mem_pyDedup.1 hc))
        exact ⟨r, k1, fun c => by rw [k3, requested_parse]⟩
      · intro h
        apply h0.2
        intro hh
        refine h ?_
        rintro l rfl c hc
        exact hh _ rfl c (mem_pyDedup.2 hc)) (by simp)
  have o2 := optional_outcome b.modules (normalizeModules i) (fun l => ∀ m ∈ l, ModEx i m)
    (fun n r => ∀ m, m ∈ r ↔ Picks (some n) m ∧ ModEx i m)
    (by
      intro n
      have h0 := normalizeModules_outcome i (parse n)
      constructor
      · intro h
        obtain ⟨r, k1, k3⟩ := h0.1 (by
          rintro l hl c hc
          cases n with
          | all => cases hl
          | nums l' => cases hl; exact h l' rfl c (mem_pyDedup.1 hc))
        exact ⟨r, k1, fun c => by rw [k3, selects_parse]⟩
      · intro h
        apply h0.2
        intro hh
        refine h ?_
        rintro l rfl c hc
        exact hh _ rfl c (mem_pyDedup.2 hc)) (by simp)
  have o3 := optional_outcome b.packages (normalizePackages i) (fun l => ∀ m ∈ l, PkgEx i m)
    (fun n r => r.Nodup ∧ ∀ m, m ∈ r ↔ Picks (some n) m ∧ PkgEx i m)
    (by
      intro n
      have h0 := normalizePackages_outcome i (parse n)
      constructor
      · intro h
        obtain ⟨r, k1, k2, k3⟩ := h0.1 (by
          rintro l hl c hc
          cases n with
          | all => cases hl
          | nums l' => cases hl; exact h l' rfl c (mem_pyDedup.1 hc))
        exact ⟨r, k1, k2, fun c => by rw [k3, selects_parse]⟩
      · intro h
        apply h0.2
        intro hh
        refine h ?_
        rintro l rfl c hc
        exact hh _ rfl c (mem_pyDedup.2 hc)) (by simp)
  unfold initTgt
  rw [hb]
  dsimp only
  by_cases v1 : ∀ l, b.cpus = some (.nums l) → ∀ c ∈ l, c ∈ (if b.offlineOk then i.present else i.online)
  rotate_left
  · rw [o1.2 v1]; exact ⟨fun h => absurd h.1 v1, fun _ => rfl⟩
  obtain ⟨cpus, e1, e1', e1''⟩ := o1.1 v1
  rw [e1]
  dsimp only
  by_cases v2 : ∀ l, b.modules = some (.nums l) → ∀ m ∈ l, ModEx i m
  rotate_left
  · rw [o2.2 v2]; exact ⟨fun h => absurd h.2.1 v2, fun _ => rfl⟩
  obtain ⟨modules, e2, e2', e2''⟩ := o2.1 v2
  rw [e2]
  dsimp only
  by_cases v3 : ∀ l, b.packages = some (.nums l) → ∀ m ∈ l, PkgEx i m
  rotate_left
  · rw [o3.2 v3]; exact ⟨fun h => absurd h.2.2.1 v3, fun _ => rfl⟩
  obtain ⟨packages, e3, e3', e3''⟩ := o3.1 v3
  rw [e3]
  dsimp only
  have hpk : packages.Nodup ∧ ∀ p, p ∈ packages ↔ Picks b.packages p ∧ PkgEx i p := by
    by_cases hg : Given b.packages
    · cases hbp : b.packages with
      | none => rw [hbp] at hg; exact hg.elim
      | some n => exact e3'' n hbp hg
    · rw [e3' hg]
      exact ⟨List.nodup_nil, fun p => ⟨fun h => (by cases h), fun h => absurd (picks_given h.1) hg⟩⟩
  have c0 := initUnits_outcome i .core (.inl rfl) b.cores (truthy b.packages) packages hpk.1
    (fun p hp => ((hpk.2 p).1 hp).2) hcore
  have d0 := initUnits_outcome i .die (.inr rfl) b.dies (truthy b.packages) packages hpk.1
    (fun p hp => ((hpk.2 p).1 hp).2) hdie
  by_cases v4 : ArgOk i .core (truthy b.packages) packages b.cores
  rotate_left
  · rw [c0.2 v4]; exact ⟨fun h => absurd (h.2.2.2 packages hpk.2).1 v4, fun _ => rfl⟩
  obtain ⟨cores, e4, e4'⟩ := c0.1 v4
  rw [e4]
  dsimp only
  by_cases v5 : ArgOk i .die (truthy b.packages) packages b.dies
  rotate_left
  · rw [d0.2 v5]; exact ⟨fun h => absurd (h.2.2.2 packages hpk.2).2 v5, fun _ => rfl⟩
  obtain ⟨dies, e5, e5'⟩ := d0.1 v5
  rw [e5]
  dsimp only
  have hext : ∀ lvl arg (ps : List Nat), (∀ p, p ∈ ps ↔ Picks b.packages p ∧ PkgEx i p) →
      ArgOk i lvl (truthy b.packages) packages arg → ArgOk i lvl (truthy b.packages) ps arg := by
    intro lvl arg ps hps h
    cases arg with
    | none => trivial
    | dict d => exact h
    | nums n =>
      cases n with
      | all => trivial
      | nums l =>
        simp only [ArgOk] at h ⊢
        split
        · rename_i ht
          rw [if_pos ht] at h
          exact fun p hp => h p ((hpk.2 p).2 ((hps p).1 hp))
        · rename_i ht
          rw [if_neg ht] at h
          exact h
  refine ⟨fun _ => ⟨_, rfl, rfl, rfl, rfl, fun c => ?_, fun m => ?_, hpk.1, hpk.2, e4', e5'⟩,
    fun h => absurd ⟨v1, v2, v3, fun ps hps => ⟨hext _ _ ps hps v4, hext _ _ ps hps v5⟩⟩ h⟩
  · dsimp only
    by_cases hg : Given b.cpus
    · cases hbp : b.cpus with
      | none => rw [hbp] at hg; exact hg.elim
      | some n =>
        rw [e1'' n hbp hg]
        exact ⟨fun h => ⟨n, rfl, h⟩, fun ⟨n', h, h'⟩ => by cases h; exact h'⟩
    · rw [e1' hg]
      constructor
      · intro h; cases h
      · rintro ⟨n, h, h'⟩
        rw [h] at hg
        exact absurd (requested_given h') hg
  · dsimp only
    by_cases hg : Given b.modules
    · cases hbp : b.modules with
      | none => rw [hbp] at hg; exact hg.elim
      | some n => rw [e2'' n hbp hg]
    · rw [e2' hg]
      exact ⟨fun h => (by cases h), fun h => absurd (picks_given h.1) hg⟩

theorem exists_pkgs (i : Info) (P : Nat → Prop) : ∃ ps : List Nat, ∀ p, p ∈ ps ↔ P p ∧ PkgEx i p := by
  classical
  obtain ⟨l, -, -, h⟩ := getPackages_ok i
  refine ⟨l.filter (fun p => decide (P p)), fun p => ?_⟩
  rw [List.mem_filter, h, decide_eq_true_eq]
  exact and_comm

theorem not_given_arg {arg : UnitArg} (h : ¬ UnitGiven arg) :
    arg = .none ∨ arg = .nums (.nums []) ∨ arg = .dict [] := by
  cases arg with
  | none => exact .inl rfl
  | nums n =>
    cases n with
    | all => exact absurd trivial h
    | nums l =>
      simp only [UnitGiven, Given, ne_eq, Classical.not_not] at h
      subst h
      exact .inr (.inl rfl)
  | dict d =>
    simp only [UnitGiven, ne_eq, Classical.not_not] at h
    subst h
    exact .inr (.inr rfl)

theorem validUnits_not_given {i : Info} {a : Args} {lvl : Level} {arg : UnitArg} (h : ¬ UnitGiven arg) :
    ValidUnits i a lvl arg := by
  rcases not_given_arg h with rfl | rfl | rfl <;> simp [ValidUnits]

theorem argOk_not_given {i : Info} {lvl : Level} {pk : Bool} {ps : List Nat} {arg : UnitArg}
    (h : ¬ UnitGiven arg) : ArgOk i lvl pk ps arg := by
  rcases not_given_arg h with rfl | rfl | rfl <;> simp [ArgOk]

theorem not_requested {i : Info} {off : Bool} {o : Option Nums} (h : ¬ Given o) (c : Nat) :
    ¬ ∃ n, o = some n ∧ Requested i off n c := by
  rintro ⟨n, rfl, hn⟩
  exact h (requested_given hn)

theorem initTgt_outcome (i : Info) (a : Args) :
    Outcome (initTgt i a) (Valid i a) (fun t => TgtOk i a t ∧ t.coreSib = [] ∧ t.modSib = []) := by
  by_cases hN : Nothing a
  · have hb := defaults_eq a
    rw [if_pos hN] at hb
    have hr := initTgt_raw i a _ hb (fun _ => rfl) (fun _ => rfl)
    dsimp only at hr
    obtain ⟨n1, n2, n3, n4, n5⟩ := hN
    have hN : Nothing a := ⟨n1, n2, n3, n4, n5⟩
    have hmod : ∀ l, a.modules = some (.nums l) → ∀ m ∈ l, ModEx i m := by
      rintro l hl m hm
      rw [hl] at n3
      exact absurd (List.ne_nil_of_mem hm) n3
    have hV : Valid i a := by
      refine ⟨?_, hmod, ?_, validUnits_not_given n2, validUnits_not_given n4⟩
      · rintro l hl m hm
        rw [hl] at n1
        exact absurd (List.ne_nil_of_mem hm) n1
      · rintro l hl m hm
        rw [hl] at n5
        exact absurd (List.ne_nil_of_mem hm) n5
    refine ⟨fun _ => ?_, fun h => absurd hV h⟩
    obtain ⟨t, k0, k1, k2, k3, k4, k5, k6, k7, ⟨c1, c2, c3, c4⟩, d1, d2, d3, d4⟩ := hr.1
      ⟨by rintro l ⟨⟩, hmod, by rintro l ⟨⟩, fun ps _ => ⟨argOk_not_given n2, trivial⟩⟩
    have hpe : ∀ p, PkgIn a p := fun p => .inr ⟨n5, .inl hN⟩
    refine ⟨t, k0, ⟨k1, fun c => ?_, fun c hc => ?_, k5, k6, fun p => ?_, c1, fun p u => ?_, d1,
      fun p u => ?_, fun h => absurd h (not_unitNumbers n2), c4, fun h => absurd h (not_unitNumbers n4),
      fun h => absurd hN h, fun _ h => (d3 trivial h).2⟩, k2, k3⟩
    · rw [k4]
      constructor
      · rintro ⟨n, h, h'⟩
        cases h
        exact .inl ⟨hN, h'⟩
      · rintro (⟨-, h⟩ | h)
        · exact ⟨.all, rfl, h⟩
        · exact absurd h (not_requested n1 c)
    · obtain ⟨n, h, h'⟩ := (k4 c).1 hc
      cases h
      exact h'
    · rw [k7]
      simp [Picks, hpe p]
    · have hz : t.cores = [] := c4 (not_unitNumbers n2)
      rw [hz]
      exact ⟨fun h => absurd h inDict_nil, fun h => absurd h.1 (not_unitPicks (not_unitNumbers n2) p u)⟩
    · rw [d2]
      simp only [ArgPicks, Picks, true_and, k7, truthy, forall_const, hN, true_or]
      exact ⟨fun h => h.1, fun h => ⟨h, h.pkg⟩⟩
  · -- Some options are given.
    have hb : ∃ b, defaults a = b ∧ b.cpus = a.cpus ∧ b.cores = a.cores ∧ b.modules = a.modules ∧
        b.dies = a.dies ∧ b.offlineOk = a.offlineOk ∧ (truthy b.packages = true ↔ PerPackage a) ∧
        (∀ p, Picks b.packages p ↔ PkgIn a p) ∧
        (∀ l, b.packages = some (.nums l) ↔ (a.packages = some (.nums l) ∧ ¬ (¬ Given a.packages ∧
          PerPackage a))) := by
      have hb := defaults_eq a
      rw [if_neg hN] at hb
      by_cases hp : ¬ Given a.packages ∧ PerPackage a
      · rw [if_pos hp] at hb
        refine ⟨_, hb, rfl, rfl, rfl, rfl, rfl, ⟨fun _ => hp.2, fun _ => rfl⟩, fun p => ?_, fun l => ?_⟩
        · exact ⟨fun _ => .inr ⟨hp.1, .inr hp.2⟩, fun _ => trivial⟩
        · exact ⟨fun h => (by cases h), fun h => absurd hp h.2⟩
      · rw [if_neg hp] at hb
        refine ⟨_, hb, rfl, rfl, rfl, rfl, rfl, ?_, fun p => ?_, fun l => ?_⟩
        · rw [truthy_iff]
          exact ⟨.inl, fun h => Classical.byContradiction fun hg => hp ⟨hg, h⟩⟩
        · refine ⟨.inl, ?_⟩
          rintro (h | ⟨h, h' | h'⟩)
          · exact h
          · exact absurd h' hN
          · exact absurd ⟨h, h'⟩ hp
        · exact ⟨fun h => ⟨h, hp⟩, fun h => h.1⟩
    obtain ⟨b, hb, e1, e2, e3, e4, e5, hpk, hpicks, hnums⟩ := hb
    have hr := initTgt_raw i a b hb (fun h => hpk.2 (.inr (.inr (e2 ▸ h))))
      (fun h => hpk.2 (.inr (.inl (e4 ▸ h))))
    rw [e1, e2, e3, e4, e5] at hr
    have hscope : PerPackage a → ∀ p, PkgIn a p ↔ PkgScope a p := by
      intro hP p
      constructor
      · rintro (h | ⟨h, -⟩)
        · exact fun _ => h
        · exact fun hh => absurd hh h
      · intro h
        by_cases hg : Given a.packages
        · exact .inl (h hg)
        · exact .inr ⟨hg, .inr hP⟩
    have hpkgs : (∀ l, b.packages = some (.nums l) → ∀ p ∈ l, PkgEx i p) ↔
        ∀ l, a.packages = some (.nums l) → ∀ p ∈ l, PkgEx i p := by
      constructor
      · intro h l hl p hpl
        refine h l ((hnums l).2 ⟨hl, fun hh => hh.1 ?_⟩) p hpl
        rw [hl]
        exact List.ne_nil_of_mem hpl
      · intro h l hl
        exact h l ((hnums l).1 hl).1
    have hArg : ∀ lvl arg (ps : List Nat), (∀ p, p ∈ ps ↔ Picks b.packages p ∧ PkgEx i p) →
        (ArgOk i lvl (truthy b.packages) ps arg ↔ ValidUnits i a lvl arg) := by
      intro lvl arg ps hps
      cases arg with
      | none => exact Iff.rfl
      | dict d => exact Iff.rfl
      | nums n =>
        cases n with
        | all => exact Iff.rfl
        | nums l =>
          simp only [ArgOk, ValidUnits]
          by_cases hP : PerPackage a
          · rw [if_pos (hpk.2 hP)]
            constructor
            · intro h u hu
              refine ⟨fun _ p hp hs => h p ?_ u hu, fun hh => absurd hP hh⟩
              rw [hps, hpicks, hscope hP]
              exact ⟨hs, hp⟩
            · intro h p hp u hu
              rw [hps, hpicks, hscope hP] at hp
              exact (h u hu).1 hP p hp.2 hp.1
          · rw [if_neg (fun hh => hP (hpk.1 hh))]
            constructor
            · intro h u hu
              refine ⟨fun hh => absurd hh hP, fun _ => ?_⟩
              obtain ⟨⟨p, hp⟩, hq⟩ := h u hu
              exact ⟨p, hp, fun q hq' => hq q p hq' hp⟩
            · intro h u hu
              obtain ⟨p, hp, hq⟩ := (h u hu).2 hP
              exact ⟨⟨p, hp⟩, fun q r hq' hr' => (hq q hq').trans (hq r hr').symm⟩
    obtain ⟨ps0, hps0⟩ := exists_pkgs i (Picks b.packages)
    have hVV : ((∀ l, a.cpus = some (.nums l) → ∀ c ∈ l, c ∈ (if a.offlineOk then i.present else i.online)) ∧
       (∀ l, a.modules = some (.nums l) → ∀ m ∈ l, ModEx i m) ∧
       (∀ l, b.packages = some (.nums l) → ∀ p ∈ l, PkgEx i p) ∧
       ∀ ps : List Nat, (∀ p, p ∈ ps ↔ Picks b.packages p ∧ PkgEx i p) →
         ArgOk i .core (truthy b.packages) ps a.cores ∧ ArgOk i .die (truthy b.packages) ps a.dies) ↔
       Valid i a := by
      unfold Valid
      rw [hpkgs]
      refine and_congr_right fun _ => and_congr_right fun _ => and_congr_right fun _ => ?_
      constructor
      · intro h
        have := h ps0 hps0
        rwa [hArg _ _ ps0 hps0, hArg _ _ ps0 hps0] at this
      · intro h ps hps
        rwa [hArg _ _ ps hps, hArg _ _ ps hps]
    constructor
    rotate_left
    · intro h
      exact hr.2 (fun hh => h (hVV.1 hh))
    intro hV
    obtain ⟨t, k0, k1, k2, k3, k4, k5, k6, k7, ⟨c1, c2, c3, c4⟩, d1, d2, d3, d4⟩ := hr.1 (hVV.2 hV)
    have hin : ∀ lvl arg p u, UnitEx i lvl p u →
        (ArgPicks i lvl (truthy b.packages) t.packages arg p u ↔ PicksUnit a arg p u) := by
      intro lvl arg p u hu
      cases arg with
      | none => exact Iff.rfl
      | dict d => exact Iff.rfl
      | nums n =>
        simp only [ArgPicks, PicksUnit]
        refine and_congr_right fun _ => ?_
        rw [and_iff_right hu]
        by_cases hP : PerPackage a
        · rw [k7, hpicks, hscope hP]
          exact ⟨fun h => (h (hpk.2 hP)).1, fun h _ => ⟨h, hu.pkg⟩⟩
        · exact ⟨fun _ hg => absurd (.inl hg) hP, fun _ h => absurd (hpk.1 h) hP⟩
    refine ⟨t, k0, ⟨k1, fun c => ?_, fun c hc => ?_, k5, k6, fun p => ?_, c1, fun p u => ?_, d1,
      fun p u => ?_, fun h h' => (c3 h h').2, c4, fun h h' => (d3 h h').2, fun _ => d4,
      fun h => absurd h hN⟩, k2, k3⟩
    · rw [k4]
      exact ⟨.inr, fun h => h.elim (fun h => absurd h.1 hN) id⟩
    · obtain ⟨n, h, h'⟩ := (k4 c).1 hc
      exact requested_avail h' (fun l hl => hV.1 l (by rw [h, hl]))
    · rw [k7, hpicks]
    · constructor
      · intro h
        have hu := c1.units p u h
        exact ⟨(hin _ _ p u hu).1 ((c2 p u).1 h), hu⟩
      · rintro ⟨h, hu⟩
        exact (c2 p u).2 ((hin _ _ p u hu).2 h)
    · constructor
      · intro h
        have hu := d1.units p u h
        exact ⟨.inr ((hin _ _ p u hu).1 ((d2 p u).1 h)), hu⟩
      · rintro ⟨h | h, hu⟩
        · exact absurd h hN
        · exact (d2 p u).2 ((hin _ _ p u hu).2 h)

/-! ### The CPUs -/

theorem unitsCpus_ok (i : Info) (wf : WF i) (lvl : Level) (hlvl : lvl = .core ∨ lvl = .die)
    (d : Dict Nat (List Nat)) (hp : ∀ p ∈ d.keys, PkgEx i p)
    (hu : ∀ p us, (p, us) ∈ d → ∀ u ∈ us, UnitEx i lvl p u) :
    ∃ r, unitsCpus i lvl d = .ok r ∧
      ∀ c, c ∈ r ↔ CpuWith i (fun t => ∃ us, (t.package, us) ∈ d ∧ t.get lvl ∈ us) c := by
  induction d with
  | nil => exact ⟨[], rfl, fun c => ⟨fun h => (by cases h), fun ⟨_, t, _, _, us, h, _⟩ => (by cases h)⟩⟩
  | cons a d ih =>
    obtain ⟨p, us⟩ := a
    obtain ⟨r, h1, h2⟩ := ih (fun q hq => hp q (List.mem_cons_of_mem _ hq))
      (fun q vs h => hu q vs (List.mem_cons_of_mem _ h))
    have hpe : PkgEx i p := hp p List.mem_cons_self
    have hok : ∃ x, inPackageToCpus i lvl (.nums us) (.nums [p]) = .ok x := by
      have g1 : ∃ x, getLevelNums i .CPU lvl (.nums us) .CPU = .ok x := by
        rw [getLevelNums_isOk]
        refine ⟨by simp [Level.idx], ?_⟩
        rintro l hl n hn
        cases hl
        obtain ⟨a1, -, t, ht, -, a2⟩ := hu p us List.mem_cons_self n hn
        exact ⟨a1, t, ht, a2⟩
      have g2 : ∃ x, getLevelNums i .CPU .package (.nums [p]) .CPU = .ok x := by
        rw [getLevelNums_isOk]
        refine ⟨by simp [Level.idx], ?_⟩
        rintro l hl n hn
        cases hl
        rw [List.mem_singleton] at hn
        subst hn
        exact hpe
      obtain ⟨x, hx⟩ := g1
      obtain ⟨y, hy⟩ := g2
      unfold inPackageToCpus
      rw [hx, hy]
      exact ⟨_, rfl⟩
    obtain ⟨x, hx⟩ := hok
    unfold unitsCpus
    rw [hx, h1]
    refine ⟨x ++ r, rfl, fun c => ?_⟩
    rw [List.mem_append, h2, mem_inPackageToCpus wf hx]
    simp only [CpuWith, Selects, List.mem_cons, List.not_mem_nil, or_false]
    constructor
    · rintro (⟨h0, t, ht, h3, h4, h5, h6⟩ | ⟨h0, t, ht, h3, vs, h4, h5⟩)
      · exact ⟨h0, t, ht, h3, us, .inl (by rw [h6]), h5⟩
      · exact ⟨h0, t, ht, h3, vs, .inr h4, h5⟩
    · rintro ⟨h0, t, ht, h3, vs, h4 | h4, h5⟩
      · cases h4
        refine .inl ⟨h0, t, ht, h3, ?_, h5, rfl⟩
        have := wf.cpuLine t ht (by rw [h3]; exact h0)
        rcases hlvl with rfl | rfl
        · exact this.1
        · exact this.2.2.1
      · exact .inr ⟨h0, t, ht, h3, vs, h4, h5⟩

theorem unitsCpus_dict (i : Info) (wf : WF i) (lvl : Level) (hlvl : lvl = .core ∨ lvl = .die)
    (d : Dict Nat (List Nat)) (hd : UnitsOk i lvl d) :
    ∃ r, unitsCpus i lvl d = .ok r ∧
      ∀ c, c ∈ r ↔ CpuWith i (fun t => InDict d t.package (t.get lvl)) c := by
  obtain ⟨r, h1, h2⟩ := unitsCpus_ok i wf lvl hlvl d hd.pkgs
    (fun p us h u hu => hd.units p u ⟨us, Dict.get?_of_mem hd.nodup h, hu⟩)
  refine ⟨r, h1, fun c => ?_⟩
  rw [h2]
  unfold CpuWith InDict
  refine and_congr_right fun _ => exists_congr fun t => and_congr_right fun _ => and_congr_right fun _ => ?_
  refine exists_congr fun us => ?_
  rw [show (t.package, us) ∈ d ↔ d.get? t.package = some us from
    ⟨Dict.get?_of_mem hd.nodup, Dict.mem_of_get?⟩]

theorem levelCpus_ok (i : Info) (lvl : Level) (l : List Nat)
    (hl : ∀ n ∈ l, n ≠ NA ∧ ∃ t ∈ i.topology, t.get lvl = n) :
    ∃ r, getLevelNums i .CPU lvl (.nums l) .CPU = .ok r ∧
      ∀ c, c ∈ r ↔ CpuWith i (fun t => t.get lvl ∈ l) c := by
  have g : ∃ x, getLevelNums i .CPU lvl (.nums l) .CPU = .ok x := by
    rw [getLevelNums_isOk]
    refine ⟨by simp [Level.idx], ?_⟩
    rintro l' hl' n hn
    cases hl'
    exact hl n hn
  obtain ⟨x, hx⟩ := g
  refine ⟨x, hx, fun c => ?_⟩
  rw [mem_getLevelNums hx]
  unfold CpuWith
  constructor
  · rintro ⟨h0, t, ht, -, h1, h2⟩; exact ⟨h0, t, ht, h2, h1⟩
  · rintro ⟨h0, t, ht, h2, h1⟩; exact ⟨h0, t, ht, (hl _ h1).1, h1, h2⟩

theorem unionCpus_ok (i : Info) (wf : WF i) (a : Args) (t : Tgt) (ht : TgtOk i a t)
    (ex : List Level) (hex : ex = [] ∨ ex = [.die] ∨ ex = [.package]) :
    ∃ r, unionCpus i t ex = .ok r ∧ (∀ c, c ∈ r ↔ Union i a c) ∧
      ∀ c ∈ r, c ∈ (if a.offlineOk then i.present else i.online) := by
  have e1 : ex.contains .CPU = false := by rcases hex with rfl | rfl | rfl <;> rfl
  have e2 : ex.contains .core = false := by rcases hex with rfl | rfl | rfl <;> rfl
  have e3 : ex.contains .module = false := by rcases hex with rfl | rfl | rfl <;> rfl
  unfold unionCpus
  rw [e1, e2, e3]
  simp only [Bool.not_false, if_true]
  obtain ⟨r1, h1, m1⟩ := unitsCpus_dict i wf .core (.inl rfl) t.cores ht.coresOk
  obtain ⟨r3, h3, m3⟩ := unitsCpus_dict i wf .die (.inr rfl) t.dies ht.diesOk
  have hm : ∃ r2, (if t.modules.isEmpty = true then Except.ok [] else modulesToCpus i (.nums t.modules)) =
      .ok r2 ∧ ∀ c, c ∈ r2 ↔ CpuWith i (fun t => Picks a.modules t.module) c := by
    have hpm : ∀ c, CpuWith i (fun l => l.get .module ∈ t.modules) c ↔
        CpuWith i (fun t => Picks a.modules t.module) c := by
      intro c
      unfold CpuWith
      refine and_congr_right fun h0 => exists_congr fun l => and_congr_right fun hl =>
        and_congr_right fun hc => ?_
      show l.module ∈ t.modules ↔ _
      rw [ht.modules]
      refine and_iff_left ⟨(wf.cpuLine l hl (by rw [hc]; exact h0)).2.1, l, hl, rfl⟩
    cases hmod : t.modules with
    | nil =>
      refine ⟨[], rfl, fun c => ?_⟩
      rw [← hpm, hmod]
      exact ⟨fun h => (by cases h), fun ⟨_, l, _, _, h⟩ => (by cases h)⟩
    | cons m ms =>
      obtain ⟨r, k1, k2⟩ := levelCpus_ok i .module t.modules
        (fun m hm => ((ht.modules m).1 hm).2)
      rw [hmod] at k1
      refine ⟨r, k1, fun c => ?_⟩
      rw [k2, hpm]
  obtain ⟨r2, h2, m2⟩ := hm
  have hp : ∃ r4, (if (!t.packages.isEmpty && !(!t.cores.isEmpty || !t.dies.isEmpty)) = true then
      packagesToCpus i (.nums t.packages) else .ok []) = .ok r4 ∧
      ∀ c, c ∈ r4 ↔ t.cores = [] ∧ t.dies = [] ∧ CpuWith i (fun l => PkgIn a l.package) c := by
    have hpm : ∀ c, CpuWith i (fun l => l.get .package ∈ t.packages) c ↔
        CpuWith i (fun t => PkgIn a t.package) c := by
      intro c
      unfold CpuWith
      refine and_congr_right fun h0 => exists_congr fun l => and_congr_right fun hl =>
        and_congr_right fun hc => ?_
      show l.package ∈ t.packages ↔ _
      rw [ht.packages]
      refine and_iff_left ⟨(wf.cpuLine l hl (by rw [hc]; exact h0)).2.2.2.2, l, hl, rfl⟩
    by_cases hq : t.cores = [] ∧ t.dies = []
    · have hq' : (!(!t.cores.isEmpty || !t.dies.isEmpty)) = true := by simp [hq.1, hq.2]
      rw [hq', Bool.and_true]
      cases hpk : t.packages with
      | nil =>
        refine ⟨[], rfl, fun c => ?_⟩
        rw [← hpm, hpk]
        exact ⟨fun h => (by cases h), fun ⟨_, _, _, l, _, _, h⟩ => (by cases h)⟩
      | cons m ms =>
        obtain ⟨r, k1, k2⟩ := levelCpus_ok i .package t.packages
          (fun m hm => ((ht.packages m).1 hm).2)
        rw [hpk] at k1
        refine ⟨r, k1, fun c => ?_⟩
        rw [k2, hpm]
        exact ⟨fun h => ⟨hq.1, hq.2, h⟩, fun h => h.2.2⟩
    · rw [if_neg]
      · exact ⟨[], rfl, fun c => ⟨fun h => (by cases h), fun h => absurd ⟨h.1, h.2.1⟩ hq⟩⟩
      · intro h
        simp only [Bool.and_eq_true, Bool.not_eq_true', Bool.or_eq_false_iff, Bool.not_eq_false',
          List.isEmpty_iff] at h
        exact hq h.2
  obtain ⟨r4, h4, m4⟩ := hp
  simp only [h1, h2, h3, h4]
  have hav : ∀ P c, CpuWith i P c → c ∈ (if a.offlineOk then i.present else i.online) := by
    rintro P c ⟨h0, l, hl, hc, -⟩
    have := (wf.online c).2 ⟨h0, l, hl, hc⟩
    split
    · exact wf.present c this
    · exact this
  have hmem : ∀ c, c ∈ t.cpus ++ r1 ++ r2 ++ r3 ++ r4 ↔ Union i a c := by
    intro c
    simp only [List.mem_append, m1, m2, m3, m4, ht.cpus c]
    unfold Union
    have g1 : CpuWith i (fun l => InDict t.cores l.package (l.get .core)) c ↔
        CpuWith i (fun t => PicksUnit a a.cores t.package t.core) c := by
      unfold CpuWith
      refine and_congr_right fun h0 => exists_congr fun l => and_congr_right fun hl =>
        and_congr_right fun hc => ?_
      dsimp only
      rw [ht.cores]
      have := wf.cpuLine l hl (by rw [hc]; exact h0)
      exact and_iff_left ⟨this.1, this.2.2.2.2, l, hl, rfl, rfl⟩
    have g3 : CpuWith i (fun l => InDict t.dies l.package (l.get .die)) c ↔
        (Nothing a ∧ CpuWith i (fun _ => True) c) ∨
        CpuWith i (fun t => PicksUnit a a.dies t.package t.die) c := by
      have : CpuWith i (fun l => InDict t.dies l.package (l.get .die)) c ↔
          CpuWith i (fun l => Nothing a ∨ PicksUnit a a.dies l.package l.die) c := by
        unfold CpuWith
        refine and_congr_right fun h0 => exists_congr fun l => and_congr_right fun hl =>
          and_congr_right fun hc => ?_
        dsimp only
        rw [ht.dies]
        have := wf.cpuLine l hl (by rw [hc]; exact h0)
        exact and_iff_left ⟨this.2.2.1, this.2.2.2.2, l, hl, rfl, rfl⟩
      rw [this]
      constructor
      · rintro ⟨h0, l, hl, hc, h | h⟩
        · exact .inl ⟨h, h0, l, hl, hc, trivial⟩
        · exact .inr ⟨h0, l, hl, hc, h⟩
      · rintro (⟨h, h0, l, hl, hc, -⟩ | ⟨h0, l, hl, hc, h⟩)
        · exact ⟨h0, l, hl, hc, .inl h⟩
        · exact ⟨h0, l, hl, hc, .inr h⟩
    rw [g1, g3]
    constructor
    · rintro ((((h | h) | h) | h) | ⟨hc, hd, h⟩)
      · rcases h with h | h
        · exact .inl h
        · exact .inr (.inl h)
      · exact .inr (.inr (.inl h))
      · exact .inr (.inr (.inr (.inl h)))
      · rcases h with ⟨hN, h⟩ | h
        · exact .inl ⟨hN, hav _ c h⟩
        · exact .inr (.inr (.inr (.inr (.inl h))))
      · by_cases hN : Nothing a
        · exact .inl ⟨hN, hav _ c h⟩
        · have hne : t.packages ≠ [] := by
            obtain ⟨h0, l, hl, hcc, h⟩ := h
            refine List.ne_nil_of_mem ((ht.packages l.package).2 ⟨h, ?_⟩)
            exact ⟨(wf.cpuLine l hl (by rw [hcc]; exact h0)).2.2.2.2, l, hl, rfl⟩
          have n1 : ¬ UnitNumbers a.cores := fun hh => hne (ht.coresNum hh hc)
          have n2 : ¬ UnitNumbers a.dies := fun hh => hne (ht.diesNum hh hd)
          refine .inr (.inr (.inr (.inr (.inr ⟨n1, n2, ?_⟩))))
          obtain ⟨h0, l, hl, hcc, h⟩ := h
          refine ⟨h0, l, hl, hcc, ?_⟩
          rcases h with h | ⟨hng, h | h⟩
          · exact h
          · exact absurd h hN
          · rcases h with h | h | h
            · exact absurd h hng
            · exact absurd (by rw [h]; trivial) n2
            · exact absurd (by rw [h]; trivial) n1
    · rintro (⟨hN, h⟩ | h | h | h | h | ⟨n1, n2, h⟩)
      · exact .inl (.inl (.inl (.inl (.inl ⟨hN, h⟩))))
      · exact .inl (.inl (.inl (.inl (.inr h))))
      · exact .inl (.inl (.inl (.inr h)))
      · exact .inl (.inl (.inr h))
      · exact .inl (.inr (.inr h))
      · have hN : ¬ Nothing a := by
          rintro ⟨-, -, -, -, h5⟩
          obtain ⟨h0, l, hl, hcc, h⟩ := h
          exact h5 (picks_given h)
        refine .inr ⟨ht.coresNo n1, ht.diesNo hN n2, ?_⟩
        obtain ⟨h0, l, hl, hcc, h⟩ := h
        exact ⟨h0, l, hl, hcc, .inl h⟩
  refine ⟨_, rfl, hmem, fun c hc => ?_⟩
  simp only [List.mem_append, m1, m2, m3, m4] at hc
  rcases hc with (((h | h) | h) | h) | ⟨-, -, h⟩
  · exact ht.avail c h
  · exact hav _ c h
  · exact hav _ c h
  · exact hav _ c h
  · exact hav _ c h

theorem normalizeCpus_nums_ok {i : Info} {l : List Nat} {off : Bool}
    (h : ∀ c ∈ l, c ∈ (if off then i.present else i.online)) :
    ∃ r, normalizeCpus i (.nums l) off = .ok r ∧ r.Nodup ∧ ∀ c, c ∈ r ↔ c ∈ l := by
  obtain ⟨r, h1, h2, h3⟩ := (normalizeCpus_outcome i (.nums l) off).1 (by
    rintro l' hl' c hc
    cases hl'
    exact h c hc)
  exact ⟨r, h1, h2, h3⟩

theorem selectSiblings_weak {i : Info} {lvl : Level} {l idx : List Nat} (h : ∀ c ∈ l, c ∈ i.present) :
    ∃ r, selectSiblings i lvl (.nums l) idx = .ok r ∧ r.Nodup ∧ ∀ c ∈ r, c ∈ l ∧ c ∈ i.present := by
  obtain ⟨n, h1, h2, h3⟩ := normalizeCpus_nums_ok (i := i) (l := l) (off := true) h
  unfold selectSiblings
  rw [h1]
  refine ⟨_, rfl, h2.sublist List.filter_sublist, fun c hc => ?_⟩
  have := (h3 c).1 (List.mem_filter.1 hc).1
  exact ⟨this, h c this⟩

theorem cpuWith_avail {i : Info} (wf : WF i) {off : Bool} {P : TLine → Prop} {c : Nat} (h : CpuWith i P c) :
    c ∈ (if off = true then i.present else i.online) := by
  obtain ⟨h0, l, hl, hc, -⟩ := h
  have := (wf.online c).2 ⟨h0, l, hl, hc⟩
  split
  · exact wf.present c this
  · exact this

/-- The core sibling indexes keep CPU `c`. -/
def KeptCore (i : Info) (idx : List Nat) (c : Nat) : Prop :=
  idx ≠ [] → CpuWith i (fun t => position i (fun b => [b.core, b.package]) t ∈ idx) c

/-- The module sibling indexes keep CPU `c`. -/
def KeptMod (i : Info) (idx : List Nat) (c : Nat) : Prop :=
  idx ≠ [] → CpuWith i (fun t => position i (fun b => [b.module]) t ∈ idx) c

theorem getCpus'_ok (i : Info) (wf : WF i) (a : Args) (t : Tgt) (ht : TgtOk i a t)
    (ex : List Level) (hex : ex = [] ∨ ex = [.die] ∨ ex = [.package]) :
    ∃ r, getCpus' i t ex = .ok r ∧ r.Nodup ∧ (∀ c ∈ r, c ∈ i.present) ∧
      ((t.modSib ≠ [] → ModulesUnique i) →
        ∀ c, c ∈ r ↔ Union i a c ∧ KeptCore i t.coreSib c ∧ KeptMod i t.modSib c) := by
  have e2 : ex.contains .core = false := by rcases hex with rfl | rfl | rfl <;> rfl
  have e3 : ex.contains .module = false := by rcases hex with rfl | rfl | rfl <;> rfl
  obtain ⟨u, hu, hmem, hav⟩ := unionCpus_ok i wf a t ht ex hex
  have hpres : ∀ c ∈ u, c ∈ i.present := by
    intro c hc
    have := hav c hc
    split at this
    · exact this
    · exact wf.present c this
  have hmodsel : ∀ l : List Nat, (∀ c ∈ l, c ∈ i.present) →
      ∃ r, selectModuleSiblings i (.nums l) t.modSib = .ok r ∧ r.Nodup ∧ (∀ c ∈ r, c ∈ i.present) ∧
        (ModulesUnique i → ∀ c, c ∈ r ↔ c ∈ l ∧
          CpuWith i (fun t' => position i (fun b => [b.module]) t' ∈ t.modSib) c) := by
    intro l hl
    obtain ⟨r, k1, k2, k3⟩ := selectSiblings_weak (i := i) (lvl := .module) (l := l) (idx := t.modSib) hl
    refine ⟨r, k1, k2, fun c hc => (k3 c hc).2, fun hm => ?_⟩
    obtain ⟨n, g1, -⟩ := normalizeCpus_nums_ok (i := i) (l := l) (off := true) hl
    obtain ⟨r', j1, -, -, j4⟩ := C20_select_module_siblings_partial i wf hm (.nums l) t.modSib n g1
    have : r = r' := by
      have := k1.symm.trans j1
      cases this
      rfl
    subst this
    exact j4
  unfold getCpus'
  rw [e2, e3, hu]
  simp only [Bool.not_false, if_true]
  by_cases hcs : t.coreSib = []
  · have hk : ∀ c, KeptCore i t.coreSib c := fun c h => absurd hcs h
    rw [if_neg (by simp [hcs])]
    by_cases hms : t.modSib = []
    · rw [if_neg (by simp [hms])]
      obtain ⟨r, h1, h2, h3⟩ := normalizeCpus_nums_ok (i := i) (l := u) (off := t.offlineOk)
        (by rw [ht.off]; exact hav)
      refine ⟨r, h1, h2, fun c hc => hpres c ((h3 c).1 hc), fun _ c => ?_⟩
      rw [h3, hmem]
      exact ⟨fun h => ⟨h, hk c, fun h => absurd hms h⟩, fun h => h.1⟩
    · rw [if_pos (by simp [hms])]
      obtain ⟨r, h1, h2, h3, h4⟩ := hmodsel u hpres
      refine ⟨r, h1, h2, h3, fun hm c => ?_⟩
      rw [h4 (hm hms), hmem]
      exact ⟨fun h => ⟨h.1, hk c, fun _ => h.2⟩, fun h => ⟨h.1, h.2.2 hms⟩⟩
  · rw [if_pos (by simp [hcs])]
    obtain ⟨n, g1, -⟩ := normalizeCpus_nums_ok (i := i) (l := u) (off := true) hpres
    obtain ⟨v, j1, -, j3, j4⟩ := C19_select_core_siblings i wf (.nums u) t.coreSib n g1
    rw [j1]
    dsimp only
    have hv : ∀ c, c ∈ v ↔ Union i a c ∧ KeptCore i t.coreSib c := by
      intro c
      rw [j4]
      show c ∈ u ∧ _ ↔ _
      rw [hmem]
      exact ⟨fun h => ⟨h.1, fun _ => h.2⟩, fun h => ⟨h.1, h.2 hcs⟩⟩
    have hvp : ∀ c ∈ v, c ∈ i.present := fun c hc =>
      hpres c ((hmem c).2 ((hv c).1 hc).1)
    by_cases hms : t.modSib = []
    · rw [if_neg (by simp [hms])]
      obtain ⟨r, h1, h2, h3⟩ := normalizeCpus_nums_ok (i := i) (l := v) (off := t.offlineOk)
        (fun c hc => cpuWith_avail wf (((hv c).1 hc).2 hcs))
      refine ⟨r, h1, h2, fun c hc => hvp c ((h3 c).1 hc), fun _ c => ?_⟩
      rw [h3, hv]
      exact ⟨fun h => ⟨h.1, h.2, fun h => absurd hms h⟩, fun h => ⟨h.1, h.2.1⟩⟩
    · rw [if_pos (by simp [hms])]
      obtain ⟨r, h1, h2, h3, h4⟩ := hmodsel v hvp
      refine ⟨r, h1, h2, h3, fun hm c => ?_⟩
      rw [h4 (hm hms), hv]
      exact ⟨fun h => ⟨h.1.1, h.1.2, fun _ => h.2⟩, fun h => ⟨⟨h.1, h.2.1⟩, h.2.2 hms⟩⟩

theorem getCpus'_exclude (i : Info) (t : Tgt) (ex : List Level)
    (hex : ex = [] ∨ ex = [.die] ∨ ex = [.package]) : getCpus' i t ex = getCpus' i t [] := by
  rcases hex with rfl | rfl | rfl <;> rfl

theorem TgtOk.siblings {i : Info} {a : Args} {t : Tgt} (h : TgtOk i a t) (cs ms : List Nat) :
    TgtOk i a { t with coreSib := cs, modSib := ms } := by
  cases h
  constructor <;> assumption

/-- What is known about an object at any time. -/
structure Good (i : Info) (a : Args) (t : Tgt) (ca : Cache) : Prop where
  ok : TgtOk i a t
  coreSib : t.coreSib = pyDedup a.coreSib
  modSib : t.modSib = pyDedup a.modSib
  cache : ∀ r, ca.cpus = some r → getCpus' i t [] = .ok r

theorem init_outcome (i : Info) (wf : WF i) (a : Args) :
    Outcome (init i a) (Valid i a) (fun s => Good i a s.1 s.2 ∧ s.2.dies = none ∧ s.2.packages = none) := by
  have h0 := initTgt_outcome i a
  unfold init
  by_cases hV : Valid i a
  rotate_left
  · rw [h0.2 hV]
    exact ⟨fun h => absurd h hV, fun _ => rfl⟩
  refine ⟨fun _ => ?_, fun h => absurd hV h⟩
  obtain ⟨t, h1, h2, h3, h4⟩ := h0.1 hV
  rw [h1]
  dsimp only
  have ok1 := h2.siblings (pyDedup a.coreSib) []
  have ok2 := h2.siblings (pyDedup a.coreSib) (pyDedup a.modSib)
  obtain ⟨r1, k1, -⟩ := getCpus'_ok i wf a _ ok1 [] (.inl rfl)
  obtain ⟨r2, k2, -⟩ := getCpus'_ok i wf a _ ok2 [] (.inl rfl)
  have et : { t with coreSib := pyDedup a.coreSib } = { t with coreSib := pyDedup a.coreSib, modSib := [] } := by
    cases t
    simp only at h4
    subst h4
    rfl
  rw [← et] at k1
  have hm : ∀ x : Option (List Nat), (∀ r, x = some r → pyDedup a.modSib = [] → r = r1 ) →
      ∃ y, (if (!(pyDedup a.modSib).isEmpty) = true then
          (getCpus' i { t with coreSib := pyDedup a.coreSib, modSib := pyDedup a.modSib } []).map some
        else Except.ok x) = Except.ok y ∧ ∀ r, y = some r →
          getCpus' i { t with coreSib := pyDedup a.coreSib, modSib := pyDedup a.modSib } [] = .ok r := by
    intro x hx
    by_cases he : pyDedup a.modSib = []
    · rw [if_neg (by simp [he])]
      refine ⟨x, rfl, fun r hr => ?_⟩
      rw [he, ← et, k1, hx r hr he]
    · rw [if_pos (by simp [he]), k2]
      exact ⟨some r2, rfl, fun r hr => (by cases hr; rfl)⟩
  by_cases hc : pyDedup a.coreSib = []
  · rw [if_neg (by simp [hc])]
    dsimp only
    obtain ⟨y, g1, g2⟩ := hm none (by rintro r ⟨⟩)
    rw [g1]
    exact ⟨_, rfl, ⟨ok2, rfl, rfl, g2⟩, rfl, rfl⟩
  · rw [if_pos (by simp [hc]), k1]
    obtain ⟨y, g1, g2⟩ := hm (some r1) (by rintro r ⟨⟩ -; rfl)
    simp only [Except.map]
    simp only [Except.map] at g1
    rw [g1]
    exact ⟨_, rfl, ⟨ok2, rfl, rfl, g2⟩, rfl, rfl⟩

end Verif.OpTarget
