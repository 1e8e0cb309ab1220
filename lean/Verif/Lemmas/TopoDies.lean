import Verif.Lemmas.TopoRows

/-!
Lemmas about adding dies to the topology table.
-/

namespace Verif.TopoBuild

open PyStr Trivial
open CPUInfo (Level)

/-- The set at `p` has `x`. -/
def Mem (d : Dict Int (List Int)) (p x : Int) : Prop := ∃ l, d.get? p = some l ∧ x ∈ l

/-- The dictionaries of dies: the dies with CPUs found so far are `Done`. -/
structure DI (m : Machine) (Done : Int → Int → Prop) (cd io : Dict Int (List Int)) : Prop where
  mem : ∀ p d, Mem cd p d ↔ Done p d
  ne : ∀ p l, cd.get? p = some l → l ≠ []
  keys : io.keys.Nodup
  same : ∀ p, io.get? p = none ↔ cd.get? p = none
  isIo : ∀ p d, Mem io p d → m.IsIo p d
  nodup : ∀ p l, io.get? p = some l → l.Nodup

/-- The die of the CPU is found. -/
def DD (m : Machine) (Done : Int → Int → Prop) (c : Nat) : Prop := Done (m.num .package c) (m.num .die c)

/-- The found dies with the ones of the CPUs in the list. -/
def More (m : Machine) (Done : Int → Int → Prop) (cpus : List Int) (p d : Int) : Prop :=
  Done p d ∨ ∃ c : Nat, (c : Int) ∈ cpus ∧ p = (m.num .package c : Int) ∧ d = (m.num .die c : Int)

variable {m : Machine} {on : List Nat} {H : Nat → Level → Prop} {Done : Int → Int → Prop} {t : TInfo} {st : St}

theorem mem_addTo {d : Dict Int (List Int)} {k v p x : Int} : Mem (addTo d k v) p x ↔ Mem d p x ∨ (p = k ∧ x = v) := by
  unfold addTo
  cases hd : d.get? k with
  | none =>
    dsimp only
    unfold Mem
    rw [Dict.get?_set]
    by_cases e : k = p
    · subst e
      rw [if_pos rfl, hd]
      constructor
      · rintro ⟨l, h1, h2⟩
        cases h1
        exact Or.inr ⟨rfl, by simpa using h2⟩
      · rintro (⟨l, h1, _⟩ | ⟨_, rfl⟩)
        · cases h1
        · exact ⟨_, rfl, by simp⟩
    · rw [if_neg e]
      constructor
      · exact Or.inl
      · rintro (h | ⟨rfl, _⟩)
        · exact h
        · exact absurd rfl e
  | some l =>
    dsimp only
    split
    · rename_i hv
      constructor
      · exact Or.inl
      · rintro (h | ⟨rfl, rfl⟩)
        · exact h
        · exact ⟨l, hd, hv⟩
    · unfold Mem
      rw [Dict.get?_set]
      by_cases e : k = p
      · subst e
        rw [if_pos rfl, hd]
        constructor
        · rintro ⟨l, h1, h2⟩
          cases h1
          rcases List.mem_append.1 h2 with h2 | h2
          · exact Or.inl ⟨_, rfl, h2⟩
          · exact Or.inr ⟨rfl, by simpa using h2⟩
        · rintro (⟨l, h1, h2⟩ | ⟨_, rfl⟩)
          · cases h1
            exact ⟨_, rfl, by simp [h2]⟩
          · exact ⟨_, rfl, by simp⟩
      · rw [if_neg e]
        constructor
        · exact Or.inl
        · rintro (h | ⟨rfl, _⟩)
          · exact h
          · exact absurd rfl e

theorem get?_addTo_none {d : Dict Int (List Int)} {k v p : Int} : (addTo d k v).get? p = none ↔ d.get? p = none ∧ p ≠ k := by
  unfold addTo
  cases hd : d.get? k with
  | none =>
    dsimp only
    rw [Dict.get?_set]
    by_cases e : k = p
    · subst e; simp
    · rw [if_neg e]
      exact ⟨fun h => ⟨h, fun e' => e e'.symm⟩, And.left⟩
  | some l =>
    dsimp only
    have key : d.get? p = none → p ≠ k := by
      rintro h rfl
      rw [hd] at h
      cases h
    split
    · exact ⟨fun h => ⟨h, key h⟩, And.left⟩
    · rw [Dict.get?_set]
      by_cases e : k = p
      · subst e; simp
      · rw [if_neg e]
        exact ⟨fun h => ⟨h, key h⟩, And.left⟩

theorem addTo_ne {d : Dict Int (List Int)} {k v : Int} (h : ∀ p l, d.get? p = some l → l ≠ []) :
    ∀ p l, (addTo d k v).get? p = some l → l ≠ [] := by
  intro p l hl
  unfold addTo at hl
  cases hd : d.get? k with
  | none =>
    rw [hd] at hl
    dsimp only at hl
    rw [Dict.get?_set] at hl
    split at hl
    · cases hl; simp
    · exact h p l hl
  | some l' =>
    rw [hd] at hl
    dsimp only at hl
    split at hl
    · exact h p l hl
    · rw [Dict.get?_set] at hl
      split at hl
      · cases hl; simp
      · exact h p l hl

theorem addTo_nodup {d : Dict Int (List Int)} {k v : Int} (h : ∀ p l, d.get? p = some l → l.Nodup) :
    ∀ p l, (addTo d k v).get? p = some l → l.Nodup := by
  intro p l hl
  unfold addTo at hl
  cases hd : d.get? k with
  | none =>
    rw [hd] at hl
    dsimp only at hl
    rw [Dict.get?_set] at hl
    split at hl
    · cases hl; simp
    · exact h p l hl
  | some l' =>
    rw [hd] at hl
    dsimp only at hl
    split at hl
    · exact h p l hl
    · rename_i hv
      rw [Dict.get?_set] at hl
      split at hl
      · cases hl
        rw [List.nodup_append]
        refine ⟨h k l' hd, by simp, ?_⟩
        intro a ha b hb e
        rw [List.mem_singleton] at hb
        exact hv (by rw [← hb, ← e]; exact ha)
      · exact h p l hl

theorem addTo_keys {d : Dict Int (List Int)} {k v : Int} (h : d.keys.Nodup) : (addTo d k v).keys.Nodup := by
  unfold addTo
  cases d.get? k with
  | none => exact Dict.nodup_keys_set h _ _
  | some l =>
    dsimp only
    split
    · exact h
    · exact Dict.nodup_keys_set h _ _

theorem DI.congr {Done' : Int → Int → Prop} {cd io : Dict Int (List Int)} (h : DI m Done cd io)
    (e : ∀ p d, Done p d ↔ Done' p d) : DI m Done' cd io :=
  ⟨fun p d => (h.mem p d).trans (e p d), h.ne, h.keys, h.same, h.isIo, h.nodup⟩

theorem DI.add {cd io : Dict Int (List Int)} (h : DI m Done cd io) (p d : Int) :
    DI m (fun p' d' => Done p' d' ∨ (p' = p ∧ d' = d)) (addTo cd p d) (initDies io p (cd.get? p).isNone) := by
  refine ⟨fun p' d' => ?_, addTo_ne h.ne, ?_, fun p' => ?_, fun p' d' hm => ?_, fun p' l hl => ?_⟩
  · rw [mem_addTo, h.mem]
  · unfold initDies
    split
    · exact Dict.nodup_keys_set h.keys _ _
    · exact h.keys
  · rw [get?_addTo_none, ← h.same]
    unfold initDies
    split
    · rw [Dict.get?_set]
      by_cases e : p = p'
      · subst e; simp
      · rw [if_neg e]
        exact ⟨fun h => ⟨h, fun e' => e e'.symm⟩, And.left⟩
    · rename_i hn
      refine ⟨fun h' => ⟨h', ?_⟩, And.left⟩
      rintro rfl
      rw [h.same] at h'
      rw [h'] at hn
      exact hn rfl
  · unfold initDies at hm
    split at hm
    · obtain ⟨l, h1, h2⟩ := hm
      rw [Dict.get?_set] at h1
      split at h1
      · cases h1; cases h2
      · exact h.isIo _ _ ⟨l, h1, h2⟩
    · exact h.isIo _ _ hm
  · unfold initDies at hl
    split at hl
    · rw [Dict.get?_set] at hl
      split at hl
      · cases hl; exact List.nodup_nil
      · exact h.nodup _ _ hl
    · exact h.nodup _ _ hl

theorem RowOK.withDie {D D' : Nat → Prop} {c : Nat} {r : Row} (h : RowOK m H D c r) {H' : Nat → Level → Prop}
    (hH : ∀ l, H' c l → H c l ∨ l = .die) (hD : D' c) :
    RowOK m H' D' c { r with die := some (m.num .die c : Int) } := by
  refine ⟨h.cpu, fun l hl => ?_, fun l v hv => ?_, fun _ => hD⟩
  · have := hH l hl
    cases l
    case die => rfl
    all_goals
      rcases this with h' | h'
      · exact h.has _ h'
      · cases h'
  · cases l
    case die => cases hv; rfl
    all_goals exact h.right _ v hv

theorem addComputeDie_spec {c : Nat} (hc : c ∈ on) (hp : H c .package) (ht : TI m on H (DD m Done) t)
    (hd : DI m Done st.computeDies st.ioDies) :
    ∃ cd io t', addComputeDie st t c (m.num .die c) = .ok ({ st with computeDies := cd, ioDies := io }, t') ∧
      TI m on (Plus H [(c : Int)] fun l => l = .die) (DD m (More m Done [(c : Int)])) t' ∧
      DI m (More m Done [(c : Int)]) cd io := by
  obtain ⟨r, h1, h2⟩ := ht.row c hc
  have hpk : r.package = some (m.num .package c : Int) := h2.has .package hp
  have e : ∀ p d, (Done p d ∨ (p = (m.num .package c : Int) ∧ d = (m.num .die c : Int))) ↔ More m Done [(c : Int)] p d := by
    intro p d
    constructor
    · rintro (h | ⟨h1, h2⟩)
      · exact Or.inl h
      · exact Or.inr ⟨c, by simp, h1, h2⟩
    · rintro (h | ⟨c', hc', k1, k2⟩)
      · exact Or.inl h
      · rw [List.mem_singleton] at hc'
        have : c' = c := by omega
        rw [this] at k1 k2
        exact Or.inr ⟨k1, k2⟩
  refine ⟨_, _, t.set c { r with die := some (m.num .die c : Int) }, ?_, ?_,
    (hd.add (m.num .package c : Int) (m.num .die c : Int)).congr e⟩
  rotate_left
  · exact ht.set hc (h2.withDie (fun l hl => hl.imp id And.right) (Or.inr ⟨c, by simp, rfl, rfl⟩))
      (fun c' _ hne l hl => plus_ne hne hl) fun c' _ h => Or.inl h
  · unfold addComputeDie
    rw [h1]
    dsimp only
    rw [hpk]

/-- One CPU after another. -/
theorem more_cons {c : Nat} {cpus : List Int} (p d : Int) :
    More m (More m Done [(c : Int)]) cpus p d ↔ More m Done ((c : Int) :: cpus) p d := by
  constructor
  · rintro ((h | ⟨c', h1, h2⟩) | ⟨c', h1, h2⟩)
    · exact Or.inl h
    · exact Or.inr ⟨c', by rw [List.mem_singleton] at h1; simp [h1], h2⟩
    · exact Or.inr ⟨c', List.mem_cons_of_mem _ h1, h2⟩
  · rintro (h | ⟨c', h1, h2⟩)
    · exact Or.inl (Or.inl h)
    · rcases List.mem_cons.1 h1 with h1 | h1
      · exact Or.inl (Or.inr ⟨c', by simp [h1], h2⟩)
      · exact Or.inr ⟨c', h1, h2⟩

/-- What adding dies does. -/
def DiesAdded (m : Machine) (on : List Nat) (H : Nat → Level → Prop) (Done : Int → Int → Prop) (cpus : List Int) (st : St)
    (res : Except Exn (St × TInfo)) : Prop :=
  ∃ cd io t', res = .ok ({ st with computeDies := cd, ioDies := io }, t') ∧
    TI m on (Plus H cpus fun l => l = .die) (DD m (More m Done cpus)) t' ∧ DI m (More m Done cpus) cd io

theorem DiesAdded.cons {c : Nat} {cpus : List Int} {cd io : Dict Int (List Int)} {res : Except Exn (St × TInfo)}
    (h : DiesAdded m on (Plus H [(c : Int)] fun l => l = .die) (More m Done [(c : Int)]) cpus
      { st with computeDies := cd, ioDies := io } res) : DiesAdded m on H Done ((c : Int) :: cpus) st res := by
  obtain ⟨cd', io', t', h1, h2, h3⟩ := h
  exact ⟨cd', io', t', h1, h2.mono (fun c' _ l hl => plus_cons hl) (fun c' _ hd => (more_cons _ _).1 hd),
    h3.congr more_cons⟩

theorem diesAdded_nil (ht : TI m on H (DD m Done) t) (hd : DI m Done st.computeDies st.ioDies) :
    DiesAdded m on H Done [] st (.ok (st, t)) :=
  ⟨_, _, t, rfl, ht.mono (fun c _ l hl => hl.elim id fun h => (by cases h.1)) fun c _ h => Or.inl h,
    hd.congr fun p d => ⟨Or.inl, fun h => h.elim id fun ⟨_, h, _⟩ => (by cases h)⟩⟩

theorem addDiesPli_spec {read : Int → Except Exn Int} (hr : ∀ c ∈ on, read c = .ok (m.num .die c : Int))
    (cpus : List Int) (hcpus : ∀ k ∈ cpus, ∃ c ∈ on, k = (c : Int)) (hp : ∀ c ∈ on, H c .package)
    (ht : TI m on H (DD m Done) t) (hd : DI m Done st.computeDies st.ioDies) :
    DiesAdded m on H Done cpus st (addDiesPli read cpus st t) := by
  induction cpus generalizing t H Done st with
  | nil => exact diesAdded_nil ht hd
  | cons k cpus ih =>
    obtain ⟨c, hc, rfl⟩ := hcpus k List.mem_cons_self
    obtain ⟨cd, io, t', h1, h2, h3⟩ := addComputeDie_spec hc (hp c hc) ht hd
    rw [addDiesPli, hr c hc]
    dsimp only
    rw [h1]
    exact (ih (st := { st with computeDies := cd, ioDies := io }) (fun k hk => hcpus k (List.mem_cons_of_mem _ hk))
      (fun c' hc' => Or.inl (hp c' hc')) h2 h3).cons

theorem RowOK.die_of_some {D D' : Nat → Prop} {c : Nat} {r : Row} (h : RowOK m H D c r) (hm : r.die ≠ none)
    {H' : Nat → Level → Prop} (hH : ∀ l, H' c l → H c l ∨ l = .die) (hD : D' c) : RowOK m H' D' c r := by
  refine ⟨h.cpu, fun l hl => ?_, h.right, fun _ => hD⟩
  rcases hH l hl with h' | rfl
  · exact h.has l h'
  · cases hr : r.die with
    | none => exact absurd hr hm
    | some v =>
      have hg : r.get .die = some v := hr
      rw [hg, h.right _ v hg]

theorem addDiesSysfs_spec {h : Host}
    (hh : ∀ c ∈ on, h.dieId c = .ok (numText (m.num .die c)) ∧ ∃ t P, h.dieCpus c = .ok t ∧ Lists t P ∧ P c)
    (cpus : List Int) (hcpus : ∀ k ∈ cpus, ∃ c ∈ on, k = (c : Int)) (hp : ∀ c ∈ on, H c .package)
    (ht : TI m on H (DD m Done) t) (hd : DI m Done st.computeDies st.ioDies) :
    DiesAdded m on H Done cpus st (addDiesSysfs h cpus st t) := by
  induction cpus generalizing t H Done st with
  | nil => exact diesAdded_nil ht hd
  | cons k cpus ih =>
    obtain ⟨c, hc, rfl⟩ := hcpus k List.mem_cons_self
    obtain ⟨r, g1, g2⟩ := ht.row c hc
    rw [addDiesSysfs, g1]
    dsimp only
    by_cases hm : r.die ≠ none
    · rw [if_pos hm]
      have hdone : DD m Done c := g2.die hm
      have hset : TI m on (Plus H [(c : Int)] fun l => l = .die) (DD m (More m Done [(c : Int)])) t := by
        refine ⟨ht.keys, ht.mem, fun c' hc' => ?_⟩
        by_cases e : c' = c
        · subst e
          exact ⟨r, g1, g2.die_of_some hm (by intro l hl; exact hl.imp id And.right) (Or.inl hdone)⟩
        · obtain ⟨r', g1, g2⟩ := ht.row c' hc'
          exact ⟨r', g1, g2.mono (fun l hl => plus_ne e hl) Or.inl⟩
      have hd' : DI m (More m Done [(c : Int)]) st.computeDies st.ioDies := hd.congr fun p d => by
        constructor
        · exact Or.inl
        · rintro (h | ⟨c', h1, h2, h3⟩)
          · exact h
          · rw [List.mem_singleton] at h1
            have : c' = c := by omega
            subst this
            rw [h2, h3]; exact hdone
      exact (ih (st := { st with computeDies := st.computeDies, ioDies := st.ioDies })
        (fun k hk => hcpus k (List.mem_cons_of_mem _ hk)) (fun c' hc' => Or.inl (hp c' hc')) hset hd').cons
    · rw [if_neg hm]
      obtain ⟨e1, tx, P, e2, e3, e4⟩ := hh c hc
      obtain ⟨sib, e5, e6⟩ := readRange_lists e3
      rw [e1]
      dsimp only
      rw [strToInt_numText]
      dsimp only
      rw [e2, e5]
      cases sib with
      | nil => cases (e6 c).2 ⟨c, rfl, e4⟩
      | cons x xs =>
        dsimp only
        obtain ⟨cd, io, t', h1, h2, h3⟩ := addComputeDie_spec hc (hp c hc) ht hd
        rw [h1]
        exact (ih (st := { st with computeDies := cd, ioDies := io }) (fun k hk => hcpus k (List.mem_cons_of_mem _ hk))
          (fun c' hc' => Or.inl (hp c' hc')) h2 h3).cons

theorem addDies_spec {h : Host} (hs : Shows m on h) (cpus : List Int)
    (hcpus : ∀ k ∈ cpus, ∃ c ∈ on, k = (c : Int)) (hp : ∀ c ∈ on, H c .package)
    (ht : TI m on H (DD m Done) t) (hd : DI m Done st.computeDies st.ioDies) :
    DiesAdded m on H Done cpus st (addDies h st t cpus) := by
  unfold addDies
  rcases hs.die with ⟨read, h1, h2⟩ | ⟨h1, h2⟩
  · rw [h1]
    exact addDiesPli_spec h2 cpus hcpus hp ht hd
  · rw [h1]
    exact addDiesSysfs_spec h2 cpus hcpus hp ht hd

/-! ### I/O dies -/

/-- The I/O dies of a package the loop finds. -/
def newIo (cd : Dict Int (List Int)) (e : Int × List Int) : List Int :=
  if cd.get? e.1 = none then [] else e.2.filter fun d => !((cd.get? e.1).getD []).contains d

theorem ioDiesInner_spec (p : Int) (dies : List Int) (st : St) (rows : List Row)
    (hio : st.ioDies.get? p ≠ none) (hk : st.ioDies.keys.Nodup)
    (hn : ∀ p l, st.ioDies.get? p = some l → l.Nodup) :
    ∃ io, ioDiesInner p dies st rows =
      ({ st with ioDies := io },
        rows ++ (dies.filter fun d => !((st.computeDies.get? p).getD []).contains d).map (Row.io p)) ∧
      (∀ p' d, Mem io p' d ↔ Mem st.ioDies p' d ∨
        (p' = p ∧ d ∈ dies.filter fun d => !((st.computeDies.get? p).getD []).contains d)) ∧
      (∀ p', io.get? p' = none ↔ st.ioDies.get? p' = none) ∧ io.keys.Nodup ∧
      ∀ p l, io.get? p = some l → l.Nodup := by
  induction dies generalizing st rows with
  | nil =>
    exact ⟨st.ioDies, by simp [ioDiesInner], fun p' d => by simp, fun _ => Iff.rfl, hk, hn⟩
  | cons d dies ih =>
    rw [ioDiesInner]
    by_cases hd : d ∈ (st.computeDies.get? p).getD []
    · rw [if_pos hd]
      have : (d :: dies).filter (fun d => !((st.computeDies.get? p).getD []).contains d) =
          dies.filter fun d => !((st.computeDies.get? p).getD []).contains d := by
        rw [List.filter_cons_of_neg (by simp [hd])]
      rw [this]
      exact ih st rows hio hk hn
    · rw [if_neg hd]
      have e : (d :: dies).filter (fun d => !((st.computeDies.get? p).getD []).contains d) =
          d :: dies.filter fun d => !((st.computeDies.get? p).getD []).contains d := by
        rw [List.filter_cons_of_pos (by simp [hd])]
      rw [e]
      obtain ⟨io, h1, h2, h3, h4, h5⟩ := ih { st with ioDies := addTo st.ioDies p d } (rows ++ [Row.io p d])
        (by intro h; exact hio (get?_addTo_none.1 h).1) (addTo_keys hk) (addTo_nodup hn)
      refine ⟨io, ?_, fun p' d' => ?_, fun p' => ?_, h4, h5⟩
      · rw [h1]; simp
      · rw [h2, mem_addTo, List.mem_cons]
        constructor
        · rintro ((h | ⟨h, h'⟩) | ⟨h, h'⟩)
          · exact Or.inl h
          · exact Or.inr ⟨h, Or.inl h'⟩
          · exact Or.inr ⟨h, Or.inr h'⟩
        · rintro (h | ⟨h, h' | h'⟩)
          · exact Or.inl (Or.inl h)
          · exact Or.inl (Or.inr ⟨h, h'⟩)
          · exact Or.inr ⟨h, h'⟩
      · rw [h3, get?_addTo_none]
        refine ⟨And.left, fun h => ⟨h, ?_⟩⟩
        rintro rfl
        exact hio h

theorem ioDiesOuter_spec (u : Dict Int (List Int)) (st : St) (rows : List Row)
    (hsame : ∀ p, st.ioDies.get? p = none ↔ st.computeDies.get? p = none) (hk : st.ioDies.keys.Nodup)
    (hn : ∀ p l, st.ioDies.get? p = some l → l.Nodup) :
    ∃ io, ioDiesOuter u st rows =
      ({ st with ioDies := io }, rows ++ u.flatMap fun e => (newIo st.computeDies e).map (Row.io e.1)) ∧
      (∀ p d, Mem io p d ↔ Mem st.ioDies p d ∨ ∃ e ∈ u, p = e.1 ∧ d ∈ newIo st.computeDies e) ∧
      (∀ p, io.get? p = none ↔ st.computeDies.get? p = none) ∧ io.keys.Nodup ∧
      ∀ p l, io.get? p = some l → l.Nodup := by
  induction u generalizing st rows with
  | nil => exact ⟨st.ioDies, by simp [ioDiesOuter], fun p d => by simp, hsame, hk, hn⟩
  | cons e u ih =>
    obtain ⟨p, dies⟩ := e
    rw [ioDiesOuter]
    cases hp : st.computeDies.get? p with
    | none =>
      have hnew : newIo st.computeDies (p, dies) = [] := by
        unfold newIo
        rw [if_pos hp]
      obtain ⟨io, h1, h2, h3⟩ := ih st rows hsame hk hn
      refine ⟨io, ?_, fun p' d => ?_, h3⟩
      · dsimp only
        rw [h1, List.flatMap_cons, hnew]
        rfl
      · rw [h2]
        constructor
        · rintro (h | ⟨e, he, h⟩)
          · exact Or.inl h
          · exact Or.inr ⟨e, List.mem_cons_of_mem _ he, h⟩
        · rintro (h | ⟨e, he, h⟩)
          · exact Or.inl h
          · rcases List.mem_cons.1 he with rfl | he
            · rw [hnew] at h; cases h.2
            · exact Or.inr ⟨e, he, h⟩
    | some l =>
      have hnew : newIo st.computeDies (p, dies) =
          dies.filter fun d => !((st.computeDies.get? p).getD []).contains d := by
        unfold newIo
        rw [if_neg (by rw [hp]; simp)]
      obtain ⟨io, g1, g2, g3, g4, g5⟩ := ioDiesInner_spec p dies st rows
        (by rw [Ne, hsame, hp]; simp) hk hn
      rw [← hnew] at g1 g2
      dsimp only
      rw [g1]
      dsimp only
      obtain ⟨io', h1, h2, h3⟩ := ih { st with ioDies := io }
        (rows ++ (newIo st.computeDies (p, dies)).map (Row.io p)) (fun p' => (g3 p').trans (hsame p')) g4 g5
      refine ⟨io', ?_, fun p' d => ?_, h3⟩
      · rw [h1, List.flatMap_cons]
        simp
      · rw [h2, g2]
        constructor
        · rintro ((h | ⟨h, h'⟩) | ⟨e, he, h⟩)
          · exact Or.inl h
          · exact Or.inr ⟨_, List.mem_cons_self, h, h'⟩
          · exact Or.inr ⟨e, List.mem_cons_of_mem _ he, h⟩
        · rintro (h | ⟨e, he, h⟩)
          · exact Or.inl (Or.inl h)
          · rcases List.mem_cons.1 he with rfl | he
            · exact Or.inl (Or.inr h)
            · exact Or.inr ⟨e, he, h⟩

/-- All lines of I/O dies, each once. -/
structure IoRows (m : Machine) (rows : List Row) : Prop where
  nodup : rows.Nodup
  mem : ∀ r, r ∈ rows ↔ ∃ p d, m.IsIo p d ∧ r = Row.io p d

theorem io_inj {p d p' d' : Int} (h : Row.io p d = Row.io p' d') : p = p' ∧ d = d' := by
  unfold Row.io at h
  injection h with h1 h2 h3 h4 h5 h6
  exact ⟨by injection h6, by injection h4⟩

theorem nodup_ioRows {u : Dict Int (List Int)} {f : Int × List Int → List Int} (hk : u.keys.Nodup)
    (hf : ∀ e ∈ u, (f e).Nodup) : (u.flatMap fun e => (f e).map (Row.io e.1)).Nodup := by
  induction u with
  | nil => exact List.nodup_nil
  | cons e u ih =>
    rw [List.flatMap_cons, List.nodup_append]
    simp only [Dict.keys, List.map_cons, List.nodup_cons] at hk
    refine ⟨?_, ih hk.2 fun e he => hf e (List.mem_cons_of_mem _ he), ?_⟩
    · have := hf e List.mem_cons_self
      rw [List.Nodup, List.pairwise_map]
      exact this.imp fun h e' => h (io_inj e').2
    · intro a ha b hb e'
      subst e'
      obtain ⟨d, _, rfl⟩ := List.mem_map.1 ha
      obtain ⟨e2, he2, hb⟩ := List.mem_flatMap.1 hb
      obtain ⟨d2, _, h3⟩ := List.mem_map.1 hb
      exact hk.1 (List.mem_map.2 ⟨e2, he2, (io_inj h3).1⟩)

theorem get?_of_mem_nodup {u : Dict Int (List Int)} (hk : u.keys.Nodup) {e : Int × List Int} (he : e ∈ u) :
    u.get? e.1 = some e.2 := Dict.get?_of_mem hk he

/-- The loop over the dies of the uncore driver, after all dies with CPUs were found. -/
theorem addIoDies_spec {h : Host} (hw : m.WF) (hs : Shows m on h) (hd : DI m m.HasCpus st.computeDies st.ioDies)
    (rows : List Row) :
    ∃ io ios, addIoDies h st rows = .ok ({ st with ioDies := io }, rows ++ ios) ∧ IoRows m ios ∧
      DI m m.HasCpus st.computeDies io ∧ ∀ p d, m.IsIo p d → Mem io p d := by
  unfold addIoDies
  rw [hs.uncore]
  have hcd : ∀ p, st.computeDies.get? p = none ↔ ¬ ∃ c ∈ m.present, (m.num .package c : Int) = p := by
    intro p
    constructor
    · rintro h ⟨c, hc, rfl⟩
      obtain ⟨l, h1, _⟩ := (hd.mem (m.num .package c : Int) (m.num .die c : Int)).2 ⟨c, hc, rfl, rfl⟩
      rw [h] at h1
      cases h1
    · intro h
      cases hg : st.computeDies.get? p with
      | none => rfl
      | some l =>
        cases l with
        | nil => exact absurd rfl (hd.ne p _ hg)
        | cons x xs =>
          obtain ⟨c, hc, h1, _⟩ := (hd.mem p x).1 ⟨_, hg, List.mem_cons_self⟩
          exact absurd ⟨c, hc, h1⟩ h
  cases hu : m.uncore with
  | none =>
    have hno : ∀ p d, ¬ m.IsIo p d := by
      rintro p d ⟨⟨u, h1, _⟩, _⟩
      rw [hu] at h1
      cases h1
    refine ⟨st.ioDies, [], by simp, ⟨List.nodup_nil, fun r => ?_⟩, hd, fun p d h => absurd h (hno p d)⟩
    constructor
    · intro h; cases h
    · rintro ⟨p, d, h, _⟩; exact absurd h (hno p d)
  | some u =>
    have hk := hw.keys u hu
    have hnew : ∀ e ∈ u, ∀ d, d ∈ newIo st.computeDies e ↔ m.IsIo e.1 d := by
      intro e he d
      have hg := get?_of_mem_nodup hk he
      unfold newIo
      by_cases hp : st.computeDies.get? e.1 = none
      · rw [if_pos hp]
        constructor
        · intro h; cases h
        · rintro ⟨_, h, _⟩
          exact absurd h ((hcd _).1 hp)
      · rw [if_neg hp, List.mem_filter]
        have hm : d ∈ (st.computeDies.get? e.1).getD [] ↔ m.HasCpus e.1 d := by
          rw [← hd.mem]
          unfold Mem
          cases hg' : st.computeDies.get? e.1 with
          | none => exact absurd hg' hp
          | some l => simp
        have hp' : ∃ c ∈ m.present, (m.num .package c : Int) = e.1 := Classical.not_not.1 fun h => hp ((hcd _).2 h)
        constructor
        · rintro ⟨h1, h2⟩
          exact ⟨⟨u, hu, _, hg, h1⟩, hp', fun h => by simp [hm.2 h] at h2⟩
        · rintro ⟨⟨u', h1, ds, h2, h3⟩, _, h4⟩
          rw [hu] at h1
          cases h1
          rw [hg] at h2
          cases h2
          exact ⟨h3, by simpa using fun h => h4 (hm.1 h)⟩
    have hfind : ∀ p d, m.IsIo p d → ∃ e ∈ u, p = e.1 ∧ d ∈ newIo st.computeDies e := by
      rintro p d ⟨⟨u', h1, ds, h2, h3⟩, h4⟩
      have h1' := h1
      rw [hu] at h1
      cases h1
      exact ⟨(p, ds), Dict.mem_of_get? h2, rfl, (hnew _ (Dict.mem_of_get? h2) d).2 ⟨⟨u, h1', ds, h2, h3⟩, h4⟩⟩
    obtain ⟨io, h1, h2, h3, h4, h5⟩ := ioDiesOuter_spec u st rows hd.same hd.keys hd.nodup
    refine ⟨io, u.flatMap fun e => (newIo st.computeDies e).map (Row.io e.1), ?_, ⟨?_, fun r => ?_⟩, ?_, ?_⟩
    · dsimp only [Option.map]
      rw [h1]
    · refine nodup_ioRows hk fun e he => ?_
      unfold newIo
      split
      · exact List.nodup_nil
      · exact (hw.dies u hu e.1 e.2 (get?_of_mem_nodup hk he)).1.filter _
    · rw [List.mem_flatMap]
      constructor
      · rintro ⟨e, he, hr⟩
        obtain ⟨d, hd', rfl⟩ := List.mem_map.1 hr
        exact ⟨e.1, d, (hnew e he d).1 hd', rfl⟩
      · rintro ⟨p, d, hi, rfl⟩
        obtain ⟨e, he, rfl, hd'⟩ := hfind p d hi
        exact ⟨e, he, List.mem_map.2 ⟨d, hd', rfl⟩⟩
    · refine ⟨hd.mem, hd.ne, h4, h3, fun p d hm => ?_, h5⟩
      rcases (h2 p d).1 hm with hm | ⟨e, he, rfl, hd'⟩
      · exact hd.isIo p d hm
      · exact (hnew e he d).1 hd'
    · intro p d hi
      exact (h2 p d).2 (Or.inr (hfind p d hi))

theorem addIoDiesCached_spec (hd : DI m m.HasCpus st.computeDies st.ioDies)
    (hall : ∀ p d, m.IsIo p d → Mem st.ioDies p d) (rows : List Row) :
    ∃ ios, addIoDiesCached st rows = rows ++ ios ∧ IoRows m ios := by
  refine ⟨_, rfl, ⟨nodup_ioRows (f := Prod.snd) hd.keys fun e he => hd.nodup e.1 e.2 (get?_of_mem_nodup hd.keys he),
    fun r => ?_⟩⟩
  rw [List.mem_flatMap]
  constructor
  · rintro ⟨e, he, hr⟩
    obtain ⟨d, hd', rfl⟩ := List.mem_map.1 hr
    exact ⟨e.1, d, hd.isIo e.1 d ⟨e.2, get?_of_mem_nodup hd.keys he, hd'⟩, rfl⟩
  · rintro ⟨p, d, hi, rfl⟩
    obtain ⟨l, h1, h2⟩ := hall p d hi
    exact ⟨(p, l), Dict.mem_of_get? h1, List.mem_map.2 ⟨d, h2, rfl⟩⟩

end Verif.TopoBuild
