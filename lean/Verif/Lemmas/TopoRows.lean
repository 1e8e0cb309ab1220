import Verif.Lemmas.TopoText

/-!
Lemmas about adding levels to the lines of the topology table.
-/

namespace Verif.TopoBuild

open PyStr Trivial
open CPUInfo (Level)

/-- The line of CPU `c`: it has the right numbers for levels `H c`, no wrong numbers, and if it has the die number, `D c`
holds. -/
structure RowOK (m : Machine) (H : Nat → Level → Prop) (D : Nat → Prop) (c : Nat) (r : Row) : Prop where
  cpu : r.cpu = c
  has : ∀ l, H c l → r.get l = some (m.num l c : Int)
  right : ∀ l v, r.get l = some v → v = (m.num l c : Int)
  die : r.die ≠ none → D c

/-- The lines of the online CPUs. -/
structure TI (m : Machine) (on : List Nat) (H : Nat → Level → Prop) (D : Nat → Prop) (t : TInfo) : Prop where
  keys : t.keys.Nodup
  mem : ∀ k, k ∈ t.keys → ∃ c ∈ on, k = (c : Int)
  row : ∀ c ∈ on, ∃ r, t.get? c = some r ∧ RowOK m H D c r

variable {m : Machine} {on : List Nat} {H : Nat → Level → Prop} {D : Nat → Prop} {t : TInfo}

theorem RowOK.mono {H' : Nat → Level → Prop} {D' : Nat → Prop} {c : Nat} {r : Row} (h : RowOK m H D c r)
    (hH : ∀ l, H' c l → H c l) (hD : D c → D' c) : RowOK m H' D' c r :=
  ⟨h.cpu, fun l hl => h.has l (hH l hl), h.right, fun hd => hD (h.die hd)⟩

theorem TI.mono {H' : Nat → Level → Prop} {D' : Nat → Prop} (h : TI m on H D t)
    (hH : ∀ c ∈ on, ∀ l, H' c l → H c l) (hD : ∀ c ∈ on, D c → D' c) : TI m on H' D' t :=
  ⟨h.keys, h.mem, fun c hc => by
    obtain ⟨r, h1, h2⟩ := h.row c hc
    exact ⟨r, h1, h2.mono (hH c hc) (hD c hc)⟩⟩

theorem TI.set {H' : Nat → Level → Prop} {D' : Nat → Prop} (h : TI m on H D t) {c : Nat} {r : Row} (hc : c ∈ on)
    (hr : RowOK m H' D' c r) (hH : ∀ c' ∈ on, c' ≠ c → ∀ l, H' c' l → H c' l) (hD : ∀ c' ∈ on, D c' → D' c') :
    TI m on H' D' (t.set c r) := by
  refine ⟨Dict.nodup_keys_set h.keys _ _, fun k hk => ?_, fun c' hc' => ?_⟩
  · rw [Dict.mem_keys_set] at hk
    rcases hk with rfl | hk
    · exact ⟨c, hc, rfl⟩
    · exact h.mem k hk
  · by_cases e : c' = c
    · subst e
      exact ⟨r, Dict.get?_set_self _ _ _, hr⟩
    · obtain ⟨r', h1, h2⟩ := h.row c' hc'
      refine ⟨r', ?_, h2.mono (hH c' hc' e) (hD c' hc')⟩
      rw [Dict.get?_set_ne _ _ (by intro e'; exact e (by omega)), h1]

/-! ### Cores and packages -/

/-- Levels `H`, and also the levels `P` for the CPUs in the list. -/
def Plus (H : Nat → Level → Prop) (cpus : List Int) (P : Level → Prop) : Nat → Level → Prop :=
  fun c l => H c l ∨ ((c : Int) ∈ cpus ∧ P l)

/-- Adding the levels for the first CPU and then of the others. -/
theorem plus_cons {c' c : Nat} {cpus : List Int} {P : Level → Prop} {l : Level}
    (hl : Plus H ((c : Int) :: cpus) P c' l) : Plus (Plus H [(c : Int)] P) cpus P c' l := by
  rcases hl with hl | ⟨hl, hP⟩
  · exact Or.inl (Or.inl hl)
  · rcases List.mem_cons.1 hl with hl | hl
    · exact Or.inl (Or.inr ⟨by simp [hl], hP⟩)
    · exact Or.inr ⟨hl, hP⟩

theorem plus_ne {c' c : Nat} {P : Level → Prop} {l : Level} (hne : c' ≠ c) (hl : Plus H [(c : Int)] P c' l) :
    H c' l :=
  hl.elim id fun h' => absurd (List.mem_singleton.1 h'.1) (by omega)

theorem RowOK.cores {c : Nat} {r : Row} (h : RowOK m H D c r) {H' : Nat → Level → Prop}
    (hH : ∀ l, H' c l → H c l ∨ l = .package ∨ l = .core) :
    RowOK m H' D c { r with package := some (m.num .package c : Int), core := some (m.num .core c : Int) } := by
  refine ⟨h.cpu, fun l hl => ?_, fun l v hv => ?_, h.die⟩
  · have := hH l hl
    cases l
    case package => rfl
    case core => rfl
    all_goals
      rcases this with h' | h' | h'
      · exact h.has _ h'
      · cases h'
      · cases h'
  · cases l
    case package => cases hv; rfl
    case core => cases hv; rfl
    all_goals exact h.right _ v hv

theorem addCoresLoop_spec {info : Dict Int (List PyStr)}
    (hinfo : ∀ c ∈ on, ∃ lines, info.get? c = some lines ∧ CpuLines c (m.num .package c) (m.num .core c) lines)
    (cpus : List Int) (hcpus : ∀ k ∈ cpus, ∃ c ∈ on, k = (c : Int)) (h : TI m on H D t) :
    ∃ t', addCoresLoop info cpus t = .ok t' ∧ TI m on (Plus H cpus fun l => l = .package ∨ l = .core) D t' := by
  induction cpus generalizing t H with
  | nil => exact ⟨t, rfl, h.mono (fun c _ l hl => hl.elim id fun h => (by cases h.1)) fun _ _ h => h⟩
  | cons k cpus ih =>
    obtain ⟨c, hc, rfl⟩ := hcpus k List.mem_cons_self
    obtain ⟨lines, h1, h2⟩ := hinfo c hc
    obtain ⟨r, h3, h4⟩ := h.row c hc
    obtain ⟨t', h5, h6⟩ := ih (H := Plus H [(c : Int)] fun l => l = .package ∨ l = .core)
      (fun k hk => hcpus k (List.mem_cons_of_mem _ hk))
      (h.set hc (h4.cores (H' := Plus H [(c : Int)] fun l => l = .package ∨ l = .core)
        (by intro l hl; exact hl.imp id And.right))
        (fun c' _ hne l hl => plus_ne hne hl)
        fun _ _ h => h)
    refine ⟨t', ?_, h6.mono (fun c' _ l hl => ?_) fun _ _ h => h⟩
    · rw [addCoresLoop, h1]
      dsimp only
      rw [h2.numbers.2.1]
      dsimp only
      rw [h2.numbers.2.2]
      dsimp only
      rw [h3]
      exact h5
    · rcases hl with hl | ⟨hl, hP⟩
      · exact Or.inl (Or.inl hl)
      · rcases List.mem_cons.1 hl with hl | hl
        · exact Or.inl (Or.inr ⟨by simp [hl], hP⟩)
        · exact Or.inr ⟨hl, hP⟩

theorem addCores_spec {h : Host} (hs : Shows m on h) (cpus : List Int) (hcpus : ∀ k ∈ cpus, ∃ c ∈ on, k = (c : Int))
    (ht : TI m on H D t) :
    ∃ t', addCores h t cpus = .ok t' ∧ TI m on (Plus H cpus fun l => l = .package ∨ l = .core) D t' := by
  obtain ⟨bs, h1, h2, h3⟩ := hs.cpuinfo
  have hne : bs ≠ [] := by
    rintro rfl
    cases hon : on with
    | nil => exact hs.ne hon
    | cons c l => cases h3 c (by rw [hon]; exact List.mem_cons_self)
  obtain ⟨info, h4, h5⟩ := parseBlocks_spec h2 []
  obtain ⟨t', h6, h7⟩ := addCoresLoop_spec (fun c hc => (h5 c).1 (h3 c hc)) cpus hcpus ht
  refine ⟨t', ?_, h7⟩
  unfold addCores
  rw [h1]
  dsimp only
  rw [splitBlocks_cpuinfo h2 hne, h4]
  exact h6

/-! ### Modules -/

theorem RowOK.withModule {c : Nat} {r : Row} (h : RowOK m H D c r) {H' : Nat → Level → Prop}
    (hH : ∀ l, H' c l → H c l ∨ l = .module) :
    RowOK m H' D c { r with module := some (m.num .module c : Int) } := by
  refine ⟨h.cpu, fun l hl => ?_, fun l v hv => ?_, h.die⟩
  · have := hH l hl
    cases l
    case module => rfl
    all_goals
      rcases this with h' | h'
      · exact h.has _ h'
      · cases h'
  · cases l
    case module => cases hv; rfl
    all_goals exact h.right _ v hv

theorem RowOK.module_of_some {c : Nat} {r : Row} (h : RowOK m H D c r) (hm : r.module ≠ none)
    {H' : Nat → Level → Prop} (hH : ∀ l, H' c l → H c l ∨ l = .module) : RowOK m H' D c r := by
  refine ⟨h.cpu, fun l hl => ?_, h.right, h.die⟩
  rcases hH l hl with h' | rfl
  · exact h.has l h'
  · cases hr : r.module with
    | none => exact absurd hr hm
    | some v =>
      have hg : r.get .module = some v := hr
      rw [hg, h.right _ v hg]

theorem setModules_spec {x : Int} (sib : List Int)
    (hsib : ∀ c ∈ on, (c : Int) ∈ sib → (m.num .module c : Int) = x) (h : TI m on H D t) :
    TI m on (Plus H sib fun l => l = .module) D (setModules x sib t) := by
  induction sib generalizing t H with
  | nil => exact h.mono (fun c _ l hl => hl.elim id fun h => (by cases h.1)) fun _ _ h => h
  | cons k sib ih =>
    rw [setModules]
    cases hk : t.get? k with
    | none =>
      dsimp only
      refine (ih (fun c hc hm => hsib c hc (List.mem_cons_of_mem _ hm)) h).mono (fun c hc l hl => ?_) fun _ _ h => h
      rcases hl with hl | ⟨hl, hP⟩
      · exact Or.inl hl
      · rcases List.mem_cons.1 hl with hl | hl
        · obtain ⟨r, hr, _⟩ := h.row c hc
          rw [hl, hk] at hr
          cases hr
        · exact Or.inr ⟨hl, hP⟩
    | some r =>
      dsimp only
      have hkm : k ∈ t.keys := by
        apply Classical.byContradiction
        intro hn
        rw [← Dict.get?_eq_none_iff, hk] at hn
        cases hn
      obtain ⟨c, hc, rfl⟩ := h.mem k hkm
      obtain ⟨r', h3, h4⟩ := h.row c hc
      rw [hk] at h3
      cases h3
      rw [← hsib c hc List.mem_cons_self]
      have h6 := ih (H := Plus H [(c : Int)] fun l => l = .module) (t := t.set c { r with module := some (m.num .module c : Int) })
        (fun c' hc' hm => hsib c' hc' (List.mem_cons_of_mem _ hm))
        (h.set hc (h4.withModule (H' := Plus H [(c : Int)] fun l => l = .module)
        (by intro l hl; exact hl.imp id And.right))
        (fun c' _ hne l hl => plus_ne hne hl)
        fun _ _ h => h)
      rw [hsib c hc List.mem_cons_self] at h6 ⊢
      refine h6.mono (fun c' _ l hl => ?_) fun _ _ h => h
      rcases hl with hl | ⟨hl, hP⟩
      · exact Or.inl (Or.inl hl)
      · rcases List.mem_cons.1 hl with hl | hl
        · exact Or.inl (Or.inr ⟨by simp [hl], hP⟩)
        · exact Or.inr ⟨hl, hP⟩

theorem addModulesLoop_spec {h : Host} (hs : Shows m on h) (cpus : List Int)
    (hcpus : ∀ k ∈ cpus, ∃ c ∈ on, k = (c : Int)) (hcore : ∀ c ∈ on, H c .core) (ht : TI m on H D t) (nc : Bool)
    (hnc : nc = true → ∀ c ∈ on, h.cacheId c = .error .notFound ∧ m.num .module c = m.num .core c) :
    ∃ t', addModulesLoop h nc cpus t = .ok t' ∧ TI m on (Plus H cpus fun l => l = .module) D t' := by
  induction cpus generalizing t H nc with
  | nil => exact ⟨t, rfl, ht.mono (fun c _ l hl => hl.elim id fun h => (by cases h.1)) fun _ _ h => h⟩
  | cons k cpus ih =>
    obtain ⟨c, hc, rfl⟩ := hcpus k List.mem_cons_self
    obtain ⟨r, h3, h4⟩ := ht.row c hc
    have hcore' : ∀ c' ∈ on, Plus H [(c : Int)] (fun l => l = .module) c' .core := fun c' hc' => Or.inl (hcore c' hc')
    have ih' := fun t => ih (t := t) (H := Plus H [(c : Int)] fun l => l = .module) (fun k hk => hcpus k (List.mem_cons_of_mem _ hk))
      hcore'
    have fin : ∀ {t'}, TI m on (Plus (Plus H [(c : Int)] fun l => l = .module) cpus fun l => l = .module) D t' →
        TI m on (Plus H ((c : Int) :: cpus) fun l => l = .module) D t' :=
      fun h => h.mono (fun c' _ l hl => plus_cons hl) fun _ _ h => h
    have asCore : m.num .module c = m.num .core c →
        coreAsModule r = .ok { r with module := some (m.num .module c : Int) } := by
      intro e
      have : r.core = some (m.num .core c : Int) := h4.has .core (hcore c hc)
      unfold coreAsModule
      rw [this, e]
    have tset : TI m on (Plus H [(c : Int)] fun l => l = .module) D
        (t.set c { r with module := some (m.num .module c : Int) }) :=
      ht.set hc (h4.withModule (by intro l hl; exact hl.imp id And.right)) (fun c' _ hne l hl => plus_ne hne hl)
        fun _ _ h => h
    rw [addModulesLoop, h3]
    dsimp only
    by_cases hm : r.module ≠ none
    · rw [if_pos hm]
      have hset : TI m on (Plus H [(c : Int)] fun l => l = .module) D t := by
        refine ⟨ht.keys, ht.mem, fun c' hc' => ?_⟩
        by_cases e : c' = c
        · subst e
          exact ⟨r, h3, h4.module_of_some hm (by intro l hl; exact hl.imp id And.right)⟩
        · obtain ⟨r', g1, g2⟩ := ht.row c' hc'
          exact ⟨r', g1, g2.mono (fun l hl => plus_ne e hl) id⟩
      obtain ⟨t', h5, h6⟩ := ih' _ hset nc hnc
      exact ⟨t', h5, fin h6⟩
    · rw [if_neg hm]
      cases nc with
      | true =>
        rw [if_pos rfl, asCore (hnc rfl c hc).2]
        obtain ⟨t', h5, h6⟩ := ih' _ tset true hnc
        exact ⟨t', h5, fin h6⟩
      | false =>
        rw [if_neg (by decide)]
        rcases hs.module with hmod | hmod
        · obtain ⟨g1, tx, P, g2, g3, g4, g5⟩ := hmod c hc
          obtain ⟨sib, g6, g7⟩ := readRange_lists g3
          rw [g1]
          dsimp only
          rw [strToInt_numText]
          dsimp only
          rw [g2, g6]
          dsimp only
          have hset := setModules_spec (x := (m.num .module c : Int)) sib (by
            intro c' hc' hmem
            obtain ⟨n, hn1, hn2⟩ := (g7 _).1 hmem
            have : c' = n := by omega
            subst this
            rw [g5 c' hc' hn2]) ht
          obtain ⟨t', h5, h6⟩ := ih' _ (hset.mono (fun c' _ l hl => by
            rcases hl with hl | ⟨hl, hP⟩
            · exact Or.inl hl
            · have : (c' : Int) = c := by simpa using hl
              exact Or.inr ⟨(g7 _).2 ⟨c, this, g4⟩, hP⟩) fun _ _ h => h) false hnc
          exact ⟨t', h5, fin h6⟩
        · rw [(hmod c hc).1]
          dsimp only
          rw [asCore (hmod c hc).2]
          obtain ⟨t', h5, h6⟩ := ih' _ tset true fun _ => hmod
          exact ⟨t', h5, fin h6⟩

/-! ### Nodes -/

theorem RowOK.withNode {c : Nat} {r : Row} (h : RowOK m H D c r) {H' : Nat → Level → Prop}
    (hH : ∀ l, H' c l → H c l ∨ l = .node) :
    RowOK m H' D c { r with node := some (m.num .node c : Int) } := by
  refine ⟨h.cpu, fun l hl => ?_, fun l v hv => ?_, h.die⟩
  · have := hH l hl
    cases l
    case node => rfl
    all_goals
      rcases this with h' | h'
      · exact h.has _ h'
      · cases h'
  · cases l
    case node => cases hv; rfl
    all_goals exact h.right _ v hv

theorem setNode_spec {x : Int} (cpus : List Int)
    (hx : ∀ c ∈ on, (c : Int) ∈ cpus → (m.num .node c : Int) = x) (h : TI m on H D t) :
    TI m on (Plus H cpus fun l => l = .node) D (setNode x cpus t) := by
  induction cpus generalizing t H with
  | nil => exact h.mono (fun c _ l hl => hl.elim id fun h => (by cases h.1)) fun _ _ h => h
  | cons k cpus ih =>
    rw [setNode]
    cases hk : t.get? k with
    | none =>
      dsimp only
      refine (ih (fun c hc hm => hx c hc (List.mem_cons_of_mem _ hm)) h).mono (fun c hc l hl => ?_) fun _ _ h => h
      rcases hl with hl | ⟨hl, hP⟩
      · exact Or.inl hl
      · rcases List.mem_cons.1 hl with hl | hl
        · obtain ⟨r, hr, _⟩ := h.row c hc
          rw [hl, hk] at hr
          cases hr
        · exact Or.inr ⟨hl, hP⟩
    | some r =>
      dsimp only
      have hkm : k ∈ t.keys := by
        apply Classical.byContradiction
        intro hn
        rw [← Dict.get?_eq_none_iff, hk] at hn
        cases hn
      obtain ⟨c, hc, rfl⟩ := h.mem k hkm
      obtain ⟨r', h3, h4⟩ := h.row c hc
      rw [hk] at h3
      cases h3
      rw [← hx c hc List.mem_cons_self]
      have h6 := ih (H := Plus H [(c : Int)] fun l => l = .node) (t := t.set c { r with node := some (m.num .node c : Int) })
        (fun c' hc' hm => hx c' hc' (List.mem_cons_of_mem _ hm))
        (h.set hc (h4.withNode (H' := Plus H [(c : Int)] fun l => l = .node)
        (by intro l hl; exact hl.imp id And.right))
        (fun c' _ hne l hl => plus_ne hne hl) fun _ _ h => h)
      rw [hx c hc List.mem_cons_self] at h6 ⊢
      exact h6.mono (fun c' _ l hl => plus_cons hl) fun _ _ h => h

theorem addNodesLoop_spec {h : Host} (nodes : List Int)
    (hn : ∀ k ∈ nodes, ∃ n : Nat, k = n ∧ ∃ tx Q, h.nodeCpus n = .ok tx ∧ Lists tx Q ∧
      ∀ c ∈ on, Q c ↔ m.num .node c = n) (ht : TI m on H D t) :
    ∃ t', addNodesLoop h nodes t = .ok t' ∧
      TI m on (fun c l => H c l ∨ (l = .node ∧ (m.num .node c : Int) ∈ nodes)) D t' := by
  induction nodes generalizing t H with
  | nil => exact ⟨t, rfl, ht.mono (fun c _ l hl => hl.elim id fun h => (by cases h.2)) fun _ _ h => h⟩
  | cons k nodes ih =>
    obtain ⟨n, rfl, tx, Q, h1, h2, h3⟩ := hn k List.mem_cons_self
    obtain ⟨l, h4, h5⟩ := readRange_lists h2
    have hset := setNode_spec (x := (n : Int)) l (by
      intro c hc hm
      obtain ⟨n', e1, e2⟩ := (h5 _).1 hm
      have : c = n' := by omega
      subst this
      rw [(h3 c hc).1 e2]) ht
    obtain ⟨t', h6, h7⟩ := ih (fun k hk => hn k (List.mem_cons_of_mem _ hk)) hset
    refine ⟨t', ?_, h7.mono (fun c hc l' hl => ?_) fun _ _ h => h⟩
    · rw [addNodesLoop, h1, h4]
      exact h6
    · rcases hl with hl | ⟨rfl, hl⟩
      · exact Or.inl (Or.inl hl)
      · rcases List.mem_cons.1 hl with hl | hl
        · exact Or.inl (Or.inr ⟨(h5 _).2 ⟨c, rfl, (h3 c hc).2 (by omega)⟩, rfl⟩)
        · exact Or.inr ⟨rfl, hl⟩

theorem addNodes_spec {h : Host} (hs : Shows m on h) (ht : TI m on H D t) :
    ∃ t', addNodes h t = .ok t' ∧ TI m on (fun c l => H c l ∨ l = .node) D t' := by
  obtain ⟨tx, P, h1, h2, h3, h4⟩ := hs.node
  obtain ⟨l, h5, h6⟩ := readRange_lists h2
  obtain ⟨t', h7, h8⟩ := addNodesLoop_spec l (by
    intro k hk
    obtain ⟨n, rfl, hn⟩ := (h6 k).1 hk
    exact ⟨n, rfl, h4 n hn⟩) ht
  refine ⟨t', ?_, h8.mono (fun c hc l' hl => ?_) fun _ _ h => h⟩
  · unfold addNodes
    rw [h1, h5]
    exact h7
  · exact hl.imp id fun e => ⟨e, (h6 _).2 ⟨_, rfl, h3 c hc⟩⟩

end Verif.TopoBuild
