import Verif.Model.CPUInfo

/-!
Helper lemmas about the topology model.
-/

namespace Verif.CPUInfo

/-- Assumptions about the topology the kernel reports. -/
structure WF (i : Info) : Prop where
  /-- A CPU line has a number at every level. -/
  cpuLine : ∀ t ∈ i.topology, t.cpu ≠ NA →
    t.core ≠ NA ∧ t.module ≠ NA ∧ t.die ≠ NA ∧ t.node ≠ NA ∧ t.package ≠ NA
  /-- A line without a CPU is an I/O die line. -/
  ioLine : ∀ t ∈ i.topology, t.cpu = NA →
    t.core = NA ∧ t.module = NA ∧ t.node = NA ∧ t.die ≠ NA ∧ t.package ≠ NA ∧
      t.die ∈ i.ioDies t.package
  /-- One line per CPU. -/
  unique : ∀ t ∈ i.topology, ∀ t' ∈ i.topology, t.cpu = t'.cpu → t.cpu ≠ NA → t = t'
  /-- The lines themselves are pairwise different. -/
  nodup : i.topology.Nodup
  /-- Exactly the online CPUs have a line. -/
  online : ∀ c, c ∈ i.online ↔ c ≠ NA ∧ ∃ t ∈ i.topology, t.cpu = c
  /-- Online CPUs are present. -/
  present : ∀ c ∈ i.online, c ∈ i.present
  /-- `NA` is not a CPU number. -/
  presentNA : NA ∉ i.present
  /-- A die with CPUs is not an I/O die. -/
  notIo : ∀ t ∈ i.topology, t.cpu ≠ NA → t.die ∉ i.ioDies t.package

theorem lexLe_total (a b : List Nat) : lexLe a b ∨ lexLe b a := by
  induction a generalizing b with
  | nil => simp [lexLe]
  | cons x xs ih =>
    cases b with
    | nil => simp [lexLe]
    | cons y ys =>
      simp only [lexLe]
      by_cases h1 : x < y
      · simp [h1]
      · by_cases h2 : y < x
        · simp [h2]
        · simp [h1, h2, ih]

theorem lexLe_trans (a b c : List Nat) (h1 : lexLe a b) (h2 : lexLe b c) : lexLe a c := by
  induction a generalizing b c with
  | nil => simp [lexLe]
  | cons x xs ih =>
    cases b with
    | nil => simp [lexLe] at h1
    | cons y ys =>
      cases c with
      | nil => simp [lexLe] at h2
      | cons z zs =>
        simp only [lexLe] at h1 h2 ⊢
        by_cases hxy : x < y
        · by_cases hyz : y < z
          · rw [if_pos (by omega)]
          · rw [if_neg hyz] at h2
            by_cases hzy : z < y
            · simp [hzy] at h2
            · rw [if_pos (by omega)]
        · rw [if_neg hxy] at h1
          by_cases hyx : y < x
          · simp [hyx] at h1
          · rw [if_neg hyx] at h1
            have : x = y := by omega
            subst this
            by_cases hxz : x < z
            · simp [hxz]
            · rw [if_neg hxz] at h2 ⊢
              by_cases hzx : z < x
              · simp [hzx] at h2
              · rw [if_neg hzx] at h2 ⊢
                exact ih _ _ h1 h2

theorem mem_getTopology {i : Info} {o : Level} {t : TLine} : t ∈ getTopology i o ↔ t ∈ i.topology :=
  mem_sortBy

theorem getTopology_perm (i : Info) (o : Level) : (getTopology i o).Perm i.topology :=
  sortBy_perm _ _

theorem getTopology_sorted (i : Info) (o : Level) :
    (getTopology i o).Pairwise (fun a b => lexLe (sortKey o a) (sortKey o b) = true) :=
  sortBy_sorted (le := fun a b => lexLe (sortKey o a) (sortKey o b))
    (fun _ _ => lexLe_total _ _) (fun _ _ _ => lexLe_trans _ _ _) _

/-- `nums` selects number `n`. -/
def Selects : Nums → Nat → Prop
  | .all, _ => True
  | .nums l, n => n ∈ l

theorem mem_levelNumsRaw {lines : List TLine} {sub lvl : Level} {nums : Nums} {n : Nat} :
    n ∈ levelNumsRaw lines sub lvl nums ↔
      n ≠ NA ∧ ∃ t ∈ lines, t.get lvl ≠ NA ∧ Selects nums (t.get lvl) ∧ t.get sub = n := by
  unfold levelNumsRaw
  simp only [List.mem_map, List.mem_filter, Bool.and_eq_true]
  cases nums with
  | all =>
    simp only [Selects, true_and, Bool.not_eq_true', beq_eq_false_iff_ne]
    constructor
    · rintro ⟨t, ⟨ht, ⟨h1, h2⟩, -⟩, rfl⟩; exact ⟨h2, t, ht, h1, rfl⟩
    · rintro ⟨h2, t, ht, h1, rfl⟩; exact ⟨t, ⟨ht, ⟨h1, h2⟩, trivial⟩, rfl⟩
  | nums l =>
    simp only [Selects, List.contains_iff_mem, Bool.not_eq_true', beq_eq_false_iff_ne]
    constructor
    · rintro ⟨t, ⟨ht, ⟨h1, h2⟩, h3⟩, rfl⟩; exact ⟨h2, t, ht, h1, h3, rfl⟩
    · rintro ⟨h2, t, ht, h1, h3, rfl⟩; exact ⟨t, ⟨ht, ⟨h1, h2⟩, h3⟩, rfl⟩

theorem getLevelNums_ok {i : Info} {sub lvl : Level} {nums : Nums} {o : Level} {r : List Nat}
    (h : getLevelNums i sub lvl nums o = .ok r) :
    r = pyDedup (levelNumsRaw (getTopology i o) sub lvl nums) := by
  unfold getLevelNums at h
  split at h
  · cases h
  · cases nums with
    | all => simpa using h.symm
    | nums l =>
      dsimp only at h
      split at h
      · simpa using h.symm
      · cases h

theorem mem_getLevelNums {i : Info} {sub lvl : Level} {nums : Nums} {o : Level} {r : List Nat}
    (h : getLevelNums i sub lvl nums o = .ok r) (n : Nat) :
    n ∈ r ↔ n ≠ NA ∧ ∃ t ∈ i.topology, t.get lvl ≠ NA ∧ Selects nums (t.get lvl) ∧
      t.get sub = n := by
  rw [getLevelNums_ok h, mem_pyDedup, mem_levelNumsRaw]
  simp only [mem_getTopology]

theorem nodup_getLevelNums {i : Info} {sub lvl : Level} {nums : Nums} {o : Level} {r : List Nat}
    (h : getLevelNums i sub lvl nums o = .ok r) : r.Nodup := by
  rw [getLevelNums_ok h]; exact nodup_pyDedup _

theorem mem_validNums {i : Info} {lvl o : Level} {n : Nat} :
    n ∈ validNums (getTopology i o) lvl ↔ n ≠ NA ∧ ∃ t ∈ i.topology, t.get lvl = n := by
  unfold validNums
  simp only [List.mem_filter, List.mem_map, mem_getTopology, Bool.not_eq_true',
    beq_eq_false_iff_ne]
  exact and_comm

theorem getLevelNums_isOk {i : Info} {sub lvl : Level} {nums : Nums} {o : Level} :
    (∃ r, getLevelNums i sub lvl nums o = .ok r) ↔
      sub.idx ≤ lvl.idx ∧ ∀ l, nums = .nums l →
        ∀ n ∈ l, n ≠ NA ∧ ∃ t ∈ i.topology, t.get lvl = n := by
  unfold getLevelNums
  by_cases hlt : lvl.idx < sub.idx
  · rw [if_pos hlt]
    constructor
    · rintro ⟨r, h⟩; cases h
    · rintro ⟨h, -⟩; omega
  · rw [if_neg hlt]
    cases nums with
    | all => simp; omega
    | nums l =>
      dsimp only
      constructor
      · rintro ⟨r, h⟩
        refine ⟨by omega, ?_⟩
        rintro l' hl' n hn
        cases hl'
        split at h
        · rename_i hall
          rw [List.all_eq_true] at hall
          have := hall n hn
          rw [List.contains_iff_mem] at this
          exact mem_validNums.1 this
        · cases h
      · rintro ⟨-, h⟩
        rw [if_pos]
        · exact ⟨_, rfl⟩
        · rw [List.all_eq_true]
          intro n hn
          rw [List.contains_iff_mem]
          exact mem_validNums.2 (h l rfl n hn)

theorem getLevelNums_error {i : Info} {sub lvl : Level} {nums : Nums} {o : Level}
    (h : ¬ ∃ r, getLevelNums i sub lvl nums o = .ok r) :
    getLevelNums i sub lvl nums o = .error .error := by
  unfold getLevelNums at h ⊢
  split
  · rfl
  · rename_i hlt
    rw [if_neg hlt] at h
    cases nums with
    | all => exact absurd ⟨_, rfl⟩ h
    | nums l =>
      dsimp only at h ⊢
      split
      · rename_i hall
        rw [if_pos hall] at h
        exact absurd ⟨_, rfl⟩ h
      · rfl

theorem pairwise_le_nodup_lt {l : List Nat} (h : l.Pairwise (· ≤ ·)) (hn : l.Nodup) :
    l.Pairwise (· < ·) := by
  have := h.and hn
  exact this.imp (fun ⟨a, b⟩ => by omega)

/-- If the lines are sorted so that the selected numbers grow, the result is strictly ascending. -/
theorem sorted_getLevelNums {i : Info} {sub lvl : Level} {nums : Nums} {o : Level} {r : List Nat}
    (h : getLevelNums i sub lvl nums o = .ok r)
    (hs : ∀ a ∈ i.topology, ∀ b ∈ i.topology, Selects nums (a.get lvl) → Selects nums (b.get lvl) →
      lexLe (sortKey o a) (sortKey o b) = true → a.get sub ≤ b.get sub) :
    r.Pairwise (· < ·) := by
  refine pairwise_le_nodup_lt ?_ (nodup_getLevelNums h)
  rw [getLevelNums_ok h]
  refine List.Pairwise.sublist (pyDedup_sublist _) ?_
  unfold levelNumsRaw
  rw [List.pairwise_map]
  have hp := (getTopology_sorted i o).filter (fun t =>
    !(t.get lvl == NA) && !(t.get sub == NA) &&
      match nums with | .all => true | .nums l => l.contains (t.get lvl))
  refine hp.imp_of_mem ?_
  intro a b ha hb hab
  rw [List.mem_filter] at ha hb
  have sel : ∀ t : TLine, (!(t.get lvl == NA) && !(t.get sub == NA) &&
      match nums with | .all => true | .nums l => l.contains (t.get lvl)) = true →
      Selects nums (t.get lvl) := by
    intro t ht
    cases nums with
    | all => trivial
    | nums l =>
      simp only [Bool.and_eq_true] at ht
      simpa [Selects] using ht.2
  exact hs a (mem_getTopology.1 ha.1) b (mem_getTopology.1 hb.1) (sel a ha.2) (sel b hb.2) hab

theorem lexLe_single {a b : Nat} : lexLe [a] [b] = true ↔ a ≤ b := by
  simp only [lexLe]
  by_cases h : a < b
  · simp [h]; omega
  · by_cases h2 : b < a
    · simp [h, h2]
    · simp [h, h2]; omega

theorem lexLe_cons {a b : Nat} {as bs : List Nat} :
    lexLe (a :: as) (b :: bs) = true ↔ a < b ∨ (a = b ∧ lexLe as bs = true) := by
  simp only [lexLe]
  by_cases h : a < b
  · simp [h]
  · by_cases h2 : b < a
    · simp [h, h2]; omega
    · have : a = b := by omega
      simp [this]

/-- CPU lists in CPU order are strictly ascending. -/
theorem sorted_cpus {i : Info} {lvl : Level} {nums : Nums} {r : List Nat}
    (h : getLevelNums i .CPU lvl nums .CPU = .ok r) : r.Pairwise (· < ·) :=
  sorted_getLevelNums h (fun a _ b _ _ _ hab => by
    simpa [sortKey, lexLe_single, TLine.get] using hab)


/-! ### The "divide" loops -/

/-- All steps of a "divide" loop over units with known CPUs. -/
def divAll {β : Type} (us : List (β × List Nat)) (st : List β × List Nat) : List β × List Nat :=
  us.foldl (fun st u => divStep u.1 u.2 st) st

/-- The CPUs of the unit are all in `S`. -/
def covered {β : Type} (S : List Nat) (u : β × List Nat) : Bool := u.2.all (fun c => S.contains c)

theorem covered_iff {β : Type} {S : List Nat} {u : β × List Nat} :
    covered S u = true ↔ ∀ c ∈ u.2, c ∈ S := by
  simp [covered]

theorem divAll_spec {β : Type} (us : List (β × List Nat))
    (hd : us.Pairwise (fun a b => ∀ c ∈ a.2, c ∉ b.2)) (res : List β) (S : List Nat) :
    divAll us (res, S) = (res ++ (us.filter (covered S)).map Prod.fst,
      S.filter (fun c => !(us.any (fun u => covered S u && u.2.contains c)))) := by
  induction us generalizing res S with
  | nil =>
    have : S.filter (fun _ => true) = S := by simp
    simp [divAll, this]
  | cons u us ih =>
    rw [List.pairwise_cons] at hd
    have step : divAll (u :: us) (res, S) = divAll us (divStep u.1 u.2 (res, S)) := rfl
    rw [step]
    unfold divStep
    by_cases hc : covered S u = true
    · have hc' : (u.2.all fun c => S.contains c) = true := hc
      simp only [hc', if_true]
      rw [ih hd.2]
      have hcov : ∀ v ∈ us, covered (S.filter (fun c => !u.2.contains c)) v = covered S v := by
        intro v hv
        rw [Bool.eq_iff_iff, covered_iff, covered_iff]
        constructor
        · intro h c hcv
          exact (List.mem_filter.1 (h c hcv)).1
        · intro h c hcv
          rw [List.mem_filter]
          refine ⟨h c hcv, ?_⟩
          simp only [Bool.not_eq_true', List.contains_eq_mem, decide_eq_false_iff_not]
          exact fun hcu => hd.1 v hv c hcu hcv
      have hf : us.filter (covered (S.filter (fun c => !u.2.contains c))) = us.filter (covered S) :=
        List.filter_congr hcov
      rw [hf, List.filter_cons_of_pos hc, List.map_cons, List.append_assoc, List.singleton_append,
        List.filter_filter]
      congr 1
      refine List.filter_congr ?_
      intro c _
      have : us.any (fun w => covered (S.filter (fun c => !u.2.contains c)) w && w.2.contains c) =
          us.any (fun w => covered S w && w.2.contains c) := by
        rw [Bool.eq_iff_iff, List.any_eq_true, List.any_eq_true]
        constructor
        · rintro ⟨w, hw, h⟩; exact ⟨w, hw, by rw [← hcov w hw]; exact h⟩
        · rintro ⟨w, hw, h⟩; exact ⟨w, hw, by rw [hcov w hw]; exact h⟩
      rw [this, List.any_cons, hc]
      cases u.2.contains c <;> simp
    · have hc' : ¬ (u.2.all fun c => S.contains c) = true := hc
      simp only [hc']
      have hcf : covered S u = false := by simpa using hc
      rw [if_neg (by simp), ih hd.2, List.filter_cons_of_neg hc]
      congr 1
      refine List.filter_congr ?_
      intro c _
      rw [List.any_cons, hcf]; simp

theorem divPackagesLoop_eq {i : Info} (f : Nat → List Nat) (pkgs : List Nat)
    (h : ∀ p ∈ pkgs, packageToCpus i p = .ok (f p)) (st : List Nat × List Nat) :
    divPackagesLoop i pkgs st = .ok (divAll (pkgs.map (fun p => (p, f p))) st) := by
  induction pkgs generalizing st with
  | nil => rfl
  | cons p ps ih =>
    unfold divPackagesLoop
    rw [h p (by simp)]
    exact ih (fun q hq => h q (List.mem_cons_of_mem _ hq)) _

/-- The units of a package which are not I/O dies. -/
def realUnits (i : Info) (lvl : Level) (pkg : Nat) (us : List Nat) : List Nat :=
  us.filter (fun u => !(lvl == .die && (i.ioDies pkg).contains u))

theorem divUnitsLoop_eq {i : Info} {lvl : Level} {pkg : Nat} (f : Nat → List Nat) (us : List Nat)
    (h : ∀ u ∈ realUnits i lvl pkg us, inPackageToCpus i lvl (.nums [u]) (.nums [pkg]) = .ok (f u))
    (st : List (Nat × Nat) × List Nat) :
    divUnitsLoop i lvl pkg us st =
      .ok (divAll ((realUnits i lvl pkg us).map (fun u => ((pkg, u), f u))) st) := by
  induction us generalizing st with
  | nil => rfl
  | cons u us ih =>
    unfold divUnitsLoop
    by_cases hio : (lvl == .die && (i.ioDies pkg).contains u) = true
    · have e : realUnits i lvl pkg (u :: us) = realUnits i lvl pkg us := by
        unfold realUnits; rw [List.filter_cons_of_neg]; simp only [hio]; decide
      rw [if_pos hio, e]
      rw [e] at h
      exact ih h st
    · have e : realUnits i lvl pkg (u :: us) = u :: realUnits i lvl pkg us := by
        unfold realUnits; rw [List.filter_cons_of_pos]; simp only [Bool.not_eq_true'];
        exact Bool.eq_false_iff.2 hio
      rw [e] at h
      rw [if_neg hio, e, h u (by simp)]
      exact ih (fun v hv => h v (List.mem_cons_of_mem _ hv)) _

theorem divPkgsLoop_eq {i : Info} {lvl : Level} (g : Nat → List Nat) (f : Nat → Nat → List Nat)
    (pkgs : List Nat) (hg : ∀ p ∈ pkgs, getLevelNums i lvl .package (.nums [p]) lvl = .ok (g p))
    (h : ∀ p ∈ pkgs, ∀ u ∈ realUnits i lvl p (g p),
      inPackageToCpus i lvl (.nums [u]) (.nums [p]) = .ok (f p u))
    (st : List (Nat × Nat) × List Nat) :
    divPkgsLoop i lvl pkgs st = .ok (divAll (pkgs.flatMap (fun p =>
      (realUnits i lvl p (g p)).map (fun u => ((p, u), f p u)))) st) := by
  induction pkgs generalizing st with
  | nil => rfl
  | cons p ps ih =>
    unfold divPkgsLoop
    rw [hg p (by simp)]
    dsimp only
    rw [divUnitsLoop_eq (f p) (g p) (h p (by simp))]
    dsimp only
    rw [ih (fun q hq => hg q (List.mem_cons_of_mem _ hq))
      (fun q hq => h q (List.mem_cons_of_mem _ hq)), List.flatMap_cons]
    unfold divAll
    rw [List.foldl_append]

theorem mem_inPackageToCpus {i : Info} {lvl : Level} {nums pkgs : Nums} {r : List Nat}
    (wf : WF i) (h : inPackageToCpus i lvl nums pkgs = .ok r) (c : Nat) :
    c ∈ r ↔ c ≠ NA ∧ ∃ t ∈ i.topology, t.cpu = c ∧ t.get lvl ≠ NA ∧ Selects nums (t.get lvl) ∧
      Selects pkgs t.package := by
  unfold inPackageToCpus at h
  split at h
  · cases h
  · rename_i byLvl h1
    split at h
    · cases h
    · rename_i byPkg h2
      cases h
      rw [List.mem_filter, List.contains_iff_mem, mem_getLevelNums h1, mem_getLevelNums h2]
      constructor
      · rintro ⟨⟨hc, t, ht, a1, a2, a3⟩, -, t', ht', b1, b2, b3⟩
        have : t = t' := wf.unique t ht t' ht' (a3.trans b3.symm) (by rw [show t.cpu = c from a3]; exact hc)
        subst this
        exact ⟨hc, t, ht, a3, a1, a2, b2⟩
      · rintro ⟨hc, t, ht, a1, a2, a3, a4⟩
        refine ⟨⟨hc, t, ht, a2, a3, a1⟩, hc, t, ht, ?_, a4, a1⟩
        exact (wf.cpuLine t ht (by rw [a1]; exact hc)).2.2.2.2

theorem sorted_inPackageToCpus {i : Info} {lvl : Level} {nums pkgs : Nums} {r : List Nat}
    (h : inPackageToCpus i lvl nums pkgs = .ok r) : r.Pairwise (· < ·) := by
  unfold inPackageToCpus at h
  split at h
  · cases h
  · rename_i byLvl h1
    split at h
    · cases h
    · cases h
      exact (sorted_cpus h1).filter _

theorem inPackageToCpus_isOk {i : Info} {lvl : Level} {u p : Nat} (t : TLine)
    (ht : t ∈ i.topology) (hu : t.get lvl = u) (hp : t.package = p) (hu' : u ≠ NA) (hp' : p ≠ NA) :
    ∃ r, inPackageToCpus i lvl (.nums [u]) (.nums [p]) = .ok r := by
  have h1 : ∃ r, getLevelNums i .CPU lvl (.nums [u]) .CPU = .ok r := by
    rw [getLevelNums_isOk]
    refine ⟨by simp [Level.idx], ?_⟩
    rintro l hl n hn
    cases hl
    rw [List.mem_singleton] at hn
    subst hn
    exact ⟨hu', t, ht, hu⟩
  have h2 : ∃ r, getLevelNums i .CPU .package (.nums [p]) .CPU = .ok r := by
    rw [getLevelNums_isOk]
    refine ⟨by simp [Level.idx], ?_⟩
    rintro l hl n hn
    cases hl
    rw [List.mem_singleton] at hn
    subst hn
    exact ⟨hp', t, ht, hp⟩
  obtain ⟨r1, h1⟩ := h1
  obtain ⟨r2, h2⟩ := h2
  unfold inPackageToCpus
  rw [h1, h2]
  exact ⟨_, rfl⟩

/-- CPU `c` is requested by a `cpus` argument. -/
def Requested (i : Info) (offlineOk : Bool) : Nums → Nat → Prop
  | .all, c => c ∈ (if offlineOk then i.present else i.online)
  | .nums l, c => c ∈ l

theorem normalizeCpus_ok {i : Info} {cpus : Nums} {off : Bool} {r : List Nat}
    (h : normalizeCpus i cpus off = .ok r) :
    r.Nodup ∧ (∀ c, c ∈ r ↔ Requested i off cpus c) ∧
      ∀ c ∈ r, c ∈ (if off then i.present else i.online) := by
  unfold normalizeCpus at h
  cases cpus with
  | all =>
    cases h
    refine ⟨sortNat_nodup (nodup_pyDedup _), ?_, ?_⟩ <;> intro c <;> simp [Requested]
  | nums l =>
    dsimp only at h
    have hr : ∀ c, Requested i off (.nums l) c ↔ c ∈ l := fun _ => Iff.rfl
    simp only [hr]
    generalize (if off = true then i.present else i.online) = A at h ⊢
    split at h
    · rename_i hall
      cases h
      refine ⟨nodup_pyDedup _, by simp, ?_⟩
      intro c hc
      rw [List.all_eq_true] at hall
      simpa using hall c hc
    · cases h

/-! ### Sibling indexes -/

/-- The identity of a unit in the sibling index loops. -/
def unitKey (unitOf : TLine → Nat) (t : TLine) : Nat × Nat := (unitOf t, t.package)

/-- How many lines of `L` belong to the same unit as `t`. -/
def sameUnit (unitOf : TLine → Nat) (t : TLine) (L : List TLine) : List TLine :=
  L.filter (fun a => decide (unitKey unitOf a = unitKey unitOf t))

theorem indexLoop_other (unitOf : TLine → Nat) (ts : List TLine) (st : Option (Nat × Nat) × Nat)
    (d : Dict Nat Nat) (c : Nat) (hc : ∀ t ∈ ts, t.cpu ≠ c) :
    (indexLoop unitOf ts st d).get? c = d.get? c := by
  induction ts generalizing st d with
  | nil => rfl
  | cons t ts ih =>
    obtain ⟨prev, idx⟩ := st
    unfold indexLoop
    rw [ih _ _ (fun a ha => hc a (List.mem_cons_of_mem _ ha)), Dict.get?_set_ne]
    exact hc t (by simp)

theorem indexLoop_get (unitOf : TLine → Nat) (R : TLine → TLine → Prop) (G : TLine → Prop)
    (hC : ∀ a b c, G c → R a b → R b c → unitKey unitOf a = unitKey unitOf c →
      unitKey unitOf b = unitKey unitOf c)
    (hG : ∀ a b, unitKey unitOf a = unitKey unitOf b → G b → G a)
    (P ts : List TLine) (hs : (P ++ ts).Pairwise R) (prev : Option (Nat × Nat)) (idx : Nat)
    (d : Dict Nat Nat)
    (hinv : (P = [] ∧ prev = none) ∨ ∃ P' q, P = P' ++ [q] ∧ prev = some (unitKey unitOf q) ∧
      (G q → idx = (sameUnit unitOf q P).length))
    (A B : List TLine) (t : TLine) (hts : ts = A ++ t :: B) (hg : G t) (hB : ∀ b ∈ B, b.cpu ≠ t.cpu) :
    (indexLoop unitOf ts (prev, idx) d).get? t.cpu =
      some (sameUnit unitOf t (P ++ A)).length := by
  induction ts generalizing P prev idx d A with
  | nil => simp at hts
  | cons x ts ih =>
    unfold indexLoop
    have hidx : G x → (if prev = some (unitOf x, x.package) then idx else 0) =
        (sameUnit unitOf x P).length := by
      intro hgx
      rcases hinv with ⟨rfl, rfl⟩ | ⟨P', q, rfl, rfl, hq⟩
      · simp [sameUnit]
      · by_cases e : unitKey unitOf q = unitKey unitOf x
        · have e' : some (unitKey unitOf q) = some (unitOf x, x.package) := by rw [e]; rfl
          rw [if_pos e', hq (hG _ _ e hgx)]
          unfold sameUnit; rw [e]
        · have e' : ¬ some (unitKey unitOf q) = some (unitOf x, x.package) := by
            intro h; exact e (by simpa [unitKey] using h)
          rw [if_neg e']
          symm
          rw [List.length_eq_zero_iff]
          unfold sameUnit
          rw [List.filter_eq_nil_iff]
          intro a ha
          simp only [decide_eq_true_eq]
          intro hk
          rcases List.mem_append.1 ha with ha | ha
          · have h1 : R a q := by
              rw [List.append_assoc, List.pairwise_append] at hs
              exact hs.2.2 a ha q (by simp)
            have h2 : R q x := by
              rw [List.pairwise_append] at hs
              exact hs.2.2 q (by simp) x (by simp)
            exact e (hC a q x hgx h1 h2 hk)
          · rw [List.mem_singleton] at ha
            subst ha
            exact e hk
    cases A with
    | nil =>
      rw [List.nil_append, List.cons.injEq] at hts
      obtain ⟨rfl, rfl⟩ := hts
      rw [indexLoop_other _ _ _ _ _ hB]
      rw [Dict.get?_set_self, hidx hg, List.append_nil]
    | cons a A =>
      rw [List.cons_append, List.cons.injEq] at hts
      obtain ⟨rfl, rfl⟩ := hts
      have key := ih (P ++ [x]) (by simpa using hs) (some (unitOf x, x.package))
        ((if prev = some (unitOf x, x.package) then idx else 0) + 1)
        (d.set x.cpu (if prev = some (unitOf x, x.package) then idx else 0))
        (.inr ⟨P, x, rfl, rfl, fun hgx => by
          rw [hidx hgx]; unfold sameUnit; rw [List.filter_append]; simp⟩) A rfl
      rw [List.append_assoc] at key
      exact key

/-- The index of a CPU is the number of CPUs of its unit having a smaller number. -/
theorem indexLoop_topology {i : Info} (wf : WF i) (lvl : Level)
    (hC : ∀ a ∈ i.topology, ∀ b ∈ i.topology, ∀ c ∈ i.topology, c.get lvl ≠ NA →
      lexLe (sortKey lvl a) (sortKey lvl b) = true → lexLe (sortKey lvl b) (sortKey lvl c) = true →
      unitKey (·.get lvl) a = unitKey (·.get lvl) c → unitKey (·.get lvl) b = unitKey (·.get lvl) c)
    (hO : ∀ a ∈ i.topology, ∀ b ∈ i.topology, lexLe (sortKey lvl a) (sortKey lvl b) = true →
      unitKey (·.get lvl) a = unitKey (·.get lvl) b → a.cpu ≤ b.cpu)
    (t : TLine) (ht : t ∈ i.topology) (hna : t.cpu ≠ NA) (hg : t.get lvl ≠ NA) :
    (indexLoop (·.get lvl) (getTopology i lvl) (none, 0) []).get? t.cpu =
      some (i.topology.filter (fun a => decide (unitKey (·.get lvl) a = unitKey (·.get lvl) t) &&
        decide (a.cpu < t.cpu))).length := by
  have htop : t ∈ getTopology i lvl := mem_getTopology.2 ht
  obtain ⟨A, B, hAB⟩ := List.append_of_mem htop
  have hnd : (getTopology i lvl).Nodup := (getTopology_perm i lvl).nodup_iff.2 wf.nodup
  have hs0 := getTopology_sorted i lvl
  have hs : (getTopology i lvl).Pairwise (fun a b =>
      a ∈ i.topology ∧ b ∈ i.topology ∧ lexLe (sortKey lvl a) (sortKey lvl b) = true) := by
    refine hs0.imp_of_mem ?_
    intro a b ha hb hab
    exact ⟨mem_getTopology.1 ha, mem_getTopology.1 hb, hab⟩
  have hB : ∀ b ∈ B, b.cpu ≠ t.cpu := by
    intro b hb e
    have hb' : b ∈ getTopology i lvl := by rw [hAB]; simp [hb]
    have : t = b := wf.unique t ht b (mem_getTopology.1 hb') e.symm hna
    subst this
    rw [hAB, List.nodup_append] at hnd
    exact (List.nodup_cons.1 hnd.2.1).1 hb
  have := indexLoop_get (·.get lvl)
    (fun a b => a ∈ i.topology ∧ b ∈ i.topology ∧ lexLe (sortKey lvl a) (sortKey lvl b) = true)
    (fun t => t.get lvl ≠ NA)
    (fun a b c hc hab hbc => hC a hab.1 b hab.2.1 c hbc.2.1 hc hab.2.2 hbc.2.2)
    (fun a b hab hb => by
      have : a.get lvl = b.get lvl := congrArg Prod.fst hab
      rw [this]; exact hb)
    [] (getTopology i lvl) hs none 0 [] (.inl ⟨rfl, rfl⟩) A B t hAB hg hB
  rw [this, List.nil_append]
  congr 1
  have hp := (getTopology_perm i lvl).filter (fun a =>
    decide (unitKey (·.get lvl) a = unitKey (·.get lvl) t) && decide (a.cpu < t.cpu))
  rw [← hp.length_eq, hAB, List.filter_append, List.length_append]
  have h2 : (t :: B).filter (fun a =>
      decide (unitKey (·.get lvl) a = unitKey (·.get lvl) t) && decide (a.cpu < t.cpu)) = [] := by
    rw [List.filter_eq_nil_iff]
    intro b hb
    simp only [Bool.and_eq_true, decide_eq_true_eq, not_and]
    intro hk hlt
    rcases List.mem_cons.1 hb with rfl | hb
    · omega
    · have hb' : b ∈ getTopology i lvl := by rw [hAB]; simp [hb]
      rw [hAB, List.pairwise_append] at hs0
      have hle := (List.pairwise_cons.1 hs0.2.1).1 b hb
      have := hO t ht b (mem_getTopology.1 hb') hle hk.symm
      omega
  rw [h2, List.length_nil, Nat.add_zero]
  unfold sameUnit
  congr 1
  refine List.filter_congr ?_
  intro a ha
  have ha' : a ∈ getTopology i lvl := by rw [hAB]; simp [ha]
  rw [Bool.eq_iff_iff]
  simp only [Bool.and_eq_true, decide_eq_true_eq]
  constructor
  · intro hk
    refine ⟨hk, ?_⟩
    have hle : lexLe (sortKey lvl a) (sortKey lvl t) = true := by
      rw [hAB, List.pairwise_append] at hs0
      exact hs0.2.2 a ha t (by simp)
    have hle' := hO a (mem_getTopology.1 ha') t ht hle hk
    have hne : a.cpu ≠ t.cpu := by
      intro e
      have : t = a := wf.unique t ht a (mem_getTopology.1 ha') e.symm hna
      subst this
      rw [hAB, List.nodup_append] at hnd
      exact hnd.2.2 t ha t (by simp) rfl
    omega
  · exact fun h => h.1

end Verif.CPUInfo
