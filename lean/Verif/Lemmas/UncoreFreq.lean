import Verif.Props.UncoreSpec
import Verif.Props.PMQoS
import Verif.Lemmas.KernelVersion
import Verif.Lib.Groups

/-!
Lemmas for the uncore frequency properties.
-/

namespace Verif.UncoreFreq

open KernelVersion

/-! ### Names -/

theorem dropPrefix_append (pre s : PyStr) : dropPrefix pre (pre ++ s) = some s := by
  unfold dropPrefix
  rw [if_pos (List.isPrefixOf_iff_prefix.2 (List.prefix_append _ _)), List.drop_left]

theorem dropPrefix_eq_some {pre s t : PyStr} (h : dropPrefix pre s = some t) : s = pre ++ t := by
  unfold dropPrefix at h
  split at h
  · rename_i hp
    obtain ⟨u, rfl⟩ := List.isPrefixOf_iff_prefix.1 hp
    rw [List.drop_left] at h
    cases h
    rfl
  · cases h

theorem fmt02_digits (n : Nat) : (∀ c ∈ fmt02 n, isDigit c = true) ∧ fmt02 n ≠ [] ∧ toNum (fmt02 n) = n := by
  have h1 : ∀ c ∈ PyStr.ofNat n, isDigit c = true := fun c hc => by
    have := PyStr.ofNat_digits n c hc
    simp [isDigit, this.1, this.2]
  unfold fmt02
  split
  · refine ⟨fun c hc => ?_, by simp, ?_⟩
    · rcases List.mem_cons.1 hc with rfl | hc
      · decide
      · exact h1 c hc
    · show toNum ('0' :: PyStr.ofNat n) = n
      have : toNum ('0' :: PyStr.ofNat n) = toNum (PyStr.ofNat n) := rfl
      rw [this, toNum_ofNat]
  · exact ⟨h1, PyStr.ofNat_ne_nil n, toNum_ofNat n⟩

theorem parseLegacy_legacyDir (p d : Nat) : parseLegacy (legacyDir p d) = some ((p : Int), (d : Int)) := by
  unfold parseLegacy legacyDir
  obtain ⟨h1, h2, h3⟩ := fmt02_digits p
  obtain ⟨h4, h5, h6⟩ := fmt02_digits d
  rw [List.append_assoc, List.append_assoc, dropPrefix_append]
  have hd : NoDigit ("_die_".toList ++ fmt02 d) := by
    intro c hc
    have : ("_die_".toList ++ fmt02 d).head? = some '_' := by
      rw [List.head?_append]; rfl
    rw [this] at hc
    cases hc
    decide
  have hd' : NoDigit ([] : PyStr) := by intro c hc; cases hc
  dsimp only
  rw [digits_append h1 h2 hd]
  dsimp only
  rw [dropPrefix_append]
  dsimp only
  have := digits_append h4 h5 hd'
  rw [List.append_nil] at this
  rw [this]
  dsimp only
  rw [h3, h6]

theorem isUncoreDir_iff (dir : PyStr) : isUncoreDir dir = true ↔
    ∃ t, dir = "uncore".toList ++ t ∧ t ≠ [] ∧ ∀ c ∈ t, 48 ≤ c.toNat ∧ c.toNat ≤ 57 := by
  unfold isUncoreDir
  constructor
  · intro h
    split at h
    · cases h
    · rename_i s hs
      rw [Bool.and_eq_true, List.all_eq_true] at h
      refine ⟨s, dropPrefix_eq_some hs, by simpa using h.1, fun c hc => ?_⟩
      have := h.2 c hc
      simpa [isDigit] using this
  · rintro ⟨t, rfl, h1, h2⟩
    rw [dropPrefix_append]
    dsimp only
    rw [Bool.and_eq_true, List.all_eq_true]
    refine ⟨by simpa using h1, fun c hc => ?_⟩
    have := h2 c hc
    simp [isDigit, this.1, this.2]

theorem legacyDir_not_uncore (p d : Int) : isUncoreDir (legacyDir p d) = false := by
  rw [Bool.eq_false_iff]
  intro h
  obtain ⟨t, h, -, -⟩ := (isUncoreDir_iff _).1 h
  have := congrArg List.head? h
  unfold legacyDir at this
  rw [List.append_assoc, List.append_assoc] at this
  have h1 : ∀ u : PyStr, ("package_".toList ++ u).head? = some 'p' := fun u => by rw [List.head?_append]; rfl
  have h2 : ∀ u : PyStr, ("uncore".toList ++ u).head? = some 'u' := fun u => by rw [List.head?_append]; rfl
  rw [h1, h2] at this
  cases this

theorem legacyDir_inj {p p' : Int} {d d' : Int} (hp : 0 ≤ p) (hp' : 0 ≤ p') (hd : 0 ≤ d) (hd' : 0 ≤ d')
    (h : legacyDir p d = legacyDir p' d') : p = p' ∧ d = d' := by
  obtain ⟨p, rfl⟩ := Int.eq_ofNat_of_zero_le hp
  obtain ⟨p', rfl⟩ := Int.eq_ofNat_of_zero_le hp'
  obtain ⟨d, rfl⟩ := Int.eq_ofNat_of_zero_le hd
  obtain ⟨d', rfl⟩ := Int.eq_ofNat_of_zero_le hd'
  have := congrArg parseLegacy h
  rw [parseLegacy_legacyDir, parseLegacy_legacyDir] at this
  cases this
  exact ⟨rfl, rfl⟩

/-! ### The dictionaries -/

/-- Look up a directory. -/
def look (m : Dict Int (Dict Int PyStr)) (x : Die) : Option PyStr :=
  match m.get? x.1 with
  | none => none
  | some m => m.get? x.2

/-- Add dies. -/
def addAll (info : Info) (es : List (Die × PyStr)) : Info :=
  es.foldl (fun i e => addDie i e.1.1 e.1.2 e.2) info

theorem look_addDie (i : Info) (x y : Die) (dir : PyStr) :
    look (addDie i x.1 x.2 dir).dirmap y = if y = x then some dir else look i.dirmap y := by
  obtain ⟨p, d⟩ := x
  obtain ⟨p', d'⟩ := y
  unfold look addDie
  dsimp only
  rw [Dict.get?_set]
  by_cases hp : p = p'
  · subst hp
    rw [if_pos rfl]
    dsimp only
    rw [Dict.get?_set]
    by_cases hd : d = d'
    · subst hd; rw [if_pos rfl, if_pos rfl]
    · rw [if_neg hd, if_neg (by simp; exact fun h => hd h.symm)]
      cases i.dirmap.get? p <;> rfl
  · rw [if_neg hp, if_neg (by simp; exact fun h => absurd h.symm hp)]

theorem look_addAll (es : List (Die × PyStr)) (i : Info) (hn : (es.map Prod.fst).Nodup) (x : Die) (dir : PyStr) :
    look (addAll i es).dirmap x = some dir ↔
      (x, dir) ∈ es ∨ (x ∉ es.map Prod.fst ∧ look i.dirmap x = some dir) := by
  induction es generalizing i with
  | nil => simp [addAll]
  | cons e es ih =>
    obtain ⟨y, dir'⟩ := e
    rw [List.map_cons, List.nodup_cons] at hn
    show look (addAll (addDie i y.1 y.2 dir') es).dirmap x = some dir ↔ _
    rw [ih _ hn.2, look_addDie]
    rw [List.mem_cons, List.map_cons, List.mem_cons]
    dsimp only at hn ⊢
    by_cases hx : x = y
    · subst hx
      rw [if_pos rfl]
      have : (x, dir) ∉ es := fun h => hn.1 (List.mem_map.2 ⟨_, h, rfl⟩)
      simp only [this, false_or, hn.1, not_false_eq_true, true_and, or_false, not_true_eq_false,
        false_and, Prod.mk.injEq]
      constructor
      · intro h; cases h; rfl
      · intro h; rw [h]
    · rw [if_neg hx]
      simp [hx]

theorem diesOf_addAll (es : List (Die × PyStr)) (i : Info) (p : Int) :
    ((addAll i es).dies.get? p).getD [] =
      (i.dies.get? p).getD [] ++ ((es.map Prod.fst).filter fun x => x.1 == p).map Prod.snd := by
  induction es generalizing i with
  | nil => simp [addAll]
  | cons e es ih =>
    obtain ⟨⟨q, d⟩, dir⟩ := e
    show ((addAll (addDie i q d dir) es).dies.get? p).getD [] = _
    rw [ih, List.map_cons]
    have : ((addDie i q d dir).dies.get? p).getD [] =
        (i.dies.get? p).getD [] ++ (if q = p then [d] else []) := by
      unfold addDie
      dsimp only
      rw [Dict.get?_set]
      split
      · rename_i h; subst h; rfl
      · rw [List.append_nil]
    rw [this]
    by_cases hq : q = p
    · rw [List.filter_cons_of_pos (by simpa using hq), if_pos hq]; simp
    · rw [List.filter_cons_of_neg (by simpa using hq), if_neg hq]; simp

theorem keys_addAll (es : List (Die × PyStr)) (i : Info) (hi : i.dies.keys.Nodup) :
    (addAll i es).dies.keys.Nodup ∧
    ∀ p, p ∈ (addAll i es).dies.keys ↔ p ∈ i.dies.keys ∨ ∃ e ∈ es, e.1.1 = p := by
  induction es generalizing i with
  | nil => exact ⟨hi, fun p => by simp [addAll]⟩
  | cons e es ih =>
    obtain ⟨⟨q, d⟩, dir⟩ := e
    have h := ih (addDie i q d dir) (Dict.nodup_keys_set hi _ _)
    refine ⟨h.1, fun p => ?_⟩
    show p ∈ (addAll (addDie i q d dir) es).dies.keys ↔ _
    rw [h.2 p]
    have : p ∈ (addDie i q d dir).dies.keys ↔ p = q ∨ p ∈ i.dies.keys := by
      unfold addDie
      dsimp only
      rw [Dict.mem_keys_set]
    rw [this, List.exists_mem_cons_iff]
    constructor
    · rintro ((rfl | h) | h)
      · exact Or.inr (Or.inl rfl)
      · exact Or.inl h
      · exact Or.inr (Or.inr h)
    · rintro (h | rfl | h)
      · exact Or.inl (Or.inr h)
      · exact Or.inl (Or.inl rfl)
      · exact Or.inr h

theorem get?_of_getD {D : Dict Int (List Int)} {p : Int} {l : List Int} (h : (D.get? p).getD [] = l)
    (hk : p ∈ D.keys) : D.get? p = some l := by
  cases hg : D.get? p with
  | none => exact absurd hk ((Dict.get?_eq_none_iff _ _).1 hg)
  | some l' => rw [hg] at h; exact congrArg some h

/-! ### Building -/

/-- The directories of the dies with their dies. -/
def Machine.entries (m : Machine) : List (Die × PyStr) :=
  m.ls.filterMap fun dir => (m.domain dir).map fun x => (x, dir)

theorem strToInt_line (n : Int) : Trivial.strToInt (PyStr.ofInt n ++ ['\n']) = .ok n := by
  have : PyStr.strip (PyStr.ofInt n ++ ['\n']) = PyStr.strip (PyStr.ofInt n) := by
    unfold PyStr.strip PyStr.stripBy PyStr.rstripBy PyStr.lstripBy
    have hs := PMQoS.strip_ofInt n
    cases hc : PyStr.ofInt n with
    | nil => decide +kernel
    | cons c t =>
      have h0 : PyStr.isSpace c = false := by
        have hst := PyStr.stripped_stripBy PyStr.isSpace (PyStr.ofInt n)
        have : PyStr.stripBy PyStr.isSpace (PyStr.ofInt n) = PyStr.ofInt n := hs
        rw [this, hc] at hst
        exact hst.1 c rfl
      rw [List.cons_append, List.dropWhile_cons_of_neg (by simp [h0]),
        List.dropWhile_cons_of_neg (by simp [h0])]
      rw [← List.cons_append, List.reverse_append]
      show (('\n' :: (c :: t).reverse).dropWhile PyStr.isSpace).reverse = _
      rw [List.dropWhile_cons_of_pos (by decide)]
  have h := PMQoS.strToInt_ofInt n
  unfold Trivial.strToInt at h ⊢
  rw [this]
  exact h

theorem buildNew_eq {m : Machine} (hw : m.WF) (l : List PyStr) (hl : ∀ dir ∈ l, dir ∈ m.ls) (i : Info) :
    buildNew m.sysfs l i =
      .ok (addAll i (l.filterMap fun dir => (m.domain dir).map fun x => (x, dir))) := by
  induction l generalizing i with
  | nil => rfl
  | cons dir l ih =>
    have ih := fun i => ih (fun d hd => hl d (List.mem_cons_of_mem _ hd)) i
    have hmem := hl dir List.mem_cons_self
    unfold buildNew
    by_cases hu : isUncoreDir dir = true
    · rw [if_pos hu]
      have hs := (hw.named dir).2 ⟨hmem, (isUncoreDir_iff dir).1 hu⟩
      obtain ⟨⟨p, d⟩, hx⟩ := Option.isSome_iff_exists.1 hs
      have h1 : m.sysfs.packageId dir = .ok (PyStr.ofInt p ++ ['\n']) := by
        show (match m.domain dir with | some (p, _) => _ | none => _) = _
        rw [hx]
      have h2 : m.sysfs.domainId dir = .ok (PyStr.ofInt d ++ ['\n']) := by
        show (match m.domain dir with | some (_, d) => _ | none => _) = _
        rw [hx]
      rw [h1]
      dsimp only
      rw [strToInt_line]
      dsimp only
      rw [h2]
      dsimp only
      rw [strToInt_line]
      dsimp only
      rw [ih, List.filterMap_cons, hx]
      rfl
    · rw [if_neg hu, ih, List.filterMap_cons]
      have hx : m.domain dir = none := by
        cases h : m.domain dir with
        | none => rfl
        | some x =>
          have := ((hw.named dir).1 (by rw [h]; rfl)).2
          exact absurd ((isUncoreDir_iff dir).2 this) hu
      rw [hx]
      rfl

theorem mem_entries {m : Machine} {x : Die} {dir : PyStr} :
    (x, dir) ∈ m.entries ↔ dir ∈ m.ls ∧ m.domain dir = some x := by
  unfold Machine.entries
  rw [List.mem_filterMap]
  constructor
  · rintro ⟨a, ha, h⟩
    cases hd : m.domain a with
    | none => rw [hd] at h; cases h
    | some y => rw [hd] at h; cases h; exact ⟨ha, hd⟩
  · rintro ⟨h1, h2⟩
    exact ⟨dir, h1, by rw [h2]; rfl⟩

theorem map_entries (m : Machine) : m.entries.map Prod.fst = m.dies := by
  unfold Machine.entries Machine.dies
  induction m.ls with
  | nil => rfl
  | cons a l ih =>
    rw [List.filterMap_cons, List.filterMap_cons]
    cases hd : m.domain a with
    | none => exact ih
    | some x => exact congrArg (x :: ·) ih

theorem nodup_dies {m : Machine} (hw : m.WF) : m.dies.Nodup := by
  unfold Machine.dies
  have := hw.nodup
  revert this
  induction m.ls with
  | nil => intro _; exact List.nodup_nil
  | cons a l ih =>
    intro hn
    rw [List.nodup_cons] at hn
    rw [List.filterMap_cons]
    cases hd : m.domain a with
    | none => exact ih hn.2
    | some x =>
      refine List.nodup_cons.2 ⟨fun h => ?_, ih hn.2⟩
      obtain ⟨b, hb, hb'⟩ := List.mem_filterMap.1 h
      exact hn.1 (hw.inj a b x hd hb' ▸ hb)

theorem mem_dies {m : Machine} (hw : m.WF) {x : Die} : x ∈ m.dies ↔ ∃ dir, m.domain dir = some x := by
  unfold Machine.dies
  rw [List.mem_filterMap]
  constructor
  · rintro ⟨a, -, h⟩; exact ⟨a, h⟩
  · rintro ⟨a, h⟩; exact ⟨a, ((hw.named a).1 (by rw [h]; rfl)).1, h⟩

theorem useNew_sysfs {m : Machine} (hw : m.WF) : useNew m.sysfs = true := by
  cases hd : m.dies with
  | nil => exact absurd hd hw.some_die
  | cons x l =>
    obtain ⟨dir, h⟩ := (mem_dies hw).1 (by rw [hd]; exact List.mem_cons_self)
    obtain ⟨h1, t, h2, -⟩ := (hw.named dir).1 (by rw [h]; rfl)
    unfold useNew
    rw [List.any_eq_true]
    exact ⟨dir, h1, by rw [h2]; exact List.isPrefixOf_iff_prefix.2 (List.prefix_append _ _)⟩

theorem build_sysfs {m : Machine} (hw : m.WF) : build m.sysfs = .ok (addAll ⟨[], []⟩ m.entries) := by
  unfold build
  rw [if_pos (useNew_sysfs hw)]
  exact buildNew_eq hw m.ls (fun _ h => h) _

theorem newDir_sysfs {m : Machine} (hw : m.WF) {dir : PyStr} {x : Die} (h : m.domain dir = some x) :
    newDir m.sysfs x.1 x.2 = .ok dir := by
  have hn : (m.entries.map Prod.fst).Nodup := by rw [map_entries]; exact nodup_dies hw
  have hl : look (addAll ⟨[], []⟩ m.entries).dirmap x = some dir :=
    (look_addAll _ _ hn x dir).2 (Or.inl (mem_entries.2 ⟨((hw.named dir).1 (by rw [h]; rfl)).1, h⟩))
  unfold newDir
  rw [build_sysfs hw]
  dsimp only
  unfold look at hl
  split at hl
  · cases hl
  · rename_i mm hm
    rw [hm]
    dsimp only
    rw [hl]

theorem newDir_missing {m : Machine} (hw : m.WF) {x : Die} (h : x ∉ m.dies) :
    newDir m.sysfs x.1 x.2 = .error .pyKeyError := by
  have hn : (m.entries.map Prod.fst).Nodup := by rw [map_entries]; exact nodup_dies hw
  have hl : look (addAll ⟨[], []⟩ m.entries).dirmap x = none := by
    cases hc : look (addAll ⟨[], []⟩ m.entries).dirmap x with
    | none => rfl
    | some dir =>
      rcases (look_addAll _ _ hn x dir).1 hc with h' | ⟨-, h'⟩
      · exact absurd ((mem_dies hw).2 ⟨dir, (mem_entries.1 h').2⟩) h
      · cases h'
  unfold newDir
  rw [build_sysfs hw]
  dsimp only
  unfold look at hl
  split at hl
  · rename_i hm; rw [hm]
  · rename_i mm hm
    rw [hm]
    dsimp only
    rw [hl]

/-- The dies information. -/
theorem info_dies (m : Machine) (p : Int) :
    (p ∈ (addAll ⟨[], []⟩ m.entries).dies.keys ↔ ∃ x ∈ m.dies, x.1 = p) ∧
    (∀ ds, (addAll ⟨[], []⟩ m.entries).dies.get? p = some ds →
      ds = (m.dies.filter fun x => x.1 == p).map Prod.snd) := by
  refine ⟨?_, fun ds hds => ?_⟩
  · rw [(keys_addAll m.entries ⟨[], []⟩ List.nodup_nil).2 p, ← map_entries]
    constructor
    · rintro (h | ⟨e, he, h⟩)
      · cases h
      · exact ⟨e.1, List.mem_map_of_mem he, h⟩
    · rintro ⟨x, hx, h⟩
      obtain ⟨e, he, rfl⟩ := List.mem_map.1 hx
      exact Or.inr ⟨e, he, h⟩
  · have := diesOf_addAll m.entries ⟨[], []⟩ p
    rw [hds, map_entries] at this
    simpa [Dict.get?] using this

/-! ### The files -/

theorem fileOf_fname (key : Key) (limit : Bool) : Machine.fileOf (fname key limit) = some (key, limit) := by
  cases key <;> cases limit <;> decide +kernel

theorem read_die {m : Machine} {s : KState} {dir : PyStr} {x : Die} {key : Key} (h : m.domain dir = some x) :
    m.sysfs.readInt s dir (fname key false) = .ok (s.val x key) := by
  show m.read s dir (fname key false) = _
  unfold Machine.read
  rw [h, fileOf_fname]

theorem domain_legacy {m : Machine} (hw : m.WF) (p d : Int) : m.domain (legacyDir p d) = none := by
  cases h : m.domain (legacyDir p d) with
  | none => rfl
  | some x =>
    have := ((hw.named (legacyDir p d)).1 (by rw [h]; rfl)).2
    have := (isUncoreDir_iff _).2 this
    rw [legacyDir_not_uncore] at this
    cases this

theorem legacyPkg_eq {m : Machine} (hw : m.WF) {x : Die} (hx : x ∈ m.dies) :
    m.legacyPkg (legacyDir x.1 0) = some x.1 := by
  have hnn : ∀ y ∈ m.dies, 0 ≤ y.1 := fun y hy => by
    obtain ⟨dir, h⟩ := (mem_dies hw).1 hy
    exact hw.nonneg dir y.1 y.2 h
  unfold Machine.legacyPkg
  cases hf : (m.dies.map Prod.fst).find? fun p => decide (legacyDir p 0 = legacyDir x.1 0) with
  | none =>
    have := List.find?_eq_none.1 hf x.1 (List.mem_map_of_mem hx)
    simp at this
  | some q =>
    have h1 := List.find?_some hf
    obtain ⟨y, hy, rfl⟩ := List.mem_map.1 (List.mem_of_find?_eq_some hf)
    have := legacyDir_inj (hnn y hy) (hnn x hx) (Int.le_refl 0) (Int.le_refl 0) (by simpa using h1)
    rw [this.1]

theorem vals_ne {m : Machine} {x : Die} (hx : x ∈ m.dies) (s : KState) (key : Key) :
    s.val x key ∈ m.vals s x.1 key :=
  List.mem_map.2 ⟨x, List.mem_filter.2 ⟨hx, by simp⟩, rfl⟩

theorem combined_mem {m : Machine} {s : KState} {x : Die} (hx : x ∈ m.dies) (key : Key) :
    ∃ v, m.combined s x.1 key = some v ∧ v ∈ m.vals s x.1 key := by
  have hne : m.vals s x.1 key ≠ [] := List.ne_nil_of_mem (vals_ne hx s key)
  cases key with
  | min =>
    cases h : (m.vals s x.1 .min).min? with
    | none => exact absurd (List.min?_eq_none_iff.1 h) hne
    | some v => exact ⟨v, h, List.min?_mem h⟩
  | max =>
    cases h : (m.vals s x.1 .max).max? with
    | none => exact absurd (List.max?_eq_none_iff.1 h) hne
    | some v => exact ⟨v, h, List.max?_mem h⟩

theorem read_legacy {m : Machine} (hw : m.WF) {s : KState} {x : Die} (hx : x ∈ m.dies) (key : Key) :
    ∃ v, m.sysfs.readInt s (legacyDir x.1 0) (fname key false) = .ok v ∧ ∃ y ∈ m.dies, y.1 = x.1 ∧
      s.val y key = v := by
  obtain ⟨v, h1, h2⟩ := combined_mem (s := s) hx key
  obtain ⟨y, hy, h3⟩ := List.mem_map.1 h2
  rw [List.mem_filter] at hy
  refine ⟨v, ?_, y, hy.1, by simpa using hy.2, h3⟩
  show m.read s _ _ = _
  unfold Machine.read
  rw [domain_legacy hw, fileOf_fname]
  dsimp only
  rw [legacyPkg_eq hw hx]
  dsimp only
  rw [if_neg (by decide), h1]

theorem read_limit {m : Machine} (hw : m.WF) {s : KState} {x : Die} (hx : x ∈ m.dies) (key : Key) :
    m.sysfs.readInt s (legacyDir x.1 0) (fname key true) = .ok (m.limit x.1 key) := by
  show m.read s _ _ = _
  unfold Machine.read
  rw [domain_legacy hw, fileOf_fname]
  dsimp only
  rw [legacyPkg_eq hw hx]
  dsimp only
  rw [if_pos rfl]

theorem write_die {m : Machine} {s : KState} {dir : PyStr} {x : Die} {key : Key} (v : Int)
    (h : m.domain dir = some x) :
    m.sysfs.writeInt s dir (fname key false) v =
      match m.wfail dir (fname key false) v with
      | some e => (s, .error e)
      | none => if Machine.accepts s x.1 key v then (Machine.setOne s x key v, .ok ()) else (s, .error .error) := by
  show m.write s dir (fname key false) v = _
  unfold Machine.write
  rw [h, fileOf_fname]
  cases m.wfail dir (fname key false) v <;> rfl

theorem write_legacy {m : Machine} (hw : m.WF) {s : KState} {x : Die} (hx : x ∈ m.dies) (key : Key) (v : Int) :
    m.sysfs.writeInt s (legacyDir x.1 0) (fname key false) v =
      match m.wfail (legacyDir x.1 0) (fname key false) v with
      | some e => (s, .error e)
      | none => (m.setAll s x.1 key v, .ok ()) := by
  show m.write s _ _ v = _
  unfold Machine.write
  rw [domain_legacy hw, fileOf_fname]
  cases m.wfail (legacyDir x.1 0) (fname key false) v
  · dsimp only
    rw [legacyPkg_eq hw hx]
  · rfl

/-! ### Unlocking -/

/-- Other operations do not fail. -/
def Machine.Reliable (m : Machine) : Prop := ∀ dir f v, m.wfail dir f v = none

/-- The directory of a die. -/
noncomputable def Machine.dirOf (m : Machine) (x : Die) : PyStr :=
  (m.ls.find? fun dir => decide (m.domain dir = some x)).getD []

theorem domain_dirOf {m : Machine} {x : Die} (hx : x ∈ m.dies) : m.domain (m.dirOf x) = some x := by
  unfold Machine.dirOf
  cases hf : m.ls.find? fun dir => decide (m.domain dir = some x) with
  | none =>
    obtain ⟨a, ha, h⟩ := List.mem_filterMap.1 hx
    have := List.find?_eq_none.1 hf a ha
    simp [h] at this
  | some dir =>
    have := List.find?_some hf
    simpa using this

theorem saveLoop_eq {m : Machine} (hw : m.WF) (s : KState) (p : Int) (key : Key) (ds : List Int)
    (h : ∀ d ∈ ds, (p, d) ∈ m.dies) :
    saveLoop m.sysfs s p key ds = .ok (ds.map fun d => (m.dirOf (p, d), s.val (p, d) key)) := by
  induction ds with
  | nil => rfl
  | cons d ds ih =>
    have hd := domain_dirOf (h d List.mem_cons_self)
    unfold saveLoop
    rw [newDir_sysfs hw hd]
    dsimp only
    rw [read_die hd]
    dsimp only
    rw [ih fun d' hd' => h d' (List.mem_cons_of_mem _ hd')]
    rfl

theorem restoreLoop_spec {m : Machine} (p : Int) (key : Key) (g : Int → Int) (ds : List Int)
    (h : ∀ d ∈ ds, (p, d) ∈ m.dies) (s : KState) :
    let r := restoreLoop m.sysfs s key (ds.map fun d => (m.dirOf (p, d), g d))
    r.1.cap = s.cap ∧
    (r.2 = .ok () → ∀ x k, r.1.val x k = if x.1 = p ∧ x.2 ∈ ds ∧ k = key then g x.2 else s.val x k) ∧
    (m.Reliable → (∀ d ∈ ds, Machine.accepts s p key (g d) = true) → r.2 = .ok ()) := by
  induction ds generalizing s with
  | nil => exact ⟨rfl, fun _ x k => (if_neg (by simp)).symm, fun _ _ => rfl⟩
  | cons d ds ih =>
    have hd := domain_dirOf (h d List.mem_cons_self)
    have ih := ih (fun d' hd' => h d' (List.mem_cons_of_mem _ hd'))
    rw [List.map_cons]
    unfold restoreLoop
    rw [write_die _ hd]
    cases hf : m.wfail (m.dirOf (p, d)) (fname key false) (g d) with
    | some e =>
      refine ⟨rfl, fun h => (by cases h), fun hr => ?_⟩
      rw [hr] at hf
      cases hf
    | none =>
      dsimp only
      by_cases ha : Machine.accepts s p key (g d) = true
      · rw [if_pos ha]
        dsimp only
        obtain ⟨h1, h2, h3⟩ := ih (Machine.setOne s (p, d) key (g d))
        refine ⟨h1, fun hok x k => ?_, fun hr hall => h3 hr fun d' hd' => hall d' (List.mem_cons_of_mem _ hd')⟩
        rw [h2 hok x k]
        obtain ⟨q, d'⟩ := x
        by_cases hm : q = p ∧ d' ∈ ds ∧ k = key
        · rw [if_pos hm, if_pos ⟨hm.1, List.mem_cons_of_mem _ hm.2.1, hm.2.2⟩]
        · rw [if_neg hm]
          show (if (q, d') = (p, d) ∧ k = key then g d else s.val (q, d') k) = _
          by_cases hx : (q, d') = (p, d) ∧ k = key
          · obtain ⟨hx, rfl⟩ := hx
            cases hx
            rw [if_pos ⟨rfl, rfl⟩, if_pos ⟨rfl, List.mem_cons_self, rfl⟩]
          · rw [if_neg hx, if_neg]
            rintro ⟨h1, h2, h3⟩
            rcases List.mem_cons.1 h2 with h2 | h2
            · exact hx ⟨Prod.ext h1 h2, h3⟩
            · exact hm ⟨h1, h2, h3⟩
      · rw [if_neg ha]
        exact ⟨rfl, fun h => (by cases h), fun _ hall => absurd (hall d List.mem_cons_self) ha⟩

/-- One package and key: the frequencies stay, and values within the limit are accepted afterwards. -/
theorem unlockKey_spec {m : Machine} (hw : m.WF) {s : KState} (hg : m.Good s) {p : Int} {ds : List Int}
    (hds : ∀ d, d ∈ ds ↔ (p, d) ∈ m.dies) (hne : ds ≠ []) (key : Key) :
    let r := unlockKey m.sysfs s p ds key
    (r.2 = .ok () → r.1.val = s.val ∧ (∀ v, m.InLimit p key v → Machine.accepts r.1 p key v = true) ∧
      (∀ q k, ¬ (q = p ∧ k = key) → r.1.cap q k = s.cap q k)) ∧
    (m.Reliable → r.2 = .ok ()) := by
  obtain ⟨d0, hd0⟩ := List.exists_mem_of_ne_nil ds hne
  have hx : (p, d0) ∈ m.dies := (hds d0).1 hd0
  have hlim := read_limit (s := s) hw hx key
  obtain ⟨v, hv, y, hy, hyp, hyv⟩ := read_legacy (s := s) hw hx key
  dsimp only at hlim hv hyp
  unfold unlockKey
  rw [hlim]
  dsimp only
  rw [hv]
  dsimp only
  by_cases he : v = m.limit p key
  · rw [if_pos he]
    refine ⟨fun _ => ⟨rfl, fun w hwl => ?_, fun _ _ _ => rfl⟩, fun _ => rfl⟩
    have ha := (hg y hy key).2
    rw [hyp, hyv, he] at ha
    show Machine.accepts s p key w = true
    unfold Machine.accepts at ha ⊢
    cases hc : s.cap p key with
    | none => rfl
    | some c =>
      rw [hc] at ha
      cases key with
      | min =>
        simp only [decide_eq_true_eq] at ha ⊢
        exact Int.le_trans ha hwl
      | max =>
        simp only [decide_eq_true_eq] at ha ⊢
        exact Int.le_trans hwl ha
  · rw [if_neg he, saveLoop_eq hw s p key ds fun d hd => (hds d).1 hd]
    dsimp only
    rw [write_legacy hw hx]
    dsimp only
    cases hf : m.wfail (legacyDir p 0) (fname key false) (m.limit p key) with
    | some e =>
      refine ⟨fun h => (by cases h), fun hr => ?_⟩
      rw [hr] at hf
      cases hf
    | none =>
      dsimp only
      obtain ⟨h1, h2, h3⟩ := restoreLoop_spec p key (fun d => s.val (p, d) key) ds (fun d hd => (hds d).1 hd)
        (m.setAll s p key (m.limit p key))
      have hcap : (m.setAll s p key (m.limit p key)).cap p key = some (m.limit p key) := if_pos ⟨rfl, rfl⟩
      have hacc : ∀ st : KState, st.cap p key = some (m.limit p key) → ∀ w, m.InLimit p key w →
          Machine.accepts st p key w = true := by
        intro st hst w hwl
        unfold Machine.accepts
        rw [hst]
        cases key <;> exact decide_eq_true hwl
      refine ⟨fun hok => ⟨?_, ?_, ?_⟩, fun hr => ?_⟩
      · funext x k
        rw [h2 hok x k]
        obtain ⟨q, d⟩ := x
        by_cases hc : q = p ∧ d ∈ ds ∧ k = key
        · rw [if_pos hc]
          obtain ⟨rfl, -, rfl⟩ := hc
          rfl
        · rw [if_neg hc]
          refine if_neg ?_
          rintro ⟨e1, e2, e3⟩
          dsimp only at e2
          subst e2
          exact hc ⟨rfl, (hds d).2 e1, e3⟩
      · refine hacc _ ?_
        rw [h1]
        exact hcap
      · intro q k hqk
        rw [h1]
        exact if_neg hqk
      · refine h3 hr fun d hd => hacc _ hcap _ ?_
        exact (hg (p, d) ((hds d).1 hd) key).1

theorem good_of {m : Machine} {s s' : KState} (hg : m.Good s) (hv : s'.val = s.val) {p : Int} {key : Key}
    (ha : ∀ v, m.InLimit p key v → Machine.accepts s' p key v = true)
    (hc : ∀ q k, ¬ (q = p ∧ k = key) → s'.cap q k = s.cap q k) : m.Good s' := by
  intro x hx k
  have h := hg x hx k
  rw [hv]
  refine ⟨h.1, ?_⟩
  by_cases hpk : x.1 = p ∧ k = key
  · obtain ⟨rfl, rfl⟩ := hpk
    exact ha _ h.1
  · have h2 := h.2
    unfold Machine.accepts at h2 ⊢
    rw [hc _ _ hpk]
    exact h2

theorem accepts_cap {s s' : KState} {p : Int} {k : Key} (h : s'.cap p k = s.cap p k) (v : Int) :
    Machine.accepts s' p k v = Machine.accepts s p k v := by
  unfold Machine.accepts
  rw [h]

theorem unlockLoop_spec {m : Machine} (hw : m.WF) (D : Dict Int (List Int)) (hn : D.keys.Nodup)
    (hD : ∀ p ds, (p, ds) ∈ D → ds ≠ [] ∧ ∀ d, d ∈ ds ↔ (p, d) ∈ m.dies) {s : KState} (hg : m.Good s) :
    let r := unlockLoop m.sysfs s D
    (r.2 = .ok () → r.1.val = s.val ∧ m.Good r.1 ∧
      (∀ p ∈ D.keys, ∀ key v, m.InLimit p key v → Machine.accepts r.1 p key v = true) ∧
      (∀ p, p ∉ D.keys → ∀ key, r.1.cap p key = s.cap p key)) ∧
    (m.Reliable → r.2 = .ok ()) := by
  induction D generalizing s with
  | nil =>
    exact ⟨fun _ => ⟨rfl, hg, fun p hp => absurd hp List.not_mem_nil, fun _ _ _ => rfl⟩, fun _ => rfl⟩
  | cons e D ih =>
    obtain ⟨p, ds⟩ := e
    have hk : p ∉ Dict.keys D ∧ (Dict.keys D).Nodup := by
      have : (p :: Dict.keys D).Nodup := hn
      exact List.nodup_cons.1 this
    obtain ⟨hne, hds⟩ := hD p ds List.mem_cons_self
    unfold unlockLoop
    obtain ⟨a1, a2⟩ := unlockKey_spec hw hg hds hne .min
    cases hr1 : unlockKey m.sysfs s p ds .min with
    | mk s1 r1 =>
      rw [hr1] at a1 a2
      cases r1 with
      | error e => exact ⟨fun h => (by cases h), fun hr => (by cases a2 hr)⟩
      | ok u =>
        obtain ⟨av, aa, ac⟩ := a1 rfl
        have hg1 : m.Good s1 := good_of hg av aa ac
        dsimp only
        obtain ⟨b1, b2⟩ := unlockKey_spec hw hg1 hds hne .max
        cases hr2 : unlockKey m.sysfs s1 p ds .max with
        | mk s2 r2 =>
          rw [hr2] at b1 b2
          cases r2 with
          | error e => exact ⟨fun h => (by cases h), fun hr => (by cases b2 hr)⟩
          | ok u =>
            obtain ⟨bv, ba, bc⟩ := b1 rfl
            have hg2 : m.Good s2 := good_of hg1 bv ba bc
            dsimp only
            obtain ⟨c1, c2⟩ := ih hk.2 (fun q l hq => hD q l (List.mem_cons_of_mem _ hq)) hg2
            refine ⟨fun hok => ?_, c2⟩
            obtain ⟨cv, cg, ca, cc⟩ := c1 hok
            refine ⟨by rw [cv, bv, av], cg, ?_, ?_⟩
            · intro q hq key v hv
              have hq : q = p ∨ q ∈ Dict.keys D := List.mem_cons.1 hq
              by_cases hqD : q ∈ Dict.keys D
              · exact ca q hqD key v hv
              · have hqp : q = p := hq.resolve_right hqD
                subst hqp
                rw [accepts_cap (cc q hqD key)]
                cases key with
                | max => exact ba v hv
                | min =>
                  rw [accepts_cap (bc q .min (by simp))]
                  exact aa v hv
            · intro q hq key
              have hq' : q ≠ p ∧ q ∉ Dict.keys D := by
                constructor
                · rintro rfl; exact hq List.mem_cons_self
                · exact fun h => hq (List.mem_cons_of_mem _ h)
              rw [cc q hq'.2 key, bc q key (fun h => hq'.1 h.1), ac q key (fun h => hq'.1 h.1)]

/-- The flag is right. -/
def Machine.FlagOk (m : Machine) (st : State KState) : Prop :=
  m.Good st.kernel ∧ (st.unlocked = true → m.Unlocked st.kernel)

theorem unlock_spec {m : Machine} (hw : m.WF) {st : State KState} (hf : m.FlagOk st) :
    let r := unlock m.sysfs st
    (r.2 = .ok () → r.1.kernel.val = st.kernel.val ∧ m.FlagOk r.1 ∧ r.1.unlocked = true) ∧
    (m.Reliable → r.2 = .ok ()) := by
  unfold unlock
  by_cases hu : st.unlocked = true
  · rw [if_pos hu]
    exact ⟨fun _ => ⟨rfl, hf, hu⟩, fun _ => rfl⟩
  · rw [if_neg hu, build_sysfs hw]
    dsimp only
    have hkeys := keys_addAll m.entries ⟨[], []⟩ List.nodup_nil
    have hD : ∀ p ds, (p, ds) ∈ (addAll ⟨[], []⟩ m.entries).dies →
        ds ≠ [] ∧ ∀ d, d ∈ ds ↔ (p, d) ∈ m.dies := by
      intro p ds hmem
      have hget := Dict.get?_of_mem hkeys.1 hmem
      have hds := (info_dies m p).2 ds hget
      have hiff : ∀ d, d ∈ ds ↔ (p, d) ∈ m.dies := by
        intro d
        rw [hds, List.mem_map]
        constructor
        · rintro ⟨⟨q, d'⟩, hx, h⟩
          rw [List.mem_filter] at hx
          have : q = p := by simpa using hx.2
          cases h
          rw [← this]
          exact hx.1
        · intro h
          exact ⟨(p, d), List.mem_filter.2 ⟨h, by simp⟩, rfl⟩
      refine ⟨?_, hiff⟩
      have hpk : p ∈ (addAll ⟨[], []⟩ m.entries).dies.keys := List.mem_map.2 ⟨(p, ds), hmem, rfl⟩
      obtain ⟨⟨q, d⟩, hx, h⟩ := (info_dies m p).1.1 hpk
      cases h
      exact List.ne_nil_of_mem ((hiff d).2 hx)
    obtain ⟨h1, h2⟩ := unlockLoop_spec hw _ hkeys.1 hD hf.1
    cases hr : unlockLoop m.sysfs st.kernel (addAll ⟨[], []⟩ m.entries).dies with
    | mk s r =>
      rw [hr] at h1 h2
      cases r with
      | error e => exact ⟨fun h => (by cases h), fun hrel => (by cases h2 hrel)⟩
      | ok u =>
        obtain ⟨a, b, c, -⟩ := h1 rfl
        refine ⟨fun _ => ⟨a, ⟨b, fun _ x hx key v hv => ?_⟩, rfl⟩, fun _ => rfl⟩
        exact c x.1 ((info_dies m x.1).1.2 ⟨x, hx, rfl⟩) key v hv

/-! ### Setting -/

theorem setLoop_spec {m : Machine} (hw : m.WF) (freq : Int) (key : Key) (l : List Die) (s : KState) :
    let r := setLoop m.sysfs freq key s l
    r.1.cap = s.cap ∧
    (r.2 = .ok () → r.1.val = setSpec s.val freq key l ∧ (∀ x ∈ l, x ∈ m.dies) ∧
      (∀ x ∈ l, Machine.accepts s x.1 key (freq / 1000) = true)) ∧
    (m.Reliable → (∀ x ∈ l, x ∈ m.dies ∧ Machine.accepts s x.1 key (freq / 1000) = true) → r.2 = .ok ()) := by
  induction l generalizing s with
  | nil =>
    refine ⟨rfl, fun _ => ⟨?_, by simp, by simp⟩, fun _ _ => rfl⟩
    funext x k
    exact (if_neg (by simp)).symm
  | cons y l ih =>
    obtain ⟨p, d⟩ := y
    unfold setLoop dieDir
    rw [if_pos (useNew_sysfs hw)]
    by_cases hx : (p, d) ∈ m.dies
    · have hd := domain_dirOf hx
      rw [show newDir m.sysfs p d = _ from newDir_sysfs hw hd]
      dsimp only
      rw [write_die _ hd]
      cases hf : m.wfail (m.dirOf (p, d)) (fname key false) (freq / 1000) with
      | some e =>
        refine ⟨rfl, fun h => (by cases h), fun hr => ?_⟩
        rw [hr] at hf
        cases hf
      | none =>
        dsimp only
        by_cases ha : Machine.accepts s p key (freq / 1000) = true
        · rw [if_pos ha]
          dsimp only
          obtain ⟨h1, h2, h3⟩ := ih (Machine.setOne s (p, d) key (freq / 1000))
          refine ⟨h1, fun hok => ?_, fun hr hall => h3 hr fun x hx => hall x (List.mem_cons_of_mem _ hx)⟩
          obtain ⟨h4, h5, h6⟩ := h2 hok
          refine ⟨?_, ?_, ?_⟩
          · rw [h4]
            funext x k
            unfold setSpec
            show (if x ∈ l ∧ k = key then freq / 1000 else
              if x = (p, d) ∧ k = key then freq / 1000 else s.val x k) = _
            by_cases hc : x ∈ l ∧ k = key
            · rw [if_pos hc, if_pos ⟨List.mem_cons_of_mem _ hc.1, hc.2⟩]
            · rw [if_neg hc]
              by_cases hc' : x = (p, d) ∧ k = key
              · rw [if_pos hc', if_pos ⟨by rw [hc'.1]; exact List.mem_cons_self, hc'.2⟩]
              · rw [if_neg hc', if_neg]
                rintro ⟨h7, h8⟩
                rcases List.mem_cons.1 h7 with h7 | h7
                · exact hc' ⟨h7, h8⟩
                · exact hc ⟨h7, h8⟩
          · intro x hx'
            rcases List.mem_cons.1 hx' with rfl | hx'
            · exact hx
            · exact h5 x hx'
          · intro x hx'
            rcases List.mem_cons.1 hx' with rfl | hx'
            · exact ha
            · exact h6 x hx'
        · rw [if_neg ha]
          exact ⟨rfl, fun h => (by cases h), fun _ hall => absurd (hall _ List.mem_cons_self).2 ha⟩
    · rw [show newDir m.sysfs p d = _ from newDir_missing hw hx]
      exact ⟨rfl, fun h => (by cases h), fun _ hall => absurd (hall _ List.mem_cons_self).1 hx⟩

theorem read_dieLimit {m : Machine} {s : KState} {dir : PyStr} {x : Die} {key : Key} (h : m.domain dir = some x) :
    m.sysfs.readInt s dir (fname key true) = .ok (m.dieLimit x key) := by
  show m.read s dir (fname key true) = _
  unfold Machine.read
  rw [h, fileOf_fname]

theorem getFreqLoop_spec {m : Machine} (hw : m.WF) (s : KState) (key : Key) (limit : Bool) (l : List Die)
    (h : ∀ x ∈ l, x ∈ m.dies) :
    getFreqLoop m.sysfs s key limit l =
      .ok (l.map fun x => (x, (if limit then m.dieLimit x key else s.val x key) * 1000)) := by
  induction l with
  | nil => rfl
  | cons x l ih =>
    have hd := domain_dirOf (h x List.mem_cons_self)
    unfold getFreqLoop dieDir
    rw [if_pos (useNew_sysfs hw), newDir_sysfs hw hd]
    dsimp only
    have hr : m.sysfs.readInt s (m.dirOf x) (fname key limit) =
        .ok (if limit then m.dieLimit x key else s.val x key) := by
      cases limit
      · exact read_die hd
      · exact read_dieLimit hd
    rw [hr]
    dsimp only
    rw [ih fun y hy => h y (List.mem_cons_of_mem _ hy)]
    rfl

theorem getFreqCpus_eq {σ : Type} (fs : Sysfs σ) (levels : Nat → Except Exn Die) (lv : Nat → Die) (s : σ)
    (key : Key) (limit : Bool) (cpus : List Nat) (h : ∀ c ∈ cpus, levels c = .ok (lv c)) (f : Die → Int)
    (hl : getFreqLoop fs s key limit (cpus.map lv) = .ok ((cpus.map lv).map fun x => (x, f x))) :
    getFreqCpus fs levels s key limit cpus = .ok (cpus.map fun c => (c, f (lv c))) := by
  induction cpus with
  | nil => rfl
  | cons c cpus ih =>
    rw [List.map_cons] at hl
    unfold getFreqLoop dieDir at hl
    unfold getFreqCpus cpuDir
    rw [h c List.mem_cons_self]
    dsimp only at hl ⊢
    cases hd : (if useNew fs = true then newDir fs (lv c).1 (lv c).2 else .ok (legacyDir (lv c).1 (lv c).2)) with
    | error e => rw [hd] at hl; cases hl
    | ok dir =>
      rw [hd] at hl
      dsimp only at hl ⊢
      cases hr : fs.readInt s dir (fname key limit) with
      | error e => rw [hr] at hl; cases hl
      | ok v =>
        rw [hr] at hl
        dsimp only at hl ⊢
        cases hg : getFreqLoop fs s key limit (cpus.map lv) with
        | error e => rw [hg] at hl; cases hl
        | ok r =>
          rw [hg] at hl
          simp only [List.map_cons, Except.ok.injEq, List.cons.injEq, Prod.mk.injEq] at hl
          rw [ih (fun x hx => h x (List.mem_cons_of_mem _ hx)) (by rw [hg, hl.2])]
          dsimp only
          rw [hl.1.2, List.map_cons]

end Verif.UncoreFreq
