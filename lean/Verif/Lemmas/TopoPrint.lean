import Verif.Props.TopoPrintSpec
import Verif.Lemmas.FreqInfo
import Verif.Props.TopoBuild

/-!
Lemmas for C85.
-/

namespace Verif.TopoPrint

open CPUInfo (Level)
open TopoBuild (Machine Row St Host Reach Covers lexLe NA getTopology Correct)
open FreqInfo (splitWs)

/-! ### Text -/

/-- A word: not empty, no white space. -/
def Word (s : PyStr) : Prop := s ≠ [] ∧ ∀ c ∈ s, PyStr.isSpace c = false

theorem splitWs_spaces (n : Nat) (s : PyStr) : splitWs (List.replicate n ' ' ++ s) = splitWs s := by
  induction n with
  | zero => rfl
  | succ n ih =>
    rw [List.replicate_succ, List.cons_append, splitWs, if_pos (by decide), ih]

theorem splitWs_pad {s : PyStr} (n : Nat) (t : PyStr) : splitWs (pad n s ++ t) = splitWs (s ++ t) := by
  rw [pad, List.append_assoc, splitWs_spaces]

theorem four_spaces : "    ".toList = ' ' :: List.replicate 3 ' ' := by decide

/-- A word followed by the end or by a space. -/
theorem splitWs_cons {w t : PyStr} (hw : Word w) :
    splitWs (w ++ "    ".toList ++ t) = w :: splitWs t := by
  rw [four_spaces, List.append_assoc, List.cons_append, FreqInfo.splitWs_append hw.1 hw.2, splitWs_spaces]

theorem splitWs_cols (cols : List Level) (ss : List PyStr) (hl : ss.length = cols.length) (hw : ∀ s ∈ ss, Word s)
    (t : PyStr) :
    splitWs (joinCols (List.zipWith (fun l s => pad (levelName l).length s) cols ss) ++ "    ".toList ++ t) =
      ss ++ splitWs t := by
  induction ss generalizing cols with
  | nil =>
    cases cols with
    | nil =>
      rw [show List.zipWith (fun l s => pad (levelName l).length s) [] [] = ([] : List PyStr) from rfl, joinCols,
        List.nil_append, four_spaces]
      exact splitWs_spaces 4 t
    | cons _ _ => cases hl
  | cons s ss ih =>
    cases cols with
    | nil => cases hl
    | cons l cols =>
      have hl' : ss.length = cols.length := by simpa using hl
      have ih := ih cols hl' (fun x hx => hw x (by simp [hx]))
      have hs := hw s (by simp)
      rw [List.zipWith_cons_cons]
      cases ss with
      | nil =>
        cases cols with
        | cons _ _ => cases hl'
        | nil =>
          rw [List.zipWith_nil_left, joinCols, List.append_assoc, splitWs_pad, ← List.append_assoc, splitWs_cons hs]
          rfl
      | cons s2 ss =>
        cases cols with
        | nil => cases hl'
        | cons l2 cols =>
          rw [List.zipWith_cons_cons] at ih ⊢
          rw [joinCols, List.append_assoc, List.append_assoc, List.append_assoc, splitWs_pad, ← List.append_assoc,
            splitWs_cons hs, ← List.append_assoc, ih]
          rfl

theorem splitWs_cols_end (cols : List Level) (ss : List PyStr) (hl : ss.length = cols.length) (hw : ∀ s ∈ ss, Word s) :
    splitWs (joinCols (List.zipWith (fun l s => pad (levelName l).length s) cols ss)) = ss := by
  induction ss generalizing cols with
  | nil =>
    cases cols with
    | nil => rfl
    | cons _ _ => cases hl
  | cons s ss ih =>
    cases cols with
    | nil => cases hl
    | cons l cols =>
      have hl' : ss.length = cols.length := by simpa using hl
      have ih := ih cols hl' (fun x hx => hw x (by simp [hx]))
      have hs := hw s (by simp)
      rw [List.zipWith_cons_cons]
      cases ss with
      | nil =>
        cases cols with
        | cons _ _ => cases hl'
        | nil =>
          have := splitWs_pad (s := s) (levelName l).length []
          rw [List.append_nil, List.append_nil] at this
          rw [List.zipWith_nil_left, joinCols, this, FreqInfo.splitWs_word hs.1 hs.2]
      | cons s2 ss =>
        cases cols with
        | nil => cases hl'
        | cons l2 cols =>
          rw [List.zipWith_cons_cons] at ih ⊢
          rw [joinCols, List.append_assoc, splitWs_pad, ← List.append_assoc, splitWs_cons hs, ih]

/-- The words of a line are the cells. -/
theorem splitWs_format (cols : List Level) (ss : List PyStr × Option PyStr) (hl : ss.1.length = cols.length)
    (hw : ∀ s ∈ ss.1, Word s) (hh : ∀ s, ss.2 = some s → Word s) :
    splitWs (format cols ss) = ss.1 ++ ss.2.toList := by
  obtain ⟨ss, hy⟩ := ss
  cases hy with
  | none =>
    simp only [format, List.append_nil, Option.toList]
    exact splitWs_cols_end cols ss hl hw
  | some s =>
    simp only [format, Option.toList]
    rw [← List.append_assoc, splitWs_cols cols ss hl hw]
    have := splitWs_pad (s := s) 6 []
    rw [List.append_nil, List.append_nil] at this
    rw [this, FreqInfo.splitWs_word (hh s rfl).1 (hh s rfl).2]

/-! ### The topology table -/

variable {m : Machine} {on : List Nat} {h : Host}

theorem addLevelsTo_idem (a b : List Level) :
    TopoBuild.addLevelsTo (TopoBuild.addLevelsTo a b) b = TopoBuild.addLevelsTo a b := by
  have : b.filter (fun l => !(TopoBuild.addLevelsTo a b).contains l) = [] := by
    rw [List.filter_eq_nil_iff]
    intro l hl
    by_cases ha : l ∈ a <;> simp [TopoBuild.addLevelsTo, ha, hl]
  rw [TopoBuild.addLevelsTo, this, List.append_nil]

theorem mem_addLevelsTo (a b : List Level) (l : Level) : l ∈ TopoBuild.addLevelsTo a b ↔ l ∈ a ∨ l ∈ b := by
  by_cases ha : l ∈ a <;> simp [TopoBuild.addLevelsTo, ha]

/-- The levels the table is sorted by are asked for as well. -/
theorem getTopology_order (st : St) (levels : List Level) (order : Level) :
    getTopology h st levels order =
      getTopology h st (TopoBuild.addLevelsTo levels (TopoBuild.sortingMap order)) order := by
  unfold getTopology
  rw [addLevelsTo_idem]

theorem die_sorting (order : Level) : Level.die ∈ TopoBuild.sortingMap order ↔ order = .die := by
  cases order <;> decide

theorem topo_correct (hw : m.WF) {asked : Bool} {st : St} (hr : Reach m (Covers m) asked on h st) (levels : List Level)
    (order : Level) :
    ∃ st' rows, getTopology h st levels order = .ok (st', rows) ∧
      Correct m on (asked || decide (Level.die ∈ levels) || decide (order = .die))
        (TopoBuild.addLevelsTo levels (TopoBuild.sortingMap order)) order rows ∧
      Reach m (Covers m) (asked || decide (Level.die ∈ levels) || decide (order = .die)) on h st' := by
  obtain ⟨st', rows, h1, h2⟩ := TopoBuild.C72_table_partial m hw asked on h st hr
    (TopoBuild.addLevelsTo levels (TopoBuild.sortingMap order)) order
  rw [← getTopology_order] at h1
  refine ⟨st', rows, h1, ?_, hr.get _ _ _ _ _ _ _ _ h1⟩
  have e : (asked || decide (Level.die ∈ TopoBuild.addLevelsTo levels (TopoBuild.sortingMap order)) ||
      decide (order = .die)) = (asked || decide (Level.die ∈ levels) || decide (order = .die)) := by
    have := mem_addLevelsTo levels (TopoBuild.sortingMap order) .die
    rw [die_sorting] at this
    by_cases h1 : Level.die ∈ levels <;> by_cases h2 : order = .die <;> simp [this, h1, h2]
  rw [e] at h2
  exact h2

/-- A topology line and what it is about. -/
inductive RowOf (m : Machine) (on : List Nat) (levels : List Level) : Row → Thing → Prop
  | cpu (r : Row) (c : Nat) : c ∈ on → r.cpu = (c : Int) → (∀ l ∈ levels, r.get l = some (m.num l c : Int)) →
      RowOf m on levels r (.cpu c)
  | io (p d : Int) : m.IsIo p d → RowOf m on levels (Row.io p d) (.io p d)

theorem io_small (hw : m.WF) {p d : Int} (hi : m.IsIo p d) : (0 ≤ p ∧ p < 0xFFFFFFFF) ∧ 0 ≤ d ∧ d < 0xFFFFFFFF := by
  obtain ⟨⟨u, hu, ds, hg, hd⟩, _, _⟩ := hi
  obtain ⟨_, h1, h2, h3⟩ := hw.dies u hu p ds hg
  exact ⟨⟨h1, h2⟩, h3 d hd⟩

theorem rows_of {b : Bool} {levels : List Level} {order : Level} {rows : List Row}
    (hc : Correct m on b levels order rows) {r : Row} (hr : r ∈ rows) :
    ∃ t, RowOf m on levels r t ∧ ∀ p d, t = .io p d → b = true := by
  by_cases hna : r.cpu = NA
  · obtain ⟨hb, p, d, hi, rfl⟩ := (hc.io r).1 ⟨hr, hna⟩
    exact ⟨.io p d, .io p d hi, fun _ _ _ => hb⟩
  · have : r.cpu ∈ on.map Int.ofNat := by
      rw [← hc.cpus.mem_iff, List.mem_map]
      exact ⟨r, List.mem_filter.2 ⟨hr, by simpa using hna⟩, rfl⟩
    obtain ⟨c, hon, he⟩ := List.mem_map.1 this
    exact ⟨.cpu c, .cpu r c hon he.symm (hc.nums r hr c hon he.symm), fun _ _ h => nomatch h⟩

theorem cpu_row {b : Bool} {levels : List Level} {order : Level} {rows : List Row}
    (hc : Correct m on b levels order rows) {c : Nat} (hon : c ∈ on) :
    ∃ r ∈ rows, RowOf m on levels r (.cpu c) := by
  have : (c : Int) ∈ on.map Int.ofNat := List.mem_map.2 ⟨c, hon, rfl⟩
  rw [← hc.cpus.mem_iff, List.mem_map] at this
  obtain ⟨r, hr, he⟩ := this
  exact ⟨r, (List.mem_filter.1 hr).1, .cpu r c hon he (hc.nums r (List.mem_filter.1 hr).1 c hon he)⟩

theorem io_row {levels : List Level} {order : Level} {rows : List Row}
    (hc : Correct m on true levels order rows) {p d : Int} (hi : m.IsIo p d) :
    ∃ r ∈ rows, RowOf m on levels r (.io p d) :=
  ⟨Row.io p d, ((hc.io _).2 ⟨rfl, p, d, hi, rfl⟩).1, .io p d hi⟩

theorem RowOf.get {levels : List Level} {r : Row} {t : Thing} (ho : RowOf m on levels r t) {l : Level} (hl : l ∈ levels) :
    r.get l = some (t.num m l) := by
  cases ho with
  | cpu r c hon he hn => exact hn l hl
  | io p d hi => cases l <;> rfl

theorem RowOf.key {levels : List Level} {r : Row} {t : Thing} (ho : RowOf m on levels r t) {order : Level}
    (hl : ∀ l ∈ TopoBuild.sortingMap order, l ∈ levels) : r.key order = t.place m order := by
  have e : sortLevels order = TopoBuild.sortingMap order := by cases order <;> rfl
  rw [Row.key, Thing.place, e]
  refine List.map_congr_left fun l hm => ?_
  rw [ho.get (hl l hm)]
  rfl

theorem numCell_nat {n : Nat} (hn : n < 0xFFFFFFFF) : numCell (n : Int) = PyStr.ofNat n := by
  rw [numCell, if_neg (by unfold NA; omega)]
  rfl

theorem numCell_int {n : Int} (hn : n < 0xFFFFFFFF) : numCell n = PyStr.ofInt n := by
  rw [numCell, if_neg (by unfold NA; omega)]

theorem RowOf.numCell (hw : m.WF) (hsub : ∀ c ∈ on, c ∈ m.present) {levels : List Level} {r : Row} {t : Thing}
    (ho : RowOf m on levels r t) (l : Level) : numCell (t.num m l) = t.text m l := by
  cases ho with
  | cpu r c hon he hn => exact numCell_nat (hw.small c (hsub c hon) l)
  | io p d hi =>
    obtain ⟨h1, h2⟩ := io_small hw hi
    cases l <;> first | rfl | exact numCell_int h1.2 | exact numCell_int h2.2

theorem levelCells_row (hw : m.WF) (hsub : ∀ c ∈ on, c ∈ m.present) {levels : List Level} {r : Row} {t : Thing}
    (ho : RowOf m on levels r t) (cols : List Level) (hl : ∀ l ∈ cols, l ∈ levels) :
    levelCells (.row r) cols = .ok (cols.map (t.text m)) := by
  induction cols with
  | nil => rfl
  | cons l cols ih =>
    rw [levelCells, levelCell, ho.get (hl l (by simp))]
    simp only
    rw [ih (fun x hx => hl x (by simp [hx])), ho.numCell hw hsub]
    rfl

theorem na_not_nat {c : Nat} (hw : m.WF) (hc : c ∈ m.present) : (c : Int) ≠ NA := by
  have := hw.small c hc .CPU
  rw [hw.cpu] at this
  unfold NA
  omega

/-- Cells of a topology line. On hybrid systems all P-core CPUs are real ones. -/
theorem cells_row (hw : m.WF) (hsub : ∀ c ∈ on, c ∈ m.present) {levels : List Level} {r : Row} {t : Thing}
    (ho : RowOf m on levels r t) (hyb : Option (List Int)) (hy : ∀ pc, hyb = some pc → (0xFFFFFFFF : Int) ∉ pc)
    (cols : List Level) (hl : ∀ l ∈ cols, l ∈ levels) :
    cells hyb cols (.row r) = .ok (cols.map (t.text m), hyb.map fun pc => t.kind pc) := by
  rw [cells, levelCells_row hw hsub ho cols hl]
  simp only
  cases hyb with
  | none => rfl
  | some pc =>
    cases ho with
    | cpu r c hon he hn => simp only [Option.map_some, hybridCell, he, Thing.kind]
    | io p d hi =>
      have : ((Row.io p d).cpu ∈ pc) = False := eq_false (hy pc rfl)
      simp only [Option.map_some, hybridCell, Thing.kind, this, if_false]

theorem levelCells_off {c : Int} (hc : c < 0xFFFFFFFF) (cols : List Level) :
    levelCells (.offline c) cols = .ok (cols.map fun l => if l = .CPU then PyStr.ofInt c else ['?']) := by
  induction cols with
  | nil => rfl
  | cons l cols ih =>
    rw [levelCells, ih]
    cases l <;> first | rfl | (simp only [levelCell, numCell_int hc]; rfl)

theorem cells_off {c : Int} (hc : c < 0xFFFFFFFF) (hyb : Option (List Int)) (cols : List Level) :
    cells hyb cols (.offline c) =
      .ok (cols.map (fun l => if l = .CPU then PyStr.ofInt c else ['?']), hyb.map fun _ => ['?']) := by
  rw [cells, levelCells_off hc]
  rfl

theorem word_nat (n : Nat) : Word (PyStr.ofNat n) := ⟨PyStr.ofNat_ne_nil n, FreqInfo.isSpace_ofNat n⟩

theorem word_int (n : Int) : Word (PyStr.ofInt n) := by
  cases n with
  | ofNat n => exact word_nat n
  | negSucc n =>
    refine ⟨(fun h => nomatch h), fun c hc => ?_⟩
    rcases List.mem_cons.1 hc with rfl | hc
    · decide
    · exact (word_nat (n + 1)).2 c hc

theorem word_text (m : Machine) (t : Thing) (l : Level) : Word (t.text m l) := by
  have hd : Word ['-'] := ⟨by decide, by decide⟩
  cases t with
  | cpu c => exact word_nat _
  | io p d => cases l <;> first | exact hd | exact word_int _

theorem word_kind (pc : List Int) (t : Thing) : Word (t.kind pc) := by
  have h1 : Word "P-core".toList := ⟨by decide, by decide⟩
  have h2 : Word "E-core".toList := ⟨by decide, by decide⟩
  cases t with
  | cpu c =>
    simp only [Thing.kind]
    split
    · exact h1
    · exact h2
  | io p d => exact h2

/-! ### The printing loop -/

theorem printLoop_eq (hyb : Option (List Int)) (cols : List Level) (f : Line → List PyStr × Option PyStr) (lines : List Line)
    (printed : List PyStr) (hf : ∀ x ∈ lines, cells hyb cols x = .ok (f x)) :
    printLoop hyb cols lines printed = .ok (dedupAux printed (lines.map fun x => format cols (f x))) := by
  induction lines generalizing printed with
  | nil => rfl
  | cons x lines ih =>
    have ih := fun pr => ih pr (fun y hy => hf y (by simp [hy]))
    rw [printLoop, hf x (by simp)]
    simp only [List.map_cons, dedupAux]
    split
    · exact ih _
    · rw [ih]

/-- The first lines of their kind are printed. -/
theorem dedup_first {α β : Type} [DecidableEq β] (g : α → β) (R : α → α → Prop) (l : List α) (seen : List β)
    (hp : l.Pairwise R) :
    ∃ l' : List α, l'.Sublist l ∧ dedupAux seen (l.map g) = l'.map g ∧
      ∀ x ∈ l, g x ∈ seen ∨ ∃ y ∈ l', g y = g x ∧ (y = x ∨ R y x) := by
  induction l generalizing seen with
  | nil => exact ⟨[], by simp, rfl, by simp⟩
  | cons a l ih =>
    obtain ⟨hR, hp⟩ := List.pairwise_cons.1 hp
    simp only [List.map_cons, dedupAux]
    by_cases hs : g a ∈ seen
    · obtain ⟨l', h1, h2, h3⟩ := ih seen hp
      rw [if_pos hs]
      refine ⟨l', h1.cons a, h2, fun x hx => ?_⟩
      rcases List.mem_cons.1 hx with rfl | hx
      · exact Or.inl hs
      · exact h3 x hx
    · obtain ⟨l', h1, h2, h3⟩ := ih (g a :: seen) hp
      rw [if_neg hs]
      refine ⟨a :: l', h1.cons_cons a, by rw [h2]; rfl, fun x hx => ?_⟩
      rcases List.mem_cons.1 hx with rfl | hx
      · exact Or.inr ⟨x, by simp, rfl, Or.inl rfl⟩
      · rcases h3 x hx with h | ⟨y, hy, h4, h5⟩
        · rcases List.mem_cons.1 h with h | h
          · exact Or.inr ⟨a, by simp, h.symm, Or.inr (hR x hx)⟩
          · exact Or.inl h
        · exact Or.inr ⟨y, by simp [hy], h4, h5⟩

/-! ### Default columns -/

/-- Both loops of `_get_default_colnames()`: look for lines equal in `f` and different in `g`. -/
def scan {α β : Type} [DecidableEq α] [DecidableEq β] (f : Row → α) (g : Row → β) : Row → List Row → Bool
  | _, [] => false
  | r0, r :: rs =>
    if f r0 ≠ f r then scan f g r rs
    else if g r0 ≠ g r then true
    else scan f g r0 rs

theorem scan_congr {α β : Type} [DecidableEq α] [DecidableEq β] (f : Row → α) (g : Row → β) (r0 r : Row) (rs : List Row)
    (hf : f r0 = f r) (hg : g r0 = g r) : scan f g r0 rs = scan f g r rs := by
  induction rs with
  | nil => rfl
  | cons x rs ih => simp only [scan, hf, hg, ih]

theorem scan_spec {β : Type} [DecidableEq β] (f : Row → Option Int) (g : Row → β) (r0 : Row) (rs : List Row)
    (hs : (r0 :: rs).Pairwise fun a b => (f a).getD 0 ≤ (f b).getD 0) (hf : ∀ r ∈ r0 :: rs, (f r).isSome) :
    scan f g r0 rs = true ↔ ∃ a ∈ r0 :: rs, ∃ b ∈ r0 :: rs, f a = f b ∧ g a ≠ g b := by
  induction rs generalizing r0 with
  | nil => simp [scan]
  | cons r rs ih =>
    have hs' := (List.pairwise_cons.1 hs).2
    have h0 := (List.pairwise_cons.1 hs).1
    have hr := (List.pairwise_cons.1 hs').1
    rw [scan]
    by_cases e : f r0 = f r
    · rw [if_neg (not_not_intro e)]
      by_cases e2 : g r0 = g r
      · rw [if_neg (not_not_intro e2), scan_congr f g r0 r rs e e2,
          ih r hs' (fun x hx => hf x (by simp [List.mem_cons.1 hx]))]
        constructor
        · rintro ⟨a, ha, b, hb, h1, h2⟩
          exact ⟨a, List.mem_cons_of_mem _ ha, b, List.mem_cons_of_mem _ hb, h1, h2⟩
        · rintro ⟨a, ha, b, hb, h1, h2⟩
          have key : ∀ x ∈ r0 :: r :: rs, ∃ y ∈ r :: rs, f y = f x ∧ g y = g x := by
            intro x hx
            rcases List.mem_cons.1 hx with rfl | hx
            · exact ⟨r, by simp, e.symm, e2.symm⟩
            · exact ⟨x, hx, rfl, rfl⟩
          obtain ⟨a', ha', e3, e4⟩ := key a ha
          obtain ⟨b', hb', e5, e6⟩ := key b hb
          exact ⟨a', ha', b', hb', by rw [e3, e5, h1], by rw [e4, e6]; exact h2⟩
      · rw [if_pos e2]
        exact ⟨fun _ => ⟨r0, by simp, r, by simp, e, e2⟩, fun _ => rfl⟩
    · rw [if_pos e, ih r hs' (fun x hx => hf x (by simp [List.mem_cons.1 hx]))]
      have ne : ∀ x ∈ r :: rs, f r0 ≠ f x := by
        intro x hx he
        have h1 : (f r0).getD 0 ≤ (f r).getD 0 := h0 r (by simp)
        have h2 : (f r).getD 0 ≤ (f x).getD 0 := by
          rcases List.mem_cons.1 hx with rfl | hx
          · exact Int.le_refl _
          · exact hr x hx
        obtain ⟨a, ha⟩ := Option.isSome_iff_exists.1 (hf r0 (by simp))
        obtain ⟨b, hb⟩ := Option.isSome_iff_exists.1 (hf r (by simp))
        rw [← he, ha, hb] at h2
        rw [ha, hb] at h1
        simp only [Option.getD_some] at h1 h2
        exact e (by rw [ha, hb, Int.le_antisymm h1 h2])
      constructor
      · rintro ⟨a, ha, b, hb, h1, h2⟩
        exact ⟨a, List.mem_cons_of_mem _ ha, b, List.mem_cons_of_mem _ hb, h1, h2⟩
      · rintro ⟨a, ha, b, hb, h1, h2⟩
        rcases List.mem_cons.1 ha with rfl | ha' <;> rcases List.mem_cons.1 hb with rfl | hb'
        · exact absurd rfl h2
        · exact absurd h1 (ne b hb')
        · exact absurd h1.symm (ne a ha')
        · exact ⟨a, ha', b, hb', h1, h2⟩

theorem scanModules_eq (r0 : Row) (rs : List Row) :
    scanModules (some (r0.module, r0.core, r0.package)) rs = scan Row.module (fun r => (r.core, r.package)) r0 rs := by
  induction rs generalizing r0 with
  | nil => rfl
  | cons r rs ih =>
    rw [scanModules, scan, ih, ih]
    by_cases e : r0.module = r.module
    · simp only [e, ne_eq, not_true_eq_false, if_false, Prod.mk.injEq, not_and_or]
    · simp only [ne_eq, e, not_false_eq_true, if_true]

theorem scanDies_eq (r0 : Row) (rs : List Row) :
    scanDies (some (r0.package, r0.die)) rs = scan Row.package Row.die r0 rs := by
  induction rs generalizing r0 with
  | nil => rfl
  | cons r rs ih => rw [scanDies, scan, ih, ih]

theorem lexLe_head {a b : Int} {as bs : List Int} (h : lexLe (a :: as) (b :: bs) = true) : a ≤ b := by
  rw [lexLe] at h
  split at h
  · omega
  · split at h
    · cases h
    · omega

theorem scanModules_spec (rows : List Row) (hs : rows.Pairwise fun a b => lexLe (a.key .module) (b.key .module) = true)
    (hf : ∀ r ∈ rows, r.module.isSome) :
    scanModules none rows = true ↔
      ∃ a ∈ rows, ∃ b ∈ rows, a.module = b.module ∧ (a.core, a.package) ≠ (b.core, b.package) := by
  cases rows with
  | nil => simp [scanModules]
  | cons r rs =>
    rw [scanModules, scanModules_eq, scan_spec Row.module (fun r => (r.core, r.package)) r rs ?_ hf]
    exact hs.imp fun h => lexLe_head h

theorem scanDies_spec (rows : List Row) (hs : rows.Pairwise fun a b => lexLe (a.key .package) (b.key .package) = true)
    (hf : ∀ r ∈ rows, r.package.isSome) :
    scanDies none rows = true ↔ ∃ a ∈ rows, ∃ b ∈ rows, a.package = b.package ∧ a.die ≠ b.die := by
  cases rows with
  | nil => simp [scanDies]
  | cons r rs =>
    rw [scanDies, scanDies_eq, scan_spec Row.package Row.die r rs ?_ hf]
    exact hs.imp fun h => lexLe_head h

theorem rowOf_thing {b : Bool} {levels : List Level} {order : Level} {rows : List Row}
    (hc : Correct m on b levels order rows) {t : Thing} :
    (∃ r ∈ rows, RowOf m on levels r t) ↔
      match t with
      | .cpu c => c ∈ on
      | .io p d => b = true ∧ m.IsIo p d := by
  cases t with
  | cpu c =>
    constructor
    · rintro ⟨r, hr, ho⟩
      cases ho with
      | cpu _ _ h1 => exact h1
    · exact fun h => cpu_row hc h
  | io p d =>
    constructor
    · rintro ⟨r, hr, ho⟩
      cases ho with
      | io _ _ h1 => exact ⟨((hc.io _).1 ⟨hr, rfl⟩).1, h1⟩
    · rintro ⟨rfl, h⟩
      exact io_row hc h

theorem defaultColnames_spec (hw : m.WF) {st : St} (hr : Reach m (Covers m) false on h st) :
    ∃ st' cols, defaultColnames h st = .ok (st', cols) ∧ DefaultCols m on cols ∧ Reach m (Covers m) true on h st' := by
  obtain ⟨st1, rows1, g1, c1, r1⟩ := topo_correct hw hr [.core, .module, .package] .module
  obtain ⟨st2, rows2, g2, c2, r2⟩ := topo_correct hw r1 [.die, .package] .package
  have e1 : (false || decide (Level.die ∈ [Level.core, .module, .package]) || decide (Level.module = .die)) = false := by
    decide
  have e2 : (false || decide (Level.die ∈ [Level.core, .module, .package]) || decide (Level.module = .die) ||
      decide (Level.die ∈ [Level.die, .package]) || decide (Level.package = .die)) = true := by decide
  rw [e1] at c1
  rw [e2] at c2 r2
  have L1 : TopoBuild.addLevelsTo [.core, .module, .package] (TopoBuild.sortingMap .module) =
    [.core, .module, .package, .CPU] := by decide
  have L2 : TopoBuild.addLevelsTo [.die, .package] (TopoBuild.sortingMap .package) = [.die, .package, .CPU] := by decide
  rw [L1] at c1
  rw [L2] at c2
  have M : scanModules none rows1 = true ↔ HasModules m on := by
    have get1 : ∀ r ∈ rows1, ∃ c ∈ on, r.module = some (m.num .module c : Int) ∧ r.core = some (m.num .core c : Int) ∧
        r.package = some (m.num .package c : Int) := by
      intro r hr
      obtain ⟨t, ho, hb⟩ := rows_of c1 hr
      cases ho with
      | cpu _ c hc _ hn => exact ⟨c, hc, hn .module (by simp), hn .core (by simp), hn .package (by simp)⟩
      | io p d => cases hb p d rfl
    rw [scanModules_spec rows1 c1.sorted (fun r hr => by
      obtain ⟨c, _, h1, _⟩ := get1 r hr
      rw [h1]; rfl)]
    constructor
    · rintro ⟨a, ha, b, hb, h1, h2⟩
      obtain ⟨c, hc, ea, ea2, ea3⟩ := get1 a ha
      obtain ⟨d, hd, eb, eb2, eb3⟩ := get1 b hb
      refine ⟨c, hc, d, hd, ?_, ?_⟩
      · rw [ea, eb, Option.some.injEq] at h1
        exact_mod_cast h1
      · rw [ea2, ea3, eb2, eb3] at h2
        by_cases e1 : m.num .core c = m.num .core d
        · refine Or.inr fun e2 => h2 (by rw [e1, e2])
        · exact Or.inl e1
    · rintro ⟨c, hc, d, hd, h1, h2⟩
      obtain ⟨a, ha, oa⟩ := cpu_row c1 hc
      obtain ⟨b, hb, ob⟩ := cpu_row c1 hd
      refine ⟨a, ha, b, hb, ?_, ?_⟩
      · have e1 := oa.get (l := .module) (by simp)
        have e2 := ob.get (l := .module) (by simp)
        exact e1.trans (.trans (by simp only [Thing.num, h1]) e2.symm)
      · have e1 : a.core = _ := oa.get (l := .core) (by simp)
        have e2 : b.core = _ := ob.get (l := .core) (by simp)
        have e3 : a.package = _ := oa.get (l := .package) (by simp)
        have e4 : b.package = _ := ob.get (l := .package) (by simp)
        rw [e1, e2, e3, e4]
        intro e
        simp only [Thing.num, Prod.mk.injEq, Option.some.injEq] at e
        rcases h2 with h2 | h2
        · exact h2 (by exact_mod_cast e.1)
        · exact h2 (by exact_mod_cast e.2)
  have D : scanDies none rows2 = true ↔ HasDies m on := by
    have get2 : ∀ r ∈ rows2, ∃ p d, r.package = some p ∧ r.die = some d ∧
        ((∃ c ∈ on, (m.num .package c : Int) = p ∧ (m.num .die c : Int) = d) ∨ m.IsIo p d) := by
      intro r hr
      obtain ⟨t, ho, hb⟩ := rows_of c2 hr
      cases ho with
      | cpu _ c hc _ hn => exact ⟨_, _, hn .package (by simp), hn .die (by simp), Or.inl ⟨c, hc, rfl, rfl⟩⟩
      | io p d hi => exact ⟨p, d, rfl, rfl, Or.inr hi⟩
    have mk2 : ∀ p d, ((∃ c ∈ on, (m.num .package c : Int) = p ∧ (m.num .die c : Int) = d) ∨ m.IsIo p d) →
        ∃ r ∈ rows2, r.package = some p ∧ r.die = some d := by
      rintro p d (⟨c, hc, rfl, rfl⟩ | hi)
      · obtain ⟨r, hr, ho⟩ := cpu_row c2 hc
        exact ⟨r, hr, ho.get (l := .package) (by simp), ho.get (l := .die) (by simp)⟩
      · obtain ⟨r, hr, ho⟩ := io_row c2 hi
        exact ⟨r, hr, ho.get (l := .package) (by simp), ho.get (l := .die) (by simp)⟩
    rw [scanDies_spec rows2 c2.sorted (fun r hr => by
      obtain ⟨_, _, h1, _⟩ := get2 r hr
      rw [h1]; rfl)]
    constructor
    · rintro ⟨a, ha, b, hb, h1, h2⟩
      obtain ⟨p, d, ea, ea2, ea3⟩ := get2 a ha
      obtain ⟨p', d', eb, eb2, eb3⟩ := get2 b hb
      rw [ea, eb, Option.some.injEq] at h1
      subst h1
      refine ⟨p, d, d', fun e => h2 (by rw [ea2, eb2, e]), ea3, eb3⟩
    · rintro ⟨p, d, d', hne, h1, h2⟩
      obtain ⟨a, ha, e1, e2⟩ := mk2 p d h1
      obtain ⟨b, hb, e3, e4⟩ := mk2 p d' h2
      exact ⟨a, ha, b, hb, by rw [e1, e3], by rw [e2, e4]; exact fun e => hne (Option.some.inj e)⟩
  refine ⟨st2, _, by rw [defaultColnames, g1]; simp only; rw [g2], ⟨scanModules none rows1, scanDies none rows2, M, D, ?_⟩,
    r2⟩
  cases scanModules none rows1 <;> cases scanDies none rows2 <;> decide

/-! ### Column names and order -/

theorem findLevel_some {n : PyStr} {l : Level} :
    findLevel n LEVELS = some l ↔ FeaturedMSR.lower n = FeaturedMSR.lower (levelName l) := by
  have inj : ∀ a b : Level, FeaturedMSR.lower (levelName a) = FeaturedMSR.lower (levelName b) → a = b := by
    intro a b
    cases a <;> cases b <;> decide +kernel
  have gen : ∀ ls : List Level, findLevel n ls = some l ↔
      l ∈ ls ∧ FeaturedMSR.lower n = FeaturedMSR.lower (levelName l) := by
    intro ls
    induction ls with
    | nil => simp [findLevel]
    | cons x ls ih =>
      rw [findLevel]
      split
      · next e =>
        constructor
        · intro h1
          cases h1
          exact ⟨by simp, e⟩
        · rintro ⟨_, h2⟩
          rw [inj x l (by rw [← e, h2])]
      · next e =>
        rw [ih]
        constructor
        · rintro ⟨h1, h2⟩
          exact ⟨by simp [h1], h2⟩
        · rintro ⟨h1, h2⟩
          rcases List.mem_cons.1 h1 with rfl | h1
          · exact absurd h2 e
          · exact ⟨h1, h2⟩
  rw [gen]
  exact ⟨fun h => h.2, fun h => ⟨by cases l <;> decide, h⟩⟩

theorem findLevel_hybrid : findLevel "hybrid".toList LEVELS = none := by decide +kernel

theorem parseColumns_ok (ns : List PyStr) (acc : List Level) (hy : Bool) {cols : List Level} {hyb : Bool} :
    parseColumns ns acc hy = .ok (cols, hyb) ↔
      ∃ c2 h2, Picks ns c2 h2 ∧ cols = acc ++ c2 ∧ hyb = (hy || h2) := by
  induction ns generalizing acc hy with
  | nil =>
    rw [parseColumns]
    constructor
    · intro h1
      cases h1
      exact ⟨[], false, .nil, by simp, by simp⟩
    · rintro ⟨c2, h2, hp, rfl, rfl⟩
      cases hp
      simp
  | cons n ns ih =>
    rw [parseColumns]
    cases e : findLevel n LEVELS with
    | some l =>
      simp only
      rw [ih]
      have e' := findLevel_some.1 e
      constructor
      · rintro ⟨c2, h2, hp, rfl, rfl⟩
        exact ⟨l :: c2, h2, .level n l ns c2 h2 e' hp, by simp, rfl⟩
      · rintro ⟨c2, h2, hp, rfl, rfl⟩
        cases hp with
        | level _ l' _ c2 _ e2 hp =>
          have : l' = l := by
            have := findLevel_some.2 e2
            rw [e] at this
            exact (Option.some.inj this).symm
          subst this
          exact ⟨c2, h2, hp, by simp, rfl⟩
        | hybrid _ _ hyb hp =>
          rw [findLevel_hybrid] at e
          cases e
    | none =>
      simp only
      by_cases en : n = "hybrid".toList
      · rw [if_pos en, ih]
        constructor
        · rintro ⟨c2, h2, hp, rfl, rfl⟩
          exact ⟨c2, true, en ▸ .hybrid ns c2 h2 hp, rfl, by simp⟩
        · rintro ⟨c2, h2, hp, rfl, rfl⟩
          cases hp with
          | level _ l' _ c2 _ e2 hp =>
            rw [findLevel_some.2 e2] at e
            cases e
          | hybrid _ _ hyb hp => exact ⟨c2, hyb, hp, rfl, by simp⟩
      · rw [if_neg en]
        refine ⟨(fun h => nomatch h), ?_⟩
        rintro ⟨c2, h2, hp, rfl, rfl⟩
        cases hp with
        | level _ l' _ c2 _ e2 hp =>
          rw [findLevel_some.2 e2] at e
          cases e
        | hybrid _ _ hyb hp => exact absurd rfl en

theorem parseColumns_err (ns : List PyStr) (acc : List Level) (hy : Bool) {e : Exn} (h : parseColumns ns acc hy = .error e) :
    e = .error := by
  induction ns generalizing acc hy with
  | nil => cases h
  | cons n ns ih =>
    rw [parseColumns] at h
    split at h
    · exact ih _ _ h
    · split at h
      · exact ih _ _ h
      · cases h; rfl

theorem colnames_ok (hw : m.WF) {st : St} (hr : Reach m (Covers m) false on h st) (args : Args) {st' : St}
    {cols : List Level} {hyb : Bool} (hk : colnames h st args = .ok (st', cols, hyb)) :
    Cols m on args.columns cols hyb ∧ ∃ asked, Reach m (Covers m) asked on h st' := by
  rw [colnames] at hk
  unfold Cols
  cases e : args.columns with
  | none =>
    rw [e] at hk
    obtain ⟨st1, c1, g, hd, hr1⟩ := defaultColnames_spec hw hr
    simp only [g] at hk
    cases hk
    exact ⟨⟨hd, rfl⟩, _, hr1⟩
  | some text =>
    rw [e] at hk
    simp only at hk
    cases e2 : parseColumns (Trivial.splitCsvLine text ',' false) [] false with
    | error x => rw [e2] at hk; cases hk
    | ok p =>
      rw [e2] at hk
      cases hk
      obtain ⟨c2, h2, hp, h3, h4⟩ := (parseColumns_ok _ _ _).1 e2
      rw [List.nil_append] at h3
      rw [Bool.false_or] at h4
      refine ⟨?_, _, hr⟩
      rw [h3, h4]
      exact hp

/-! ### The lines -/

/-- What a topology line is about. -/
def toThing (r : Row) : Thing :=
  if r.cpu = NA then .io (r.package.getD 0) (r.die.getD 0) else .cpu r.cpu.toNat

theorem RowOf.toThing (hw : m.WF) (hsub : ∀ c ∈ on, c ∈ m.present) {levels : List Level} {r : Row} {t : Thing}
    (ho : RowOf m on levels r t) : toThing r = t := by
  cases ho with
  | cpu r c hon he hn =>
    rw [TopoPrint.toThing, if_neg (by rw [he]; exact na_not_nat hw (hsub c hon)), he]
    rfl
  | io p d hi => rfl

/-- The filters keep the lines about what the user asks for. -/
theorem mem_filtered (hw : m.WF) (hsub : ∀ c ∈ on, c ∈ m.present) {b : Bool} {levels : List Level} {order : Level}
    {rows : List Row} (hc : Correct m on b levels order rows) (target : Target) (cols : List Level) {r : Row}
    (hr : r ∈ rows) :
    r ∈ filterIoDies target.dies cols (filterCpus target.cpus rows) ↔ (TopoPrint.toThing r).Asked m on cols target := by
  obtain ⟨t, ho, _⟩ := rows_of hc hr
  rw [ho.toThing hw hsub]
  simp only [filterIoDies, filterCpus, List.mem_filter, hr, true_and, Bool.or_eq_true, decide_eq_true_eq]
  cases ho with
  | cpu _ c hon he hn =>
    have hna : r.cpu ≠ NA := by rw [he]; exact na_not_nat hw (hsub c hon)
    have hna' : ¬ (c : Int) = NA := he ▸ hna
    simp [hna', Thing.Asked, he, hon]
  | io p d hi =>
    have hna : (Row.io p d).cpu = NA := rfl
    simp only [hna, true_or, true_and, ne_eq, not_true_eq_false, false_or, Thing.Asked, hi]
    show (match (if Level.die ∈ cols then target.dies else []).get? p with
      | none => false
      | some l => decide (d ∈ l)) = true ↔ _
    by_cases hd : Level.die ∈ cols
    · rw [if_pos hd]
      cases e : target.dies.get? p with
      | none => simp
      | some l => simp [hd]
    · rw [if_neg hd]
      simp [hd, Dict.get?]

/-- The cells of the line. -/
def lineCells (m : Machine) (hyb : Option (List Int)) (cols : List Level) : Line → List PyStr × Option PyStr
  | .row r => (cols.map ((TopoPrint.toThing r).text m), hyb.map fun pc => (TopoPrint.toThing r).kind pc)
  | .offline c => (cols.map (fun l => if l = .CPU then PyStr.ofInt c else ['?']), hyb.map fun _ => ['?'])

/-- The words of the line. -/
def lineWords (m : Machine) (hyb : Option (List Int)) (cols : List Level) (x : Line) : List PyStr :=
  (lineCells m hyb cols x).1 ++ (lineCells m hyb cols x).2.toList

theorem splitWs_line (m : Machine) (hyb : Option (List Int)) (cols : List Level) (x : Line) :
    splitWs (format cols (lineCells m hyb cols x)) = lineWords m hyb cols x := by
  have hq : Word ['?'] := ⟨by decide, by decide⟩
  refine splitWs_format _ _ ?_ ?_ ?_
  · cases x <;> simp [lineCells]
  · intro s hs
    cases x with
    | row r =>
      obtain ⟨l, _, rfl⟩ := List.mem_map.1 hs
      exact word_text m _ l
    | offline c =>
      obtain ⟨l, _, rfl⟩ := List.mem_map.1 hs
      split
      · exact word_int c
      · exact hq
  · intro s hs
    cases x with
    | row r =>
      obtain ⟨pc, _, rfl⟩ := Option.map_eq_some_iff.1 hs
      exact word_kind pc _
    | offline c =>
      obtain ⟨pc, _, rfl⟩ := Option.map_eq_some_iff.1 hs
      exact hq

theorem cells_of_words {m : Machine} {hyb : Option (List Int)} {cols : List Level} {x y : Line}
    (h : lineWords m hyb cols x = lineWords m hyb cols y) : lineCells m hyb cols x = lineCells m hyb cols y := by
  have l1 : ∀ z, (lineCells m hyb cols z).1.length = cols.length := by
    intro z; cases z <;> simp [lineCells]
  obtain ⟨h1, h2⟩ := List.append_inj h (by rw [l1, l1])
  refine Prod.ext h1 ?_
  have hs : ∀ o o' : Option PyStr, o.toList = o'.toList → o = o' := by
    intro o o' e
    cases o <;> cases o' <;> simp_all
  exact hs _ _ h2

/-- Lines of the topology come in the table order, followed by offline CPUs. -/
def Before (order : Level) : Line → Line → Prop
  | .row a, .row b => lexLe (a.key order) (b.key order) = true
  | .row _, .offline _ => True
  | .offline _, .offline _ => True
  | .offline _, .row _ => False

theorem lexLe_refl (l : List Int) : lexLe l l = true := by
  induction l with
  | nil => rfl
  | cons a l ih =>
    rw [lexLe, if_neg (by omega), if_neg (by omega), ih]

/-- Splitting what was printed into online CPUs and I/O dies, and offline CPUs. -/
theorem split_lines {l' : List Line} {rs : List Row} {cs : List Int}
    (hs : l'.Sublist (rs.map Line.row ++ cs.map Line.offline)) :
    ∃ (rs' : List Row) (cs' : List Int), rs'.Sublist rs ∧ cs'.Sublist cs ∧ l' = rs'.map Line.row ++ cs'.map Line.offline := by
  obtain ⟨a, b, rfl, ha, hb⟩ := List.sublist_append_iff.1 hs
  obtain ⟨rs', h1, rfl⟩ := List.sublist_map_iff.1 ha
  obtain ⟨cs', h2, rfl⟩ := List.sublist_map_iff.1 hb
  exact ⟨rs', cs', h1, h2, rfl⟩

theorem nodup_map_of {α β γ : Type} (l : List α) (g : α → β) (w : α → γ) (hn : (l.map g).Nodup)
    (hi : ∀ x ∈ l, ∀ y ∈ l, w x = w y → g x = g y) : (l.map w).Nodup := by
  induction l with
  | nil => exact List.nodup_nil
  | cons a l ih =>
    rw [List.map_cons, List.nodup_cons] at hn ⊢
    refine ⟨fun hm => ?_, ih hn.2 fun x hx y hy => hi x (by simp [hx]) y (by simp [hy])⟩
    obtain ⟨y, hy, e⟩ := List.mem_map.1 hm
    exact hn.1 (List.mem_map.2 ⟨y, hy, hi y (by simp [hy]) a (by simp) e⟩)

/-- What is printed after the titles. -/
theorem body_spec (hw : m.WF) (hsub : ∀ c ∈ on, c ∈ m.present) {b : Bool} {levels : List Level} {order : Level}
    {rows : List Row} (hc : Correct m on b levels order rows) (target : Target) (cols : List Level)
    (hcols : ∀ l ∈ cols, l ∈ levels) (hord : ∀ l ∈ TopoBuild.sortingMap order, l ∈ levels)
    (hdie : Level.die ∈ cols → b = true) (hyb : Option (List Int))
    (hy : ∀ pc, hyb = some pc → (0xFFFFFFFF : Int) ∉ pc) (cs : List Int) (hcs : ∀ c ∈ cs, c < 0xFFFFFFFF) :
    ∃ (body : List PyStr) (things : List Thing) (offs : List Int),
      printLoop hyb cols ((filterIoDies target.dies cols (filterCpus target.cpus rows)).map Line.row ++
        cs.map Line.offline) [] = .ok body ∧
      body.map splitWs = things.map (Thing.words m hyb cols) ++ offs.map (offWords hyb cols) ∧
      (body.map splitWs).Nodup ∧
      things.Pairwise (fun s t => lexLe (s.place m order) (t.place m order) = true) ∧
      (∀ t ∈ things, t.Asked m on cols target) ∧
      (∀ t : Thing, t.Asked m on cols target → ∃ t' ∈ things, t'.words m hyb cols = t.words m hyb cols ∧
        lexLe (t'.place m order) (t.place m order) = true) ∧
      offs.Sublist cs ∧
      ∀ c ∈ cs, offWords hyb cols c ∈ body.map splitWs := by
  have hkey : ∀ r ∈ rows, r.key order = (TopoPrint.toThing r).place m order := by
    intro r hr
    obtain ⟨t, ho, _⟩ := rows_of hc hr
    rw [ho.toThing hw hsub, ho.key hord]
  have hfs : (filterIoDies target.dies cols (filterCpus target.cpus rows)).Sublist rows :=
    (List.filter_sublist).trans List.filter_sublist
  have hcells : ∀ x ∈ (filterIoDies target.dies cols (filterCpus target.cpus rows)).map Line.row ++ cs.map Line.offline,
      cells hyb cols x = .ok (lineCells m hyb cols x) := by
    intro x hx
    rcases List.mem_append.1 hx with hx | hx
    · obtain ⟨r, hr, rfl⟩ := List.mem_map.1 hx
      obtain ⟨t, ho, _⟩ := rows_of hc (hfs.subset hr)
      rw [cells_row hw hsub ho hyb hy cols hcols, lineCells, ho.toThing hw hsub]
    · obtain ⟨c, hcc, rfl⟩ := List.mem_map.1 hx
      exact cells_off (hcs c hcc) hyb cols
  have hpw : ((filterIoDies target.dies cols (filterCpus target.cpus rows)).map Line.row ++
      cs.map Line.offline).Pairwise (Before order) := by
    rw [List.pairwise_append]
    refine ⟨?_, ?_, ?_⟩
    · rw [List.pairwise_map]
      exact hc.sorted.sublist hfs
    · rw [List.pairwise_map]
      exact List.pairwise_of_forall (fun _ _ => trivial)
    · intro x hx y hy
      obtain ⟨r, _, rfl⟩ := List.mem_map.1 hx
      obtain ⟨c, _, rfl⟩ := List.mem_map.1 hy
      trivial
  obtain ⟨l', hl', e, hfirst⟩ := dedup_first (fun x => format cols (lineCells m hyb cols x)) (Before order) _ [] hpw
  obtain ⟨rs', cs', hrs, hcs', rfl⟩ := split_lines hl'
  have hwords : ∀ x y : Line, format cols (lineCells m hyb cols x) = format cols (lineCells m hyb cols y) →
      lineWords m hyb cols x = lineWords m hyb cols y := by
    intro x y h1
    rw [← splitWs_line, ← splitWs_line, h1]
  have hmap : ∀ l : List Line, (l.map fun x => format cols (lineCells m hyb cols x)).map splitWs =
      l.map (lineWords m hyb cols) := by
    intro l
    rw [List.map_map]
    exact List.map_congr_left fun x _ => splitWs_line m hyb cols x
  refine ⟨_, rs'.map TopoPrint.toThing, cs', printLoop_eq hyb cols _ _ [] hcells, ?_, ?_, ?_, ?_, ?_, hcs', ?_⟩
  · rw [e, hmap, List.map_append, List.map_map, List.map_map, List.map_map]
    rfl
  · have hn := nodup_dedupAux [] (((filterIoDies target.dies cols (filterCpus target.cpus rows)).map Line.row ++
      cs.map Line.offline).map fun x => format cols (lineCells m hyb cols x))
    rw [e] at hn ⊢
    rw [hmap]
    exact nodup_map_of _ _ _ hn fun x _ y _ h1 => by rw [cells_of_words h1]
  · rw [List.pairwise_map]
    refine List.Pairwise.imp_of_mem ?_ (hc.sorted.sublist (hrs.trans hfs))
    intro a b' ha hb hle
    rw [← hkey a (hfs.subset (hrs.subset ha)), ← hkey b' (hfs.subset (hrs.subset hb))]
    exact hle
  · intro t ht
    obtain ⟨r, hr, rfl⟩ := List.mem_map.1 ht
    exact (mem_filtered hw hsub hc target cols (hfs.subset (hrs.subset hr))).1 (hrs.subset hr)
  · intro t ht
    have : ∃ r ∈ rows, RowOf m on levels r t := by
      cases t with
      | cpu c => exact cpu_row hc ht.1
      | io p d =>
        have hb := hdie ht.1
        subst hb
        exact io_row hc ht.2.1
    obtain ⟨r, hr, ho⟩ := this
    have hto := ho.toThing hw hsub
    have hm := (mem_filtered hw hsub hc target cols hr).2 (by rw [hto]; exact ht)
    rcases hfirst (.row r) (List.mem_append_left _ (List.mem_map.2 ⟨r, hm, rfl⟩)) with h1 | ⟨y, hyl, h1, h2⟩
    · cases h1
    · have hwd := hwords _ _ h1
      have hyr : ∃ r' ∈ rs', y = .row r' ∧ lexLe (r'.key order) (r.key order) = true := by
        rcases List.mem_append.1 hyl with hyl | hyl
        · obtain ⟨r', hr', rfl⟩ := List.mem_map.1 hyl
          refine ⟨r', hr', rfl, ?_⟩
          rcases h2 with h2 | h2
          · cases h2; exact lexLe_refl _
          · exact h2
        · obtain ⟨c, _, rfl⟩ := List.mem_map.1 hyl
          rcases h2 with h2 | h2
          · cases h2
          · cases h2
      obtain ⟨r', hr', rfl, hle⟩ := hyr
      refine ⟨_, List.mem_map.2 ⟨r', hr', rfl⟩, ?_, ?_⟩
      · rw [← hto]
        exact hwd
      · rw [← hkey r' (hfs.subset (hrs.subset hr')), ← hto, ← hkey r hr]
        exact hle
  · intro c hcc
    rw [e, hmap]
    rcases hfirst (.offline c) (List.mem_append_right _ (List.mem_map.2 ⟨c, hcc, rfl⟩)) with h1 | ⟨y, hyl, h1, h2⟩
    · cases h1
    · exact List.mem_map.2 ⟨y, hyl, hwords _ _ h1⟩

theorem capitalize_name (l : Level) : capitalize (levelName l) = title l := by cases l <;> decide

theorem splitWs_titles (hyb : Option (List Int)) (cols : List Level) :
    splitWs (format cols (headers hyb.isSome cols)) = titles hyb cols := by
  have hw : ∀ l, Word (title l) := by
    intro l
    cases l <;> exact ⟨by decide, by decide⟩
  rw [splitWs_format]
  · rw [titles, headers]
    congr 1
    · exact List.map_congr_left fun l _ => capitalize_name l
    · cases hyb <;> rfl
  · simp [headers]
  · intro s hs
    obtain ⟨l, _, rfl⟩ := List.mem_map.1 hs
    rw [capitalize_name]
    exact hw l
  · intro s hs
    cases hyb with
    | none => cases hs
    | some _ =>
      cases hs
      exact ⟨by decide, by decide⟩

end Verif.TopoPrint
