import Verif.Model.ClosestMatch

/-! Helper lemmas about the string distance. -/

namespace Verif.ClosestMatch

/-! ### Specification: edit scripts -/

/-- One step of transforming a string, left to right. -/
inductive Op
  | keep (c : Char)
  | sub (c d : Char)
  | del (c : Char)
  | ins (c : Char)
  | swap (c d : Char)

/-- What the step consumes. -/
def Op.src : Op → PyStr
  | .keep c => [c]
  | .sub c _ => [c]
  | .del c => [c]
  | .ins _ => []
  | .swap c d => [c, d]

/-- What the step produces. -/
def Op.dst : Op → PyStr
  | .keep c => [c]
  | .sub _ d => [d]
  | .del _ => []
  | .ins c => [c]
  | .swap c d => [d, c]

/-- Everything but keeping a character is one edit. -/
def Op.cost : Op → Nat
  | .keep _ => 0
  | _ => 1

/-- The script transforms `a` to `b` with `n` edits. -/
def Edits (ops : List Op) (a b : PyStr) (n : Nat) : Prop :=
  ops.flatMap Op.src = a ∧ ops.flatMap Op.dst = b ∧ (ops.map Op.cost).sum = n

/-- `n` is the smallest number of edits which transforms `a` to `b`. -/
def Distance (a b : PyStr) (n : Nat) : Prop :=
  (∃ ops, Edits ops a b n) ∧ ∀ ops k, Edits ops a b k → n ≤ k

/-! ### The recursive distance -/

/-- The recurrence of the matrix, on reversed strings. -/
def dist : PyStr → PyStr → Nat
  | [], t => t.length
  | s, [] => s.length
  | a :: s, b :: t =>
    let cost := if a = b then 0 else 1
    let m := min (dist s (b :: t) + 1) (min (dist (a :: s) t + 1) (dist s t + cost))
    match s, t with
    | a2 :: s', b2 :: t' => if a = b2 ∧ a2 = b then min m (dist s' t' + cost) else m
    | _, _ => m
termination_by s t => s.length + t.length

theorem dist_nil_left (t : PyStr) : dist [] t = t.length := by unfold dist; rfl

theorem dist_nil_right (s : PyStr) : dist s [] = s.length := by
  cases s <;> simp [dist]

theorem dist_le_base (a b : Char) (s t : PyStr) :
    dist (a :: s) (b :: t) ≤
      min (dist s (b :: t) + 1) (min (dist (a :: s) t + 1) (dist s t + if a = b then 0 else 1)) := by
  rw [dist.eq_def (a :: s) (b :: t)]
  dsimp only
  split
  · split
    · exact Nat.min_le_left _ _
    · exact Nat.le_refl _
  · exact Nat.le_refl _

theorem dist_del (a : Char) (s t : PyStr) : dist (a :: s) t ≤ dist s t + 1 := by
  cases t with
  | nil => rw [dist_nil_right, dist_nil_right]; simp
  | cons b t => have := dist_le_base a b s t; omega

theorem dist_ins (b : Char) (s t : PyStr) : dist s (b :: t) ≤ dist s t + 1 := by
  cases s with
  | nil => rw [dist_nil_left, dist_nil_left]; simp
  | cons a s => have := dist_le_base a b s t; omega

theorem dist_sub (a b : Char) (s t : PyStr) :
    dist (a :: s) (b :: t) ≤ dist s t + if a = b then 0 else 1 := by
  have := dist_le_base a b s t; omega

theorem dist_swap (a b : Char) (s t : PyStr) : dist (a :: b :: s) (b :: a :: t) ≤ dist s t + 1 := by
  rw [dist.eq_def (a :: b :: s) (b :: a :: t)]
  dsimp only
  rw [if_pos ⟨rfl, rfl⟩]
  have : (if a = b then 0 else 1) ≤ 1 := by split <;> omega
  omega

theorem dist_lower (ops : List Op) :
    dist (ops.flatMap Op.src) (ops.flatMap Op.dst) ≤ (ops.map Op.cost).sum := by
  induction ops with
  | nil => simp [dist_nil_left]
  | cons o ops ih =>
    rw [List.flatMap_cons, List.flatMap_cons, List.map_cons, List.sum_cons]
    generalize ops.flatMap Op.src = s at *
    generalize ops.flatMap Op.dst = t at *
    cases o with
    | keep c => have := dist_sub c c s t; rw [if_pos rfl] at this; simp [Op.src, Op.dst, Op.cost]; omega
    | sub c d =>
      have := dist_sub c d s t
      have h : (if c = d then 0 else 1) ≤ 1 := by split <;> omega
      simp [Op.src, Op.dst, Op.cost]; omega
    | del c => have := dist_del c s t; simp [Op.src, Op.dst, Op.cost]; omega
    | ins c => have := dist_ins c s t; simp [Op.src, Op.dst, Op.cost]; omega
    | swap c d => have := dist_swap c d s t; simp [Op.src, Op.dst, Op.cost]; omega

theorem edits_cons {ops : List Op} {s t : PyStr} {n : Nat} (o : Op) (h : Edits ops s t n) :
    Edits (o :: ops) (o.src ++ s) (o.dst ++ t) (o.cost + n) := by
  obtain ⟨h1, h2, h3⟩ := h
  subst h1 h2 h3
  exact ⟨rfl, rfl, rfl⟩

theorem dist_base_script (a b : Char) (s t : PyStr) (h1 : ∃ ops, Edits ops s (b :: t) (dist s (b :: t)))
    (h2 : ∃ ops, Edits ops (a :: s) t (dist (a :: s) t)) (h3 : ∃ ops, Edits ops s t (dist s t)) :
    ∃ ops, Edits ops (a :: s) (b :: t)
      (min (dist s (b :: t) + 1) (min (dist (a :: s) t + 1) (dist s t + if a = b then 0 else 1))) := by
  obtain ⟨o1, h1⟩ := h1
  obtain ⟨o2, h2⟩ := h2
  obtain ⟨o3, h3⟩ := h3
  have e1 := edits_cons (.del a) h1
  have e2 := edits_cons (.ins b) h2
  have e3 : ∃ ops, Edits ops (a :: s) (b :: t) (dist s t + if a = b then 0 else 1) := by
    by_cases hab : a = b
    · subst hab
      rw [if_pos rfl]
      have := edits_cons (.keep a) h3
      simp only [Op.src, Op.dst, Op.cost, List.singleton_append, Nat.zero_add] at this
      exact ⟨_, this⟩
    · rw [if_neg hab]
      have := edits_cons (.sub a b) h3
      simp only [Op.src, Op.dst, Op.cost, List.singleton_append] at this
      rw [Nat.add_comm]
      exact ⟨_, this⟩
  simp only [Op.src, Op.dst, Op.cost, List.singleton_append, List.nil_append] at e1 e2
  rw [Nat.add_comm] at e1 e2
  rcases Nat.le_total (dist s (b :: t) + 1)
    (min (dist (a :: s) t + 1) (dist s t + if a = b then 0 else 1)) with h | h
  · rw [Nat.min_eq_left h]; exact ⟨_, e1⟩
  · rw [Nat.min_eq_right h]
    rcases Nat.le_total (dist (a :: s) t + 1) (dist s t + if a = b then 0 else 1) with h | h
    · rw [Nat.min_eq_left h]; exact ⟨_, e2⟩
    · rw [Nat.min_eq_right h]; exact e3

theorem dist_script_aux (n : Nat) : ∀ s t : PyStr, s.length + t.length ≤ n →
    ∃ ops, Edits ops s t (dist s t) := by
  induction n with
  | zero =>
    intro s t h
    have hs : s = [] := List.length_eq_zero_iff.1 (by omega)
    have ht : t = [] := List.length_eq_zero_iff.1 (by omega)
    subst hs ht
    exact ⟨[], rfl, rfl, by rw [dist_nil_left]; rfl⟩
  | succ n ih =>
    intro s t h
    cases s with
    | nil =>
      cases t with
      | nil => exact ih [] [] (by simp)
      | cons b t =>
        obtain ⟨ops, ho⟩ := ih [] t (by simp at h ⊢; omega)
        have := edits_cons (.ins b) ho
        rw [dist_nil_left] at this ⊢
        simp only [Op.src, Op.dst, Op.cost, List.singleton_append, List.nil_append] at this
        rw [Nat.add_comm] at this
        exact ⟨_, this⟩
    | cons a s =>
      cases t with
      | nil =>
        obtain ⟨ops, ho⟩ := ih s [] (by simp at h ⊢; omega)
        have := edits_cons (.del a) ho
        rw [dist_nil_right] at this ⊢
        simp only [Op.src, Op.dst, Op.cost, List.singleton_append, List.nil_append] at this
        rw [Nat.add_comm] at this
        exact ⟨_, this⟩
      | cons b t =>
        simp only [List.length_cons] at h
        have hb := dist_base_script a b s t (ih s (b :: t) (by simp only [List.length_cons]; omega))
          (ih (a :: s) t (by simp only [List.length_cons]; omega)) (ih s t (by omega))
        rw [dist.eq_def (a :: s) (b :: t)]
        dsimp only
        split
        · rename_i a2 s' b2 t'
          split
          · rename_i hc
            obtain ⟨rfl, rfl⟩ := hc
            simp only [List.length_cons] at h
            obtain ⟨ops, ho⟩ := ih s' t' (by omega)
            rcases Nat.le_total (min (dist (a2 :: s') (a2 :: a :: t') + 1)
              (min (dist (a :: a2 :: s') (a :: t') + 1) (dist (a2 :: s') (a :: t') + if a = a2 then 0 else 1)))
              (dist s' t' + if a = a2 then 0 else 1) with hle | hle
            · rw [Nat.min_eq_left hle]; exact hb
            · rw [Nat.min_eq_right hle]
              by_cases haa : a = a2
              · subst haa
                rw [if_pos rfl]
                have := edits_cons (.keep a) (edits_cons (.keep a) ho)
                simp only [Op.src, Op.dst, Op.cost, List.singleton_append, Nat.zero_add] at this
                exact ⟨_, this⟩
              · rw [if_neg haa]
                have := edits_cons (.swap a a2) ho
                simp only [Op.src, Op.dst, Op.cost, List.cons_append, List.nil_append] at this
                rw [Nat.add_comm] at this
                exact ⟨_, this⟩
          · exact hb
        · exact hb

/-- The recurrence computes the smallest number of edits. -/
theorem dist_distance (s t : PyStr) : Distance s t (dist s t) := by
  refine ⟨dist_script_aux _ s t (Nat.le_refl _), ?_⟩
  rintro ops k ⟨h1, h2, h3⟩
  subst h1 h2 h3
  exact dist_lower ops

/-! ### Reversing and inverting scripts -/

/-- The step in a script for the reversed strings. -/
def Op.flip : Op → Op
  | .swap c d => .swap d c
  | o => o

/-- The step of the opposite transformation. -/
def Op.inv : Op → Op
  | .keep c => .keep c
  | .sub c d => .sub d c
  | .del c => .ins c
  | .ins c => .del c
  | .swap c d => .swap d c

theorem edits_reverse {ops : List Op} {s t : PyStr} {n : Nat} (h : Edits ops s t n) :
    Edits (ops.reverse.map Op.flip) s.reverse t.reverse n := by
  obtain ⟨h1, h2, h3⟩ := h
  subst h1 h2 h3
  induction ops with
  | nil => exact ⟨rfl, rfl, rfl⟩
  | cons o ops ih =>
    obtain ⟨i1, i2, i3⟩ := ih
    refine ⟨?_, ?_, ?_⟩
    · rw [List.reverse_cons, List.map_append, List.flatMap_append, i1, List.flatMap_cons,
        List.reverse_append]
      cases o <;> rfl
    · rw [List.reverse_cons, List.map_append, List.flatMap_append, i2, List.flatMap_cons,
        List.reverse_append]
      cases o <;> rfl
    · rw [List.reverse_cons, List.map_append, List.map_append, List.sum_append, i3, Nat.add_comm,
        List.map_cons (l := ops), List.sum_cons]
      cases o <;> rfl

theorem edits_inv {ops : List Op} {s t : PyStr} {n : Nat} (h : Edits ops s t n) :
    Edits (ops.map Op.inv) t s n := by
  obtain ⟨h1, h2, h3⟩ := h
  subst h1 h2 h3
  induction ops with
  | nil => exact ⟨rfl, rfl, rfl⟩
  | cons o ops ih =>
    obtain ⟨i1, i2, i3⟩ := ih
    refine ⟨?_, ?_, ?_⟩
    · rw [List.map_cons, List.flatMap_cons, i1, List.flatMap_cons]; cases o <;> rfl
    · rw [List.map_cons, List.flatMap_cons, i2, List.flatMap_cons]; cases o <;> rfl
    · rw [List.map_cons, List.map_cons, List.sum_cons, i3, List.map_cons, List.sum_cons]
      cases o <;> rfl

theorem distance_reverse {s t : PyStr} {n : Nat} (h : Distance s t n) :
    Distance s.reverse t.reverse n := by
  obtain ⟨⟨ops, h1⟩, h2⟩ := h
  refine ⟨⟨_, edits_reverse h1⟩, fun o k ho => ?_⟩
  have := edits_reverse ho
  rw [List.reverse_reverse, List.reverse_reverse] at this
  exact h2 _ _ this

theorem distance_symm {s t : PyStr} {n : Nat} (h : Distance s t n) : Distance t s n := by
  obtain ⟨⟨ops, h1⟩, h2⟩ := h
  exact ⟨⟨_, edits_inv h1⟩, fun o k ho => h2 _ _ (edits_inv ho)⟩

theorem distance_unique {s t : PyStr} {n m : Nat} (h1 : Distance s t n) (h2 : Distance s t m) : n = m := by
  obtain ⟨⟨o1, e1⟩, l1⟩ := h1
  obtain ⟨⟨o2, e2⟩, l2⟩ := h2
  exact Nat.le_antisymm (l1 _ _ e2) (l2 _ _ e1)

theorem edits_keep (s : PyStr) : Edits (s.map .keep) s s 0 := by
  induction s with
  | nil => exact ⟨rfl, rfl, rfl⟩
  | cons c s ih => exact edits_cons (.keep c) ih

theorem edits_zero {ops : List Op} {s t : PyStr} (h : Edits ops s t 0) : s = t := by
  obtain ⟨h1, h2, h3⟩ := h
  subst h1 h2
  induction ops with
  | nil => rfl
  | cons o ops ih =>
    rw [List.map_cons, List.sum_cons] at h3
    have := ih (by omega)
    rw [List.flatMap_cons, List.flatMap_cons, this]
    cases o with
    | keep c => rfl
    | _ => simp only [Op.cost] at h3; omega

/-! ### The matrix -/

section
variable (first second : PyStr)

/-- The distance of the prefixes. -/
def D (i j : Nat) : Nat := dist (first.take i).reverse (second.take j).reverse

/-- The matrix of which `w i` columns of row `i` are filled. -/
def mat (w : Nat → Nat) : Matrix :=
  (List.range (first.length + 1)).map fun i => (List.range (w i)).map (D first second i)

theorem item_of_getElem? {α : Type} {l : List α} {i : Nat} {x : α} (h : l[i]? = some x) :
    item l i = .ok x := by
  unfold item; rw [h]

theorem item_mat {w : Nat → Nat} {i : Nat} (h : i ≤ first.length) :
    item (mat first second w) i = .ok ((List.range (w i)).map (D first second i)) := by
  apply item_of_getElem?
  unfold mat
  rw [List.getElem?_map, List.getElem?_range (by omega)]
  rfl

theorem cell_mat {w : Nat → Nat} {i j : Nat} (h : i ≤ first.length) (hj : j < w i) :
    cell (mat first second w) i j = .ok (D first second i j) := by
  unfold cell
  rw [item_mat first second h]
  show item _ j = _
  apply item_of_getElem?
  rw [List.getElem?_map, List.getElem?_range hj]
  rfl

theorem set_mat {w : Nat → Nat} {i : Nat} (v : Nat) (hv : v = D first second i (w i)) :
    (mat first second w).set i ((List.range (w i)).map (D first second i) ++ [v]) =
      mat first second (fun k => if k = i then w i + 1 else w k) := by
  apply List.ext_getElem?
  intro k
  unfold mat
  rw [List.getElem?_set]
  by_cases hk : k < first.length + 1
  · by_cases hik : i = k
    · subst hik
      rw [if_pos rfl, if_pos (by simpa using hk), List.getElem?_map, List.getElem?_range hk]
      simp only [Option.map_some, if_pos, List.range_succ, List.map_append, List.map_cons, List.map_nil, hv]
    · rw [if_neg hik, List.getElem?_map, List.getElem?_map, List.getElem?_range hk]
      simp only [Option.map_some, if_neg (fun h : k = i => hik h.symm)]
  · have h1 : ∀ f : Nat → List Nat, (List.map f (List.range (first.length + 1)))[k]? = none :=
      fun f => List.getElem?_eq_none (by rw [List.length_map, List.length_range]; omega)
    rw [h1, h1]
    split
    · rename_i h
      rw [if_neg (by rw [List.length_map, List.length_range]; omega)]
    · rfl

theorem append_mat {w : Nat → Nat} {i : Nat} (h : i ≤ first.length) (v : Nat) :
    append (mat first second w) i v =
      .ok ((mat first second w).set i ((List.range (w i)).map (D first second i) ++ [v])) := by
  unfold append
  rw [item_mat first second h]
  rfl

theorem setCell_set {m : Matrix} {i : Nat} {r : List Nat} (v u : Nat) (hi : i < m.length) :
    setCell (m.set i (r ++ [v])) i r.length u = .ok (m.set i (r ++ [u])) := by
  unfold setCell
  rw [item_of_getElem? (x := r ++ [v]) (by rw [List.getElem?_set, if_pos rfl, if_pos hi])]
  show (do let _ ← item (r ++ [v]) r.length; pure _) = _
  rw [item_of_getElem? (x := v) (by simp)]
  show Except.ok _ = _
  rw [List.set_set]
  congr 2
  simp

theorem cell_set_self {m : Matrix} {i : Nat} {r : List Nat} (v : Nat) (hi : i < m.length) :
    cell (m.set i (r ++ [v])) i r.length = .ok v := by
  unfold cell
  rw [item_of_getElem? (x := r ++ [v]) (by rw [List.getElem?_set, if_pos rfl, if_pos hi])]
  show item (r ++ [v]) r.length = _
  exact item_of_getElem? (by simp)

theorem cell_set_ne {m : Matrix} {i k j : Nat} {r : List Nat} (hk : i ≠ k) :
    cell (m.set i r) k j = cell m k j := by
  unfold cell item
  rw [List.getElem?_set_ne hk]

theorem take_succ_reverse {s : PyStr} {i : Nat} {c : Char} (h : s[i]? = some c) :
    (s.take (i + 1)).reverse = c :: (s.take i).reverse := by
  rw [List.take_add_one, h]
  simp

theorem getElem?_of_lt {s : PyStr} {i : Nat} (h : i < s.length) : ∃ c, s[i]? = some c :=
  ⟨s[i], List.getElem?_eq_getElem h⟩

theorem transposed_eq {i j : Nat} {a b a2 b2 : Char} (ha : first[i + 1]? = some a)
    (hb : second[j + 1]? = some b) (ha2 : first[i]? = some a2) (hb2 : second[j]? = some b2) :
    transposed first second (i + 2) (j + 2) = .ok (decide (a = b2 ∧ a2 = b)) := by
  unfold transposed
  rw [if_pos (by omega)]
  have e1 : i + 2 - 1 = i + 1 := rfl
  have e2 : j + 2 - 2 = j := rfl
  have e3 : i + 2 - 2 = i := rfl
  have e4 : j + 2 - 1 = j + 1 := rfl
  rw [e1, e2, e3, e4, item_of_getElem? ha, item_of_getElem? ha2, item_of_getElem? hb, item_of_getElem? hb2]
  show (if a = b2 then _ else _) = _
  by_cases h : a = b2
  · rw [if_pos h]
    show Except.ok _ = _
    simp [h]
  · rw [if_neg h]
    show Except.ok _ = _
    simp [h]

theorem step_spec {w : Nat → Nat} {i j : Nat} (hi : i < first.length) (hj : j < second.length)
    (hw : w (i + 1) = j + 1) (hfull : ∀ k, k ≤ i → w k = second.length + 1) :
    step first second (i + 1) (j + 1) (mat first second w) =
      .ok (mat first second (fun k => if k = i + 1 then j + 2 else w k)) := by
  obtain ⟨a, ha⟩ := getElem?_of_lt hi
  obtain ⟨b, hb⟩ := getElem?_of_lt hj
  have hv : ∀ v, v = D first second (i + 1) (j + 1) →
      (mat first second w).set (i + 1) ((List.range (w (i + 1))).map (D first second (i + 1)) ++ [v]) =
        mat first second (fun k => if k = i + 1 then j + 2 else w k) := by
    intro v hv
    rw [set_mat first second v (by rw [hw]; exact hv), hw]
  unfold step
  have e1 : i + 1 - 1 = i := rfl
  have e2 : j + 1 - 1 = j := rfl
  rw [e1, e2, item_of_getElem? ha, item_of_getElem? hb,
    cell_mat first second (Nat.le_of_lt hi) (by rw [hfull i (Nat.le_refl _)]; omega),
    cell_mat first second hi (by rw [hw]; omega),
    cell_mat first second (Nat.le_of_lt hi) (by rw [hfull i (Nat.le_refl _)]; omega)]
  simp only [bind, Except.bind, append_mat first second hi]
  generalize hm : min (D first second i (j + 1) + 1)
    (min (D first second (i + 1) j + 1) (D first second i j + if a = b then 0 else 1)) = m
  have hD : ∀ s t, (first.take i).reverse = s → (second.take j).reverse = t →
      D first second (i + 1) (j + 1) = dist (a :: s) (b :: t) ∧
      m = min (dist s (b :: t) + 1) (min (dist (a :: s) t + 1) (dist s t + if a = b then 0 else 1)) := by
    intro s t hs ht
    subst hs ht
    rw [← hm]
    unfold D
    rw [take_succ_reverse ha, take_succ_reverse hb]
    exact ⟨rfl, rfl⟩
  by_cases h2 : 0 < i ∧ 0 < j
  · obtain ⟨i', rfl⟩ : ∃ i', i = i' + 1 := ⟨i - 1, by omega⟩
    obtain ⟨j', rfl⟩ : ∃ j', j = j' + 1 := ⟨j - 1, by omega⟩
    obtain ⟨a2, ha2⟩ := getElem?_of_lt (show i' < first.length by omega)
    obtain ⟨b2, hb2⟩ := getElem?_of_lt (show j' < second.length by omega)
    rw [transposed_eq first second ha hb ha2 hb2]
    obtain ⟨hD1, hD2⟩ := hD _ _ (take_succ_reverse ha2) (take_succ_reverse hb2)
    rw [dist.eq_def (a :: _)] at hD1
    dsimp only at hD1
    rw [← hD2] at hD1
    have hlen : ((List.range (w (i' + 1 + 1))).map (D first second (i' + 1 + 1))).length = j' + 1 + 1 := by
      rw [List.length_map, List.length_range, hw]
    by_cases hc : a = b2 ∧ a2 = b
    · rw [if_pos hc] at hD1
      simp only [decide_eq_true hc, if_true]
      have hl : i' + 1 + 1 < (mat first second w).length := by
        unfold mat; rw [List.length_map, List.length_range]; omega
      have c1 := cell_set_self (r := (List.range (w (i' + 1 + 1))).map (D first second (i' + 1 + 1))) m hl
      rw [hlen] at c1
      rw [c1]
      have e3 : i' + 1 + 1 - 2 = i' := rfl
      have e4 : j' + 1 + 1 - 2 = j' := rfl
      rw [e3, e4, cell_set_ne (by omega), cell_mat first second (by omega)
        (by rw [hfull i' (by omega)]; omega)]
      dsimp only
      have c2 := setCell_set (r := (List.range (w (i' + 1 + 1))).map (D first second (i' + 1 + 1))) m
        (min m (D first second i' j' + if a = b then 0 else 1)) hl
      rw [hlen] at c2
      rw [c2]
      exact congrArg Except.ok (hv _ hD1.symm)
    · rw [if_neg hc] at hD1
      simp only [decide_eq_false hc, Bool.false_eq_true, if_false]
      show Except.ok _ = _
      rw [hv _ hD1.symm]
  · have ht : transposed first second (i + 1) (j + 1) = .ok false := by
      unfold transposed
      rw [if_neg (by omega)]
      rfl
    rw [ht]
    obtain ⟨hD1, hD2⟩ := hD _ _ rfl rfl
    have : D first second (i + 1) (j + 1) = m := by
      rw [hD1, hD2, dist.eq_def (a :: _)]
      dsimp only
      split
      · rename_i h3 h4
        exfalso
        apply h2
        constructor
        · rcases Nat.eq_zero_or_pos i with h | h
          · subst h; simp at h3
          · exact h
        · rcases Nat.eq_zero_or_pos j with h | h
          · subst h; simp at h4
          · exact h
      · rfl
    simp only [Bool.false_eq_true, if_false]
    show Except.ok _ = _
    rw [hv _ this.symm]

theorem inner_spec {i : Nat} (hi : i < first.length) (k : Nat) : ∀ {w : Nat → Nat} {j : Nat},
    j + k = second.length → w (i + 1) = j + 1 → (∀ l, l ≤ i → w l = second.length + 1) →
    inner first second (i + 1) (j + 1) k (mat first second w) =
      .ok (mat first second (fun l => if l = i + 1 then second.length + 1 else w l)) := by
  induction k with
  | zero =>
    intro w j hj hw hf
    unfold inner
    congr 2
    funext l
    by_cases h : l = i + 1
    · subst h; rw [if_pos rfl, hw]; omega
    · rw [if_neg h]
  | succ k ih =>
    intro w j hj hw hf
    unfold inner
    rw [step_spec first second hi (by omega) hw hf]
    simp only [bind, Except.bind]
    rw [ih (by omega) (by rw [if_pos rfl]) (by
      intro l hl
      rw [if_neg (by omega)]
      exact hf l hl)]
    congr 2
    funext l
    by_cases h : l = i + 1
    · rw [if_pos h, if_pos h]
    · rw [if_neg h, if_neg h, if_neg h]

theorem outer_spec (k : Nat) : ∀ {w : Nat → Nat} {i : Nat}, i + k = first.length →
    (∀ l, l ≤ i → w l = second.length + 1) → (∀ l, i < l → w l = 1) →
    outer first second (i + 1) k (mat first second w) =
      .ok (mat first second (fun l => if l ≤ first.length then second.length + 1 else 1)) := by
  induction k with
  | zero =>
    intro w i hi h1 h2
    unfold outer
    congr 2
    funext l
    split
    · exact h1 l (by omega)
    · exact h2 l (by omega)
  | succ k ih =>
    intro w i hi h1 h2
    unfold outer
    rw [inner_spec first second (by omega) _ (j := 0) (by omega) (by rw [h2 _ (by omega)]) h1]
    simp only [bind, Except.bind]
    rw [ih (by omega)]
    · intro l hl
      split
      · rfl
      · exact h1 l (by omega)
    · intro l hl
      rw [if_neg (by omega)]
      exact h2 l (by omega)

theorem D_zero_left {j : Nat} (h : j ≤ second.length) : D first second 0 j = j := by
  unfold D
  rw [List.take_zero, List.reverse_nil, dist_nil_left, List.length_reverse, List.length_take]
  omega

theorem D_zero_right {i : Nat} (h : i ≤ first.length) : D first second i 0 = i := by
  unfold D
  rw [List.take_zero, List.reverse_nil, dist_nil_right, List.length_reverse, List.length_take]
  omega

theorem osaDistance_eq : osaDistance first second = .ok (dist first.reverse second.reverse) := by
  have h0 : ((List.range (first.length + 1)).map fun i => [i]).set 0 (List.range (second.length + 1)) =
      mat first second (fun l => if l = 0 then second.length + 1 else 1) := by
    apply List.ext_getElem?
    intro k
    unfold mat
    rw [List.getElem?_set]
    by_cases hk : k < first.length + 1
    · by_cases h0 : 0 = k
      · subst h0
        rw [if_pos rfl, if_pos (by simp), List.getElem?_map, List.getElem?_range hk]
        simp only [Option.map_some, if_pos]
        congr 1
        have : ∀ j ∈ List.range (second.length + 1), D first second 0 j = j := by
          intro j hj
          exact D_zero_left first second (by have := List.mem_range.1 hj; omega)
        rw [List.map_congr_left this, List.map_id']
      · rw [if_neg h0, List.getElem?_map, List.getElem?_map, List.getElem?_range hk]
        simp only [Option.map_some, if_neg (fun h : k = 0 => h0 h.symm)]
        congr 1
        simp only [List.range_one, List.map_cons, List.map_nil]
        rw [D_zero_right first second (by omega)]
    · rw [if_neg (by omega), List.getElem?_eq_none (by simp; omega), List.getElem?_eq_none (by simp; omega)]
  unfold osaDistance
  simp only [h0]
  rw [outer_spec first second first.length (i := 0) (by omega)]
  · simp only [bind, Except.bind]
    rw [cell_mat first second (Nat.le_refl _) (by rw [if_pos (Nat.le_refl _)]; omega)]
    unfold D
    rw [List.take_length, List.take_length]
  · intro l hl
    rw [if_pos (by omega)]
  · intro l hl
    rw [if_neg (by omega)]

end

/-- The distance function computes the smallest number of edits, and never fails. -/
theorem osaDistance_spec (a b : PyStr) : ∃ n, osaDistance a b = .ok n ∧ Distance a b n := by
  refine ⟨_, osaDistance_eq a b, ?_⟩
  have := distance_reverse (dist_distance a.reverse b.reverse)
  rwa [List.reverse_reverse, List.reverse_reverse] at this

/-! ### The search -/

theorem search_spec (string : PyStr) (os : List PyStr) : ∀ best : Int × Option PyStr,
    ∃ r, search string os best = .ok r ∧ r.1 ≤ best.1 ∧
      (r = best ∨ ∃ o ∈ os, ∃ n : Nat, Distance string o n ∧ r = ((n : Int), some o) ∧ r.1 < best.1) ∧
      ∀ o ∈ os, ∀ n : Nat, Distance string o n → r.1 ≤ n := by
  induction os with
  | nil =>
    intro best
    exact ⟨best, rfl, Int.le_refl _, .inl rfl, fun o ho => by cases ho⟩
  | cons o os ih =>
    intro best
    obtain ⟨n, h1, h2⟩ := osaDistance_spec string o
    unfold search
    rw [h1]
    simp only [bind, Except.bind]
    by_cases hlt : (n : Int) < best.1
    · rw [if_pos hlt]
      obtain ⟨r, e, hle, hor, hall⟩ := ih ((n : Int), some o)
      dsimp only at hle hor
      refine ⟨r, e, by omega, .inr ?_, ?_⟩
      · rcases hor with h | ⟨o', ho', m, hm, hr, hl⟩
        · exact ⟨o, List.mem_cons_self, n, h2, h, by rw [h]; exact hlt⟩
        · exact ⟨o', List.mem_cons_of_mem _ ho', m, hm, hr, by omega⟩
      · intro o' ho' m hm
        rcases List.mem_cons.1 ho' with h | h
        · subst h; rw [distance_unique hm h2]; exact hle
        · exact hall o' h m hm
    · rw [if_neg hlt]
      obtain ⟨r, e, hle, hor, hall⟩ := ih best
      refine ⟨r, e, hle, ?_, ?_⟩
      · rcases hor with h | ⟨o', ho', m, hm, hr, hl⟩
        · exact .inl h
        · exact .inr ⟨o', List.mem_cons_of_mem _ ho', m, hm, hr, hl⟩
      · intro o' ho' m hm
        rcases List.mem_cons.1 ho' with h | h
        · subst h; rw [distance_unique hm h2]; omega
        · exact hall o' h m hm

theorem options_aux (fold : PyStr → PyStr) (strings : List PyStr) : ∀ d : Dict PyStr PyStr,
    ∀ o, (strings.foldl (fun d s => d.set (fold s) s) d).get? o =
      match strings.reverse.find? (fun s => fold s = o) with
      | some s => some s
      | none => d.get? o := by
  induction strings with
  | nil => intro d o; rfl
  | cons s strings ih =>
    intro d o
    rw [List.foldl_cons, ih, List.reverse_cons, List.find?_append]
    cases h : strings.reverse.find? (fun s => fold s = o) with
    | some x => rfl
    | none =>
      simp only [Option.none_or, List.find?_cons, List.find?_nil]
      rw [Dict.get?_set]
      by_cases hs : fold s = o
      · simp [hs]
      · simp [hs]

theorem get?_options (fold : PyStr → PyStr) (strings : List PyStr) (o : PyStr) :
    (options fold strings).get? o = strings.reverse.find? (fun s => fold s = o) := by
  unfold options
  rw [options_aux]
  cases strings.reverse.find? (fun s => fold s = o) <;> rfl

theorem mem_keys_options (fold : PyStr → PyStr) (strings : List PyStr) (o : PyStr) :
    o ∈ (options fold strings).keys ↔ ∃ s ∈ strings, fold s = o := by
  have h := get?_options fold strings o
  constructor
  · intro hk
    cases hf : strings.reverse.find? (fun s => fold s = o) with
    | some s =>
      have h1 := List.find?_some hf
      have h2 := List.mem_of_find?_eq_some hf
      exact ⟨s, List.mem_reverse.1 h2, of_decide_eq_true h1⟩
    | none => rw [hf] at h; exact absurd hk ((Dict.get?_eq_none_iff _ _).1 h)
  · rintro ⟨s, hs, hf⟩
    apply Classical.byContradiction
    intro hk
    rw [(Dict.get?_eq_none_iff _ _).2 hk] at h
    have := List.find?_eq_none.1 h.symm s (List.mem_reverse.2 hs)
    exact this (decide_eq_true hf)

end Verif.ClosestMatch
