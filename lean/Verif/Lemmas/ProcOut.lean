import Verif.Props.ProcSpec
import Verif.Lemmas.EP

/-!
Lemmas about the collection of process output.
-/

namespace Verif.ProcOut

/-! ### Lines -/

theorem extract_concat (t : PyStr) : (extractFullLines t).1.flatten ++ (extractFullLines t).2 = t := by
  induction t with
  | nil => rfl
  | cons c t ih =>
    rw [extractFullLines]
    by_cases hc : c = '\n'
    · simp only [hc, if_true]; simpa using ih
    · rw [if_neg hc]
      cases h : extractFullLines t with
      | mk f p =>
        rw [h] at ih
        cases f with
        | nil =>
          by_cases hr : c = '\r'
          · simp only [hr, if_true]; simpa using ih
          · simp only [hr, if_false]; simpa using ih
        | cons l f => simpa using ih

theorem extract_rest (t : PyStr) : NoEnd (extractFullLines t).2 := by
  induction t with
  | nil => simp [extractFullLines, NoEnd]
  | cons c t ih =>
    rw [extractFullLines]
    by_cases hc : c = '\n'
    · simp only [hc, if_true]; exact ih
    · rw [if_neg hc]
      cases h : extractFullLines t with
      | mk f p =>
        rw [h] at ih
        cases f with
        | nil =>
          by_cases hr : c = '\r'
          · simp only [hr, if_true]; exact ih
          · simp only [hr, if_false]
            refine ⟨?_, ?_⟩
            · intro hm
              rcases List.mem_cons.1 hm with hm | hm
              · exact hc hm.symm
              · exact ih.1 hm
            · intro hm
              rcases List.mem_cons.1 hm with hm | hm
              · exact hr hm.symm
              · exact ih.2 hm
        | cons l f => exact ih

theorem extract_isLine (t : PyStr) : ∀ l ∈ (extractFullLines t).1, IsLine l := by
  induction t with
  | nil => simp [extractFullLines]
  | cons c t ih =>
    rw [extractFullLines]
    by_cases hc : c = '\n'
    · simp only [hc, if_true]
      intro l hl
      rcases List.mem_cons.1 hl with rfl | hl
      · exact ⟨[], '\n', rfl, Or.inl rfl, by simp⟩
      · exact ih l hl
    · rw [if_neg hc]
      cases h : extractFullLines t with
      | mk f p =>
        rw [h] at ih
        cases f with
        | nil =>
          by_cases hr : c = '\r'
          · simp only [hr, if_true]
            intro l hl
            rw [List.mem_singleton.1 hl]
            exact ⟨[], '\r', rfl, Or.inr rfl, by simp⟩
          · simp only [hr, if_false]
            intro l hl; cases hl
        | cons l0 f =>
          intro l hl
          rcases List.mem_cons.1 hl with rfl | hl
          · obtain ⟨a, e, rfl, he, ha⟩ := ih l0 (List.mem_cons_self ..)
            refine ⟨c :: a, e, rfl, he, ?_⟩
            intro hm
            rcases List.mem_cons.1 hm with hm | hm
            · exact hc hm.symm
            · exact ha hm
          · exact ih l (List.mem_cons_of_mem _ hl)

theorem IsLine.ne_nil {l : PyStr} (h : IsLine l) : l ≠ [] := by
  obtain ⟨a, c, rfl, _⟩ := h; simp

theorem extract_filter (t : PyStr) :
    ((extractFullLines t).1.filter fun line => !line.isEmpty) = (extractFullLines t).1 := by
  rw [List.filter_eq_self]
  intro l hl
  have := (extract_isLine t l hl).ne_nil
  cases l with
  | nil => exact absurd rfl this
  | cons _ _ => rfl

/-- Splitting a text in two makes no difference. -/
theorem extract_append (a b : PyStr) (h : '\r' ∉ a) :
    extractFullLines (a ++ b) =
      ((extractFullLines a).1 ++ (extractFullLines ((extractFullLines a).2 ++ b)).1,
        (extractFullLines ((extractFullLines a).2 ++ b)).2) := by
  induction a with
  | nil => simp [extractFullLines]
  | cons c a ih =>
    have hc' : c ≠ '\r' := fun e => h (e ▸ List.mem_cons_self ..)
    have ih := ih fun hm => h (List.mem_cons_of_mem _ hm)
    rw [List.cons_append, extractFullLines, extractFullLines]
    by_cases hc : c = '\n'
    · simp only [hc, if_true]; rw [ih]; simp
    · rw [if_neg hc, if_neg hc, ih]
      cases hx : extractFullLines a with
      | mk f p =>
        cases f with
        | nil =>
          simp only [hc', if_false, List.nil_append]
          rw [List.cons_append, extractFullLines, if_neg hc]
          simp only [hc', if_false]
        | cons l f => simp

theorem extract_fullLines (t : PyStr) (h : '\r' ∉ t) : (extractFullLines t).1 = fullLines t := by
  have key : ∀ t : PyStr, '\r' ∉ t →
      (extractFullLines t).1 = fullLines t ∧ (PyStr.splitC '\n' t).getLast? = some (extractFullLines t).2 := by
    intro t h
    induction t with
    | nil => exact ⟨rfl, rfl⟩
    | cons c t ih =>
      have hc' : c ≠ '\r' := fun e => h (e ▸ List.mem_cons_self ..)
      obtain ⟨ih1, ih2⟩ := ih fun hm => h (List.mem_cons_of_mem _ hm)
      rw [extractFullLines]
      unfold fullLines at ih1 ⊢
      rw [PyStr.splitC]
      have hne := PyStr.splitC_ne_nil '\n' t
      by_cases hc : c = '\n'
      · simp only [hc, if_true]
        obtain ⟨x, xs, hx⟩ := List.exists_cons_of_ne_nil hne
        rw [hx] at ih1 ih2 ⊢
        refine ⟨?_, ?_⟩
        · rw [ih1]; simp
        · rw [← ih2]; simp
      · rw [if_neg hc, if_neg hc]
        obtain ⟨x, xs, hx⟩ := List.exists_cons_of_ne_nil hne
        rw [hx] at ih1 ih2 ⊢
        cases hf : extractFullLines t with
        | mk f p =>
          rw [hf] at ih1 ih2
          cases xs with
          | nil =>
            simp at ih1 ih2
            subst ih1 ih2
            simp [hc']
          | cons y ys =>
            simp only [List.dropLast_cons_cons, List.map_cons] at ih1
            subst ih1
            refine ⟨by simp, ?_⟩
            rw [List.getLast?_cons_cons] at ih2 ⊢
            exact ih2
  exact (key t h).1

/-- `ls` are the full lines of `t` in order, `rest` is what follows. -/
structure Split (ls : List PyStr) (rest t : PyStr) : Prop where
  concat : ls.flatten ++ rest = t
  noEnd : NoEnd rest
  lines : ∀ l ∈ ls, IsLine l
  exact : '\r' ∉ t → ls = (extractFullLines t).1 ∧ rest = (extractFullLines t).2

theorem Split.nil : Split [] [] [] :=
  ⟨rfl, ⟨by simp, by simp⟩, by simp, fun _ => ⟨rfl, rfl⟩⟩

theorem Split.add {ls : List PyStr} {rest t : PyStr} (h : Split ls rest t) (data : PyStr) :
    Split (ls ++ (extractFullLines (rest ++ data)).1) (extractFullLines (rest ++ data)).2 (t ++ data) := by
  refine ⟨?_, extract_rest _, ?_, ?_⟩
  · rw [List.flatten_append, List.append_assoc, extract_concat, ← h.concat]; simp
  · intro l hl
    rcases List.mem_append.1 hl with hl | hl
    · exact h.lines l hl
    · exact extract_isLine _ l hl
  · intro hr
    have hr' : '\r' ∉ t := fun hm => hr (List.mem_append_left _ hm)
    obtain ⟨h1, h2⟩ := h.exact hr'
    rw [extract_append t data hr', ← h1, ← h2]
    exact ⟨rfl, rfl⟩

/-! ### Items -/

theorem text_append (a b : List Item) (s : Stream) : text (a ++ b) s = text a s ++ text b s := by
  simp [text]

theorem text_cons (i : Item) (l : List Item) (s : Stream) :
    text (i :: l) s = (if i.1 = s then i.2.getD [] else []) ++ text l s := by
  simp [text]

theorem text_nil (s : Stream) : text [] s = [] := rfl

theorem upd_same {α : Type} (f : Stream → α) (s : Stream) (v : α) : upd f s v s = v := by simp [upd]

theorem upd_ne {α : Type} (f : Stream → α) {s t : Stream} (v : α) (h : t ≠ s) : upd f s v t = f t := by
  simp [upd, h]

/-! ### A process of its own -/

/-- The invariant of the object of an own process, `got` being the lines returned so far. -/
structure Inv (code : Int) (got : Stream → List PyStr) (st : St) : Prop where
  split : ∀ s, ∃ fed, Split (got s ++ st.output s) (st.rem s) fed ∧ fed ++ text st.queue s = text st.arrived s
  closed : ∀ s, st.opened s = false → (s, none) ∈ st.arrived
  queued : ∀ i ∈ st.queue, i ∈ st.arrived
  exit : ∀ c, st.exitcode = some c → c = code ∧ ∀ s, st.opened s = false
  cnt : ∀ s, st.cnt s = ((got s ++ st.output s).length : Int)
  ll : st.ll = []

theorem inv_new (code : Int) : Inv code (fun _ => []) St.new :=
  ⟨fun _ => ⟨[], Split.nil, rfl⟩, fun _ h => absurd h (by simp [St.new]), fun _ h => absurd h (by simp [St.new]),
    fun _ h => absurd h (by simp [St.new]), fun _ => rfl, rfl⟩

theorem inv_put {code : Int} {got : Stream → List PyStr} {st : St} (h : Inv code got st) (items : List Item) :
    Inv code got (put items st) := by
  refine ⟨fun s => ?_, fun s hs => List.mem_append_left _ (h.closed s hs), fun i hi => ?_, h.exit, h.cnt, h.ll⟩
  · obtain ⟨fed, hf, he⟩ := h.split s
    refine ⟨fed, hf, ?_⟩
    show fed ++ text (st.queue ++ items) s = text (st.arrived ++ items) s
    rw [text_append, text_append, ← he, List.append_assoc]
  · rcases List.mem_append.1 hi with hi | hi
    · exact List.mem_append_left _ (h.queued i hi)
    · exact List.mem_append_right _ hi

/-- Handling data of a stream: one more piece of its text is split. -/
theorem handleItem_split {got : Stream → List PyStr} {st : St} {s : Stream} {fed : PyStr} (data : PyStr)
    (h : Split (got s ++ st.output s) (st.rem s) fed) :
    Split (got s ++ (handleItem s data st).output s) ((handleItem s data st).rem s) (fed ++ data) := by
  have h1 : (handleItem s data st).output s = st.output s ++ (extractFullLines (st.rem s ++ data)).1 := by
    show upd st.output s (st.output s ++ (extractFullLines (st.rem s ++ data)).1.filter _) s = _
    rw [upd_same, extract_filter]
  have h2 : (handleItem s data st).rem s = (extractFullLines (st.rem s ++ data)).2 := upd_same _ _ _
  rw [h1, h2, ← List.append_assoc]
  exact h.add data

theorem handleItem_other {st : St} {s t : Stream} (data : PyStr) (h : t ≠ s) :
    (handleItem s data st).output t = st.output t ∧ (handleItem s data st).rem t = st.rem t :=
  ⟨upd_ne _ _ h, upd_ne _ _ h⟩

theorem handleItem_cnt {got : Stream → List PyStr} {st : St} {s : Stream} (data : PyStr)
    (h : ∀ s, st.cnt s = ((got s ++ st.output s).length : Int)) (t : Stream) :
    (handleItem s data st).cnt t = ((got t ++ (handleItem s data st).output t).length : Int) := by
  by_cases ht : t = s
  · subst ht
    show upd st.cnt t (st.cnt t + _) t =
      ((got t ++ upd st.output t (st.output t ++ (extractFullLines (st.rem t ++ data)).1.filter _) t).length : Int)
    rw [upd_same, upd_same, extract_filter, h t]
    simp only [List.length_append]
    omega
  · rw [(handleItem_other data ht).1]
    show upd st.cnt s _ t = _
    rw [upd_ne _ _ ht]; exact h t

theorem inv_handle {code : Int} {got : Stream → List PyStr} {st : St} (h : Inv code got st) {s : Stream} {data : PyStr}
    {queue : List Item} (hq : st.queue = (s, some data) :: queue) :
    Inv code got (handleItem s data { st with queue := queue }) := by
  refine ⟨fun t => ?_, h.closed, fun i hi => h.queued i (hq ▸ List.mem_cons_of_mem _ hi), h.exit, fun t => ?_, h.ll⟩
  rotate_left
  · exact handleItem_cnt (st := { st with queue := queue }) data h.cnt t
  obtain ⟨fed, hf, he⟩ := h.split t
  rw [hq, text_cons] at he
  by_cases ht : t = s
  · subst ht
    refine ⟨fed ++ data, handleItem_split (st := { st with queue := queue }) data hf, ?_⟩
    simp only [if_true, Option.getD_some] at he
    rw [List.append_assoc]; exact he
  · obtain ⟨h1, h2⟩ := handleItem_other (st := { st with queue := queue }) data ht
    refine ⟨fed, ?_, ?_⟩
    · rw [h1, h2]; exact hf
    · rw [if_neg fun e => ht e.symm] at he; exact he

theorem inv_close {code : Int} {got : Stream → List PyStr} {st : St} (h : Inv code got st) {s : Stream}
    {queue : List Item} (hq : st.queue = (s, none) :: queue) (hx : st.exitcode = none) :
    Inv code got (closeStream s { st with queue := queue }) := by
  refine ⟨fun t => ?_, fun t ht => ?_, fun i hi => h.queued i (hq ▸ List.mem_cons_of_mem _ hi),
    fun c hc => ?_, h.cnt, h.ll⟩
  · obtain ⟨fed, hf, he⟩ := h.split t
    refine ⟨fed, hf, ?_⟩
    rw [hq, text_cons] at he
    simpa [closeStream] using he
  · by_cases hs : t = s
    · subst hs; exact h.queued _ (hq ▸ List.mem_cons_self ..)
    · exact h.closed t (by simpa [closeStream, upd, hs] using ht)
  · simp [closeStream, hx] at hc

theorem inv_loop {code : Int} {got : Stream → List PyStr} {ssh : Bool} {w : Wait}
    (hw : w.status = none ∨ w.status = some code) (ticks : List Tick) {st : St} (h : Inv code got st) :
    Inv code got (ownLoop ssh w ticks st) := by
  induction ticks generalizing st with
  | nil => exact h
  | cons t ticks ih =>
    rw [ownLoop]
    split
    · exact h
    split
    · exact h
    rename_i hx
    have hx : st.exitcode = none := by simpa using hx
    have hp := inv_put h t.arrive
    have hxp : (put t.arrive st).exitcode = none := hx
    generalize put t.arrive st = sp at hp hxp
    dsimp only
    split
    · split
      · exact hp
      · exact ih hp
    · rename_i s data queue hq
      have h1 := inv_handle hp hq
      split
      · exact h1
      · exact ih h1
    · rename_i s queue hq
      have h1 := inv_close hp hq hxp
      split
      · rename_i ho
        refine ⟨h1.split, h1.closed, h1.queued, fun c hc => ?_, h1.cnt, h1.ll⟩
        refine ⟨?_, fun s => ?_⟩
        · rcases hw with hw | hw
          · rw [show _ = w.status from rfl, hw] at hc; cases hc
          · have hc : w.status = some c := hc
            rw [hw] at hc; exact (Option.some.inj hc).symm
        · simp only [Bool.and_eq_true, Bool.not_eq_true'] at ho
          cases s
          · exact ho.1
          · exact ho.2
      · split
        · exact h1
        · exact ih h1

theorem inv_return {code : Int} {got : Stream → List PyStr} {st : St} (h : Inv code got st) (lines : Limits) :
    Inv code (fun s => got s ++ (linesToReturn lines st).2 s) (linesToReturn lines st).1 := by
  have hl : ∀ s, got s ++ (linesToReturn lines st).2 s ++ (linesToReturn lines st).1.output s = got s ++ st.output s := by
    intro s
    show got s ++ (st.output s).take _ ++ (st.output s).drop _ = _
    rw [List.append_assoc, List.take_append_drop]
  refine ⟨fun s => ?_, h.closed, h.queued, h.exit, fun s => ?_, h.ll⟩
  rotate_left
  · show st.cnt s = _
    rw [hl s]; exact h.cnt s
  obtain ⟨fed, hf, he⟩ := h.split s
  refine ⟨fed, ?_, he⟩
  rw [hl s]; exact hf

/-- What `wait()` does when it succeeds. -/
theorem wait_ok {k : Kind} {w : Wait} {st st' : St} {r : Result} (h : wait k w st = (st', .ok r)) :
    badLimits w.lines = false ∧
    ((isDone st = true ∧ st' = st ∧ r = ⟨fun _ => [], st.exitcode⟩) ∨
     (isDone st = false ∧ ∃ lines, waitLow k w st = (st', .ok lines) ∧
       r = ⟨lines, if isDone st' then st'.exitcode else none⟩)) := by
  unfold wait at h
  split at h
  · cases h
  rename_i hb
  refine ⟨by simpa using hb, ?_⟩
  split at h
  · rename_i hd
    injection h with h1 h2
    injection h2 with h2
    exact Or.inl ⟨hd, h1.symm, h2.symm⟩
  rename_i hd
  refine Or.inr ⟨by simpa using hd, ?_⟩
  split at h
  · cases h
  · rename_i st1 lines hl
    split at h
    · cases h
    · injection h with h1 h2
      injection h2 with h2
      subst h1
      exact ⟨lines, hl, h2.symm⟩

theorem waitLow_own {ssh : Bool} {w : Wait} {st : St} :
    waitLow (.own ssh) w st =
      (put w.after (linesToReturn w.lines (ownLoop ssh w w.ticks st)).1,
        .ok (linesToReturn w.lines (ownLoop ssh w w.ticks st)).2) := rfl

theorem inv_wait {code : Int} {got : Stream → List PyStr} {ssh : Bool} {w : Wait} {st st' : St} {r : Result}
    (hw : w.status = none ∨ w.status = some code) (h : Inv code got st)
    (hr : wait (.own ssh) w st = (st', .ok r)) : Inv code (fun s => got s ++ r.lines s) st' := by
  rcases (wait_ok hr).2 with ⟨_, rfl, rfl⟩ | ⟨_, lines, hl, rfl⟩
  · simpa using h
  · rw [waitLow_own] at hl
    injection hl with h1 h2
    injection h2 with h2
    subst h1 h2
    exact inv_put (inv_return (inv_loop hw _ h) w.lines) w.after

theorem inv_of_reach {ssh : Bool} {code : Int} {st : St} {got : Stream → List PyStr}
    (h : Reach (.own ssh) code St.new st got) : Inv code got st := by
  induction h with
  | new => exact inv_new code
  | arrive items st got _ ih => exact inv_put ih items
  | wait w st st' got r _ hw hr ih => exact inv_wait hw ih hr

/-- When `wait()` returns an exit code, everything is returned. -/
theorem exit_done {k : Kind} {w : Wait} {st st' : St} {r : Result} {c : Int} (h : wait k w st = (st', .ok r))
    (hc : r.exitcode = some c) : isDone st' = true ∧ st'.exitcode = some c := by
  rcases (wait_ok h).2 with ⟨hd, rfl, rfl⟩ | ⟨_, lines, _, rfl⟩
  · exact ⟨hd, hc⟩
  · by_cases hd : isDone st' = true
    · simp only [hd, if_true] at hc; exact ⟨hd, hc⟩
    · simp [hd] at hc

theorem isDone_iff {st : St} : isDone st = true ↔
    st.ll = [] ∧ st.exitcode.isSome ∧ st.output .out = [] ∧ st.output .err = [] ∧ st.queue = [] := by
  simp [isDone, and_assoc]

/-! ### Running an own process -/

theorem loop_arrived (ssh : Bool) (w : Wait) (ticks : List Tick) (st : St) :
    ∃ rest, (ownLoop ssh w ticks st).arrived ++ rest = st.arrived ++ ticks.flatMap Tick.arrive := by
  induction ticks generalizing st with
  | nil => exact ⟨[], by simp [ownLoop]⟩
  | cons t ticks ih =>
    have stop : ∀ s : St, s.arrived = st.arrived ++ t.arrive →
        ∃ rest, s.arrived ++ rest = st.arrived ++ (t :: ticks).flatMap Tick.arrive := by
      intro s hs
      exact ⟨ticks.flatMap Tick.arrive, by rw [hs]; simp⟩
    have go : ∀ s : St, s.arrived = st.arrived ++ t.arrive →
        ∃ rest, (ownLoop ssh w ticks s).arrived ++ rest = st.arrived ++ (t :: ticks).flatMap Tick.arrive := by
      intro s hs
      obtain ⟨rest, hr⟩ := ih s
      exact ⟨rest, by rw [hr, hs]; simp⟩
    rw [ownLoop]
    split
    · exact ⟨(t :: ticks).flatMap Tick.arrive, rfl⟩
    split
    · exact ⟨(t :: ticks).flatMap Tick.arrive, rfl⟩
    have hp : (put t.arrive st).arrived = st.arrived ++ t.arrive := rfl
    generalize put t.arrive st = sp at hp
    dsimp only
    split
    · split
      · exact stop _ hp
      · exact go _ hp
    · split
      · exact stop _ hp
      · exact go _ hp
    · split
      · exact stop _ hp
      · split
        · exact stop _ hp
        · exact go _ hp

theorem text_ended {a rest : List Item} {s : Stream} (hv : Valid (a ++ rest)) (h : (s, none) ∈ a) :
    text (a ++ rest) s = text a s := by
  obtain ⟨x, y, rfl⟩ := List.append_of_mem h
  have hr : text rest s = [] := by
    have hn := hv s x (y ++ rest) (by simp)
    unfold text
    rw [List.flatMap_eq_nil_iff]
    intro i hi
    rw [if_neg (hn i (List.mem_append_right _ hi))]
  rw [text_append, hr, List.append_nil]

/-- The rest of a loop when the items come one by one. -/
theorem loop_live (ssh : Bool) (w : Wait) (hz : w.zero = false) (hl : w.lines = noLimits) (items : List Item)
    (st : St) (hq : st.queue = []) (hx : st.exitcode = none) (hv : Valid items)
    (ho : ∀ s, st.opened s = false ∨ (s, none) ∈ items) (hne : ∃ s, (s, none) ∈ items)
    (hc : ∀ s, st.opened s = false → ∀ i ∈ items, i.1 ≠ s) :
    (ownLoop ssh w (items.map fun i => ⟨[i], false⟩) st).exitcode = w.status ∧
    (ownLoop ssh w (items.map fun i => ⟨[i], false⟩) st).queue = [] ∧
    (ownLoop ssh w (items.map fun i => ⟨[i], false⟩) st).arrived = st.arrived ++ items := by
  induction items generalizing st with
  | nil => obtain ⟨s, hs⟩ := hne; cases hs
  | cons i items ih =>
    have hv' : Valid items := fun s a b he x hx => hv s (i :: a) b (by rw [he]; rfl) x hx
    rw [List.map_cons, ownLoop]
    have hen : haveEnoughLines st.output w.lines = false := by
      rw [hl]; rfl
    rw [if_neg (by rw [hen]; decide), if_neg (by rw [hx]; decide)]
    have hpq : (put [i] st).queue = [i] := by show st.queue ++ [i] = _; rw [hq]; rfl
    have hpx : (put [i] st).exitcode = none := hx
    have hpo : (put [i] st).opened = st.opened := rfl
    have hpa : (put [i] st).arrived = st.arrived ++ [i] := rfl
    generalize put [i] st = sp at hpq hpx hpo hpa
    obtain ⟨s, d⟩ := i
    dsimp only
    rw [hpq]
    cases d with
    | some d =>
      dsimp only
      rw [if_neg (by rw [hz]; decide)]
      have := ih (handleItem s d { sp with queue := [] }) rfl hpx hv'
        (fun t => by
          rcases ho t with h | h
          · exact Or.inl (by rw [show (handleItem s d { sp with queue := [] }).opened = sp.opened from rfl, hpo]; exact h)
          · refine Or.inr ?_
            rcases List.mem_cons.1 h with h | h
            · cases h
            · exact h)
        (by
          obtain ⟨t, ht⟩ := hne
          rcases List.mem_cons.1 ht with h | h
          · cases h
          · exact ⟨t, h⟩)
        (fun t ht i hi => hc t (by
          rw [show (handleItem s d { sp with queue := [] }).opened = sp.opened from rfl, hpo] at ht; exact ht) i
          (List.mem_cons_of_mem _ hi))
      refine ⟨this.1, this.2.1, ?_⟩
      rw [this.2.2, show (handleItem s d { sp with queue := [] }).arrived = sp.arrived from rfl, hpa]
      simp
    | none =>
      dsimp only
      have hafter : ∀ i ∈ items, i.1 ≠ s := hv s [] items rfl
      have hopen : ∀ t, (closeStream s { sp with queue := [] }).opened t = if t = s then false else st.opened t := by
        intro t
        show upd sp.opened s false t = _
        unfold upd
        rw [hpo]
      by_cases hb : ∀ t, (closeStream s { sp with queue := [] }).opened t = false
      · rw [if_pos (by rw [hb .out, hb .err]; decide)]
        have hnil : items = [] := by
          cases items with
          | nil => rfl
          | cons i _ =>
            exfalso
            by_cases hi : i.1 = s
            · exact hafter i (List.mem_cons_self ..) hi
            · have h1 := hb i.1
              rw [hopen, if_neg hi] at h1
              exact hc i.1 h1 i (List.mem_cons_of_mem _ (List.mem_cons_self ..)) rfl
        subst hnil
        exact ⟨rfl, rfl, hpa⟩
      · have hb' : ∃ t, t ≠ s ∧ st.opened t = true := by
          by_cases hx : ∃ t, t ≠ s ∧ st.opened t = true
          · exact hx
          · exfalso
            apply hb
            intro t
            rw [hopen]
            split
            · rfl
            · rename_i hts
              cases hot : st.opened t with
              | false => rfl
              | true => exact absurd ⟨t, hts, hot⟩ hx
        obtain ⟨t, hts, hto⟩ := hb'
        have htop : (closeStream s { sp with queue := [] }).opened t = true := by rw [hopen, if_neg hts]; exact hto
        rw [if_neg (by cases t <;> simp [htop]), if_neg (by rw [hz]; decide)]
        have := ih (closeStream s { sp with queue := [] }) rfl hpx hv'
          (fun u => by
            by_cases hu : u = s
            · exact Or.inl (by rw [hopen, if_pos hu])
            · rcases ho u with h | h
              · exact Or.inl (by rw [hopen, if_neg hu]; exact h)
              · refine Or.inr ?_
                rcases List.mem_cons.1 h with h | h
                · injection h with h1; exact absurd h1 hu
                · exact h)
          (by
            refine ⟨t, ?_⟩
            rcases ho t with h | h
            · rw [hto] at h; cases h
            · rcases List.mem_cons.1 h with h | h
              · injection h with h1; exact absurd h1 hts
              · exact h)
          (fun u hu i hi => by
            rw [hopen] at hu
            split at hu
            · rename_i hus; subst hus; exact hafter i hi
            · exact hc u hu i (List.mem_cons_of_mem _ hi))
        refine ⟨this.1, this.2.1, ?_⟩
        rw [this.2.2, show (closeStream s { sp with queue := [] }).arrived = sp.arrived from rfl, hpa]
        simp

theorem run_done {ssh : Bool} {w : Wait} {st' : St} {ls : Stream → List PyStr} {c : Int}
    (hw : wait (.own ssh) w St.new = (st', .ok ⟨ls, some c⟩)) :
    w.status = some c ∧ ∃ rest, st'.arrived ++ rest = w.ticks.flatMap Tick.arrive := by
  have hd := exit_done hw (c := c) rfl
  rcases (wait_ok hw).2 with ⟨hn, _⟩ | ⟨_, l2, hl, _⟩
  · exact absurd hn (by decide)
  rw [waitLow_own] at hl
  injection hl with e1 _
  have harr : st'.arrived = (ownLoop ssh w w.ticks St.new).arrived ++ w.after := by rw [← e1]; rfl
  have hqu : st'.queue = (ownLoop ssh w w.ticks St.new).queue ++ w.after := by rw [← e1]; rfl
  obtain ⟨_, _, _, _, hq⟩ := isDone_iff.1 hd.1
  rw [hq] at hqu
  have hafter : w.after = [] := (List.append_eq_nil_iff.1 hqu.symm).2
  rw [hafter, List.append_nil] at harr
  obtain ⟨rest, hrest⟩ := loop_arrived ssh w w.ticks St.new
  rw [← harr, show St.new.arrived = [] from rfl, List.nil_append] at hrest
  have hx := hd.2
  rw [← e1] at hx
  refine ⟨?_, rest, hrest⟩
  cases hs : w.status with
  | none =>
    have hb : ∀ (d : Int), Inv d (fun _ => []) (ownLoop ssh w w.ticks St.new) :=
      fun d => inv_loop (Or.inl hs) w.ticks (inv_new d)
    have h3 := ((hb c).exit c hx).1
    have h4 := ((hb (c + 1)).exit c hx).1
    omega
  | some d =>
    have hb : Inv d (fun _ => []) (ownLoop ssh w w.ticks St.new) := inv_loop (Or.inr hs) w.ticks (inv_new d)
    rw [(hb.exit c hx).1]

theorem run_live {ssh : Bool} {items : List Item} {c : Int} {w : Wait} (hl : w.lines = noLimits) (hv : Valid items)
    (hend : ∀ s, (s, none) ∈ items) (hz : w.zero = false) (hs : w.status = some c) (ha : w.after = [])
    (ht : w.ticks = items.map fun i => ⟨[i], false⟩) :
    ((∃ lines, runResult (wait (.own ssh) w St.new).2 = .done lines c) ∧
      ('\r' ∉ text items .out → '\r' ∉ text items .err →
        ¬ (c = 127 ∧ fullLines (text items .out) = [] ∧ (fullLines (text items .err)).length = 1))) ∨
      (runResult (wait (.own ssh) w St.new).2 = .failed .notFound ∧ c = 127 ∧
        ('\r' ∉ text items .out → fullLines (text items .out) = []) ∧
        ('\r' ∉ text items .err → (fullLines (text items .err)).length = 1)) := by
  have hlive := loop_live ssh w hz hl items St.new rfl rfl hv (fun s => Or.inr (hend s))
    ⟨.out, hend .out⟩ (fun s hs => absurd hs (by simp [St.new]))
  rw [← ht] at hlive
  obtain ⟨h1, h2, h3⟩ := hlive
  have hi : Inv c (fun _ => []) (ownLoop ssh w w.ticks St.new) := inv_loop (Or.inr hs) w.ticks (inv_new c)
  have hb : badLimits w.lines = false := by rw [hl]; rfl
  unfold wait
  rw [if_neg (by rw [hb]; decide), if_neg (by decide), waitLow_own]
  dsimp only
  rw [hs] at h1
  have hlines : ∀ s, '\r' ∉ text items s →
      (ownLoop ssh w w.ticks St.new).cnt s = ((fullLines (text items s)).length : Int) := by
    intro s hcr
    obtain ⟨fed, hf, he⟩ := hi.split s
    rw [h2, text_nil, List.append_nil, h3, show St.new.arrived = [] from rfl, List.nil_append] at he
    subst he
    rw [hi.cnt s, (hf.exact hcr).1, extract_fullLines _ hcr]
  have hll := hi.ll
  rw [ha]
  generalize ownLoop ssh w w.ticks St.new = sp at h1 h2 h3 hlines hll
  have hdone : isDone (put [] (linesToReturn w.lines sp).1) = true := by
    rw [isDone_iff]
    refine ⟨hll, ?_, ?_, ?_, ?_⟩
    · show sp.exitcode.isSome = true
      rw [h1]; rfl
    · show (sp.output .out).drop (takeCount w.lines sp .out) = []
      rw [hl]; simp [takeCount, noLimits]
    · show (sp.output .err).drop (takeCount w.lines sp .err) = []
      rw [hl]; simp [takeCount, noLimits]
    · show sp.queue ++ [] = []
      rw [h2]; rfl
  have hcode : (put [] (linesToReturn w.lines sp).1).exitcode = some c := h1
  have hcnt : (put [] (linesToReturn w.lines sp).1).cnt = sp.cnt := rfl
  split
  · rename_i hbad
    refine Or.inr ⟨rfl, ?_, fun hcr => ?_, fun hcr => ?_⟩
    · have := hbad.1; rw [hcode] at this; exact Option.some.inj this
    · have := hlines .out hcr
      rw [hcnt] at hbad
      rw [hbad.2.1] at this
      exact List.length_eq_zero_iff.1 (by omega)
    · have := hlines .err hcr
      rw [hcnt] at hbad
      rw [hbad.2.2] at this
      omega
  · rename_i hgood
    refine Or.inl ⟨⟨(linesToReturn w.lines sp).2, ?_⟩, fun hco hce hb => hgood ⟨?_, ?_, ?_⟩⟩
    · rw [hcode]
      rfl
    · rw [hcode, hb.1]
    · rw [hcnt, hlines .out hco, hb.2.1]; rfl
    · rw [hcnt, hlines .err hce, hb.2.2]; rfl

end Verif.ProcOut
