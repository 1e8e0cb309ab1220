import Verif.Model.CmdLine
import Verif.Props.CmdLineSpec

/-! Helper lemmas for C102. -/

namespace Verif.CmdLine

/-- The description of an option. -/
def Glob.toOpt (g : Glob) : Opt := ⟨g.written false, g.written true, g.attribute⟩

theorem ssh_eq : sshOptions = [Glob.host, .user, .key, .timeout].map Glob.toOpt := rfl

theorem ds_eq : [datasetOption] = [Glob.dataset].map Glob.toOpt := rfl

theorem written_inj {g g' : Glob} {l l' : Bool} (h : g.written l = g'.written l') : g = g' ∧ l = l' := by
  cases g <;> cases g' <;> cases l <;> cases l' <;> first | exact ⟨rfl, rfl⟩ | exact absurd h (by decide)

theorem written_dash (g : Glob) (l : Bool) : (g.written l).head? = some '-' := by
  cases g <;> cases l <;> rfl

theorem attribute_inj {g g' : Glob} (h : g.attribute = g'.attribute) : g = g' := by
  cases g <;> cases g' <;> first | rfl | exact absurd h (by decide)

/-- The arguments of some uses. -/
abbrev flat (us : List Use) : List PyStr := us.flatMap Use.args

theorem mem_flat {a : PyStr} {us : List Use} : a ∈ flat us ↔ ∃ u ∈ us, a = u.opt.written u.long ∨ a = u.value := by
  simp only [List.mem_flatMap, Use.args, List.mem_cons, List.not_mem_nil, or_false]

theorem written_mem_flat {g : Glob} {l : Bool} {us : List Use} (hp : ∀ u ∈ us, u.Plain) :
    g.written l ∈ flat us ↔ ∃ u ∈ us, u.opt = g ∧ u.long = l := by
  rw [mem_flat]
  constructor
  · rintro ⟨u, hu, h | h⟩
    · obtain ⟨h1, h2⟩ := written_inj h
      exact ⟨u, hu, h1.symm, h2.symm⟩
    · exact absurd (h ▸ written_dash g l) (hp u hu)
  · rintro ⟨u, hu, rfl, rfl⟩
    exact ⟨u, hu, .inl rfl⟩

/-- The namespace after some uses. -/
def setAll (ns : Namespace) (us : List Use) : Namespace := us.foldl (fun ns u => ns.set u.opt.attribute (some u.value)) ns

theorem setAll_get (us : List Use) (ns : Namespace) (k : PyStr) (hk : ∀ u ∈ us, u.opt.attribute ≠ k) :
    (setAll ns us).get? k = ns.get? k := by
  induction us generalizing ns with
  | nil => rfl
  | cons u us ih =>
    show (setAll (ns.set u.opt.attribute (some u.value)) us).get? k = _
    rw [ih _ (fun u hu => hk u (List.mem_cons_of_mem _ hu)), Dict.get?_set_ne _ _ (hk u (List.mem_cons_self ..))]

/-- The value of an option after some uses, from a value. -/
def lastOf (g : Glob) (x : Option PyStr) (us : List Use) : Option PyStr :=
  us.foldl (fun x u => if u.opt = g then some u.value else x) x

theorem valueOf_append (g : Glob) (a b : List Use) : valueOf g (a ++ b) = lastOf g (valueOf g a) b := by
  unfold valueOf lastOf
  rw [List.foldl_append]

theorem setAll_attr (us : List Use) (ns : Namespace) (g : Glob) (x : Option PyStr)
    (h : ns.get? g.attribute = some x) : (setAll ns us).get? g.attribute = some (lastOf g x us) := by
  induction us generalizing ns x with
  | nil => exact h
  | cons u us ih =>
    show (setAll (ns.set u.opt.attribute (some u.value)) us).get? g.attribute = _
    show _ = some (lastOf g (if u.opt = g then some u.value else x) us)
    by_cases e : u.opt = g
    · rw [if_pos e]
      exact ih _ _ (by rw [← e, Dict.get?_set_self])
    · rw [if_neg e]
      exact ih _ _ (by rw [Dict.get?_set_ne _ _ (fun h => e (attribute_inj h))]; exact h)

theorem lastOf_notin {g : Glob} {x : Option PyStr} {us : List Use} (h : ∀ u ∈ us, u.opt ≠ g) : lastOf g x us = x := by
  induction us generalizing x with
  | nil => rfl
  | cons u us ih =>
    show lastOf g (if u.opt = g then some u.value else x) us = x
    rw [if_neg (h u (List.mem_cons_self ..)), ih fun u hu => h u (List.mem_cons_of_mem _ hu)]

theorem lastOf_mem {x : Option PyStr} {us : List Use} (hn : (us.map Use.opt).Nodup) {u : Use} (hu : u ∈ us) :
    lastOf u.opt x us = some u.value := by
  induction us generalizing x with
  | nil => exact absurd hu (List.not_mem_nil)
  | cons w us ih =>
    rw [List.map_cons, List.nodup_cons] at hn
    show lastOf u.opt (if w.opt = u.opt then some w.value else x) us = _
    rcases List.mem_cons.1 hu with e | e
    · subst e
      rw [if_pos rfl, lastOf_notin]
      intro z hz e
      exact hn.1 (e ▸ List.mem_map_of_mem hz)
    · exact ih hn.2 e

/-- With no repeated options, the order does not matter. -/
theorem lastOf_perm {g : Glob} {x : Option PyStr} {us vs : List Use} (h : us.Perm vs) (hn : (us.map Use.opt).Nodup) :
    lastOf g x us = lastOf g x vs := by
  have hn2 : (vs.map Use.opt).Nodup := ((h.map Use.opt).nodup_iff).1 hn
  by_cases e : ∃ u ∈ us, u.opt = g
  · obtain ⟨u, hu, rfl⟩ := e
    rw [lastOf_mem hn hu, lastOf_mem hn2 (h.mem_iff.1 hu)]
  · rw [lastOf_notin fun u hu h => e ⟨u, hu, h⟩, lastOf_notin fun u hu h' => e ⟨u, h.mem_iff.2 hu, h'⟩]

theorem inj_of_nodup {us : List Use} (hn : (us.map Use.opt).Nodup) {a b : Use} (ha : a ∈ us) (hb : b ∈ us)
    (h : a.opt = b.opt) : a = b := by
  induction us with
  | nil => exact absurd ha List.not_mem_nil
  | cons u us ih =>
    rw [List.map_cons, List.nodup_cons] at hn
    rcases List.mem_cons.1 ha with e1 | e1 <;> rcases List.mem_cons.1 hb with e2 | e2
    · rw [e1, e2]
    · exact absurd (by rw [← e1, h]; exact List.mem_map_of_mem e2) hn.1
    · exact absurd (by rw [← e2, ← h]; exact List.mem_map_of_mem e1) hn.1
    · exact ih hn.2 e1 e2

/-! ### Distinct values -/

/-- One option is found. -/
theorem found {u : Use} {l1 l2 : List Use} (hp : ∀ w ∈ l1 ++ u :: l2, w.Plain)
    (hn : ((l1 ++ u :: l2).map Use.opt).Nodup) (hv : ((l1 ++ u :: l2).map Use.value).Nodup) :
    let uargs := flat (l1 ++ u :: l2)
    let n := u.opt.written u.long
    uargs[uargs.idxOf n + 1]? = some u.value ∧ (uargs.erase u.value).erase n = flat (l1 ++ l2) := by
  have hp1 : ∀ w ∈ l1, w.Plain := fun w hw => hp w (List.mem_append_left _ hw)
  have hpu : u.Plain := hp u (by simp)
  have hn1 : u.opt.written u.long ∉ flat l1 := by
    rw [written_mem_flat hp1]
    rintro ⟨w, hw, e, -⟩
    rw [List.map_append, List.map_cons] at hn
    exact (List.nodup_append.1 hn).2.2 w.opt (List.mem_map_of_mem hw) u.opt (by simp) e
  have hv1 : u.value ∉ flat l1 := by
    rw [mem_flat]
    rintro ⟨w, hw, e | e⟩
    · exact hpu (e ▸ written_dash _ _)
    · rw [List.map_append, List.map_cons] at hv
      exact (List.nodup_append.1 hv).2.2 w.value (List.mem_map_of_mem hw) u.value (by simp) e.symm
  have hne : (u.opt.written u.long == u.value) = false := by
    rw [beq_eq_false_iff_ne]
    exact fun e => hpu (e ▸ written_dash u.opt u.long)
  have hf : flat (l1 ++ u :: l2) = flat l1 ++ u.opt.written u.long :: u.value :: flat l2 := by
    show List.flatMap _ _ = _
    rw [List.flatMap_append, List.flatMap_cons]
    rfl
  refine ⟨?_, ?_⟩
  · rw [hf, List.idxOf_append, if_neg hn1, List.idxOf_cons_self, Nat.zero_add, List.getElem?_append_right (by omega),
      show (flat l1).length + 1 - (flat l1).length = 1 from by omega]
    rfl
  · rw [hf, List.erase_append_right _ hv1, List.erase_cons, hne, if_neg Bool.false_ne_true, List.erase_cons_head,
      List.erase_append_right _ hn1, List.erase_cons_head]
    show _ = List.flatMap _ _
    rw [List.flatMap_append]

/-- All the options of a table are found. -/
theorem checkUnknown_ok (gs : List Glob) (ns : Namespace) (us : List Use) (hp : ∀ w ∈ us, w.Plain)
    (hn : (us.map Use.opt).Nodup) (hv : (us.map Use.value).Nodup) :
    ∃ a b, us.Perm (a ++ b) ∧ (∀ u ∈ a, u.opt ∈ gs) ∧ (∀ u ∈ b, u.opt ∉ gs) ∧ b.Sublist us ∧
      checkUnknown (gs.map Glob.toOpt) ns (flat us) = .ok (setAll ns a, flat b) := by
  induction gs generalizing ns us with
  | nil => exact ⟨[], us, List.Perm.refl _, fun _ h => absurd h List.not_mem_nil, fun _ _ => List.not_mem_nil,
      List.Sublist.refl _, rfl⟩
  | cons g gs ih =>
    by_cases e : ∃ u ∈ us, u.opt = g
    · obtain ⟨u, hu, rfl⟩ := e
      obtain ⟨l1, l2, rfl⟩ := List.append_of_mem hu
      have hs : (l1 ++ l2).Sublist (l1 ++ u :: l2) := List.Sublist.append_left (List.sublist_cons_self _ _) _
      obtain ⟨a, b, h1, h2, h3, h4, h5⟩ := ih (ns.set u.opt.attribute (some u.value)) (l1 ++ l2)
        (fun w hw => hp w (hs.subset hw)) (hn.sublist (hs.map _)) (hv.sublist (hs.map _))
      refine ⟨u :: a, b, ?_, ?_, ?_, h4.trans hs, ?_⟩
      · exact List.perm_middle.trans (h1.cons u)
      · intro w hw
        rcases List.mem_cons.1 hw with e | e
        · rw [e]; exact List.mem_cons_self ..
        · exact List.mem_cons_of_mem _ (h2 w e)
      · intro w hw e
        rcases List.mem_cons.1 e with e | e
        · have hw2 := h4.subset hw
          rw [List.map_append, List.map_cons] at hn
          have hm := (List.perm_middle (l₁ := l1.map Use.opt) (a := u.opt) (l₂ := l2.map Use.opt)).nodup_iff.1 hn
          rw [List.nodup_cons] at hm
          exact hm.1 (by rw [← List.map_append, ← e]; exact List.mem_map_of_mem hw2)
        · exact h3 w hw e
      · obtain ⟨f1, f2⟩ := found hp hn hv
        have hname : (if (Glob.toOpt u.opt).short ∈ flat (l1 ++ u :: l2) then some (Glob.toOpt u.opt).short
            else if (Glob.toOpt u.opt).long ∈ flat (l1 ++ u :: l2) then some (Glob.toOpt u.opt).long else none) =
            some (u.opt.written u.long) := by
          have huniq : ∀ b, u.opt.written b ∈ flat (l1 ++ u :: l2) ↔ u.long = b := by
            intro b
            rw [written_mem_flat hp]
            constructor
            · rintro ⟨w, hw, e1, e2⟩
              have : w = u := inj_of_nodup hn hw hu e1
              rw [← this]; exact e2
            · rintro rfl; exact ⟨u, hu, rfl, rfl⟩
          cases hl : u.long with
          | false => exact if_pos ((huniq false).2 hl)
          | true => exact (if_neg (fun h => by rw [(huniq false).1 h] at hl; exact nomatch hl)).trans (if_pos ((huniq true).2 hl))
        rw [List.map_cons]
        unfold checkUnknown
        dsimp only
        rw [hname]
        dsimp only
        rw [f1]
        dsimp only
        rw [if_neg (hp u hu), f2]
        exact h5
    · have h0 : ∀ b, g.written b ∉ flat us := by
        intro b h
        rw [written_mem_flat hp] at h
        obtain ⟨u, hu, h, -⟩ := h
        exact e ⟨u, hu, h⟩
      obtain ⟨a, b, h1, h2, h3, h4, h5⟩ := ih ns us hp hn hv
      refine ⟨a, b, h1, fun u hu => List.mem_cons_of_mem _ (h2 u hu), ?_, h4, ?_⟩
      · intro w hw hm
        rcases List.mem_cons.1 hm with e' | e'
        · exact e ⟨w, h4.subset hw, e'⟩
        · exact h3 w hw e'
      · rw [List.map_cons]
        unfold checkUnknown
        dsimp only
        rw [if_neg (c := (Glob.toOpt g).short ∈ flat us) (h0 false), if_neg (c := (Glob.toOpt g).long ∈ flat us) (h0 true)]
        exact h5

/-- Both tables. -/
theorem parseArgs_ok (ns : Namespace) (us : List Use) (hne : us ≠ []) (hp : ∀ w ∈ us, w.Plain)
    (hn : (us.map Use.opt).Nodup) (hv : (us.map Use.value).Nodup) :
    ∃ vs, us.Perm vs ∧ parseArgs ns (flat us) =
      (if given (setAll ns vs) "dataset".toList ∧
        (setAll ns vs).get? "hostname".toList ≠ some (some "localhost".toList) then .error .error else .ok (setAll ns vs)) := by
  obtain ⟨a, b, h1, h2, h3, h4, h5⟩ := checkUnknown_ok [.host, .user, .key, .timeout] ns us hp hn hv
  obtain ⟨a', b', g1, g2, g3, g4, g5⟩ := checkUnknown_ok [.dataset] (setAll ns a) b (fun w hw => hp w (h4.subset hw))
    (hn.sublist (h4.map _)) (hv.sublist (h4.map _))
  have hb : b' = [] := by
    cases b' with
    | nil => rfl
    | cons w l =>
      have k1 := g3 w (List.mem_cons_self ..)
      have k2 := h3 w (g4.subset (List.mem_cons_self ..))
      exact absurd k2 (by revert k1; cases w.opt <;> decide)
  subst hb
  rw [List.append_nil] at g1
  refine ⟨a ++ a', h1.trans (g1.append_left a), ?_⟩
  have hf : flat us ≠ [] := by
    cases us with
    | nil => exact absurd rfl hne
    | cons u l => exact List.cons_ne_nil _ _
  have hs : setAll (setAll ns a) a' = setAll ns (a ++ a') := by
    unfold setAll; rw [List.foldl_append]
  unfold parseArgs
  rw [if_neg hf, ssh_eq, h5]
  dsimp only
  rw [ds_eq, g5, hs]
  dsimp only
  rw [if_neg (c := flat [] ≠ []) (fun h => h rfl)]

/-! ### Any arguments -/

/-- Nothing is lost. -/
theorem checkUnknown_sound (gs : List Glob) (ns : Namespace) (uargs : List PyStr) {ns' : Namespace} {rest : List PyStr}
    (h : checkUnknown (gs.map Glob.toOpt) ns uargs = .ok (ns', rest)) :
    ∃ us, (us.map Use.opt).Sublist gs ∧ (∀ u ∈ us, u.Plain) ∧ uargs.Perm (flat us ++ rest) ∧ ns' = setAll ns us := by
  induction gs generalizing ns uargs with
  | nil =>
    cases h
    exact ⟨[], List.Sublist.refl _, fun _ h => absurd h List.not_mem_nil, List.Perm.refl _, rfl⟩
  | cons g gs ih =>
    rw [List.map_cons] at h
    unfold checkUnknown at h
    dsimp only at h
    have hname : ∀ n, (if (Glob.toOpt g).short ∈ uargs then some (Glob.toOpt g).short
        else if (Glob.toOpt g).long ∈ uargs then some (Glob.toOpt g).long else none) = some n →
        n ∈ uargs ∧ ∃ l, n = g.written l := by
      intro n hn
      by_cases e1 : (Glob.toOpt g).short ∈ uargs
      · rw [if_pos e1] at hn
        cases hn
        exact ⟨e1, false, rfl⟩
      · rw [if_neg e1] at hn
        by_cases e2 : (Glob.toOpt g).long ∈ uargs
        · rw [if_pos e2] at hn
          cases hn
          exact ⟨e2, true, rfl⟩
        · rw [if_neg e2] at hn
          exact nomatch hn
    revert hname h
    generalize (if (Glob.toOpt g).short ∈ uargs then some (Glob.toOpt g).short
        else if (Glob.toOpt g).long ∈ uargs then some (Glob.toOpt g).long else none) = c
    intro h hname
    cases c with
    | none =>
      obtain ⟨us, h1, h2⟩ := ih ns uargs h
      exact ⟨us, h1.trans (List.sublist_cons_self _ _), h2⟩
    | some n =>
      obtain ⟨hn, l, rfl⟩ := hname n rfl
      dsimp only at h
      cases hv : uargs[uargs.idxOf (g.written l) + 1]? with
      | none => rw [hv] at h; exact nomatch h
      | some v =>
        rw [hv] at h
        dsimp only at h
        by_cases hd : v.head? = some '-'
        · rw [if_pos hd] at h; exact nomatch h
        · rw [if_neg hd] at h
          obtain ⟨us, h1, h2, h3, h4⟩ := ih _ _ h
          refine ⟨⟨g, l, v⟩ :: us, h1.cons_cons g, ?_, ?_, h4⟩
          · intro u hu
            rcases List.mem_cons.1 hu with e | e
            · rw [e]; exact hd
            · exact h2 u e
          · have hvm : v ∈ uargs := List.mem_of_getElem? hv
            have hnv : g.written l ≠ v := fun e => hd (e ▸ written_dash g l)
            have hnm : g.written l ∈ uargs.erase v := (List.mem_erase_of_ne hnv).2 hn
            have p1 := List.perm_cons_erase hvm
            have p2 := List.perm_cons_erase hnm
            exact p1.trans ((p2.cons v).trans ((List.Perm.swap _ _ _).trans ((h3.cons v).cons (g.written l))))

theorem parseArgs_sound (ns : Namespace) (uargs : List PyStr) {ns' : Namespace} (h : parseArgs ns uargs = .ok ns') :
    ∃ us, (us.map Use.opt).Nodup ∧ (∀ u ∈ us, u.Plain) ∧ uargs.Perm (flat us) ∧ ns' = setAll ns us := by
  unfold parseArgs at h
  by_cases e : uargs = []
  · rw [if_pos e] at h
    cases h
    exact ⟨[], List.nodup_nil, fun _ h => absurd h List.not_mem_nil, e ▸ List.Perm.refl _, rfl⟩
  rw [if_neg e, ssh_eq] at h
  cases h1 : checkUnknown ([Glob.host, .user, .key, .timeout].map Glob.toOpt) ns uargs with
  | error x => rw [h1] at h; exact nomatch h
  | ok r =>
    obtain ⟨ns1, u1⟩ := r
    rw [h1] at h
    dsimp only at h
    rw [ds_eq] at h
    cases h2 : checkUnknown ([Glob.dataset].map Glob.toOpt) ns1 u1 with
    | error x => rw [h2] at h; exact nomatch h
    | ok r =>
      obtain ⟨ns2, u2⟩ := r
      rw [h2] at h
      dsimp only at h
      by_cases e2 : u2 = []
      · rw [if_neg (c := u2 ≠ []) (fun h => h e2)] at h
        have hns : ns2 = ns' := by
          revert h
          split
          · exact (nomatch ·)
          · intro h; cases h; rfl
        obtain ⟨a, a1, a2, a3, a4⟩ := checkUnknown_sound _ _ _ h1
        obtain ⟨b, b1, b2, b3, b4⟩ := checkUnknown_sound _ _ _ h2
        refine ⟨a ++ b, ?_, ?_, ?_, ?_⟩
        · rw [List.map_append]
          exact List.Nodup.sublist (a1.append b1) (by decide)
        · intro u hu
          rcases List.mem_append.1 hu with h | h
          · exact a2 u h
          · exact b2 u h
        · rw [e2, List.append_nil] at b3
          refine a3.trans ((b3.append_left _).trans ?_)
          show List.Perm _ (List.flatMap _ _)
          rw [List.flatMap_append]
        · rw [← hns, b4, a4]
          unfold setAll; rw [List.foldl_append]
      · rw [if_pos (c := u2 ≠ []) e2] at h
        exact nomatch h

theorem checkUnknown_error (os : List Opt) (ns : Namespace) (uargs : List PyStr) {e : Exn}
    (h : checkUnknown os ns uargs = .error e) : e = .error := by
  induction os generalizing ns uargs with
  | nil => exact nomatch h
  | cons o os ih =>
    unfold checkUnknown at h
    dsimp only at h
    split at h
    · exact ih _ _ h
    · split at h
      · cases h; rfl
      · split at h
        · cases h; rfl
        · exact ih _ _ h

/-- All the errors are for the user. -/
theorem parseArgs_error (ns : Namespace) (uargs : List PyStr) {e : Exn} (h : parseArgs ns uargs = .error e) : e = .error := by
  unfold parseArgs at h
  split at h
  · exact nomatch h
  · split at h
    · rename_i h1
      cases h
      exact checkUnknown_error _ _ _ h1
    · split at h
      · rename_i h1
        cases h
        exact checkUnknown_error _ _ _ h1
      · split at h
        · cases h; rfl
        · split at h
          · cases h; rfl
          · exact nomatch h

/-! ### Ordered options -/

variable {V : Type}

theorem orderedFrom_get (l : List (PyStr × V)) (d : Dict PyStr V) (k : PyStr) :
    (l.foldl (fun d x => Dict.set d x.1 x.2) d).get? k =
      l.foldl (fun o x => if x.1 = k then some x.2 else o) (d.get? k) := by
  induction l generalizing d with
  | nil => rfl
  | cons x l ih =>
    rw [List.foldl_cons, ih, List.foldl_cons, Dict.get?_set]

theorem orderedFrom_keys (l : List (PyStr × V)) (d : Dict PyStr V) :
    (l.foldl (fun d x => Dict.set d x.1 x.2) d).keys =
      d.keys ++ ((l.map Prod.fst).filter fun k => !(d.keys.contains k)).eraseDups := by
  induction l generalizing d with
  | nil => simp
  | cons x l ih =>
    rw [List.foldl_cons, ih, Dict.keys_set, List.map_cons]
    by_cases e : x.1 ∈ d.keys
    · rw [if_pos e, List.filter_cons_of_neg]
      simpa using e
    · rw [if_neg e, List.filter_cons_of_pos (by simpa using e), List.eraseDups_cons, List.append_assoc, List.filter_filter]
      refine congrArg (fun z => d.keys ++ (x.1 :: z)) ?_
      refine congrArg List.eraseDups (List.filter_congr fun k _ => ?_)
      by_cases h : k = x.1 <;> simp [h]

theorem orderedFrom_nodup (l : List (PyStr × V)) (d : Dict PyStr V) (hn : (d.keys ++ l.map Prod.fst).Nodup) :
    l.foldl (fun d x => Dict.set d x.1 x.2) d = d ++ l := by
  induction l generalizing d with
  | nil => simp
  | cons x l ih =>
    have hx : x.1 ∉ d.keys := by
      intro h
      rw [List.map_cons] at hn
      exact (List.nodup_append.1 hn).2.2 _ h _ (List.mem_cons_self ..) rfl
    have hset : Dict.set d x.1 x.2 = d ++ [x] := by
      clear ih hn
      induction d with
      | nil => rfl
      | cons y d ih =>
        obtain ⟨a, b⟩ := y
        have h1 : a ≠ x.1 := fun e => hx (by rw [← e]; exact List.mem_cons_self ..)
        show (if a = x.1 then _ else _) = _
        rw [if_neg h1, ih (fun h => hx (List.mem_cons_of_mem _ h))]
        rfl
    rw [List.foldl_cons, hset, ih, List.append_assoc]
    · rfl
    · show (List.map Prod.fst (d ++ [x]) ++ _).Nodup
      rw [List.map_append, List.append_assoc]
      exact hn

/-! ### SSH options first -/

theorem splitSsh_perm (opts : List PyStr) (t : Bool) (l : List PyStr) :
    l.Perm ((splitSsh opts t l).1 ++ (splitSsh opts t l).2) := by
  induction l generalizing t with
  | nil => exact List.Perm.refl _
  | cons a l ih =>
    unfold splitSsh
    by_cases h : a ∈ opts
    · rw [if_pos h]
      exact ((ih true).cons a).trans List.perm_middle.symm
    · rw [if_neg h]
      by_cases ht : t = true
      · rw [if_pos ht]
        exact ((ih false).cons a).trans List.perm_middle.symm
      · rw [if_neg ht]
        exact (ih false).cons a

theorem ssh_names (a : PyStr) : a ∈ (sshOptions.flatMap fun o => [o.short, o.long]) ↔ SshName a := by
  constructor
  · intro h
    obtain ⟨o, ho, h⟩ := List.mem_flatMap.1 h
    have key : ∃ g : Glob, g ≠ .dataset ∧ o = g.toOpt := by
      rw [ssh_eq] at ho
      obtain ⟨g, hg, rfl⟩ := List.mem_map.1 ho
      exact ⟨g, by rintro rfl; exact absurd hg (by decide), rfl⟩
    obtain ⟨g, hg, rfl⟩ := key
    rcases List.mem_cons.1 h with e | e
    · exact ⟨g, hg, false, e⟩
    · exact ⟨g, hg, true, List.mem_singleton.1 e⟩
  · rintro ⟨g, hg, l, rfl⟩
    revert hg
    cases g <;> cases l <;> decide

theorem splitSsh_items (items : List Item) (hp : ∀ i ∈ items, i.Proper) :
    splitSsh (sshOptions.flatMap fun o => [o.short, o.long]) false (items.flatMap Item.args) =
      (items.flatMap Item.otherArgs, items.flatMap Item.sshArgs) := by
  induction items with
  | nil => rfl
  | cons i items ih =>
    have h1 := hp i (List.mem_cons_self ..)
    have h2 := ih fun j hj => hp j (List.mem_cons_of_mem _ hj)
    rw [List.flatMap_cons, List.flatMap_cons, List.flatMap_cons]
    cases i with
    | other a =>
      have ha : a ∉ (sshOptions.flatMap fun o => [o.short, o.long]) := fun h => h1 ((ssh_names a).1 h)
      show splitSsh _ false (a :: items.flatMap Item.args) = _
      unfold splitSsh
      rw [if_neg ha, if_neg Bool.false_ne_true, h2]
      rfl
    | ssh u =>
      have hn : u.opt.written u.long ∈ (sshOptions.flatMap fun o => [o.short, o.long]) :=
        (ssh_names _).2 ⟨u.opt, h1.1, u.long, rfl⟩
      have ha : u.value ∉ (sshOptions.flatMap fun o => [o.short, o.long]) := fun h => h1.2 ((ssh_names _).1 h)
      show splitSsh _ false (u.opt.written u.long :: u.value :: items.flatMap Item.args) = _
      unfold splitSsh
      rw [if_pos hn]
      unfold splitSsh
      rw [if_neg ha, if_pos rfl, h2]
      rfl

theorem foldl_last {V : Type} (k : PyStr) (l : List (PyStr × V)) (o : Option V) :
    l.foldl (fun o x => if x.1 = k then some x.2 else o) o = (lastValue k l).or o := by
  induction l generalizing o with
  | nil => rfl
  | cons x l ih =>
    rw [List.foldl_cons, ih]
    show _ = Option.or (match lastValue k l with
      | some v => some v
      | none => if x.1 = k then some x.2 else none) o
    cases lastValue k l with
    | some v => rfl
    | none => by_cases h : x.1 = k <;> simp [h]

end Verif.CmdLine
