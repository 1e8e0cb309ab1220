import Verif.Lemmas.ProcOut

/-!
Lemmas about commands running in the interactive shell.
-/

namespace Verif.ProcOut

/-! ### The marker -/

theorem IsMarker.no_nl {marker : PyStr} (h : IsMarker marker) : '\n' ∉ marker := by
  obtain ⟨hex, rfl, _, hh⟩ := h
  intro hm
  rcases List.mem_append.1 hm with hm | hm
  · revert hm; decide +kernel
  · have := hh _ hm; revert this; decide +kernel

theorem digits_ofNat (n : Nat) : ∀ c ∈ PyStr.ofNat n, c.isDigit = true := by
  intro c hc
  obtain ⟨h1, h2⟩ := PyStr.ofNat_digits n c hc
  simp only [Char.isDigit, Bool.and_eq_true, decide_eq_true_eq]
  constructor
  · show (48 : UInt32) ≤ c.val
    exact UInt32.le_iff_toNat_le.2 h1
  · show c.val ≤ (57 : UInt32)
    exact UInt32.le_iff_toNat_le.2 h2

theorem markerText_no_nl {marker : PyStr} (h : IsMarker marker) (code : Nat) : '\n' ∉ markerText marker code := by
  unfold markerText
  intro hm
  rcases List.mem_append.1 hm with hm | hm
  · rcases List.mem_append.1 hm with hm | hm
    · rcases List.mem_append.1 hm with hm | hm
      · exact h.no_nl hm
      · revert hm; decide +kernel
    · exact PyStr.ofNat_not_mem code (c := '\n') (by decide) hm
  · revert hm; decide +kernel

theorem EndsNl.split {o a b : PyStr} (h : EndsNl o) (he : o = a ++ b) (hb : b ≠ []) : '\n' ∈ b := by
  have hl : o.getLast? = b.getLast? := by rw [he, List.getLast?_append_of_ne_nil _ hb]
  obtain ⟨c, hc⟩ : ∃ c, b.getLast? = some c := ⟨b.getLast hb, List.getLast?_eq_some_getLast hb⟩
  rw [← h c (hl.trans hc)]
  exact List.mem_of_getLast? hc

/-- A text without a new line at the end of a text starting with `o` is behind `o`. -/
theorem behind {o m x d : PyStr} (h : EndsNl o) (hd : '\n' ∉ d) (he : x ++ d = o ++ m) :
    ∃ m1, x = o ++ m1 ∧ m = m1 ++ d := by
  rcases List.append_eq_append_iff.1 he with ⟨a, h1, h2⟩ | ⟨a, h1, h2⟩
  · by_cases ha : a = []
    · subst ha
      exact ⟨[], by simpa using h1.symm, by simpa using h2.symm⟩
    · exact absurd (by rw [h2]; exact List.mem_append_left _ (h.split h1 ha)) hd
  · exact ⟨a, h1, h2⟩

theorem markerText_cons {marker : PyStr} {hex : PyStr} (hm : marker = "--- ".toList ++ hex) (code : Nat) :
    markerText marker code = '-' :: '-' :: '-' :: ' ' :: (hex ++ ", ".toList ++ PyStr.ofNat code ++ [' ']) ++ ['-', '-', '-'] := by
  unfold markerText
  rw [hm]
  show ['-', '-', '-', ' '] ++ hex ++ ", ".toList ++ PyStr.ofNat code ++ [' ', '-', '-', '-'] = _
  simp

/-- The marker is in what the shell prints only once. -/
theorem marker_unique {marker o a b : PyStr} {code : Nat} (hm : IsMarker marker) (ho : EndsNl o)
    (hno : ¬ marker <:+: o) (he : o ++ markerText marker code = a ++ (marker ++ b)) : a = o := by
  rcases List.append_eq_append_iff.1 he with ⟨c, h1, h2⟩ | ⟨c, h1, h2⟩
  · -- behind the beginning of the marker
    cases c with
    | nil => simpa using h1
    | cons c1 c =>
      exfalso
      obtain ⟨hex, hmk, hlen, hhex⟩ := hm
      rw [markerText_cons hmk, hmk] at h2
      have h2 : '-' :: '-' :: '-' :: ' ' :: (hex ++ ", ".toList ++ PyStr.ofNat code ++ [' ']) ++ ['-', '-', '-'] =
          c1 :: c ++ ('-' :: '-' :: '-' :: ' ' :: hex ++ b) := h2
      have hnodash : '-' ∉ hex ++ ", ".toList ++ PyStr.ofNat code ++ [' '] := by
        intro hx
        rcases List.mem_append.1 hx with hx | hx
        · rcases List.mem_append.1 hx with hx | hx
          · rcases List.mem_append.1 hx with hx | hx
            · have := hhex _ hx; revert this; decide +kernel
            · revert hx; decide +kernel
          · exact PyStr.ofNat_not_mem code (c := '-') (by decide) hx
        · revert hx; decide +kernel
      generalize hP : hex ++ ", ".toList ++ PyStr.ofNat code ++ [' '] = P at h2 hnodash
      have hlenP : P.length ≥ 64 := by rw [← hP]; simp; omega
      rcases c with _ | ⟨c2, _ | ⟨c3, _ | ⟨c4, c⟩⟩⟩
      · simp at h2
      · simp at h2
      · simp at h2
      · simp only [List.cons_append, List.cons.injEq] at h2
        obtain ⟨_, _, _, _, h2⟩ := h2
        rcases List.append_eq_append_iff.1 h2 with ⟨d, h3, h4⟩ | ⟨d, h3, h4⟩
        · have := congrArg List.length h4
          simp at this
          omega
        · cases d with
          | nil =>
            have := congrArg List.length h4
            simp at this
          | cons d1 d =>
            simp only [List.cons_append, List.cons.injEq] at h4
            exact hnodash (by rw [h3, ← h4.1]; simp)
  · -- before the marker
    by_cases hc : c = []
    · subst hc; simpa using h1.symm
    exfalso
    rcases List.append_eq_append_iff.1 h2 with ⟨d, h3, h4⟩ | ⟨d, h3, h4⟩
    · exact hno ⟨a, d, by rw [h1, h3]; simp⟩
    · exact hm.no_nl (by rw [h3]; exact List.mem_append_left _ (ho.split h1 hc))

theorem markerDigits_some {marker ll ds : PyStr} (h : markerDigits marker ll = some ds) :
    ll = marker ++ ", ".toList ++ ds ++ " ---".toList ∧ ds ≠ [] ∧ ∀ c ∈ ds, c.isDigit = true := by
  unfold markerDigits at h
  dsimp only at h
  split at h
  · rename_i hp
    split at h
    · rename_i hd
      injection h with h
      obtain ⟨rest, hr⟩ := List.isPrefixOf_iff_prefix.1 hp
      rw [← hr, List.drop_left] at h hd
      refine ⟨?_, h ▸ hd.1, ?_⟩
      · rw [← hr, ← h, List.append_assoc (marker ++ _), ← hd.2]
        congr 1
        have := List.takeWhile_append_dropWhile (p := Char.isDigit) (l := rest)
        conv => lhs; rw [← List.take_append_drop (rest.takeWhile Char.isDigit).length rest]
        congr 1
        conv => lhs; arg 2; rw [← this]
        rw [List.take_left]
      · rw [← h]
        intro c hc
        exact List.all_takeWhile (p := Char.isDigit) (l := rest) |> fun hall => (List.all_eq_true.1 hall) c hc
    · cases h
  · cases h

theorem takeWhile_digits {ds t : PyStr} (hd : ∀ c ∈ ds, c.isDigit = true) :
    (ds ++ ' ' :: t).takeWhile Char.isDigit = ds := by
  induction ds with
  | nil => simp
  | cons d ds ih =>
    rw [List.cons_append, List.takeWhile_cons, if_pos (hd d (List.mem_cons_self ..)),
      ih fun c hc => hd c (List.mem_cons_of_mem _ hc)]

theorem markerDigits_text (marker : PyStr) (code : Nat) :
    markerDigits marker (markerText marker code) = some (PyStr.ofNat code) := by
  unfold markerDigits markerText
  dsimp only
  have hp : (marker ++ ", ".toList).isPrefixOf (marker ++ ", ".toList ++ PyStr.ofNat code ++ " ---".toList) = true :=
    List.isPrefixOf_iff_prefix.2 ⟨PyStr.ofNat code ++ " ---".toList, by simp⟩
  rw [if_pos hp, List.append_assoc (marker ++ ", ".toList), List.drop_left]
  have ht : (PyStr.ofNat code ++ " ---".toList).takeWhile Char.isDigit = PyStr.ofNat code :=
    takeWhile_digits (t := ['-', '-', '-']) (digits_ofNat code)
  rw [ht, List.drop_left, if_pos ⟨PyStr.ofNat_ne_nil code, rfl⟩]

/-- The exit code is the one the shell printed. -/
theorem marker_code {marker o a ds z : PyStr} {code : Nat} (hm : IsMarker marker) (ho : EndsNl o)
    (hno : ¬ marker <:+: o) (hd : ∀ c ∈ ds, c.isDigit = true)
    (he : a ++ (marker ++ ", ".toList ++ ds ++ " ---".toList) ++ z = o ++ markerText marker code) :
    a = o ∧ ds = PyStr.ofNat code ∧ z = [] := by
  have ha : a = o := by
    refine marker_unique (code := code) (b := ", ".toList ++ ds ++ " ---".toList ++ z) hm ho hno ?_
    rw [← he]; simp
  subst ha
  rw [List.append_assoc, List.append_cancel_left_eq] at he
  unfold markerText at he
  simp only [List.append_assoc, List.append_cancel_left_eq] at he
  have h1 : (ds ++ ' ' :: (['-', '-', '-'] ++ z)).takeWhile Char.isDigit = ds := takeWhile_digits hd
  have h2 : (PyStr.ofNat code ++ ' ' :: ['-', '-', '-']).takeWhile Char.isDigit = PyStr.ofNat code :=
    takeWhile_digits (digits_ofNat code)
  have he' : ds ++ ' ' :: (['-', '-', '-'] ++ z) = PyStr.ofNat code ++ ' ' :: ['-', '-', '-'] := he
  have hds : ds = PyStr.ofNat code := by rw [← h1, ← h2, he']
  refine ⟨rfl, hds, ?_⟩
  rw [hds, List.append_cancel_left_eq] at he'
  simpa using he'

/-! ### Watching for the marker -/

theorem rsplitNl_some {data a b : PyStr} (h : rsplitNl data = some (a, b)) : data = a ++ '\n' :: b ∧ '\n' ∉ b := by
  induction data generalizing a b with
  | nil => cases h
  | cons c data ih =>
    rw [rsplitNl] at h
    cases hr : rsplitNl data with
    | some p =>
      obtain ⟨a', b'⟩ := p
      rw [hr] at h
      simp only [Option.some.injEq, Prod.mk.injEq] at h
      obtain ⟨h1, h2⟩ := ih hr
      obtain ⟨rfl, rfl⟩ := h
      exact ⟨by rw [h1]; rfl, h2⟩
    | none =>
      rw [hr] at h
      dsimp only at h
      split at h
      · rename_i hc
        simp only [Option.some.injEq, Prod.mk.injEq] at h
        obtain ⟨rfl, rfl⟩ := h
        refine ⟨by rw [hc]; rfl, ?_⟩
        clear ih hc
        revert hr
        induction data with
        | nil => intro _; simp
        | cons d data ih2 =>
          intro hr
          rw [rsplitNl] at hr
          cases hr2 : rsplitNl data with
          | some p => rw [hr2] at hr; cases hr
          | none =>
            rw [hr2] at hr
            dsimp only at hr
            split at hr
            · cases hr
            · rename_i hd
              intro hx
              rcases List.mem_cons.1 hx with hx | hx
              · exact hd hx.symm
              · exact ih2 hr2 hx
      · cases h

theorem rsplitNl_none {data : PyStr} (h : rsplitNl data = none) : '\n' ∉ data := by
  induction data with
  | nil => simp
  | cons c data ih =>
    rw [rsplitNl] at h
    cases hr : rsplitNl data with
    | some p => rw [hr] at h; cases h
    | none =>
      rw [hr] at h
      dsimp only at h
      split at h
      · cases h
      · rename_i hd
        intro hx
        rcases List.mem_cons.1 hx with hx | hx
        · exact hd hx.symm
        · exact ih hr hx

/-- The state of watching: `cap` was captured, `ll` is the suspect; the part behind `o` is still suspected. -/
def Watch (o cap ll : PyStr) (check : Bool) : Prop :=
  '\n' ∉ ll ∧ ∀ m, cap ++ ll = o ++ m → '\n' ∉ m → ll = m ∧ (m = [] ∨ check = true)

theorem suspect_spec {o cap data : PyStr} {st : St} (ho : EndsNl o) (hw : Watch o cap st.ll st.checkLl) :
    cap ++ (suspect data st).1 ++ (suspect data st).2.1 = cap ++ st.ll ++ data ∧ '\n' ∉ (suspect data st).2.1 ∧
    ∀ m, cap ++ st.ll ++ data = o ++ m → '\n' ∉ m → (suspect data st).2.1 = m ∧ (suspect data st).2.2 = true := by
  unfold suspect
  cases hr : rsplitNl data with
  | some p =>
    obtain ⟨a, b⟩ := p
    obtain ⟨h1, h2⟩ := rsplitNl_some hr
    dsimp only
    refine ⟨by rw [h1]; simp, h2, fun m hm hn => ⟨?_, rfl⟩⟩
    rw [h1] at hm
    have hm' : (cap ++ st.ll ++ a ++ ['\n']) ++ b = o ++ m := by rw [← hm]; simp
    obtain ⟨m1, e1, e2⟩ := behind ho h2 hm'
    cases m1 with
    | nil => simpa using e2.symm
    | cons x xs =>
      exfalso
      apply hn
      rw [e2]
      apply List.mem_append_left
      have hl := congrArg List.getLast? e1
      rw [List.getLast?_concat, List.getLast?_append_of_ne_nil _ (by simp)] at hl
      exact List.mem_of_getLast? hl.symm
  | none =>
    have hd := rsplitNl_none hr
    dsimp only
    split
    · rename_i hc
      refine ⟨by simp, ?_, fun m hm hn => ⟨?_, rfl⟩⟩
      · intro hx
        rcases List.mem_append.1 hx with hx | hx
        · exact hw.1 hx
        · exact hd hx
      · obtain ⟨m1, e1, e2⟩ := behind ho hd hm
        have := hw.2 m1 e1 fun hx => hn (by rw [e2]; exact List.mem_append_left _ hx)
        rw [this.1, e2]
    · rename_i hc
      refine ⟨by simp, by simp, fun m hm hn => ?_⟩
      exfalso
      obtain ⟨m1, e1, e2⟩ := behind ho hd hm
      have := hw.2 m1 e1 fun hx => hn (by rw [e2]; exact List.mem_append_left _ hx)
      apply hc
      rcases this.2 with h | h
      · rw [this.1, h]; rfl
      · rw [h]; simp

/-- One chunk of the standard output stream. -/
theorem watch_spec {marker o cap data z : PyStr} {code : Nat} {st : St} (hm : IsMarker marker) (ho : EndsNl o)
    (hno : ¬ marker <:+: o) (hw : Watch o cap st.ll st.checkLl)
    (he : cap ++ st.ll ++ data ++ z = o ++ markerText marker code) :
    ∃ cdata ll check,
      (watchForMarker marker data st = ({ st with ll := ll, checkLl := check, exitcode := none }, .ok cdata) ∧
        cap ++ cdata ++ ll = cap ++ st.ll ++ data ∧ Watch o (cap ++ cdata) ll check ∧ z ≠ []) ∨
      (watchForMarker marker data st =
          ({ st with ll := [], checkLl := false, exitcode := some (code : Int) }, .ok cdata) ∧
        cap ++ cdata = o ∧ z = [] ∧ ll = [] ∧ check = false) := by
  obtain ⟨h1, h2, h3⟩ := suspect_spec (data := data) ho hw
  have hM := markerText_no_nl hm code
  unfold watchForMarker
  cases hs : suspect data st with
  | mk cdata rest =>
    obtain ⟨ll, chk⟩ := rest
    rw [hs] at h1 h2 h3
    dsimp only at h1 h2 h3 ⊢
    -- the part behind `o`
    have hcmp : ∀ m, cap ++ st.ll ++ data = o ++ m →
        ll = m ∧ (chk && (marker.isPrefixOf ll || ll.isPrefixOf marker)) = true := by
      intro m hmm
      have hpre : m ++ z = markerText marker code := by
        rw [hmm, List.append_assoc, List.append_cancel_left_eq] at he; exact he
      have hn : '\n' ∉ m := fun hx => hM (by rw [← hpre]; exact List.mem_append_left _ hx)
      obtain ⟨e1, e2⟩ := h3 m hmm hn
      refine ⟨e1, ?_⟩
      rw [e2, e1, Bool.true_and, Bool.or_eq_true]
      unfold markerText at hpre
      rw [List.append_assoc, List.append_assoc] at hpre
      rcases List.append_eq_append_iff.1 hpre with ⟨a, e, _⟩ | ⟨a, e, _⟩
      · exact Or.inr (List.isPrefixOf_iff_prefix.2 ⟨a, e.symm⟩)
      · exact Or.inl (List.isPrefixOf_iff_prefix.2 ⟨a, e.symm⟩)
    have hwatch : ∀ check, (check = (chk && (marker.isPrefixOf ll || ll.isPrefixOf marker))) →
        Watch o (cap ++ cdata) ll check := by
      intro check hc
      refine ⟨h2, fun m hmm hn => ?_⟩
      obtain ⟨e1, e2⟩ := hcmp m (by rw [← h1]; exact hmm)
      exact ⟨e1, Or.inr (by rw [hc]; exact e2)⟩
    split
    · rename_i hc
      cases hd : markerDigits marker ll with
      | none =>
        refine ⟨cdata, ll, true, Or.inl ⟨by rw [hc], h1, hwatch true hc.symm, ?_⟩⟩
        intro hz
        rw [hz, List.append_nil] at he
        obtain ⟨e1, _⟩ := hcmp _ he
        rw [e1, markerDigits_text] at hd
        cases hd
      | some ds =>
        obtain ⟨e1, e2, e3⟩ := markerDigits_some hd
        rw [← h1, e1] at he
        obtain ⟨f1, f2, f3⟩ := marker_code hm ho hno e3 he
        have hp : EP.parse10 ds = .ok (code : Int) := by rw [f2]; exact EP.parse10_ofNat code
        refine ⟨cdata, [], false, Or.inr ⟨?_, f1, f3, rfl, rfl⟩⟩
        dsimp only
        rw [if_neg (by rw [EP.isInt_of_parse10 hp]; decide), hp]
    · rename_i hc
      have hc : (chk && (marker.isPrefixOf ll || ll.isPrefixOf marker)) = false := by
        exact Bool.eq_false_iff.2 hc
      refine ⟨cdata, ll, false, Or.inl ⟨by rw [hc], h1, hwatch false hc.symm, ?_⟩⟩
      intro hz
      rw [hz, List.append_nil] at he
      rw [(hcmp _ he).2] at hc
      cases hc

/-! ### The loop -/

/-- The invariant of the object of the shell: the command prints `o` and then the marker. -/
structure SInv (marker o : PyStr) (code : Nat) (got : Stream → List PyStr) (st : St) : Prop where
  err : ∃ fed, Split (got .err ++ st.output .err) (st.rem .err) fed ∧ fed ++ text st.queue .err = text st.arrived .err
  out : ∃ cap, Split (got .out ++ st.output .out) (st.rem .out) cap ∧
    ((st.exitcode = none ∧ cap ++ st.ll ++ text st.queue .out = text st.arrived .out ∧ Watch o cap st.ll st.checkLl ∧
        cap ++ st.ll ≠ o ++ markerText marker code) ∨
     (st.exitcode = some (code : Int) ∧ cap = o ∧ st.ll = [] ∧
        o ++ markerText marker code ++ text st.queue .out = text st.arrived .out))
  queued : ∀ i ∈ st.queue, i ∈ st.arrived

/-- What arrived so far from the standard output stream is the beginning of what the shell prints. -/
def Pre (marker o : PyStr) (code : Nat) (st : St) : Prop :=
  (∃ z, text st.arrived .out ++ z = o ++ markerText marker code) ∧ Chunks st.arrived

theorem Pre.mono {marker o : PyStr} {code : Nat} {st st' : St} (h : Pre marker o code st')
    (he : ∃ x, st'.arrived = st.arrived ++ x) : Pre marker o code st := by
  obtain ⟨x, hx⟩ := he
  obtain ⟨⟨z, hz⟩, hc⟩ := h
  refine ⟨⟨text x .out ++ z, ?_⟩, fun s hs => hc s (by rw [hx]; exact List.mem_append_left _ hs)⟩
  rw [← hz, hx, text_append, List.append_assoc]

theorem sinv_put {marker o : PyStr} {code : Nat} {got : Stream → List PyStr} {st : St}
    (h : SInv marker o code got st) (items : List Item) : SInv marker o code got (put items st) := by
  refine ⟨?_, ?_, fun i hi => ?_⟩
  · obtain ⟨fed, hf, he⟩ := h.err
    refine ⟨fed, hf, ?_⟩
    show fed ++ text (st.queue ++ items) _ = text (st.arrived ++ items) _
    rw [text_append, text_append, ← he, List.append_assoc]
  · obtain ⟨cap, hf, hc⟩ := h.out
    refine ⟨cap, hf, ?_⟩
    rcases hc with ⟨h1, h2, h3, h4⟩ | ⟨h1, h2, h3, h4⟩
    · refine Or.inl ⟨h1, ?_, h3, h4⟩
      show cap ++ st.ll ++ text (st.queue ++ items) _ = text (st.arrived ++ items) _
      rw [text_append, text_append, ← h2]; simp
    · refine Or.inr ⟨h1, h2, h3, ?_⟩
      show o ++ markerText marker code ++ text (st.queue ++ items) _ = text (st.arrived ++ items) _
      rw [text_append, text_append, ← h4]; simp
  · rcases List.mem_append.1 hi with hi | hi
    · exact List.mem_append_left _ (h.queued i hi)
    · exact List.mem_append_right _ hi

theorem sinv_err {marker o : PyStr} {code : Nat} {got : Stream → List PyStr} {st : St}
    (h : SInv marker o code got st) {data : PyStr} {queue : List Item} (hq : st.queue = (.err, some data) :: queue) :
    SInv marker o code got (handleItem .err data { st with queue := queue }) := by
  obtain ⟨h1, h2⟩ := handleItem_other (st := { st with queue := queue }) (s := .err) (t := .out) data (by decide)
  refine ⟨?_, ?_, fun i hi => h.queued i (hq ▸ List.mem_cons_of_mem _ hi)⟩
  · obtain ⟨fed, hf, he⟩ := h.err
    refine ⟨fed ++ data, handleItem_split (st := { st with queue := queue }) data hf, ?_⟩
    rw [hq, text_cons] at he
    simp only [if_true, Option.getD_some] at he
    rw [List.append_assoc]; exact he
  · obtain ⟨cap, hf, hc⟩ := h.out
    rw [hq, text_cons] at hc
    simp only [reduceCtorEq, if_false, List.nil_append] at hc
    refine ⟨cap, ?_, hc⟩
    rw [h1, h2]; exact hf

theorem sinv_out {marker o : PyStr} {code : Nat} {got : Stream → List PyStr} {st : St} (hm : IsMarker marker)
    (ho : EndsNl o) (hno : ¬ marker <:+: o) (h : SInv marker o code got st) (hp : Pre marker o code st) {data : PyStr}
    {queue : List Item} (hq : st.queue = (.out, some data) :: queue) :
    ∃ st' cdata, watchForMarker marker data { st with queue := queue } = (st', .ok cdata) ∧
      st'.arrived = st.arrived ∧ st'.queue = queue ∧ SInv marker o code got (handleItem .out cdata st') := by
  have hdata : data ≠ [] := fun e => hp.2 .out (h.queued _ (by rw [hq, e]; exact List.mem_cons_self ..))
  obtain ⟨z, hz⟩ := hp.1
  obtain ⟨cap, hf, hc⟩ := h.out
  obtain ⟨fede, hfe, hee⟩ := h.err
  rw [hq, text_cons] at hee
  simp only [reduceCtorEq, if_false, List.nil_append] at hee
  rcases hc with ⟨h1, h2, h3, h4⟩ | ⟨h1, h2, h3, h4⟩
  · rw [hq, text_cons] at h2
    simp only [if_true, Option.getD_some] at h2
    have he : cap ++ st.ll ++ data ++ (text queue .out ++ z) = o ++ markerText marker code := by
      rw [← hz, ← h2]; simp
    obtain ⟨cdata, ll, check, hw⟩ := watch_spec (st := { st with queue := queue }) hm ho hno h3 he
    rcases hw with ⟨w1, w2, w3, w4⟩ | ⟨w1, w2, w3, _, _⟩
    · refine ⟨_, cdata, w1, rfl, rfl, ?_⟩
      obtain ⟨g1, g2⟩ := handleItem_other
        (st := { st with queue := queue, ll := ll, checkLl := check, exitcode := none }) (s := .out) (t := .err) cdata
        (by decide)
      refine ⟨⟨fede, ?_, hee⟩, ⟨cap ++ cdata, ?_, Or.inl ⟨rfl, ?_, w3, ?_⟩⟩,
        fun i hi => h.queued i (hq ▸ List.mem_cons_of_mem _ hi)⟩
      · rw [g1, g2]; exact hfe
      · exact handleItem_split (st := { st with queue := queue, ll := ll, checkLl := check, exitcode := none }) cdata hf
      · show cap ++ cdata ++ ll ++ text queue .out = text st.arrived .out
        rw [w2, ← h2]
        show cap ++ st.ll ++ data ++ text queue .out = _
        simp
      · intro e
        have e : cap ++ cdata ++ ll = o ++ markerText marker code := e
        have w2 : cap ++ cdata ++ ll = cap ++ st.ll ++ data := w2
        rw [← he, w2] at e
        exact w4 (by simpa using e)
    · refine ⟨_, cdata, w1, rfl, rfl, ?_⟩
      obtain ⟨g1, g2⟩ := handleItem_other
        (st := { st with queue := queue, ll := [], checkLl := false, exitcode := some (code : Int) }) (s := .out)
        (t := .err) cdata (by decide)
      refine ⟨⟨fede, ?_, hee⟩, ⟨cap ++ cdata, ?_, Or.inr ⟨rfl, w2, rfl, ?_⟩⟩,
        fun i hi => h.queued i (hq ▸ List.mem_cons_of_mem _ hi)⟩
      · rw [g1, g2]; exact hfe
      · exact handleItem_split
          (st := { st with queue := queue, ll := [], checkLl := false, exitcode := some (code : Int) }) cdata hf
      · show o ++ markerText marker code ++ text queue .out = text st.arrived .out
        obtain ⟨q1, q2⟩ := List.append_eq_nil_iff.1 w3
        rw [← hz, q2, q1]; simp
  · exfalso
    rw [hq, text_cons] at h4
    simp only [if_true, Option.getD_some] at h4
    rw [← h4] at hz
    have : data ++ text queue .out ++ z = [] := by
      have := hz
      rw [List.append_assoc, List.append_assoc] at this
      simpa using this
    exact hdata (List.append_eq_nil_iff.1 (List.append_eq_nil_iff.1 this).1).1

theorem watch_arrived {marker data : PyStr} {st : St} :
    (watchForMarker marker data st).1.arrived = st.arrived := by
  unfold watchForMarker
  cases suspect data st with
  | mk a b =>
    obtain ⟨b, c⟩ := b
    dsimp only
    split
    · split
      · rfl
      · split
        · rfl
        · split <;> rfl
    · rfl

theorem shell_arrived (marker : PyStr) (w : Wait) (ticks : List Tick) (st : St) :
    ∃ x, (shellLoop marker w ticks st).1.arrived = st.arrived ++ x := by
  induction ticks generalizing st with
  | nil => exact ⟨[], by simp [shellLoop]⟩
  | cons t ticks ih =>
    rw [shellLoop]
    split
    · exact ⟨[], by simp⟩
    have stop : ∀ s : St, s.arrived = st.arrived ++ t.arrive → ∃ x, s.arrived = st.arrived ++ x :=
      fun s hs => ⟨t.arrive, hs⟩
    have go : ∀ s : St, s.arrived = st.arrived ++ t.arrive →
        ∃ x, (shellLoop marker w ticks s).1.arrived = st.arrived ++ x := by
      intro s hs
      obtain ⟨x, hx⟩ := ih s
      exact ⟨t.arrive ++ x, by rw [hx, hs]; simp⟩
    have hp : (put t.arrive st).arrived = st.arrived ++ t.arrive := rfl
    generalize put t.arrive st = sp at hp
    dsimp only
    split
    · exact stop _ hp
    split
    · split
      · exact stop _ hp
      · exact go _ hp
    · exact stop _ hp
    · split
      · exact stop _ hp
      · exact go _ hp
    · rename_i data queue hq
      have ha := watch_arrived (marker := marker) (data := data) (st := { sp with queue := queue })
      cases hw : watchForMarker marker data { sp with queue := queue } with
      | mk s1 res =>
        rw [hw] at ha
        have hb : s1.arrived = st.arrived ++ t.arrive := ha.trans hp
        cases res with
        | error e => exact stop _ hb
        | ok cdata =>
          dsimp only
          split
          · exact stop _ hb
          · exact go _ hb

theorem sinv_loop {marker o : PyStr} {code : Nat} {got : Stream → List PyStr} {w : Wait} (hm : IsMarker marker)
    (ho : EndsNl o) (hno : ¬ marker <:+: o) (ticks : List Tick) {st : St} (h : SInv marker o code got st)
    (hp : Pre marker o code (shellLoop marker w ticks st).1) (hok : (shellLoop marker w ticks st).2 = .ok ()) :
    SInv marker o code got (shellLoop marker w ticks st).1 := by
  induction ticks generalizing st with
  | nil => exact h
  | cons t ticks ih =>
    have hmono : ∀ s : St, Pre marker o code (shellLoop marker w ticks s).1 → Pre marker o code s :=
      fun s hs => hs.mono (shell_arrived ..)
    rw [shellLoop] at hp hok ⊢
    split
    · exact h
    rename_i hen
    rw [if_neg hen] at hp hok
    have hip := sinv_put h t.arrive
    generalize put t.arrive st = sp at hip hp hok
    dsimp only at hp hok ⊢
    split
    · exact hip
    rename_i hx
    rw [if_neg hx] at hp hok
    split
    · rename_i hq
      rw [hq] at hp hok
      dsimp only at hp hok
      split
      · exact hip
      · rename_i hl
        rw [if_neg hl] at hp hok
        exact ih hip hp hok
    · rename_i s queue hq
      rw [hq] at hok
      cases hok
    · rename_i data queue hq
      rw [hq] at hp hok
      dsimp only at hp hok
      have h1 := sinv_err hip hq
      split
      · exact h1
      · rename_i hl
        rw [if_neg hl] at hp hok
        exact ih h1 hp hok
    · rename_i data queue hq
      rw [hq] at hp hok
      dsimp only at hp hok
      have hpre : Pre marker o code sp := by
        have ha := watch_arrived (marker := marker) (data := data) (st := { sp with queue := queue })
        cases hw : watchForMarker marker data { sp with queue := queue } with
        | mk s1 res =>
          rw [hw] at ha hp hok
          have hb : s1.arrived = sp.arrived := ha
          cases res with
          | error e => cases hok
          | ok cdata =>
            dsimp only at hp
            have : Pre marker o code (handleItem .out cdata s1) := by
              split at hp
              · exact hp
              · exact hmono _ hp
            exact this.mono ⟨[], by rw [List.append_nil]; exact hb⟩
      obtain ⟨s1, cdata, hw, _, _, h1⟩ := sinv_out hm ho hno hip hpre hq
      rw [hw] at hp hok ⊢
      dsimp only at hp hok ⊢
      split
      · exact h1
      · rename_i hl
        rw [if_neg hl] at hp hok
        exact ih h1 hp hok

theorem sinv_return {marker o : PyStr} {code : Nat} {got : Stream → List PyStr} {st : St}
    (h : SInv marker o code got st) (lines : Limits) :
    SInv marker o code (fun s => got s ++ (linesToReturn lines st).2 s) (linesToReturn lines st).1 := by
  have hl : ∀ s, got s ++ (linesToReturn lines st).2 s ++ (linesToReturn lines st).1.output s = got s ++ st.output s := by
    intro s
    show got s ++ (st.output s).take _ ++ (st.output s).drop _ = _
    rw [List.append_assoc, List.take_append_drop]
  refine ⟨?_, ?_, h.queued⟩
  · obtain ⟨fed, hf, he⟩ := h.err
    exact ⟨fed, by rw [hl]; exact hf, he⟩
  · obtain ⟨cap, hf, hc⟩ := h.out
    exact ⟨cap, by rw [hl]; exact hf, hc⟩

theorem waitLow_shell {marker : PyStr} {w : Wait} {st st' : St} {lines : Stream → List PyStr}
    (h : waitLow (.shell marker) w st = (st', .ok lines)) :
    (shellLoop marker w w.ticks st).2 = .ok () ∧
    st' = put w.after (linesToReturn w.lines (shellLoop marker w w.ticks st).1).1 ∧
    lines = (linesToReturn w.lines (shellLoop marker w w.ticks st).1).2 := by
  unfold waitLow at h
  dsimp only at h
  cases hs : shellLoop marker w w.ticks st with
  | mk s1 res =>
    rw [hs] at h
    cases res with
    | error e => cases h
    | ok u =>
      injection h with h1 h2
      injection h2 with h2
      exact ⟨rfl, h1.symm, h2.symm⟩

theorem wait_arrived {marker : PyStr} {w : Wait} {st st' : St} {r : Result}
    (h : wait (.shell marker) w st = (st', .ok r)) : ∃ x, st'.arrived = st.arrived ++ x := by
  rcases (wait_ok h).2 with ⟨_, rfl, _⟩ | ⟨_, lines, hl, _⟩
  · exact ⟨[], by simp⟩
  · obtain ⟨_, rfl, _⟩ := waitLow_shell hl
    obtain ⟨x, hx⟩ := shell_arrived marker w w.ticks st
    refine ⟨x ++ w.after, ?_⟩
    show (shellLoop marker w w.ticks st).1.arrived ++ w.after = _
    rw [hx]; simp

theorem sinv_wait {marker o : PyStr} {code : Nat} {got : Stream → List PyStr} {w : Wait} {st st' : St} {r : Result}
    (hm : IsMarker marker) (ho : EndsNl o) (hno : ¬ marker <:+: o) (h : SInv marker o code got st)
    (hr : wait (.shell marker) w st = (st', .ok r)) (hp : Pre marker o code st') :
    SInv marker o code (fun s => got s ++ r.lines s) st' := by
  rcases (wait_ok hr).2 with ⟨_, rfl, rfl⟩ | ⟨_, lines, hl, rfl⟩
  · simpa using h
  · obtain ⟨h1, rfl, rfl⟩ := waitLow_shell hl
    have hp1 : Pre marker o code (shellLoop marker w w.ticks st).1 := hp.mono ⟨w.after, rfl⟩
    exact sinv_put (sinv_return (sinv_loop hm ho hno _ h hp1 h1) w.lines) w.after

theorem sinv_new {marker o : PyStr} (code : Nat) {st : St} (hq : st.queue = []) :
    SInv marker o code (fun _ => []) (reinit st) := by
  have ha : (reinit st).arrived = [] := hq
  have hq' : (reinit st).queue = [] := hq
  refine ⟨⟨[], Split.nil, ?_⟩, ⟨[], Split.nil, Or.inl ⟨rfl, ?_, ⟨by simp [reinit], ?_⟩, ?_⟩⟩, ?_⟩
  · rw [ha, hq']; rfl
  · rw [ha, hq']; rfl
  · intro m he _
    have he : [] = o ++ m := he
    obtain ⟨_, rfl⟩ := List.append_eq_nil_iff.1 he.symm
    exact ⟨rfl, Or.inl rfl⟩
  · intro he
    have he : [] = o ++ markerText marker code := he
    obtain ⟨_, h2⟩ := List.append_eq_nil_iff.1 he.symm
    exact absurd h2 (by simp [markerText])
  · rw [hq']; simp

/-- When the exit code is known and everything was consumed. -/
theorem sinv_done {marker o : PyStr} {code : Nat} {got : Stream → List PyStr} {st : St} (ho : EndsNl o)
    (h : SInv marker o code got st) (hd : isDone st = true) :
    st.exitcode = some (code : Int) ∧ (got .out).flatten = o ∧ (∀ l ∈ got .out, IsLine l) ∧
    ('\r' ∉ o → got .out = fullLines o) ∧
    (∃ rest, NoEnd rest ∧ (got .err).flatten ++ rest = text st.arrived .err) ∧
    ('\r' ∉ text st.arrived .err → got .err = fullLines (text st.arrived .err)) := by
  obtain ⟨_, hx, h1, h2, hq⟩ := isDone_iff.1 hd
  obtain ⟨cap, hf, hc⟩ := h.out
  rcases hc with ⟨e1, _⟩ | ⟨e1, e2, _, _⟩
  · rw [e1] at hx; cases hx
  subst e2
  rw [h1, List.append_nil] at hf
  have hrem : st.rem .out = [] := by
    by_cases hne : st.rem .out = []
    · exact hne
    · exact absurd (ho.split hf.concat.symm hne) hf.noEnd.1
  obtain ⟨fed, hfe, hee⟩ := h.err
  rw [h2, List.append_nil] at hfe
  rw [hq, text_nil, List.append_nil] at hee
  subst hee
  refine ⟨e1, ?_, hf.lines, fun hcr => ?_, ⟨_, hfe.noEnd, hfe.concat⟩, fun hcr => ?_⟩
  · have := hf.concat; rw [hrem, List.append_nil] at this; exact this
  · rw [(hf.exact hcr).1, extract_fullLines _ hcr]
  · rw [(hfe.exact hcr).1, extract_fullLines _ hcr]

/-! ### The first line -/

theorem EndsNl.cons {d out : PyStr} (h : EndsNl out) : EndsNl (d ++ '\n' :: out) := by
  intro c hc
  rw [List.getLast?_append_of_ne_nil _ (by simp)] at hc
  cases out with
  | nil => simpa using hc.symm
  | cons x out =>
    rw [List.getLast?_cons_cons] at hc
    exact h c hc

theorem digits_not_mem {n : Nat} {c : Char} (hc : c.isDigit = false) : c ∉ PyStr.ofNat n := by
  intro h
  rw [digits_ofNat n c h] at hc
  cases hc

theorem marker_behind {marker out : PyStr} {n : Nat} (hm : IsMarker marker) (h : ¬ marker <:+: out) :
    ¬ marker <:+: PyStr.ofNat n ++ '\n' :: out := by
  rintro ⟨a, b, he⟩
  have hnl := hm.no_nl
  obtain ⟨hex, hmk, _, _⟩ := hm
  have hmk : ∃ y, marker = '-' :: y := ⟨"-- ".toList ++ hex, by rw [hmk]; rfl⟩
  obtain ⟨y, hy⟩ := hmk
  have hd : ('-' : Char) ∉ PyStr.ofNat n := digits_not_mem (by decide)
  rw [List.append_assoc] at he
  rcases List.append_eq_append_iff.1 he with ⟨c, h1, h2⟩ | ⟨c, h1, h2⟩
  · -- the marker begins in the digits or at the new line
    cases c with
    | nil =>
      rw [List.nil_append, hy] at h2
      injection h2 with h2
      exact absurd h2 (by decide)
    | cons x c =>
      rw [hy] at h2
      injection h2 with h2 _
      subst h2
      exact hd (by rw [h1]; simp)
  · cases c with
    | nil =>
      rw [List.nil_append, hy] at h2
      injection h2 with h2
      exact absurd h2 (by decide)
    | cons x c =>
      injection h2 with _ h2
      exact h ⟨c, b, by rw [h2, List.append_assoc]; rfl⟩

theorem first_line {line rest out : PyStr} {n : Nat} (hl : IsLine line)
    (he : line ++ rest = PyStr.ofNat n ++ '\n' :: out) : line = PyStr.ofNat n ++ ['\n'] ∧ rest = out := by
  obtain ⟨a, c, rfl, hc, ha⟩ := hl
  have hcd : c ∉ PyStr.ofNat n := digits_not_mem (by rcases hc with rfl | rfl <;> decide)
  rw [List.append_assoc] at he
  rcases List.append_eq_append_iff.1 he with ⟨x, h1, h2⟩ | ⟨x, h1, h2⟩
  · cases x with
    | nil =>
      simp only [List.singleton_append, List.nil_append, List.cons.injEq] at h2
      rw [List.append_nil] at h1
      rw [h1, h2.1]
      exact ⟨rfl, h2.2⟩
    | cons y x =>
      simp only [List.cons_append, List.cons.injEq] at h2
      exact absurd (by rw [h1, h2.1]; simp) hcd
  · cases x with
    | nil =>
      simp only [List.singleton_append, List.nil_append, List.cons.injEq] at h2
      rw [List.append_nil] at h1
      rw [h1, ← h2.1]
      exact ⟨rfl, h2.2.symm⟩
    | cons y x =>
      simp only [List.cons_append, List.cons.injEq] at h2
      exact absurd (by rw [h1, ← h2.1]; simp) ha

theorem fullLines_first (n : Nat) (out : PyStr) :
    fullLines (PyStr.ofNat n ++ '\n' :: out) = (PyStr.ofNat n ++ ['\n']) :: fullLines out := by
  unfold fullLines
  rw [PyStr.splitC_append (digits_not_mem (by decide)), List.dropLast_cons_of_ne_nil (PyStr.splitC_ne_nil _ _), List.map_cons]

theorem readPid_ok {k : Kind} {w : Wait} {st st' : St} {pid : Int} (h : readPid k w st = (st', .ok pid)) :
    ∃ st1 line r, wait k { w with lines := pidLimits, zero := false } st = (st1, .ok r) ∧ r.lines .out = [line] ∧
      r.lines .err = [] ∧ st' = { st1 with cnt := upd st1.cnt .out (st1.cnt .out - 1) } ∧
      EP.parse10 (PyStr.strip line) = .ok pid := by
  unfold readPid at h
  cases hw : wait k { w with lines := pidLimits, zero := false } st with
  | mk st1 res =>
    rw [hw] at h
    cases res with
    | error e => cases h
    | ok r =>
      dsimp only at h
      split at h
      · rename_i line h1 h2
        split at h
        · cases h
        split at h
        · cases h
        split at h
        · cases h
        · rename_i p hp
          injection h with h3 h4
          injection h4 with h4
          subst h4
          exact ⟨st1, line, r, rfl, h1, h2, h3.symm, hp⟩
      · cases h

/-! ### Progress -/

theorem put_nil (st : St) : put [] st = st := by simp [put]

/-- Everything has arrived: the loop finds the marker. -/
theorem shell_live {marker o : PyStr} {code : Nat} {got : Stream → List PyStr} {w : Wait} (hm : IsMarker marker)
    (ho : EndsNl o) (hno : ¬ marker <:+: o) (hz : w.zero = false) (hl : w.lines = noLimits) (n : Nat) {st : St}
    (h : SInv marker o code got st) (hc : Chunks st.arrived) (ha : text st.arrived .out = o ++ markerText marker code)
    (hs : ∀ s, (s, none) ∉ st.queue) (hn : st.queue.length < n) :
    (shellLoop marker w (List.replicate n ⟨[], false⟩) st).2 = .ok () ∧
    (shellLoop marker w (List.replicate n ⟨[], false⟩) st).1.queue = [] ∧
    (shellLoop marker w (List.replicate n ⟨[], false⟩) st).1.exitcode = some (code : Int) ∧
    (shellLoop marker w (List.replicate n ⟨[], false⟩) st).1.arrived = st.arrived := by
  induction n generalizing st with
  | zero => omega
  | succ n ih =>
    have hp : Pre marker o code st := ⟨⟨[], by rw [List.append_nil]; exact ha⟩, hc⟩
    have hen : haveEnoughLines st.output w.lines = false := by rw [hl]; rfl
    rw [List.replicate_succ, shellLoop, if_neg (by rw [hen]; decide)]
    dsimp only
    rw [put_nil]
    by_cases hd : (st.exitcode.isSome && st.queue.isEmpty) = true
    · rw [if_pos hd]
      simp only [Bool.and_eq_true, List.isEmpty_iff] at hd
      refine ⟨rfl, hd.2, ?_, rfl⟩
      obtain ⟨cap, _, hc⟩ := h.out
      rcases hc with ⟨e1, _⟩ | ⟨e1, _⟩
      · rw [e1] at hd; cases hd.1
      · exact e1
    rw [if_neg hd]
    cases hq : st.queue with
    | nil =>
      exfalso
      obtain ⟨cap, _, hc⟩ := h.out
      rcases hc with ⟨_, e2, _, e4⟩ | ⟨e1, _⟩
      · rw [hq, text_nil, List.append_nil, ha] at e2
        exact e4 e2
      · rw [e1, hq] at hd; exact hd rfl
    | cons i queue =>
      rw [hq] at hn
      have hn' : queue.length < n := by simp only [List.length_cons] at hn; omega
      obtain ⟨s, data⟩ := i
      have hs' : ∀ t, (t, none) ∉ queue := fun t ht => hs t (hq ▸ List.mem_cons_of_mem _ ht)
      cases data with
      | none => exact absurd (by rw [hq]; exact List.mem_cons_self ..) (hs s)
      | some data =>
        cases s with
        | err =>
          dsimp only
          rw [hz, if_neg (by decide)]
          exact ih (sinv_err h hq) hc ha hs' hn'
        | out =>
          obtain ⟨s1, cdata, hw, h1, h2, h3⟩ := sinv_out hm ho hno h hp hq
          dsimp only
          rw [hw]
          dsimp only
          rw [hz, if_neg (by decide), ← h1]
          have q1 : (handleItem .out cdata s1).arrived = st.arrived := h1
          have q2 : (handleItem .out cdata s1).queue = queue := h2
          obtain ⟨r1, r2, r3, r4⟩ := ih (st := handleItem .out cdata s1) h3 (by rw [q1]; exact hc) (by rw [q1]; exact ha)
            (by rw [q2]; exact hs') (by rw [q2]; exact hn')
          exact ⟨r1, r2, r3, r4⟩

theorem return_all (st : St) (s : Stream) : (linesToReturn noLimits st).1.output s = [] := by
  show (st.output s).drop (st.output s).length = []
  simp

theorem wait_live {marker o : PyStr} {code : Nat} {got : Stream → List PyStr} {w : Wait} (hm : IsMarker marker)
    (ho : EndsNl o) (hno : ¬ marker <:+: o) (hz : w.zero = false) (hl : w.lines = noLimits) (n : Nat)
    (ht : w.ticks = List.replicate n ⟨[], false⟩) (haf : w.after = []) {st : St} (h : SInv marker o code got st)
    (hc : Chunks st.arrived) (ha : text st.arrived .out = o ++ markerText marker code)
    (hs : ∀ s, (s, none) ∉ st.queue) (hn : st.queue.length < n) :
    (∃ st' r, wait (.shell marker) w st = (st', .ok r) ∧ r.exitcode = some (code : Int)) ∨
      (code = 127 ∧ ∃ st', wait (.shell marker) w st = (st', .error .notFound)) := by
  unfold wait
  rw [if_neg (by rw [hl]; decide)]
  by_cases hd : isDone st = true
  · rw [if_pos hd]
    exact Or.inl ⟨_, _, rfl, (sinv_done ho h hd).1⟩
  rw [if_neg hd]
  obtain ⟨r1, r2, r3, r4⟩ := shell_live hm ho hno hz hl n h hc ha hs hn
  have hi : SInv marker o code got (shellLoop marker w (List.replicate n ⟨[], false⟩) st).1 :=
    sinv_loop hm ho hno _ h ⟨⟨[], by rw [List.append_nil, r4]; exact ha⟩, by rw [r4]; exact hc⟩ r1
  unfold waitLow
  dsimp only
  rw [ht]
  generalize hg : shellLoop marker w (List.replicate n ⟨[], false⟩) st = res at r1 r2 r3 r4 hi
  obtain ⟨s1, u⟩ := res
  dsimp only at r1 r2 r3 r4 hi
  subst r1
  dsimp only
  rw [haf, put_nil, hl]
  have hx : (linesToReturn noLimits s1).1.exitcode = some (code : Int) := r3
  have hdone : isDone (linesToReturn noLimits s1).1 = true := by
    rw [isDone_iff]
    refine ⟨?_, by rw [hx]; rfl, return_all _ _, return_all _ _, r2⟩
    obtain ⟨cap, _, hc⟩ := hi.out
    rcases hc with ⟨e1, _⟩ | ⟨_, _, e3, _⟩
    · rw [e1] at r3; cases r3
    · exact e3
  split
  · rename_i hbad
    rw [hx] at hbad
    refine Or.inr ⟨?_, _, rfl⟩
    have := hbad.1
    injection this with this
    omega
  · refine Or.inl ⟨_, _, rfl, ?_⟩
    dsimp only
    exact hx

/-- What is captured is never a part of the marker. -/
theorem SInv.cap_le {marker o cap : PyStr} {code : Nat} {st : St} (hm : IsMarker marker)
    (hp : Pre marker o code st) (h2 : cap ++ st.ll ++ text st.queue .out = text st.arrived .out)
    (h3 : Watch o cap st.ll st.checkLl) : cap <+: o := by
  obtain ⟨⟨z, hz⟩, _⟩ := hp
  rw [← h2, List.append_assoc, List.append_assoc] at hz
  rcases List.append_eq_append_iff.1 hz with ⟨x, h4, _⟩ | ⟨x, h4, h5⟩
  · exact ⟨x, h4.symm⟩
  · have hnl : '\n' ∉ x ++ st.ll := by
      intro hmem
      apply markerText_no_nl (code := code) hm
      rw [h5, ← List.append_assoc]
      exact List.mem_append_left _ hmem
    have := (h3.2 (x ++ st.ll) (by rw [h4, List.append_assoc]) hnl).1
    have hx : x = [] := by
      have := congrArg List.length this
      rw [List.length_append] at this
      exact List.eq_nil_of_length_eq_zero (by omega)
    rw [h4, hx, List.append_nil]

/-! ### More time -/

theorem shellLoop_congr {marker : PyStr} {w w' : Wait} (hz : w.zero = w'.zero) (hl : w.lines = w'.lines)
    (ticks : List Tick) (st : St) : shellLoop marker w ticks st = shellLoop marker w' ticks st := by
  induction ticks generalizing st with
  | nil => rfl
  | cons t ticks ih =>
    rw [shellLoop, shellLoop, hz, hl]
    simp only [ih]

/-- If there is nothing more to read, and the marker was not found, more time does not help. -/
theorem shell_more {marker : PyStr} {w : Wait} (hl : w.lines = noLimits) (k m : Nat) {st : St}
    (hx : (shellLoop marker w (List.replicate k ⟨[], false⟩) st).1.exitcode = none)
    (hq : (shellLoop marker w (List.replicate k ⟨[], false⟩) st).1.queue = []) :
    shellLoop marker w (List.replicate (k + m) ⟨[], false⟩) st = shellLoop marker w (List.replicate k ⟨[], false⟩) st := by
  have hen : ∀ s : St, haveEnoughLines s.output w.lines = false := by intro s; rw [hl]; rfl
  induction k generalizing st with
  | zero =>
    have hx : st.exitcode = none := hx
    have hq : st.queue = [] := hq
    show shellLoop marker w (List.replicate (0 + m) ⟨[], false⟩) st = (st, .ok ())
    rw [Nat.zero_add]
    induction m with
    | zero => rfl
    | succ m ih =>
      rw [List.replicate_succ, shellLoop, if_neg (by rw [hen]; decide)]
      dsimp only
      rw [put_nil, hx, hq]
      dsimp only
      rw [if_neg (by decide), ih]
      split <;> rfl
  | succ k ih =>
    rw [Nat.succ_add]
    simp only [List.replicate_succ, shellLoop, hen, put_nil, Bool.false_eq_true, if_false] at hx hq ⊢
    split
    · rfl
    rename_i hd
    rw [if_neg hd] at hx hq
    split
    · rename_i hqq
      rw [hqq] at hx hq
      dsimp only at hx hq
      split
      · rfl
      · rename_i hzz
        rw [if_neg hzz] at hx hq
        exact ih hx hq
    · rfl
    · rename_i data queue hqq
      rw [hqq] at hx hq
      dsimp only at hx hq
      split
      · rfl
      · rename_i hzz
        rw [if_neg hzz] at hx hq
        exact ih hx hq
    · rename_i data queue hqq
      rw [hqq] at hx hq
      dsimp only at hx hq
      cases hw : watchForMarker marker data { st with queue := queue } with
      | mk s1 res =>
        rw [hw] at hx hq
        cases res with
        | error e => rfl
        | ok cdata =>
          dsimp only at hx hq ⊢
          split
          · rfl
          · rename_i hzz
            rw [if_neg hzz] at hx hq
            exact ih hx hq

theorem wait_congr {marker : PyStr} {w w' : Wait} {st : St} (hl : w.lines = w'.lines) (ha : w.after = w'.after)
    (h : shellLoop marker w w.ticks st = shellLoop marker w' w'.ticks st) :
    wait (.shell marker) w st = wait (.shell marker) w' st := by
  unfold wait waitLow
  dsimp only
  rw [hl, ha, h]

end Verif.ProcOut
