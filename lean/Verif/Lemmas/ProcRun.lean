import Verif.Lemmas.ProcShell
import Verif.Lemmas.TopoText

/-!
Lemmas for C74: `run()` in the interactive shell, when everything arrives.
-/

namespace Verif.ProcOut

/-! ### Counting the lines -/

/-- The counter is the number of lines so far, less `k`. -/
def CInv (k : Stream → Int) (got : Stream → List PyStr) (st : St) : Prop :=
  ∀ s, st.cnt s + k s = ((got s ++ st.output s).length : Int)

theorem cnt_handle {k : Stream → Int} {got : Stream → List PyStr} {st : St} {s : Stream} (data : PyStr)
    (h : CInv k got st) : CInv k got (handleItem s data st) := by
  intro t
  have ht := h t
  by_cases hts : t = s
  · subst hts
    show upd st.cnt t (st.cnt t + _) t + k t =
      ((got t ++ upd st.output t (st.output t ++ (extractFullLines (st.rem t ++ data)).1.filter _) t).length : Int)
    rw [upd_same, upd_same, extract_filter]
    simp only [List.length_append] at ht ⊢
    omega
  · rw [(handleItem_other data hts).1]
    show upd st.cnt s _ t + k t = _
    rw [upd_ne _ _ hts]; exact ht

theorem watch_cnt {marker data : PyStr} {st : St} :
    (watchForMarker marker data st).1.cnt = st.cnt ∧ (watchForMarker marker data st).1.output = st.output ∧
    (watchForMarker marker data st).1.queue = st.queue := by
  unfold watchForMarker
  cases suspect data st with
  | mk a b =>
    obtain ⟨b, c⟩ := b
    dsimp only
    split
    · split
      · exact ⟨rfl, rfl, rfl⟩
      · split
        · exact ⟨rfl, rfl, rfl⟩
        · split <;> exact ⟨rfl, rfl, rfl⟩
    · exact ⟨rfl, rfl, rfl⟩

theorem cnt_loop {marker : PyStr} {k : Stream → Int} {got : Stream → List PyStr} {w : Wait} (ticks : List Tick) {st : St}
    (h : CInv k got st) : CInv k got (shellLoop marker w ticks st).1 := by
  induction ticks generalizing st with
  | nil => exact h
  | cons t ticks ih =>
    rw [shellLoop]
    split
    · exact h
    have hp : CInv k got (put t.arrive st) := h
    generalize put t.arrive st = sp at hp
    dsimp only
    split
    · exact hp
    split
    · split
      · exact hp
      · exact ih hp
    · exact hp
    · rename_i data queue hq
      have h1 := cnt_handle (s := .err) data (st := { sp with queue := queue }) hp
      split
      · exact h1
      · exact ih h1
    · rename_i data queue hq
      obtain ⟨w1, w2, _⟩ := watch_cnt (marker := marker) (data := data) (st := { sp with queue := queue })
      cases hw : watchForMarker marker data { sp with queue := queue } with
      | mk s1 res =>
        rw [hw] at w1 w2
        have h1 : CInv k got s1 := by
          intro s
          have w1 : s1.cnt = sp.cnt := w1
          have w2 : s1.output = sp.output := w2
          rw [w1, w2]; exact hp s
        cases res with
        | error e => exact h1
        | ok cdata =>
          have h2 := cnt_handle (s := .out) cdata h1
          dsimp only
          split
          · exact h2
          · exact ih h2

/-- What was consumed: the beginning of the queue, if nothing arrives. -/
theorem shell_queue {marker : PyStr} {w : Wait} (n : Nat) (st : St) :
    (shellLoop marker w (List.replicate n ⟨[], false⟩) st).1.queue <:+ st.queue := by
  induction n generalizing st with
  | zero => exact List.suffix_refl _
  | succ n ih =>
    rw [List.replicate_succ, shellLoop]
    split
    · exact List.suffix_refl _
    dsimp only
    rw [put_nil]
    split
    · exact List.suffix_refl _
    split
    · rename_i hq
      split
      · exact List.suffix_refl _
      · exact ih st
    · rename_i queue hq
      rw [hq]; exact List.suffix_cons ..
    · rename_i data queue hq
      have h0 : queue <:+ st.queue := by rw [hq]; exact List.suffix_cons ..
      split
      · exact h0
      · exact (ih _).trans h0
    · rename_i data queue hq
      have h0 : queue <:+ st.queue := by rw [hq]; exact List.suffix_cons ..
      obtain ⟨_, _, w3⟩ := watch_cnt (marker := marker) (data := data) (st := { st with queue := queue })
      cases hw : watchForMarker marker data { st with queue := queue } with
      | mk s1 res =>
        rw [hw] at w3
        have hq1 : s1.queue = queue := w3
        cases res with
        | error e =>
          dsimp only
          rw [hq1]; exact h0
        | ok cdata =>
          have hq2 : (handleItem .out cdata s1).queue = queue := hq1
          dsimp only
          split
          · dsimp only
            rw [hq2]; exact h0
          · refine (ih _).trans ?_
            rw [hq2]; exact h0

/-- The number of the lines. -/
theorem counts {marker o : PyStr} {code : Nat} {got : Stream → List PyStr} {k : Stream → Int} {st : St}
    (h : SInv marker o code got st) (hc : CInv k got st) (hx : st.exitcode = some (code : Int)) (hq : st.queue = []) :
    ('\r' ∉ o → st.cnt .out + k .out = ((fullLines o).length : Int)) ∧
    ('\r' ∉ text st.arrived .err → st.cnt .err + k .err = ((fullLines (text st.arrived .err)).length : Int)) := by
  obtain ⟨cap, hf, hcap⟩ := h.out
  obtain ⟨fed, hfe, hee⟩ := h.err
  rw [hq, text_nil, List.append_nil] at hee
  subst hee
  refine ⟨fun hcr => ?_, fun hcr => ?_⟩
  · rcases hcap with ⟨e1, _⟩ | ⟨_, e2, _⟩
    · rw [e1] at hx; cases hx
    · subst e2
      rw [hc .out, (hf.exact hcr).1, extract_fullLines _ hcr]
  · rw [hc .err, (hfe.exact hcr).1, extract_fullLines _ hcr]

/-! ### Waiting for the end -/

theorem wait_live2 {marker o : PyStr} {code : Nat} {got : Stream → List PyStr} {k : Stream → Int} {w : Wait}
    (hm : IsMarker marker)
    (ho : EndsNl o) (hno : ¬ marker <:+: o) (hz : w.zero = false) (hl : w.lines = noLimits) (n : Nat)
    (ht : w.ticks = List.replicate n ⟨[], false⟩) (haf : w.after = []) {st : St} (h : SInv marker o code got st)
    (hk : CInv k got st) (hge : got .err = []) (hke : k .err = 0)
    (hc : Chunks st.arrived) (ha : text st.arrived .out = o ++ markerText marker code)
    (hs : ∀ s, (s, none) ∉ st.queue) (hn : st.queue.length < n) :
    ∃ st1, SInv marker o code got st1 ∧ CInv k got st1 ∧ st1.exitcode = some (code : Int) ∧ st1.queue = [] ∧
      st1.arrived = st.arrived ∧
      ((∃ st' r, wait (.shell marker) w st = (st', .ok r) ∧ r.exitcode = some (code : Int) ∧
          ¬ (code = 127 ∧ st1.cnt .out = 0 ∧ st1.cnt .err = 1)) ∨
       (∃ st', wait (.shell marker) w st = (st', .error .notFound) ∧
          code = 127 ∧ st1.cnt .out = 0 ∧ st1.cnt .err = 1)) := by
  unfold wait
  rw [if_neg (by rw [hl]; decide)]
  by_cases hd : isDone st = true
  · rw [if_pos hd]
    obtain ⟨_, _, _, h4, h5⟩ := isDone_iff.1 hd
    have hx := (sinv_done ho h hd).1
    refine ⟨st, h, hk, hx, h5, rfl, Or.inl ⟨_, _, rfl, hx, ?_⟩⟩
    rintro ⟨_, _, h3⟩
    have := hk .err
    rw [hge, h4, h3, hke] at this
    exact absurd this (by decide)
  rw [if_neg hd]
  obtain ⟨r1, r2, r3, r4⟩ := shell_live hm ho hno hz hl n h hc ha hs hn
  have hi : SInv marker o code got (shellLoop marker w (List.replicate n ⟨[], false⟩) st).1 :=
    sinv_loop hm ho hno _ h ⟨⟨[], by rw [List.append_nil, r4]; exact ha⟩, by rw [r4]; exact hc⟩ r1
  have hki : CInv k got (shellLoop marker w (List.replicate n ⟨[], false⟩) st).1 := cnt_loop _ hk
  unfold waitLow
  dsimp only
  rw [ht]
  generalize hg : shellLoop marker w (List.replicate n ⟨[], false⟩) st = res at r1 r2 r3 r4 hi hki
  obtain ⟨s1, u⟩ := res
  dsimp only at r1 r2 r3 r4 hi hki
  subst r1
  dsimp only
  rw [haf, put_nil, hl]
  have hx : (linesToReturn noLimits s1).1.exitcode = some (code : Int) := r3
  have hcnt : (linesToReturn noLimits s1).1.cnt = s1.cnt := rfl
  have hdone : isDone (linesToReturn noLimits s1).1 = true := by
    rw [isDone_iff]
    refine ⟨?_, by rw [hx]; rfl, return_all _ _, return_all _ _, r2⟩
    obtain ⟨cap, _, hc⟩ := hi.out
    rcases hc with ⟨e1, _⟩ | ⟨_, _, e3, _⟩
    · rw [e1] at r3; cases r3
    · exact e3
  refine ⟨s1, hi, hki, r3, r2, r4, ?_⟩
  split
  · rename_i hbad
    rw [hx, hcnt] at hbad
    refine Or.inr ⟨_, rfl, ?_, hbad.2⟩
    have := hbad.1
    injection this with this
    omega
  · rename_i hgood
    rw [hx, hcnt] at hgood
    refine Or.inl ⟨_, _, rfl, ?_, ?_⟩
    · exact hx
    · rintro ⟨rfl, h2, h3⟩
      exact hgood ⟨rfl, h2, h3⟩

/-! ### Reading the PID -/

theorem ofNat_length {n k : Nat} (h : n < 10 ^ k) (hk : 0 < k) : (PyStr.ofNat n).length ≤ k := by
  induction k generalizing n with
  | zero => omega
  | succ k ih =>
    rw [PyStr.ofNat]
    split
    · simp
    · rename_i hn
      rw [List.length_append, List.length_singleton]
      have h1 : n / 10 < 10 ^ k := by
        rw [Nat.pow_succ] at h
        exact Nat.div_lt_of_lt_mul (by omega)
      by_cases hk0 : k = 0
      · subst hk0
        simp only [Nat.zero_add, Nat.pow_one] at h
        omega
      · have := ih h1 (by omega)
        omega

theorem pid_live {marker o : PyStr} {code : Nat} {got : Stream → List PyStr} {w : Wait} (hm : IsMarker marker)
    (ho : EndsNl o) (hno : ¬ marker <:+: o) (hz : w.zero = false) (hl : w.lines = pidLimits) (hg : got .out = [])
    (hnl : '\n' ∈ o) (n : Nat) {st : St}
    (h : SInv marker o code got st) (hc : Chunks st.arrived) (ha : text st.arrived .out = o ++ markerText marker code)
    (hs : ∀ s, (s, none) ∉ st.queue) (hn : st.queue.length < n) :
    (shellLoop marker w (List.replicate n ⟨[], false⟩) st).2 = .ok () ∧
    (shellLoop marker w (List.replicate n ⟨[], false⟩) st).1.output .out ≠ [] ∧
    (shellLoop marker w (List.replicate n ⟨[], false⟩) st).1.arrived = st.arrived := by
  induction n generalizing st with
  | zero => omega
  | succ n ih =>
    have hp : Pre marker o code st := ⟨⟨[], by rw [List.append_nil]; exact ha⟩, hc⟩
    by_cases hne : st.output .out = []
    · have hen : haveEnoughLines st.output w.lines = false := by
        rw [hl]; simp [haveEnoughLines, pidLimits, hne]
      rw [List.replicate_succ, shellLoop, if_neg (by rw [hen]; decide)]
      dsimp only
      rw [put_nil]
      have hnx : st.exitcode = none := by
        obtain ⟨cap, hf, hcap⟩ := h.out
        rcases hcap with ⟨e1, _⟩ | ⟨_, e2, _⟩
        · exact e1
        · exfalso
          rw [hg, hne] at hf
          have hrem : st.rem .out = cap := by simpa using hf.concat
          exact hf.noEnd.1 (by rw [hrem, e2]; exact hnl)
      rw [if_neg (by rw [hnx]; simp)]
      cases hq : st.queue with
      | nil =>
        exfalso
        obtain ⟨cap, _, hc⟩ := h.out
        rcases hc with ⟨_, e2, _, e4⟩ | ⟨e1, _⟩
        · rw [hq, text_nil, List.append_nil, ha] at e2
          exact e4 e2
        · rw [e1] at hnx; cases hnx
      | cons i queue =>
        rw [hq] at hn
        have hn' : queue.length < n := by simp only [List.length_cons] at hn; omega
        obtain ⟨s, data⟩ := i
        have hs' : ∀ t, (t, none) ∉ queue := fun t ht => hs t (hq ▸ List.mem_cons_of_mem _ ht)
        cases data with
        | none => exact absurd (by rw [hq]; exact List.mem_cons_self ..) (hs s)
        | some data =>
          cases s with
          | err =>
            dsimp only
            rw [hz, if_neg (by decide)]
            exact ih (sinv_err h hq) hc ha hs' hn'
          | out =>
            obtain ⟨s1, cdata, hw, h1, h2, h3⟩ := sinv_out hm ho hno h hp hq
            dsimp only
            rw [hw]
            dsimp only
            rw [hz, if_neg (by decide), ← h1]
            have q1 : (handleItem .out cdata s1).arrived = st.arrived := h1
            have q2 : (handleItem .out cdata s1).queue = queue := h2
            exact ih (st := handleItem .out cdata s1) h3 (by rw [q1]; exact hc) (by rw [q1]; exact ha)
              (by rw [q2]; exact hs') (by rw [q2]; exact hn')
    · have hen : haveEnoughLines st.output w.lines = true := by
        rw [hl]
        have : 0 < (st.output .out).length := List.length_pos_iff.2 hne
        simp only [haveEnoughLines, pidLimits, Bool.or_eq_true, decide_eq_true_eq]
        left; omega
      rw [List.replicate_succ, shellLoop, if_pos hen]
      exact ⟨rfl, hne, rfl⟩

theorem first_tick {marker : PyStr} {w : Wait} {st : St} (items : List Item) (ticks : List Tick)
    (h : haveEnoughLines st.output w.lines = false) :
    shellLoop marker w (⟨items, false⟩ :: ticks) st = shellLoop marker w (⟨[], false⟩ :: ticks) (put items st) := by
  have h2 : haveEnoughLines (put items st).output w.lines = false := h
  simp only [shellLoop, h, h2, put_nil, Bool.false_eq_true, if_false]

theorem readPid_live {marker out : PyStr} {pid code : Nat} (hm : IsMarker marker) (ho : EndsNl out)
    (hno : ¬ marker <:+: out) (hpid : (PyStr.ofNat pid).length ≤ 128) {st0 : St} (hq : st0.queue = [])
    {items : List Item} (hc : Chunks items) (hs : ∀ s, (s, none) ∉ items)
    (ht : text items .out = PyStr.ofNat pid ++ '\n' :: (out ++ markerText marker code)) {w : Wait} {n : Nat}
    (hw : w.ticks = ⟨items, false⟩ :: List.replicate n ⟨[], false⟩) (hn : items.length ≤ n) (ha : w.after = []) :
    ∃ st1, readPid (.shell marker) w (reinit st0) = (st1, .ok (pid : Int)) ∧
      SInv marker (PyStr.ofNat pid ++ '\n' :: out) code
        (fun s => if s = .out then [PyStr.ofNat pid ++ ['\n']] else []) st1 ∧
      CInv (fun s => if s = .out then 1 else 0) (fun s => if s = .out then [PyStr.ofNat pid ++ ['\n']] else []) st1 ∧
      st1.arrived = items ∧ st1.queue <:+ items := by
  have ho' : EndsNl (PyStr.ofNat pid ++ '\n' :: out) := ho.cons
  have hno' := marker_behind (n := pid) hm hno
  have hi0 : SInv marker (PyStr.ofNat pid ++ '\n' :: out) code (fun _ => []) (put items (reinit st0)) :=
    sinv_put (sinv_new code hq) items
  have hk0 : CInv (fun _ => 0) (fun _ => []) (put items (reinit st0)) := fun _ => rfl
  have har : (put items (reinit st0)).arrived = items := by
    show st0.queue ++ items = items
    rw [hq]; rfl
  have hqu : (put items (reinit st0)).queue = items := by
    show st0.queue ++ items = items
    rw [hq]; rfl
  have htx : text (put items (reinit st0)).arrived .out = (PyStr.ofNat pid ++ '\n' :: out) ++ markerText marker code := by
    rw [har, ht]; simp
  generalize hsp : put items (reinit st0) = sp at hi0 hk0 har hqu htx
  generalize hw' : ({ w with lines := pidLimits, zero := false } : Wait) = w'
  have hz' : w'.zero = false := by rw [← hw']
  have hl' : w'.lines = pidLimits := by rw [← hw']
  have ha' : w'.after = [] := by rw [← hw']; exact ha
  have hloop : shellLoop marker w' w'.ticks (reinit st0) =
      shellLoop marker w' (List.replicate (n + 1) ⟨[], false⟩) sp := by
    rw [show w'.ticks = ⟨items, false⟩ :: List.replicate n ⟨[], false⟩ by rw [← hw']; exact hw, ← hsp,
      first_tick _ _ (by rw [hl']; rfl), List.replicate_succ]
  obtain ⟨l1, l2, l3⟩ := pid_live (got := fun _ => []) hm ho' hno' hz' hl' rfl (by simp) (n + 1) hi0
    (by rw [har]; exact hc) htx (by rw [hqu]; exact hs) (by rw [hqu]; omega)
  have hi1 := sinv_loop hm ho' hno' (w := w') (List.replicate (n + 1) ⟨[], false⟩) hi0
    ⟨⟨[], by rw [List.append_nil, l3]; exact htx⟩, by rw [l3, har]; exact hc⟩ l1
  have hk1 := cnt_loop (marker := marker) (w := w') (List.replicate (n + 1) ⟨[], false⟩) hk0
  have hq1 := shell_queue (marker := marker) (w := w') (n + 1) sp
  rw [hqu] at hq1
  rw [har] at l3
  generalize hres : shellLoop marker w' (List.replicate (n + 1) ⟨[], false⟩) sp = res at hloop l1 l2 l3 hi1 hk1 hq1
  obtain ⟨s1, u⟩ := res
  dsimp only at l1 l2 l3 hi1 hk1 hq1
  subst l1
  -- the lines to return
  obtain ⟨line, rest, hout⟩ := List.exists_cons_of_ne_nil l2
  have hline : line = PyStr.ofNat pid ++ ['\n'] := by
    obtain ⟨cap, hf, hcap⟩ := hi1.out
    have hpre : cap <+: PyStr.ofNat pid ++ '\n' :: out := by
      rcases hcap with ⟨_, h2, h3, _⟩ | ⟨_, h2, _⟩
      · exact SInv.cap_le (code := code) hm ⟨⟨[], by rw [List.append_nil, l3, ht]; simp⟩, by rw [l3]; exact hc⟩ h2 h3
      · exact h2 ▸ List.prefix_refl _
    obtain ⟨y, hy⟩ := hpre
    have h1 := hf.concat
    rw [List.nil_append, hout, List.flatten_cons] at h1
    refine (first_line (out := out) (rest := rest.flatten ++ s1.rem .out ++ y) (hf.lines line (by rw [hout]; simp)) ?_).1
    rw [← hy, ← h1]; simp
  subst hline
  have hr : ∀ s, (linesToReturn pidLimits s1).2 s = if s = .out then [PyStr.ofNat pid ++ ['\n']] else [] := by
    intro s
    cases s with
    | out =>
      show (s1.output .out).take (takeCount pidLimits s1 .out) = _
      rw [hout]
      have hcnt1 : takeCount pidLimits s1 .out = 1 := by
        unfold takeCount
        rw [hout]
        dsimp only [pidLimits]
        split
        · rename_i hle
          simp only [List.length_cons] at hle ⊢
          omega
        · rfl
      rw [hcnt1]; rfl
    | err =>
      show (s1.output .err).take (takeCount pidLimits s1 .err) = _
      have hcnt1 : takeCount pidLimits s1 .err = 0 := by
        unfold takeCount
        dsimp only [pidLimits]
        split
        · rename_i hle
          omega
        · rfl
      rw [hcnt1]; rfl
  have hi2 := sinv_return hi1 pidLimits
  have hfun : (fun s => ([] : List PyStr) ++ (linesToReturn pidLimits s1).2 s) =
      fun s => if s = .out then [PyStr.ofNat pid ++ ['\n']] else [] := by
    funext s; rw [List.nil_append, hr]
  rw [hfun] at hi2
  have hcnt : ∀ s, s1.cnt s = (((if s = Stream.out then [PyStr.ofNat pid ++ ['\n']] else []) ++
      (linesToReturn pidLimits s1).1.output s).length : Int) := by
    intro s
    have h1 := hk1 s
    rw [Int.add_zero, List.nil_append] at h1
    rw [h1, ← hr s]
    show _ = (((s1.output s).take _ ++ (s1.output s).drop _).length : Int)
    rw [List.take_append_drop]
  have hgood : ¬ ((put w'.after (linesToReturn w'.lines s1).1).exitcode = some 127 ∧
      (put w'.after (linesToReturn w'.lines s1).1).cnt .out = 0 ∧
      (put w'.after (linesToReturn w'.lines s1).1).cnt .err = 1) := by
    rintro ⟨_, h2, _⟩
    have h2 : s1.cnt .out = 0 := h2
    have := hcnt .out
    rw [h2, if_pos rfl] at this
    simp only [List.length_append, List.length_cons] at this
    omega
  have hwait : ∃ ec, wait (.shell marker) w' (reinit st0) =
      (put w'.after (linesToReturn w'.lines s1).1, .ok ⟨(linesToReturn w'.lines s1).2, ec⟩) := by
    unfold wait
    rw [if_neg (by rw [hl']; decide), if_neg (by simp [isDone, reinit])]
    unfold waitLow
    dsimp only
    rw [hloop]
    dsimp only
    rw [if_neg hgood]
    exact ⟨_, rfl⟩
  obtain ⟨ec, hwait⟩ := hwait
  rw [ha', put_nil, hl'] at hwait
  refine ⟨{ (linesToReturn pidLimits s1).1 with
      cnt := upd (linesToReturn pidLimits s1).1.cnt .out ((linesToReturn pidLimits s1).1.cnt .out - 1) }, ?_,
    ⟨hi2.err, hi2.out, hi2.queued⟩, ?_, l3, hq1⟩
  · unfold readPid
    rw [hw', hwait]
    dsimp only
    rw [hr .out, hr .err]
    have hstrip : PyStr.strip (PyStr.ofNat pid ++ ['\n']) = PyStr.ofNat pid :=
      TopoBuild.strip_newline (PyStr.stripped_of_all (Trivial.ofNat_not_space pid))
    simp only [if_true, reduceCtorEq, if_false]
    rw [hstrip, if_neg (by omega), EP.isInt_of_parse10 (EP.parse10_ofNat pid), EP.parse10_ofNat]
    rfl
  · intro s
    cases s with
    | out =>
      have := hcnt .out
      show (upd s1.cnt .out (s1.cnt .out - 1)) .out + 1 = _
      rw [upd_same, Int.sub_add_cancel]
      exact this
    | err =>
      have := hcnt .err
      show (upd s1.cnt .out (s1.cnt .out - 1)) .err + 0 = _
      rw [upd_ne _ _ (by decide), Int.add_zero]
      exact this

end Verif.ProcOut
