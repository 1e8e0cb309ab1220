import Verif.Props.SysfsIO

/-!
C11, C12: what reads return, and what transactions write.
-/

namespace Verif.SysfsIO

open PyStr (strip)

variable {W : World}

/-! ### Invariant -/

/-- The cache, the buffer and the files agree with the specification `M`. `G` holds for all values in
the cache and in the buffer. -/
structure Inv (cont : W.σ → Path → Option PyStr) (G : PyStr → Prop) (M : Path → Option PyStr)
    (st : St W) : Prop extends BufInv st where
  cm : ∀ p v, cacheGet st p = some v → M p = some (strip v) ∧ G v
  bm : ∀ p ti, st.buf.get? p = some ti → M p = some (strip ti.val) ∧ G ti.val ∧ cacheGet st p ≠ none
  fm : ∀ p, p ∉ Dict.keys st.buf → cont st.s p = M p

theorem cont_stripped {cont : W.σ → Path → Option PyStr} (F : Files W cont) {s : W.σ} {p : Path}
    {c : PyStr} (h : cont s p = some c) : ∃ x, c = strip x := by
  obtain ⟨raw, _, h⟩ := F.read_some s p c h
  exact ⟨raw, h.symm⟩

theorem immWrite_inv {cont : W.σ → Path → Option PyStr} (O : Ordinary W cont) {G : PyStr → Prop}
    (hG : ∀ x, G (strip x)) {M : Path → Option PyStr} {st : St W} (h : Inv cont G M st)
    (hi : st.inTransaction = false) (p : Path) (v : PyStr) (hv : G v) (retries : Option Int) :
    let r := immWrite st p v retries
    let res : Result := r.2.map fun _ => none
    Inv cont G (if reached res then fun q => if q = p then some (strip v) else M q else M) r.1 := by
  intro r res
  obtain ⟨k1, k2, k3, k4, k5, k6⟩ := immWrite_spec O.toFiles st p v retries
  have hbuf := h.nb hi
  have hb1 : BufInv r.1 := h.toBufInv.of_eq k1.en k1.buf k1.tr
  have hb2 : r.1.buf = [] := k1.buf.trans hbuf
  have hold : ∀ q, cont st.s q = M q := fun q => h.fm q (by rw [hbuf]; simp [Dict.keys])
  have hother : ∀ q, q ≠ p → cont r.1.s q = M q := fun q hq => (k1.files q hq).trans (hold q)
  have hcother : ∀ q u, q ≠ p → cacheGet r.1 q = some u → M q = some (strip u) ∧ G u := by
    intro q u hq hu
    exact h.cm q u (by rw [← k1.cache q hq]; exact hu)
  cases hr : r.2 with
  | ok u =>
    obtain ⟨l1, _, l3, _⟩ := k2 hr
    have hre : reached res = true := by show reached (r.2.map _) = true; rw [hr]; rfl
    simp only [hre, if_true]
    refine ⟨hb1, fun q u hu => ?_, (fun q ti hq => by rw [hb2] at hq; cases hq), fun q _ => ?_⟩
    · by_cases hq : q = p
      · subst hq
        simp only [if_true]
        have hu : (if st.enabled = true then some v else none) = some u := l3.symm.trans hu
        split at hu
        · cases hu; exact ⟨rfl, hv⟩
        · cases hu
      · simp only [hq, if_false]; exact hcother q u hq hu
    · by_cases hq : q = p
      · subst hq
        simp only [if_true]
        show cont (immWrite st q v retries).1.s q = _
        rw [k4]; exact O.write_ok _ _ _ l1
      · simp only [hq, if_false]; exact hother q hq
  | error e =>
    have hce : ∀ u, cacheGet r.1 p = some u → cont r.1.s p = some (strip u) ∧ G u := by
      intro u hu
      have h1 := k3 e hr u hu
      obtain ⟨x, rfl⟩ := cont_stripped O.toFiles h1
      rw [PyStr.strip_idem]
      exact ⟨h1, hG x⟩
    cases e with
    | verify x a =>
      have hw := k6 x a hr
      have hc : cont r.1.s p = some (strip v) := by
        show cont (immWrite st p v retries).1.s p = _
        rw [k4]; exact O.write_ok _ _ _ hw
      have hre : reached res = true := by show reached (r.2.map _) = true; rw [hr]; rfl
      simp only [hre, if_true]
      refine ⟨hb1, fun q u hu => ?_, (fun q ti hq => by rw [hb2] at hq; cases hq), fun q _ => ?_⟩
      · by_cases hq : q = p
        · subst hq
          simp only [if_true]
          obtain ⟨h1, h2⟩ := hce u hu
          exact ⟨hc.symm.trans h1, h2⟩
        · simp only [hq, if_false]; exact hcother q u hq hu
      · by_cases hq : q = p
        · subst hq; simp only [if_true]; exact hc
        · simp only [hq, if_false]; exact hother q hq
    | exn e =>
      have hw : (W.writeF st.s p v).2 ≠ .ok () := by
        rcases k5 e hr with h1 | h1
        · exact h1
        · intro h2
          rw [O.write_ok _ _ _ h2] at h1; cases h1
      have hc : cont r.1.s p = M p := by
        show cont (immWrite st p v retries).1.s p = _
        rw [k4, O.write_err _ _ _ hw]; exact hold p
      have hre : reached res = false := by show reached (r.2.map _) = false; rw [hr]; rfl
      simp only [hre, Bool.false_eq_true, if_false]
      refine ⟨hb1, fun q u hu => ?_, (fun q ti hq => by rw [hb2] at hq; cases hq), fun q _ => ?_⟩
      · by_cases hq : q = p
        · subst hq
          obtain ⟨h1, h2⟩ := hce u hu
          exact ⟨hc.symm.trans h1, h2⟩
        · exact hcother q u hq hu
      · by_cases hq : q = p
        · subst hq; exact hc
        · exact hother q hq

theorem bufWrite_ok_inv {cont : W.σ → Path → Option PyStr} {G : PyStr → Prop} {M : Path → Option PyStr}
    {st : St W} (h : Inv cont G M st) (hi : st.inTransaction = true) (p : Path) (ti : TInfo)
    (hv : G ti.val) (hok : (bufWrite st p ti).2 = .ok ()) :
    Inv cont G (fun q => if q = p then some (strip ti.val) else M q) (bufWrite st p ti).1 := by
  have hb := bufWrite_inv h.toBufInv hi p ti
  obtain ⟨h1, h2, _, h4, h5, h6⟩ := bufWrite_spec st p ti
  rcases h6 with ⟨_, h7, h8, h9⟩ | ⟨h7, _⟩
  · refine ⟨hb, fun q u hu => ?_, fun q t hq => ?_, fun q hq => ?_⟩
    · by_cases hqp : q = p
      · subst hqp; rw [h9] at hu; cases hu; exact ⟨if_pos rfl, hv⟩
      · simp only [hqp, if_false]; exact h.cm q u (by rw [← h5 q hqp]; exact hu)
    · rw [h7, Dict.get?_set] at hq
      by_cases hqp : q = p
      · subst hqp
        simp only [if_true] at hq ⊢
        cases hq
        exact ⟨rfl, hv, by rw [h9]; exact fun h => by cases h⟩
      · rw [if_neg (fun e => hqp e.symm)] at hq
        simp only [hqp, if_false]
        rw [h5 q hqp]
        exact h.bm q t hq
    · rw [h7, Dict.mem_keys_set] at hq
      have hqp : q ≠ p := fun e => hq (Or.inl e)
      simp only [hqp, if_false]
      rw [h4]; exact h.fm q (fun e => hq (Or.inr e))
  · rw [h7] at hok; cases hok

/-- What flushing does when it succeeds. -/
theorem flushLoop_ok {cont : W.σ → Path → Option PyStr} (O : Ordinary W cont) {G : PyStr → Prop}
    {M : Path → Option PyStr} (l : Dict Path TInfo) (st : St W) (hn : (Dict.keys l).Nodup)
    (hc : ∀ p v, cacheGet st p = some v → M p = some (strip v) ∧ G v)
    (hb : ∀ p ti, (p, ti) ∈ l → M p = some (strip ti.val) ∧ G ti.val)
    (hf : ∀ p, p ∉ Dict.keys l → cont st.s p = M p) (hok : (flushLoop l st).2 = .ok ()) :
    (∀ p v, cacheGet (flushLoop l st).1 p = some v → M p = some (strip v) ∧ G v) ∧
    (∀ p, cont (flushLoop l st).1.s p = M p) ∧
    (flushLoop l st).1.log = st.log ++ l.map (fun e => (e.1, e.2.val)) := by
  induction l generalizing st with
  | nil => exact ⟨hc, fun p => hf p (by simp [Dict.keys]), by simp [flushLoop]⟩
  | cons e l ih =>
    obtain ⟨p, ti⟩ := e
    obtain ⟨k1, k2, _, k4, _, _⟩ :=
      immWrite_spec O.toFiles st p ti.val (if ti.verify then some ti.retries else none)
    rw [← flushOne_eq_imm] at k1 k2 k4
    obtain ⟨b1, b2⟩ := hb p ti (by simp)
    have hn' : p ∉ Dict.keys l ∧ (Dict.keys l).Nodup := by
      simpa [Dict.keys] using hn
    unfold flushLoop at hok ⊢
    cases hfl : flushOne st p ti with
    | mk st1 r =>
      rw [hfl] at hok k1 k2 k4
      cases r with
      | error e => cases hok
      | ok u =>
        obtain ⟨l1, l2, l3, _⟩ := k2 rfl
        simp only at hok ⊢
        have hres := ih st1 hn'.2 ?_ (fun q t hq => hb q t (by simp [hq])) ?_ hok
        · refine ⟨hres.1, hres.2.1, ?_⟩
          rw [hres.2.2]
          show st1.log ++ _ = _
          rw [l2]; simp
        · intro q v hv
          by_cases hq : q = p
          · subst hq
            simp only at l3
            rw [l3] at hv
            split at hv
            · cases hv; exact ⟨b1, b2⟩
            · cases hv
          · exact hc q v (by rw [← k1.cache q hq]; exact hv)
        · intro q hq
          by_cases hqp : q = p
          · subst hqp
            show cont st1.s q = _
            simp only at k4
            rw [k4, O.write_ok _ _ _ l1, b1]
          · exact (k1.files q hqp).trans (hf q (by
              simp only [Dict.keys, List.map_cons, List.mem_cons, not_or]
              exact ⟨hqp, hq⟩))

theorem flush_ok_inv {cont : W.σ → Path → Option PyStr} (O : Ordinary W cont) {G : PyStr → Prop}
    {M : Path → Option PyStr} {st : St W} (h : Inv cont G M st)
    (hok : (SysfsIO.flush st).2 = .ok ()) :
    Inv cont G M (SysfsIO.flush st).1 ∧ (SysfsIO.flush st).1.buf = [] ∧
    (SysfsIO.flush st).1.log = st.log ++ st.buf.map (fun e => (e.1, e.2.val)) := by
  have hbuf := flush_ok_buf h.toBufInv hok
  have hbi : BufInv (SysfsIO.flush st).1 := by
    have := step_bufInv O.toFiles h.toBufInv .flush
    exact this
  refine ⟨?_, hbuf, ?_⟩
  · refine ⟨hbi, ?_, (fun q ti hq => by rw [hbuf] at hq; cases hq), ?_⟩
    all_goals
      unfold SysfsIO.flush at hok hbuf ⊢
      split at hok
      · rename_i he
        simp only [he, if_true] at hbuf ⊢
        first | exact h.cm | exact fun p _ => h.fm p (by rw [hbuf]; simp [Dict.keys])
      · rename_i he
        split at hok
        · cases hok
        · rename_i hi
          simp only [he, hi, if_false, Bool.false_eq_true] at hbuf ⊢
          cases hf : flushLoop st.buf st with
          | mk st1 r =>
            rw [hf] at hok
            cases r with
            | error e => cases hok
            | ok u =>
              have hfl := flushLoop_ok O (G := G) (M := M) st.buf st h.nd h.cm
                (fun p ti hm => ⟨(h.bm p ti (Dict.get?_of_mem h.nd hm)).1,
                  (h.bm p ti (Dict.get?_of_mem h.nd hm)).2.1⟩) h.fm (by rw [hf])
              rw [hf] at hfl
              first | exact fun p v hv => hfl.1 p v hv | exact fun p _ => hfl.2.1 p
  · unfold SysfsIO.flush at hok hbuf ⊢
    split at hok
    · rename_i he
      simp only [he, if_true] at hbuf ⊢
      rw [hbuf]; simp
    · rename_i he
      split at hok
      · cases hok
      · rename_i hi
        simp only [he, hi, if_false, Bool.false_eq_true] at hbuf ⊢
        cases hf : flushLoop st.buf st with
        | mk st1 r =>
          rw [hf] at hok
          cases r with
          | error e => cases hok
          | ok u =>
            have hfl := flushLoop_ok O (G := G) (M := M) st.buf st h.nd h.cm
              (fun p ti hm => ⟨(h.bm p ti (Dict.get?_of_mem h.nd hm)).1,
                (h.bm p ti (Dict.get?_of_mem h.nd hm)).2.1⟩) h.fm (by rw [hf])
            rw [hf] at hfl
            exact hfl.2.2

theorem Inv.of_eq {cont : W.σ → Path → Option PyStr} {G : PyStr → Prop} {M : Path → Option PyStr}
    {st st' : St W} (h : Inv cont G M st) (hb : BufInv st') (h2 : st'.buf = st.buf) (h3 : st'.s = st.s)
    (h4 : ∀ q, cacheGet st' q = cacheGet st q) : Inv cont G M st' :=
  ⟨hb, fun p v hv => h.cm p v (by rw [← h4]; exact hv),
    fun p ti hp => by rw [h4]; exact h.bm p ti (by rw [← h2]; exact hp),
    fun p hp => by rw [h3]; exact h.fm p (by rw [← h2]; exact hp)⟩

theorem flush_err_of_not {st : St W} (he : st.enabled = true) (hi : st.inTransaction = false) :
    SysfsIO.flush st = (st, .error (.exn .error)) := by
  unfold SysfsIO.flush; simp [he, hi]

theorem commit_ok_inv {cont : W.σ → Path → Option PyStr} (O : Ordinary W cont) {G : PyStr → Prop}
    {M : Path → Option PyStr} {st : St W} (h : Inv cont G M st)
    (hok : (SysfsIO.commit st).2 = .ok ()) :
    Inv cont G M (SysfsIO.commit st).1 ∧ (SysfsIO.commit st).1.buf = [] ∧
    (SysfsIO.commit st).1.inTransaction = false ∧
    (SysfsIO.commit st).1.log = st.log ++ st.buf.map (fun e => (e.1, e.2.val)) := by
  have hb : BufInv (SysfsIO.commit st).1 := by
    have := step_bufInv O.toFiles h.toBufInv .commit
    exact this
  have hfl := flush_ok_inv O h
  unfold SysfsIO.commit at hok hb ⊢
  cases hf : SysfsIO.flush st with
  | mk st1 r =>
    rw [hf] at hok hfl hb
    cases r with
    | error e => cases hok
    | ok u =>
      obtain ⟨g1, g2, g3⟩ := hfl rfl
      exact ⟨g1.of_eq hb rfl rfl (fun _ => rfl), g2, rfl, g3⟩

/-- One call preserves the invariant. -/
theorem step_inv {cont : W.σ → Path → Option PyStr} (O : Ordinary W cont) {G : PyStr → Prop}
    (hG : ∀ x, G (strip x)) {M : Path → Option PyStr} {st : St W} (h : Inv cont G M st) (op : Op)
    (hv : ∀ p v, op.writes = some (p, v) → G v)
    (hc : st.inTransaction = true → (∃ p, op = .read p) ∨ op = .start ∨ ∃ r, (step st op).2 = .ok r) :
    Inv cont G (specStep M op (step st op).2) (step st op).1 := by
  have hb := step_bufInv O.toFiles h.toBufInv op
  cases op with
  | read q =>
    have hf := read_frame O.toFiles st q
    show Inv cont G M (SysfsIO.read st q).1
    refine ⟨hb, fun p v hv => ?_, fun p ti hp => ?_, fun p hp => ?_⟩
    · by_cases hpq : p = q
      · subst hpq
        cases hg : cacheGet st p with
        | some u => rw [read_cached hg] at hv; exact h.cm p v hv
        | none =>
          have hnb : p ∉ Dict.keys st.buf := by
            intro hk
            cases hget : st.buf.get? p with
            | none => exact (Dict.get?_eq_none_iff _ _).1 hget hk
            | some ti => exact (h.bm p ti hget).2.2 hg
          have hcm := h.fm p hnb
          obtain ⟨k1, k2⟩ := read_uncached O.toFiles hg
          cases hco : cont st.s p with
          | none => rw [(k2 hco).2] at hv; cases hv
          | some c =>
            rw [(k1 c hco).2] at hv
            split at hv
            · cases hv
              obtain ⟨x, rfl⟩ := cont_stripped O.toFiles hco
              rw [PyStr.strip_idem]
              exact ⟨hcm.symm.trans hco, hG x⟩
            · cases hv
      · rw [hf.cache p hpq] at hv; exact h.cm p v hv
    · rw [hf.buf] at hp
      obtain ⟨h1, h2, h3⟩ := h.bm p ti hp
      refine ⟨h1, h2, ?_⟩
      by_cases hpq : p = q
      · subst hpq
        cases hg : cacheGet st p with
        | none => exact absurd hg h3
        | some u => rw [read_cached hg]; rw [hg]; exact fun h => by cases h
      · rw [hf.cache p hpq]; exact h3
    · rw [hf.files]; exact h.fm p (by rw [← hf.buf]; exact hp)
  | write p v what =>
    cases hi : st.inTransaction with
    | false =>
      have := immWrite_inv O hG h hi p v (hv p v rfl) none
      simp only [step, write_eq_imm hi]
      exact this
    | true =>
      rcases hc hi with ⟨_, h1⟩ | h1 | ⟨r, h1⟩
      · cases h1
      · cases h1
      · have hok : (bufWrite st p ⟨v, what, true, 0, 0⟩).2 = .ok () := by
          simp only [step, write_eq_buf hi] at h1
          cases hr : (bufWrite st p ⟨v, what, true, 0, 0⟩).2 with
          | ok u => rfl
          | error e => rw [hr] at h1; cases h1
        have := bufWrite_ok_inv h hi p ⟨v, what, true, 0, 0⟩ (hv p v rfl) hok
        rw [h1]
        simp only [step, write_eq_buf hi]
        exact this
  | writeVerify p v what r s =>
    cases hi : st.inTransaction with
    | false =>
      have := immWrite_inv O hG h hi p v (hv p v rfl) (some r)
      simp only [step, writeVerify_eq_imm hi]
      exact this
    | true =>
      rcases hc hi with ⟨_, h1⟩ | h1 | ⟨r', h1⟩
      · cases h1
      · cases h1
      · have hok : (bufWrite st p ⟨v, what, true, r, s⟩).2 = .ok () := by
          simp only [step, writeVerify_eq_buf hi] at h1
          cases hr : (bufWrite st p ⟨v, what, true, r, s⟩).2 with
          | ok u => rfl
          | error e => rw [hr] at h1; cases h1
        have := bufWrite_ok_inv h hi p ⟨v, what, true, r, s⟩ (hv p v rfl) hok
        rw [h1]
        simp only [step, writeVerify_eq_buf hi]
        exact this
  | start =>
    obtain ⟨_, h2, h3, _, h5, _⟩ := start_frame st
    exact h.of_eq hb h2 h3 h5
  | flush =>
    show Inv cont G M (SysfsIO.flush st).1
    cases hr : (SysfsIO.flush st).2 with
    | ok u => exact (flush_ok_inv O h hr).1
    | error e =>
      cases hi : st.inTransaction with
      | true =>
        rcases hc hi with ⟨_, h1⟩ | h1 | ⟨r, h1⟩
        · cases h1
        · cases h1
        · simp only [step, hr] at h1; cases h1
      | false =>
        cases he : st.enabled with
        | true => rw [flush_err_of_not he hi]; exact h
        | false => unfold SysfsIO.flush at hr; simp [he] at hr
  | commit =>
    show Inv cont G M (SysfsIO.commit st).1
    cases hr : (SysfsIO.commit st).2 with
    | ok u => exact (commit_ok_inv O h hr).1
    | error e =>
      cases hi : st.inTransaction with
      | true =>
        rcases hc hi with ⟨_, h1⟩ | h1 | ⟨r, h1⟩
        · cases h1
        · cases h1
        · simp only [step, hr] at h1; cases h1
      | false =>
        cases he : st.enabled with
        | true => unfold SysfsIO.commit; rw [flush_err_of_not he hi]; exact h
        | false => unfold SysfsIO.commit SysfsIO.flush at hr; simp [he] at hr

theorem run_inv {cont : W.σ → Path → Option PyStr} (O : Ordinary W cont) {G : PyStr → Prop}
    (hG : ∀ x, G (strip x)) {M : Path → Option PyStr} {st : St W} (h : Inv cont G M st) (ops : List Op)
    (hv : ∀ op ∈ ops, ∀ p v, op.writes = some (p, v) → G v) (hc : Clean ops st) :
    Inv cont G (specRun ops st M) (run ops st).1 := by
  induction ops generalizing st M with
  | nil => exact h
  | cons op ops ih =>
    exact ih (step_inv O hG h op (hv op (by simp)) hc.1) (fun o ho => hv o (by simp [ho])) hc.2

theorem inv_fresh (cont : W.σ → Path → Option PyStr) (G : PyStr → Prop) {st : St W} (h : Fresh st) :
    Inv cont G (cont st.s) st := by
  refine ⟨bufInv_fresh h, fun p v hv => ?_, (fun p ti hp => by rw [h.2.1] at hp; cases hp), fun _ _ => rfl⟩
  unfold cacheGet at hv
  rw [h.1] at hv
  split at hv <;> cases hv

theorem inv_read {cont : W.σ → Path → Option PyStr} (O : Ordinary W cont) {G : PyStr → Prop}
    (hG : ∀ x, G (strip x)) {M : Path → Option PyStr} {st : St W} (h : Inv cont G M st) (p : Path) :
    (∀ c, M p = some c → ∃ r, (SysfsIO.read st p).2 = .ok r ∧ strip r = c ∧ G r) ∧
    (M p = none → ∃ e, (SysfsIO.read st p).2 = .error e) := by
  cases hg : cacheGet st p with
  | some u =>
    rw [read_cached hg]
    obtain ⟨h1, h2⟩ := h.cm p u hg
    rw [h1]
    exact ⟨fun c hc => by cases hc; exact ⟨u, rfl, rfl, h2⟩, fun hc => by cases hc⟩
  | none =>
    have hnb : p ∉ Dict.keys st.buf := by
      intro hk
      cases hget : st.buf.get? p with
      | none => exact (Dict.get?_eq_none_iff _ _).1 hget hk
      | some ti => exact (h.bm p ti hget).2.2 hg
    obtain ⟨k1, k2⟩ := read_uncached O.toFiles hg
    rw [h.fm p hnb] at k1 k2
    refine ⟨fun c hc => ⟨c, (k1 c hc).1, ?_⟩, fun hc => ?_⟩
    · rw [← h.fm p hnb] at hc
      obtain ⟨x, rfl⟩ := cont_stripped O.toFiles hc
      exact ⟨PyStr.strip_idem x, hG x⟩
    · obtain ⟨e, he⟩ := (k2 hc).1
      exact ⟨_, he⟩

/-! ### C11 -/

/-- **C11** (partial). For ordinary sysfs files, after any history on a new object in which no write,
flush or commit failed inside a transaction, a read of a file returns, up to white-space around it, the
value most recently written to the file via the object, or the contents of the file if it was not
written; if all written values have no white-space around them, then exactly that value. A read fails
only if the file cannot be read.

The full claim has neither of the two conditions, see the counterexamples below. -/
theorem C11_read_your_writes_partial (cont : W.σ → Path → Option PyStr) (O : Ordinary W cont)
    (st0 : St W) (h0 : Fresh st0) (ops : List Op) (hc : Clean ops st0) (p : Path) :
    let M := specRun ops st0 (cont st0.s)
    let r := (SysfsIO.read (run ops st0).1 p).2
    (∀ c, M p = some c → ∃ x, r = .ok x ∧ strip x = c ∧
      ((∀ op ∈ ops, ∀ q v, op.writes = some (q, v) → strip v = v) → x = c)) ∧
    (M p = none → ∃ e, r = .error e) := by
  intro M r
  have h1 := run_inv O (G := fun _ => True) (fun _ => trivial) (inv_fresh cont _ h0) ops
    (fun _ _ _ _ _ => trivial) hc
  obtain ⟨k1, k2⟩ := inv_read O (fun _ => trivial) h1 p
  refine ⟨fun c hM => ?_, k2⟩
  obtain ⟨x, hx1, hx2, _⟩ := k1 c hM
  refine ⟨x, hx1, hx2, fun hs => ?_⟩
  have h2 := run_inv O (G := fun v => strip v = v) PyStr.strip_idem (inv_fresh cont _ h0) ops hs hc
  obtain ⟨y, hy1, hy2, hy3⟩ := (inv_read O PyStr.strip_idem h2 p).1 c hM
  rw [hx1] at hy1
  cases hy1
  exact hy3.symm.trans hy2

/-- Files with the contents `s`, all writes succeed. -/
def plainWorld : World where
  σ := Path → PyStr
  readF s p := (s, .ok (s p))
  writeF s p v := (fun q => if q = p then v else s q, .ok ())

def plainCont (s : plainWorld.σ) (p : Path) : Option PyStr := some (strip (s p))

theorem plain_ordinary : Ordinary plainWorld plainCont where
  read_cont _ _ := rfl
  read_some s p c h := ⟨s p, rfl, by cases h; rfl⟩
  read_none _ _ h := by cases h
  write_other s p v q hq := by simp [plainCont, plainWorld, hq]
  write_ok s p v _ := by simp [plainCont, plainWorld]
  write_err s p v h := absurd rfl h

/-- A new object; all files contain "0". -/
def plain0 : St plainWorld := ⟨true, [], [], false, fun _ => "0\n".toList, []⟩

/-- The claim does not hold for values with white-space around them: with caching, the value comes back
as it was written; once the cache entry is gone it comes back without the new-line. -/
theorem C11_white_space_counterexample :
    Fresh plain0 ∧
    (run [.write "a".toList "5\n".toList [], .read "a".toList] plain0).2 =
      [.ok none, .ok (some "5\n".toList)] ∧
    (run [.write "a".toList "5\n".toList [], .read "a".toList] { plain0 with enabled := false }).2 =
      [.ok none, .ok (some "5".toList)] :=
  ⟨⟨rfl, rfl, rfl⟩, by decide +kernel, by decide +kernel⟩

/-- The claim does not hold after a refused write inside a transaction: the second write is refused
because its attributes are different from those of the first one, and then reading returns the old
contents of the file, although the first write succeeded and is committed in the end. -/
theorem C11_refused_write_counterexample :
    Fresh plain0 ∧
    (run [.start, .write "a".toList "1".toList [], .writeVerify "a".toList "2".toList [] 3 0,
      .read "a".toList, .commit, .read "a".toList] plain0).2 =
      [.ok none, .ok none, .error (.exn .error), .ok (some "0".toList), .ok none,
        .ok (some "1".toList)] :=
  ⟨⟨rfl, rfl, rfl⟩, by decide +kernel⟩

/-- The hypotheses hold for a history with a transaction, and the value read is the one written last. -/
example :
    let ops : List Op := [.write "a".toList "1".toList [], .start, .write "a".toList "2".toList [],
      .read "b".toList, .writeVerify "b".toList "7".toList [] 3 0, .write "a".toList "3".toList []]
    Clean ops plain0 ∧ (SysfsIO.read (run ops plain0).1 "a".toList).2 = .ok "3".toList := by
  refine ⟨⟨(fun h => by cases h), (fun h => by cases h), fun _ => ?_, fun _ => ?_, fun _ => ?_,
    fun _ => ?_, trivial⟩, by decide +kernel⟩
  · exact Or.inr (Or.inr ⟨none, by decide +kernel⟩)
  · exact Or.inl ⟨_, rfl⟩
  · exact Or.inr (Or.inr ⟨none, by decide +kernel⟩)
  · exact Or.inr (Or.inr ⟨none, by decide +kernel⟩)

/-! ### C12 -/

theorem step_io_tr {cont : W.σ → Path → Option PyStr} (F : Files W cont) {st : St W}
    (hi : st.inTransaction = true) (op : Op) (hop : op.isIO = true) :
    (step st op).1.inTransaction = true ∧ cont (step st op).1.s = cont st.s ∧
    (step st op).1.log = st.log ∧ (step st op).1.enabled = st.enabled := by
  cases op with
  | read q =>
    have hf := read_frame F st q
    exact ⟨hf.tr.trans hi, hf.files, hf.log, hf.en⟩
  | write p v what =>
    simp only [step, write_eq_buf hi]
    obtain ⟨h1, h2, h3, h4, _⟩ := bufWrite_spec st p ⟨v, what, true, 0, 0⟩
    exact ⟨h2.trans hi, by rw [h4], h3, h1⟩
  | writeVerify p v what r s =>
    simp only [step, writeVerify_eq_buf hi]
    obtain ⟨h1, h2, h3, h4, _⟩ := bufWrite_spec st p ⟨v, what, true, r, s⟩
    exact ⟨h2.trans hi, by rw [h4], h3, h1⟩
  | start => cases hop
  | flush => cases hop
  | commit => cases hop

/-- **C12**, before the flush. Inside a transaction reads and writes, successful or not, change no
file and write no file. -/
theorem C12_nothing_written_before_flush (cont : W.σ → Path → Option PyStr) (F : Files W cont)
    (st : St W) (hi : st.inTransaction = true) (ops : List Op) (hops : ∀ op ∈ ops, op.isIO = true) :
    (run ops st).1.inTransaction = true ∧ cont (run ops st).1.s = cont st.s ∧
    (run ops st).1.log = st.log := by
  induction ops generalizing st with
  | nil => exact ⟨hi, rfl, rfl⟩
  | cons op ops ih =>
    obtain ⟨h1, h2, h3, _⟩ := step_io_tr F hi op (hops op (by simp))
    obtain ⟨k1, k2, k3⟩ := ih (step st op).1 h1 (fun o ho => hops o (by simp [ho]))
    exact ⟨k1, k2.trans h2, k3.trans h3⟩

/-- The writes in the list succeed (reads may fail). -/
def WritesOK : List Op → St W → Prop
  | [], _ => True
  | op :: ops, st =>
    (op.writes ≠ none → (step st op).2 = .ok none) ∧ WritesOK ops (step st op).1

/-- File contents after a list of writes. -/
def overwrite (M : Path → Option PyStr) (ops : List Op) : Path → Option PyStr :=
  fun p => match lastWritten ops p with
    | some v => some (strip v)
    | none => M p

theorem specRun_writesOK (ops : List Op) (st : St W) (M : Path → Option PyStr) (h : WritesOK ops st) :
    specRun ops st M = overwrite M ops := by
  induction ops generalizing st M with
  | nil => rfl
  | cons op ops ih =>
    show specRun ops (step st op).1 _ = _
    rw [ih _ _ h.2]
    funext p
    simp only [overwrite, lastWritten]
    cases lastWritten ops p with
    | some v => rfl
    | none =>
      simp only [specStep]
      cases hw : op.writes with
      | none => rfl
      | some e =>
        obtain ⟨q, v⟩ := e
        simp only
        rw [h.1 (by rw [hw]; exact fun h => by cases h)]
        simp only [reached]
        by_cases hq : p = q
        · subst hq; simp
        · have hq' : ¬ q = p := fun e => hq e.symm
          simp [hq, hq']

theorem clean_of_writesOK_tr (ops : List Op) (st : St W) (hops : ∀ op ∈ ops, op.isIO = true) (h : WritesOK ops st) : Clean ops st := by
  induction ops generalizing st with
  | nil => trivial
  | cons op ops ih =>
    refine ⟨fun _ => ?_, ih _ (fun o ho => hops o (by simp [ho])) h.2⟩
    cases op with
    | read q => exact Or.inl ⟨q, rfl⟩
    | write p v what => exact Or.inr (Or.inr ⟨none, h.1 (fun h => by cases h)⟩)
    | writeVerify p v what r s => exact Or.inr (Or.inr ⟨none, h.1 (fun h => by cases h)⟩)
    | start => exact Or.inr (Or.inl rfl)
    | flush => exact absurd (hops .flush (by simp)) (fun h => by cases h)
    | commit => exact absurd (hops .commit (by simp)) (fun h => by cases h)

theorem dedupAux_congr {α : Type} [DecidableEq α] {a b : List α} (h : ∀ x, x ∈ a ↔ x ∈ b) (l : List α) :
    dedupAux a l = dedupAux b l := by
  induction l generalizing a b with
  | nil => rfl
  | cons x l ih =>
    unfold dedupAux
    by_cases hx : x ∈ a
    · rw [if_pos hx, if_pos ((h x).1 hx)]; exact ih h
    · rw [if_neg hx, if_neg (fun hb => hx ((h x).2 hb))]
      congr 1
      exact ih (fun y => by simp [h y])

/-- The buffer after a list of successful writes in a transaction. -/
theorem buf_after {cont : W.σ → Path → Option PyStr} (F : Files W cont) (ops : List Op) (st : St W)
    (hi : st.inTransaction = true) (hops : ∀ op ∈ ops, op.isIO = true) (h : WritesOK ops st) :
    Dict.keys (run ops st).1.buf = Dict.keys st.buf ++ dedupAux (Dict.keys st.buf) (paths ops) ∧
    ∀ p, ((run ops st).1.buf.get? p).map TInfo.val =
      match lastWritten ops p with
      | some v => some v
      | none => (st.buf.get? p).map TInfo.val := by
  induction ops generalizing st with
  | nil => simp [run, paths, lastWritten, dedupAux]
  | cons op ops ih =>
    have htr := (step_io_tr F hi op (hops op (by simp))).1
    obtain ⟨k1, k2⟩ := ih (step st op).1 htr (fun o ho => hops o (by simp [ho])) h.2
    have key : (op.writes = none ∧ (step st op).1.buf = st.buf) ∨
        ∃ p ti, op.writes = some (p, ti.val) ∧ (step st op).1.buf = st.buf.set p ti := by
      have hres := h.1
      cases op with
      | read q => exact Or.inl ⟨rfl, (read_frame F st q).buf⟩
      | write p v what =>
        have hres := hres (fun h => by cases h)
        simp only [step, write_eq_buf hi] at hres ⊢
        obtain ⟨_, _, _, _, _, h6⟩ := bufWrite_spec st p ⟨v, what, true, 0, 0⟩
        rcases h6 with ⟨_, h7, _⟩ | ⟨h7, _⟩
        · exact Or.inr ⟨p, ⟨v, what, true, 0, 0⟩, rfl, h7⟩
        · rw [h7] at hres; cases hres
      | writeVerify p v what r s =>
        have hres := hres (fun h => by cases h)
        simp only [step, writeVerify_eq_buf hi] at hres ⊢
        obtain ⟨_, _, _, _, _, h6⟩ := bufWrite_spec st p ⟨v, what, true, r, s⟩
        rcases h6 with ⟨_, h7, _⟩ | ⟨h7, _⟩
        · exact Or.inr ⟨p, ⟨v, what, true, r, s⟩, rfl, h7⟩
        · rw [h7] at hres; cases hres
      | start => exact absurd (hops .start (by simp)) (fun h => by cases h)
      | flush => exact absurd (hops .flush (by simp)) (fun h => by cases h)
      | commit => exact absurd (hops .commit (by simp)) (fun h => by cases h)
    show Dict.keys (run ops (step st op).1).1.buf = _ ∧ ∀ p, ((run ops (step st op).1).1.buf.get? p).map _ = _
    rw [k1]
    rcases key with ⟨hw, hb⟩ | ⟨p, ti, hw, hb⟩
    · refine ⟨by rw [hb]; simp [paths, hw], fun q => ?_⟩
      rw [k2 q, hb]
      simp only [lastWritten, hw]
      cases lastWritten ops q <;> rfl
    · refine ⟨?_, fun q => ?_⟩
      · rw [hb, Dict.keys_set]
        have hp : paths (op :: ops) = p :: paths ops := by simp [paths, hw]
        rw [hp]
        by_cases hm : p ∈ Dict.keys st.buf
        · rw [if_pos hm, show dedupAux (Dict.keys st.buf) (p :: paths ops) =
            dedupAux (Dict.keys st.buf) (paths ops) by conv => { lhs; unfold dedupAux; rw [if_pos hm] }]
        · rw [if_neg hm, show dedupAux (Dict.keys st.buf) (p :: paths ops) =
            p :: dedupAux (p :: Dict.keys st.buf) (paths ops) by
              conv => { lhs; unfold dedupAux; rw [if_neg hm] }]
          rw [List.append_assoc]
          congr 1
          simp only [List.singleton_append]
          congr 1
          exact dedupAux_congr (fun x => by simp [or_comm]) _
      · rw [k2 q, hb]
        simp only [lastWritten, hw]
        cases lastWritten ops q with
        | some v => rfl
        | none =>
          simp only [Dict.get?_set]
          split <;> rfl

theorem start_fields {st : St W} (he : st.enabled = true) (hi : st.inTransaction = false) :
    (SysfsIO.start st).1 = { st with inTransaction := true } := by
  unfold SysfsIO.start; simp [he, hi]

/-- **C12**, commit. For ordinary files and any history on a new object with caching: start a
transaction, do reads and writes, the writes being accepted, and commit successfully. Then

* each file contains what was last written to it, and files that were not written are unchanged;
* each written file was written exactly once, with the last value, in the order in which the files were
  first written, and nothing else was written. -/
theorem C12_commit (cont : W.σ → Path → Option PyStr) (O : Ordinary W cont) (st0 : St W)
    (h0 : Fresh st0) (hist : List Op) (hc : Clean hist st0) (st : St W) (hst : st = (run hist st0).1)
    (he : st.enabled = true) (hi : st.inTransaction = false) (body : List Op)
    (hbody : ∀ op ∈ body, op.isIO = true) (hw : WritesOK body (SysfsIO.start st).1)
    (hcommit : (SysfsIO.commit (run body (SysfsIO.start st).1).1).2 = .ok ()) :
    let fin := (SysfsIO.commit (run body (SysfsIO.start st).1).1).1
    (∀ p, cont fin.s p = overwrite (cont st.s) body p) ∧
    ∃ ws : List (Path × PyStr), fin.log = st.log ++ ws ∧ ws.map Prod.fst = pyDedup (paths body) ∧
      ∀ e ∈ ws, lastWritten body e.1 = some e.2 := by
  intro fin
  have hinv : Inv cont (fun _ => True) (specRun hist st0 (cont st0.s)) st := by
    rw [hst]
    exact run_inv O (fun _ => trivial) (inv_fresh cont _ h0) hist (fun _ _ _ _ _ => trivial) hc
  have hbuf := hinv.nb hi
  have hM : specRun hist st0 (cont st0.s) = cont st.s := by
    funext p
    exact (hinv.fm p (by rw [hbuf]; simp [Dict.keys])).symm
  rw [hM] at hinv
  have hsf := start_fields he hi
  have htr : (SysfsIO.start st).1.inTransaction = true := by rw [hsf]
  have hinv1 : Inv cont (fun _ => True) (cont st.s) (SysfsIO.start st).1 :=
    step_inv O (fun _ => trivial) hinv .start (fun _ _ _ => trivial) (fun h => by rw [hi] at h; cases h)
  have hbuf1 : (SysfsIO.start st).1.buf = [] := by rw [hsf]; exact hbuf
  have hclean := clean_of_writesOK_tr body _ hbody hw
  have hinv2 := run_inv O (fun _ => trivial) hinv1 body (fun _ _ _ _ _ => trivial) hclean
  rw [specRun_writesOK _ _ _ hw] at hinv2
  obtain ⟨c1, c2, c3, c4⟩ := commit_ok_inv O hinv2 hcommit
  refine ⟨fun p => c1.fm p (by rw [c2]; simp [Dict.keys]),
    (run body (SysfsIO.start st).1).1.buf.map (fun e => (e.1, e.2.val)), ?_, ?_, ?_⟩
  · show (SysfsIO.commit _).1.log = _
    rw [c4, (C12_nothing_written_before_flush cont O.toFiles _ htr body hbody).2.2, hsf]
  · have := (buf_after O.toFiles body _ htr hbody hw).1
    rw [hbuf1] at this
    simp only [Dict.keys, List.map_nil, List.nil_append] at this
    rw [List.map_map]
    exact this
  · intro e hem
    rw [List.mem_map] at hem
    obtain ⟨⟨p, ti⟩, hm, rfl⟩ := hem
    have hg := Dict.get?_of_mem hinv2.nd hm
    have := (buf_after O.toFiles body _ htr hbody hw).2 p
    rw [hg, hbuf1] at this
    simp only [Option.map_some] at this
    cases hl : lastWritten body p with
    | none => rw [hl] at this; cases this
    | some v => rw [hl] at this; cases this; rfl

/-- **C12**, comparison with immediate writes: the same calls without a transaction, when the writes
succeed, give the same file contents as the transaction. -/
theorem C12_same_as_immediate (cont : W.σ → Path → Option PyStr) (O : Ordinary W cont) (st0 : St W)
    (h0 : Fresh st0) (hist : List Op) (hc : Clean hist st0) (st : St W) (hst : st = (run hist st0).1)
    (he : st.enabled = true) (hi : st.inTransaction = false) (body : List Op)
    (hbody : ∀ op ∈ body, op.isIO = true) (hw : WritesOK body (SysfsIO.start st).1)
    (hcommit : (SysfsIO.commit (run body (SysfsIO.start st).1).1).2 = .ok ())
    (himm : WritesOK body st) :
    cont (SysfsIO.commit (run body (SysfsIO.start st).1).1).1.s = cont (run body st).1.s := by
  have h1 := (C12_commit cont O st0 h0 hist hc st hst he hi body hbody hw hcommit).1
  funext p
  rw [h1 p]
  have hinv : Inv cont (fun _ => True) (specRun hist st0 (cont st0.s)) st := by
    rw [hst]
    exact run_inv O (fun _ => trivial) (inv_fresh cont _ h0) hist (fun _ _ _ _ _ => trivial) hc
  have hbuf := hinv.nb hi
  have hM : specRun hist st0 (cont st0.s) = cont st.s := by
    funext p
    exact (hinv.fm p (by rw [hbuf]; simp [Dict.keys])).symm
  rw [hM] at hinv
  have hinv2 := run_inv O (fun _ => trivial) hinv body (fun _ _ _ _ _ => trivial)
    (clean_of_writesOK_tr body _ hbody himm)
  rw [specRun_writesOK _ _ _ himm] at hinv2
  have hnt : ∀ (ops : List Op) (s : St W), s.inTransaction = false →
      (∀ op ∈ ops, op.isIO = true) → (run ops s).1.inTransaction = false := by
    intro ops
    induction ops with
    | nil => intro s h _; exact h
    | cons op ops ih =>
      intro s h hop
      refine ih _ ?_ (fun o ho => hop o (by simp [ho]))
      cases op with
      | read q => exact (read_frame O.toFiles s q).tr.trans h
      | write p v what =>
        simp only [step, write_eq_imm h]
        exact (immWrite_spec O.toFiles s p v none).1.tr.trans h
      | writeVerify p v what r sl =>
        simp only [step, writeVerify_eq_imm h]
        exact (immWrite_spec O.toFiles s p v (some r)).1.tr.trans h
      | start => exact absurd (hop .start (by simp)) (fun h => by cases h)
      | flush => exact absurd (hop .flush (by simp)) (fun h => by cases h)
      | commit => exact absurd (hop .commit (by simp)) (fun h => by cases h)
  have hbuf2 := hinv2.nb (hnt body st hi hbody)
  exact (hinv2.fm p (by rw [hbuf2]; simp [Dict.keys])).symm

theorem flushLoop_succeeds {cont : W.σ → Path → Option PyStr} (O : Ordinary W cont)
    (l : Dict Path TInfo) (st : St W)
    (hacc : ∀ s p ti, (p, ti) ∈ l → (W.writeF s p ti.val).2 = .ok ())
    (hstr : ∀ p ti, (p, ti) ∈ l → strip ti.val = ti.val) : (flushLoop l st).2 = .ok () := by
  induction l generalizing st with
  | nil => rfl
  | cons e l ih =>
    obtain ⟨p, ti⟩ := e
    unfold flushLoop
    have hone : (flushOne st p ti).2 = .ok () := by
      have hwr := hacc st.s p ti (by simp)
      have hco := O.write_ok st.s p ti.val hwr
      rw [hstr p ti (by simp)] at hco
      have hs : (cacheRemove st p).s = st.s := (same_remove st p).2.2.2.2
      obtain ⟨r1, r2, _⟩ := rawWrite_spec (cacheRemove st p) p ti.val
      rw [hs] at r1 r2
      unfold flushOne
      cases hr : rawWrite (cacheRemove st p) p ti.val with
      | mk st1 r =>
        rw [hr] at r1 r2
        cases r with
        | error e => have := r2.2 hwr; cases this
        | ok u =>
          simp only
          cases hve : ti.verify with
          | false => rfl
          | true =>
            simp only [if_true]
            have hv := (verify_spec O.toFiles p ti.val ti.retries st1).2.1 ti.val (by
              simp only at r1
              rw [r1]; exact hco)
            cases hvv : verify st1 p ti.val ti.retries with
            | mk st2 r2 =>
              rw [hvv] at hv
              simp only [if_true] at hv
              obtain ⟨hv1, _⟩ := hv
              subst hv1
              rfl
    cases hf : flushOne st p ti with
    | mk st1 r =>
      rw [hf] at hone
      cases hone
      exact ih st1 (fun s q t hq => hacc s q t (by simp [hq])) (fun q t hq => hstr q t (by simp [hq]))

/-- **C12**, success of the commit (partial). If the kernel accepts the written values and the values
have no white-space around them, then the commit succeeds.

The claim does not hold without the condition about white-space, see the counterexample. -/
theorem C12_commit_succeeds_partial (cont : W.σ → Path → Option PyStr) (O : Ordinary W cont) (st : St W)
    (hb : BufInv st) (he : st.enabled = true) (hi : st.inTransaction = false) (body : List Op)
    (hbody : ∀ op ∈ body, op.isIO = true) (hw : WritesOK body (SysfsIO.start st).1)
    (hacc : ∀ s, ∀ op ∈ body, ∀ p v, op.writes = some (p, v) → (W.writeF s p v).2 = .ok ())
    (hstr : ∀ op ∈ body, ∀ p v, op.writes = some (p, v) → strip v = v) :
    (SysfsIO.commit (run body (SysfsIO.start st).1).1).2 = .ok () := by
  have hsf := start_fields he hi
  have htr : (SysfsIO.start st).1.inTransaction = true := by rw [hsf]
  have hbuf1 : (SysfsIO.start st).1.buf = [] := by rw [hsf]; exact hb.nb hi
  have hb1 : BufInv (SysfsIO.start st).1 := step_bufInv O.toFiles hb .start
  have hb2 := run_bufInv O.toFiles hb1 body
  have hba := (buf_after O.toFiles body _ htr hbody hw).2
  have htr2 := (C12_nothing_written_before_flush cont O.toFiles _ htr body hbody).1
  have hen : ∀ (ops : List Op) (s : St W), s.inTransaction = true → (∀ op ∈ ops, op.isIO = true) →
      (run ops s).1.enabled = s.enabled := by
    intro ops
    induction ops with
    | nil => intro s _ _; rfl
    | cons op ops ih =>
      intro s h hop
      obtain ⟨k1, _, _, k4⟩ := step_io_tr O.toFiles h op (hop op (by simp))
      exact (ih _ k1 (fun o ho => hop o (by simp [ho]))).trans k4
  have hen2 : (run body (SysfsIO.start st).1).1.enabled = true := by
    rw [hen body _ htr hbody, hsf]; exact he
  have hlw : ∀ (ops : List Op) p v, lastWritten ops p = some v →
      ∃ op ∈ ops, op.writes = some (p, v) := by
    intro ops
    induction ops with
    | nil => intro p v h; cases h
    | cons op ops ih =>
      intro p v h
      simp only [lastWritten] at h
      cases hl : lastWritten ops p with
      | some u =>
        rw [hl] at h; cases h
        obtain ⟨o, ho, hh⟩ := ih p _ hl
        exact ⟨o, by simp [ho], hh⟩
      | none =>
        rw [hl] at h
        simp only at h
        cases hwr : op.writes with
        | none => rw [hwr] at h; cases h
        | some e =>
          obtain ⟨q, u⟩ := e
          rw [hwr] at h
          simp only at h
          split at h
          · rename_i hq; subst hq; cases h; exact ⟨op, by simp, hwr⟩
          · cases h
  have hentry : ∀ p ti, (p, ti) ∈ (run body (SysfsIO.start st).1).1.buf →
      ∃ op ∈ body, op.writes = some (p, ti.val) := by
    intro p ti hm
    have := hba p
    rw [Dict.get?_of_mem hb2.nd hm, hbuf1] at this
    simp only [Option.map_some] at this
    cases hl : lastWritten body p with
    | none => rw [hl] at this; cases this
    | some v => rw [hl] at this; cases this; exact hlw body p _ hl
  have hfl := flushLoop_succeeds O (run body (SysfsIO.start st).1).1.buf (run body (SysfsIO.start st).1).1
    (fun s p ti hm => by obtain ⟨o, h1, h2⟩ := hentry p ti hm; exact hacc s o h1 p _ h2)
    (fun p ti hm => by obtain ⟨o, h1, h2⟩ := hentry p ti hm; exact hstr o h1 p _ h2)
  unfold SysfsIO.commit SysfsIO.flush
  simp only [hen2, htr2, Bool.not_true, Bool.false_eq_true, if_false]
  cases hff : flushLoop (run body (SysfsIO.start st).1).1.buf (run body (SysfsIO.start st).1).1 with
  | mk st1 r =>
    rw [hff] at hfl
    simp only at hfl
    subst hfl
    rfl

/-- A value with a new-line at the end: `write()` accepts it outside of a transaction, but inside a
transaction the value is verified at the commit, and the verification fails after the file was written. -/
theorem C12_white_space_counterexample :
    Fresh plain0 ∧ (run [.write "a".toList "5\n".toList []] plain0).2 = [.ok none] ∧
    (run [.start, .write "a".toList "5\n".toList [], .commit] plain0).2 =
      [.ok none, .ok none, .error (.verify "5\n".toList "5".toList)] :=
  ⟨⟨rfl, rfl, rfl⟩, by decide +kernel, by decide +kernel⟩

/-- Two files, one of them written twice: two writes at the commit. -/
example :
    let body : List Op := [.write "b".toList "1".toList [], .write "a".toList "2".toList [],
      .read "a".toList, .write "b".toList "3".toList []]
    WritesOK body (SysfsIO.start plain0).1 ∧
    (SysfsIO.commit (run body (SysfsIO.start plain0).1).1).2 = .ok () ∧
    (SysfsIO.commit (run body (SysfsIO.start plain0).1).1).1.log =
      [("b".toList, "3".toList), ("a".toList, "2".toList)] := by
  refine ⟨⟨fun _ => by decide +kernel, fun _ => by decide +kernel, (fun h => absurd rfl h),
    fun _ => by decide +kernel, trivial⟩, by decide +kernel, by decide +kernel⟩

end Verif.SysfsIO
