import Verif.Model.SysfsIO

/-!
Lemmas about sysfs access.
-/

namespace Verif.SysfsIO

variable {W : World}

/-- The file system consists of independent files: `cont s p` is the stripped contents of file `p`,
`none` if it cannot be read. Reading changes nothing, writing to a file changes no other file. What a
write does to the file itself is unspecified. -/
structure Files (W : World) (cont : W.σ → Path → Option PyStr) : Prop where
  read_cont : ∀ s p, cont (W.readF s p).1 = cont s
  read_some : ∀ s p c, cont s p = some c → ∃ raw, (W.readF s p).2 = .ok raw ∧ PyStr.strip raw = c
  read_none : ∀ s p, cont s p = none → ∀ raw, (W.readF s p).2 ≠ .ok raw
  write_other : ∀ s p v q, q ≠ p → cont (W.writeF s p v).1 q = cont s q

/-- Ordinary sysfs files: a successful write stores the value, a failed one changes nothing. -/
structure Ordinary (W : World) (cont : W.σ → Path → Option PyStr) : Prop extends Files W cont where
  write_ok : ∀ s p v, (W.writeF s p v).2 = .ok () → cont (W.writeF s p v).1 p = some (PyStr.strip v)
  write_err : ∀ s p v, (W.writeF s p v).2 ≠ .ok () → cont (W.writeF s p v).1 p = cont s p

/-! ### Cache -/

theorem cacheGet_add (st : St W) (p q : Path) (v : PyStr) :
    cacheGet (cacheAdd st p v) q = if st.enabled = true ∧ p = q then some v else cacheGet st q := by
  unfold cacheAdd cacheGet
  by_cases h : st.enabled = true
  · simp [h, Dict.get?_set]
  · simp [h]

theorem cacheGet_remove (st : St W) (p q : Path) :
    cacheGet (cacheRemove st p) q = if p = q then none else cacheGet st q := by
  unfold cacheRemove cacheGet
  by_cases h : st.enabled = true
  · simp [h, Dict.get?_erase]
  · simp [h]

/-- Same object apart from the cache. -/
def SameC (st st' : St W) : Prop :=
  st'.enabled = st.enabled ∧ st'.buf = st.buf ∧ st'.inTransaction = st.inTransaction ∧ st'.log = st.log ∧
    st'.s = st.s

theorem same_add (st : St W) (p : Path) (v : PyStr) : SameC st (cacheAdd st p v) := by
  unfold cacheAdd; split <;> exact ⟨rfl, rfl, rfl, rfl, rfl⟩

theorem same_remove (st : St W) (p : Path) : SameC st (cacheRemove st p) := by
  unfold cacheRemove; split <;> exact ⟨rfl, rfl, rfl, rfl, rfl⟩

/-- The object and the files are the same, except for the cache entry of file `p`. -/
structure Frame (cont : W.σ → Path → Option PyStr) (p : Path) (st st' : St W) : Prop where
  en : st'.enabled = st.enabled
  buf : st'.buf = st.buf
  tr : st'.inTransaction = st.inTransaction
  log : st'.log = st.log
  files : cont st'.s = cont st.s
  cache : ∀ q, q ≠ p → cacheGet st' q = cacheGet st q

theorem Frame.trans {cont : W.σ → Path → Option PyStr} {p : Path} {a b c : St W}
    (h1 : Frame cont p a b) (h2 : Frame cont p b c) : Frame cont p a c :=
  ⟨h2.en.trans h1.en, h2.buf.trans h1.buf, h2.tr.trans h1.tr, h2.log.trans h1.log,
    h2.files.trans h1.files, fun q hq => (h2.cache q hq).trans (h1.cache q hq)⟩

theorem frame_remove (cont : W.σ → Path → Option PyStr) (st : St W) (p : Path) :
    Frame cont p st (cacheRemove st p) := by
  obtain ⟨h1, h2, h3, h4, h5⟩ := same_remove st p
  exact ⟨h1, h2, h3, h4, by rw [h5], fun q hq => by rw [cacheGet_remove, if_neg (Ne.symm hq)]⟩

theorem frame_add (cont : W.σ → Path → Option PyStr) (st : St W) (p : Path) (v : PyStr) :
    Frame cont p st (cacheAdd st p v) := by
  obtain ⟨h1, h2, h3, h4, h5⟩ := same_add st p v
  exact ⟨h1, h2, h3, h4, by rw [h5], fun q hq => by
    rw [cacheGet_add, if_neg (fun h => hq h.2.symm)]⟩

/-! ### Reading -/

theorem read_cached {st : St W} {p : Path} {v : PyStr} (h : cacheGet st p = some v) :
    read st p = (st, .ok v) := by
  unfold read; rw [h]

theorem read_frame {cont : W.σ → Path → Option PyStr} (F : Files W cont) (st : St W) (p : Path) :
    Frame cont p st (read st p).1 := by
  have hc := F.read_cont st.s p
  unfold read
  cases hg : cacheGet st p with
  | some v => exact ⟨rfl, rfl, rfl, rfl, rfl, fun _ _ => rfl⟩
  | none =>
    simp only
    cases hr : W.readF st.s p with
    | mk s r =>
      rw [hr] at hc
      have h0 : Frame cont p st { st with s := s } := ⟨rfl, rfl, rfl, rfl, hc, fun _ _ => rfl⟩
      split
      · rename_i h; cases h
        exact h0.trans (frame_add cont _ p _)
      · rename_i h; cases h; exact h0
      · rename_i h; cases h; exact h0
      · rename_i h; cases h; exact h0

theorem read_uncached {cont : W.σ → Path → Option PyStr} (F : Files W cont) {st : St W} {p : Path}
    (hg : cacheGet st p = none) :
    (∀ c, cont st.s p = some c → (read st p).2 = .ok c ∧
      cacheGet (read st p).1 p = if st.enabled = true then some c else none) ∧
    (cont st.s p = none → (∃ e, (read st p).2 = .error (.exn e)) ∧ cacheGet (read st p).1 p = none) := by
  have h1 := F.read_some st.s p
  have h2 := F.read_none st.s p
  unfold read
  simp only [hg]
  cases hr : W.readF st.s p with
  | mk s r =>
    rw [hr] at h1 h2
    have hs : ∀ q, cacheGet ({ st with s := s } : St W) q = cacheGet st q := fun _ => rfl
    constructor
    · intro c hc
      obtain ⟨raw, h3, h4⟩ := h1 c hc
      simp only at h3
      subst h3
      simp only
      rw [h4, cacheGet_add]
      refine ⟨rfl, ?_⟩
      simp only [and_true]
      rw [hs, hg]
    · intro hc
      cases r with
      | ok raw => exact absurd rfl (h2 hc raw)
      | ioErr e => exact ⟨⟨_, rfl⟩, by rw [hs]; exact hg⟩
      | openErr e =>
        cases e <;> exact ⟨⟨_, rfl⟩, by rw [hs]; exact hg⟩

/-- The outcome of a verification. -/
def VerifyOutcome (cont : W.σ → Path → Option PyStr) (p : Path) (v : PyStr) (st : St W)
    (r : St W × Except SErr Unit) : Prop :=
  Frame cont p st r.1 ∧
  (∀ c, cont st.s p = some c →
    (r.2 = if v = c then .ok () else .error (.verify v c)) ∧
    cacheGet r.1 p = if st.enabled = true then some c else none) ∧
  (cont st.s p = none → (∃ e, r.2 = .error (.exn e)) ∧ cacheGet r.1 p = none)

theorem verifyLoop_spec {cont : W.σ → Path → Option PyStr} (F : Files W cont) (p : Path) (v : PyStr)
    (n : Nat) (st : St W) : VerifyOutcome cont p v st (verifyLoop p v n st) := by
  induction n generalizing st with
  | zero =>
    have h0 := frame_remove cont st p
    have h1 := h0.trans (read_frame F (cacheRemove st p) p)
    obtain ⟨h2, h3⟩ := read_uncached F (st := cacheRemove st p) (p := p)
      (by rw [cacheGet_remove, if_pos rfl])
    rw [h0.files] at h2 h3
    rw [h0.en] at h2
    unfold verifyLoop
    cases hr : read (cacheRemove st p) p with
    | mk st1 r =>
      rw [hr] at h1 h2 h3
      cases r with
      | error e =>
        simp only
        refine ⟨h1, (fun c hc => by have := (h2 c hc).1; cases this), fun hc => ?_⟩
        obtain ⟨⟨e', he⟩, h4⟩ := h3 hc
        simp only [Except.error.injEq] at he
        exact ⟨⟨e', by rw [he]⟩, h4⟩
      | ok new =>
        simp only
        split
        · rename_i hv
          refine ⟨h1, fun c hc => ?_, fun hc => by obtain ⟨⟨e, he⟩, _⟩ := h3 hc; cases he⟩
          obtain ⟨k1, k2⟩ := h2 c hc
          cases k1
          rw [if_pos hv]
          exact ⟨rfl, k2⟩
        · rename_i hv
          refine ⟨h1, fun c hc => ?_, fun hc => by obtain ⟨⟨e, he⟩, _⟩ := h3 hc; cases he⟩
          obtain ⟨k1, k2⟩ := h2 c hc
          cases k1
          rw [if_neg hv]
          exact ⟨rfl, k2⟩
  | succ n ih =>
    have h0 := frame_remove cont st p
    have h1 := h0.trans (read_frame F (cacheRemove st p) p)
    obtain ⟨h2, h3⟩ := read_uncached F (st := cacheRemove st p) (p := p)
      (by rw [cacheGet_remove, if_pos rfl])
    rw [h0.files] at h2 h3
    rw [h0.en] at h2
    unfold verifyLoop
    cases hr : read (cacheRemove st p) p with
    | mk st1 r =>
      rw [hr] at h1 h2 h3
      cases r with
      | error e =>
        simp only
        refine ⟨h1, (fun c hc => by have := (h2 c hc).1; cases this), fun hc => ?_⟩
        obtain ⟨⟨e', he⟩, h4⟩ := h3 hc
        simp only [Except.error.injEq] at he
        exact ⟨⟨e', by rw [he]⟩, h4⟩
      | ok new =>
        simp only
        split
        · rename_i hv
          refine ⟨h1, fun c hc => ?_, fun hc => by obtain ⟨⟨e, he⟩, _⟩ := h3 hc; cases he⟩
          obtain ⟨k1, k2⟩ := h2 c hc
          cases k1
          rw [if_pos hv]
          exact ⟨rfl, k2⟩
        · obtain ⟨g1, g2, g3⟩ := ih st1
          rw [h1.files] at g2 g3
          rw [h1.en] at g2
          exact ⟨h1.trans g1, g2, g3⟩

theorem verify_spec {cont : W.σ → Path → Option PyStr} (F : Files W cont) (p : Path) (v : PyStr)
    (n : Int) (st : St W) : VerifyOutcome cont p v st (verify st p v n) :=
  verifyLoop_spec F p v n.toNat st

/-! ### Writing -/

theorem rawWrite_spec (st : St W) (p : Path) (v : PyStr) :
    (rawWrite st p v).1 = { st with
      s := (W.writeF st.s p v).1
      log := if (W.writeF st.s p v).2 = .ok () then st.log ++ [(p, v)] else st.log } ∧
    ((rawWrite st p v).2 = .ok () ↔ (W.writeF st.s p v).2 = .ok ()) ∧
    (∀ e, (rawWrite st p v).2 = .error e → ∃ e', e = .exn e') := by
  unfold rawWrite
  cases hw : W.writeF st.s p v with
  | mk s r =>
    cases r with
    | ok u => exact ⟨by simp, by simp, fun e he => by cases he⟩
    | ioErr e => exact ⟨by simp, by simp, fun e he => by cases he; exact ⟨_, rfl⟩⟩
    | openErr e =>
      cases e <;> exact ⟨by simp, by simp, fun e he => by cases he; exact ⟨_, rfl⟩⟩

/-- Writing to the file leaves everything but that file (and the log) alone. -/
structure WFrame (cont : W.σ → Path → Option PyStr) (p : Path) (st st' : St W) : Prop where
  en : st'.enabled = st.enabled
  buf : st'.buf = st.buf
  tr : st'.inTransaction = st.inTransaction
  files : ∀ q, q ≠ p → cont st'.s q = cont st.s q
  cache : ∀ q, q ≠ p → cacheGet st' q = cacheGet st q

theorem Frame.wframe {cont : W.σ → Path → Option PyStr} {p : Path} {a b : St W} (h : Frame cont p a b) :
    WFrame cont p a b := ⟨h.en, h.buf, h.tr, fun q _ => by rw [h.files], h.cache⟩

theorem WFrame.trans {cont : W.σ → Path → Option PyStr} {p : Path} {a b c : St W}
    (h1 : WFrame cont p a b) (h2 : WFrame cont p b c) : WFrame cont p a c :=
  ⟨h2.en.trans h1.en, h2.buf.trans h1.buf, h2.tr.trans h1.tr,
    fun q hq => (h2.files q hq).trans (h1.files q hq),
    fun q hq => (h2.cache q hq).trans (h1.cache q hq)⟩

theorem rawWrite_frame {cont : W.σ → Path → Option PyStr} (F : Files W cont) (st : St W) (p : Path)
    (v : PyStr) : WFrame cont p st (rawWrite st p v).1 := by
  rw [(rawWrite_spec st p v).1]
  exact ⟨rfl, rfl, rfl, fun q hq => F.write_other _ _ _ q hq, fun _ _ => rfl⟩

/-- Both kinds of writes outside of transactions. `none` stands for `write()`. -/
def immWrite (st : St W) (p : Path) (v : PyStr) (retries : Option Int) : St W × Except SErr Unit :=
  match rawWrite (cacheRemove st p) p v with
  | (st, .error e) => (st, .error e)
  | (st, .ok ()) =>
    match (match retries with
      | none => (st, Except.ok ())
      | some n => verify st p v n) with
    | (st, .error e) => (st, .error e)
    | (st, .ok ()) => (cacheAdd st p v, .ok ())

theorem write_eq_imm {st : St W} (hi : st.inTransaction = false) (p : Path) (v what : PyStr) :
    write st p v what = immWrite st p v none := by
  unfold write immWrite
  simp only [(same_remove st p).2.2.1, hi, Bool.false_eq_true, if_false]
  cases rawWrite (cacheRemove st p) p v with
  | mk st1 r => cases r <;> rfl

theorem writeVerify_eq_imm {st : St W} (hi : st.inTransaction = false) (p : Path) (v what : PyStr)
    (retries : Int) (sleep : Nat) :
    writeVerify st p v what retries sleep = immWrite st p v (some retries) := by
  unfold writeVerify immWrite
  simp only [(same_remove st p).2.2.1, hi, Bool.false_eq_true, if_false]
  cases rawWrite (cacheRemove st p) p v with
  | mk st1 r =>
    cases r with
    | error e => rfl
    | ok u => rfl

theorem flushOne_eq_imm (st : St W) (p : Path) (ti : TInfo) :
    flushOne st p ti = immWrite st p ti.val (if ti.verify then some ti.retries else none) := by
  unfold flushOne immWrite
  cases rawWrite (cacheRemove st p) p ti.val with
  | mk st1 r =>
    cases r with
    | error e => rfl
    | ok u => cases ti.verify <;> rfl

/-- What an immediate write does, for any files. -/
theorem immWrite_spec {cont : W.σ → Path → Option PyStr} (F : Files W cont) (st : St W) (p : Path)
    (v : PyStr) (retries : Option Int) :
    WFrame cont p st (immWrite st p v retries).1 ∧
    ((immWrite st p v retries).2 = .ok () → (W.writeF st.s p v).2 = .ok () ∧
      (immWrite st p v retries).1.log = st.log ++ [(p, v)] ∧
      cacheGet (immWrite st p v retries).1 p = (if st.enabled = true then some v else none) ∧
      (retries ≠ none → cont (immWrite st p v retries).1.s p = some v)) ∧
    (∀ e, (immWrite st p v retries).2 = .error e →
      ∀ u, cacheGet (immWrite st p v retries).1 p = some u →
        cont (immWrite st p v retries).1.s p = some u) ∧
    (cont (immWrite st p v retries).1.s = cont (W.writeF st.s p v).1) ∧
    (∀ e, (immWrite st p v retries).2 = .error (.exn e) →
      (W.writeF st.s p v).2 ≠ .ok () ∨ cont (W.writeF st.s p v).1 p = none) ∧
    (∀ x y, (immWrite st p v retries).2 = .error (.verify x y) → (W.writeF st.s p v).2 = .ok ()) := by
  have h0 := frame_remove cont st p
  have h1 := rawWrite_frame F (cacheRemove st p) p v
  obtain ⟨r1, r2, r3⟩ := rawWrite_spec (cacheRemove st p) p v
  have hs : (cacheRemove st p).s = st.s := (same_remove st p).2.2.2.2
  have hlog : (cacheRemove st p).log = st.log := (same_remove st p).2.2.2.1
  rw [hs] at r1 r2
  have hcg : cacheGet (cacheRemove st p) p = none := by rw [cacheGet_remove, if_pos rfl]
  unfold immWrite
  cases hr : rawWrite (cacheRemove st p) p v with
  | mk st1 r =>
    rw [hr] at r1 r2 r3 h1
    have hs1 : st1.s = (W.writeF st.s p v).1 := by
      have := r1; simp only at this; rw [this]
    have hc1 : cacheGet st1 p = none := by
      have : cacheGet st1 p = cacheGet (cacheRemove st p) p := by
        have := r1; simp only at this; rw [this]; rfl
      rw [this, hcg]
    have hw1 := h0.wframe.trans h1
    cases r with
    | error e =>
      simp only
      obtain ⟨e', rfl⟩ := r3 e rfl
      refine ⟨hw1, (fun h => by cases h), fun e he u hu => ?_, by rw [hs1], fun e he => Or.inl ?_,
        fun x y hxy => by cases hxy⟩
      · rw [hc1] at hu; cases hu
      · intro hh
        have := r2.2 hh
        cases this
    | ok u =>
      have hwok : (W.writeF st.s p v).2 = .ok () := r2.1 rfl
      have hl1 : st1.log = st.log ++ [(p, v)] := by
        have := r1; simp only at this; rw [this]; simp [hwok, hlog]
      simp only
      cases retries with
      | none =>
        simp only
        have ha := frame_add cont st1 p v
        refine ⟨hw1.trans ha.wframe, fun _ => ⟨hwok, ha.log.trans hl1, ?_, fun h => absurd rfl h⟩,
          (fun e he => by cases he), by rw [ha.files, hs1], (fun e he => by cases he),
          fun x y hxy => by cases hxy⟩
        rw [cacheGet_add, hw1.en, hc1]
        simp
      | some n =>
        simp only
        obtain ⟨v1, v2, v3⟩ := verify_spec F p v n st1
        cases hv : verify st1 p v n with
        | mk st2 r2 =>
          rw [hv] at v1 v2 v3
          have hw2 := hw1.trans v1.wframe
          cases r2 with
          | error e =>
            simp only
            refine ⟨hw2, (fun h => by cases h), fun e he u hu => ?_, by rw [v1.files, hs1],
              fun e he => Or.inr ?_, fun x y hxy => hwok⟩
            · rw [v1.files]
              cases hc : cont st1.s p with
              | none =>
                have := (v3 hc).2
                simp only at this
                rw [this] at hu; cases hu
              | some c =>
                have := (v2 c hc).2
                simp only at this
                rw [this] at hu
                split at hu
                · exact hu
                · cases hu
            · cases hc : cont st1.s p with
              | none => rw [← hs1]; exact hc
              | some c =>
                have := (v2 c hc).1
                simp only at this he
                cases he
                split at this
                · cases this
                · cases this
          | ok u =>
            simp only
            have ha := frame_add cont st2 p v
            have hcont : cont st1.s p = some v := by
              cases hc : cont st1.s p with
              | none =>
                obtain ⟨⟨e, he⟩, _⟩ := v3 hc
                cases he
              | some c =>
                have := (v2 c hc).1
                simp only at this
                split at this
                · rename_i hvc; rw [hvc]
                · cases this
            refine ⟨hw2.trans ha.wframe, fun _ => ⟨hwok, ha.log.trans (v1.log.trans hl1), ?_,
              fun _ => by rw [ha.files, v1.files]; exact hcont⟩,
              (fun e he => by cases he), by rw [ha.files, v1.files, hs1], (fun e he => by cases he),
              fun x y hxy => by cases hxy⟩
            rw [cacheGet_add, hw2.en]
            split
            · rename_i h; rw [if_pos h.1]
            · rename_i h
              have he : ¬ st.enabled = true := fun h' => h ⟨h', rfl⟩
              rw [if_neg he]
              unfold cacheGet
              rw [hw2.en]; simp [he]

/-! ### Buffering -/

theorem addForTransaction_spec (st : St W) (p : Path) (ti : TInfo) :
    ((addForTransaction st p ti).2 = .ok () ∧
      (addForTransaction st p ti).1 = { st with buf := st.buf.set p ti } ∧ st.enabled = true) ∨
    ((addForTransaction st p ti).1 = st ∧ (addForTransaction st p ti).2 = .error (.exn .error)) := by
  unfold addForTransaction
  split
  · exact Or.inr ⟨rfl, rfl⟩
  · rename_i he
    have he : st.enabled = true := by simpa using he
    split
    · exact Or.inl ⟨rfl, rfl, he⟩
    · split
      · exact Or.inr ⟨rfl, rfl⟩
      · exact Or.inl ⟨rfl, rfl, he⟩

/-- Both kinds of writes inside of transactions. -/
def bufWrite (st : St W) (p : Path) (ti : TInfo) : St W × Except SErr Unit :=
  match addForTransaction (cacheRemove st p) p ti with
  | (st, .error e) => (st, .error e)
  | (st, .ok ()) => (cacheAdd st p ti.val, .ok ())

theorem write_eq_buf {st : St W} (hi : st.inTransaction = true) (p : Path) (v what : PyStr) :
    write st p v what = bufWrite st p ⟨v, what, true, 0, 0⟩ := by
  unfold write bufWrite
  simp only [(same_remove st p).2.2.1, hi, if_true]
  cases addForTransaction (cacheRemove st p) p ⟨v, what, true, 0, 0⟩ with
  | mk st1 r => cases r <;> rfl

theorem writeVerify_eq_buf {st : St W} (hi : st.inTransaction = true) (p : Path) (v what : PyStr)
    (retries : Int) (sleep : Nat) :
    writeVerify st p v what retries sleep = bufWrite st p ⟨v, what, true, retries, sleep⟩ := by
  unfold writeVerify bufWrite
  simp only [(same_remove st p).2.2.1, hi, if_true]
  cases addForTransaction (cacheRemove st p) p ⟨v, what, true, retries, sleep⟩ with
  | mk st1 r => cases r <;> rfl

theorem bufWrite_spec (st : St W) (p : Path) (ti : TInfo) :
    (bufWrite st p ti).1.enabled = st.enabled ∧
    (bufWrite st p ti).1.inTransaction = st.inTransaction ∧ (bufWrite st p ti).1.log = st.log ∧
    (bufWrite st p ti).1.s = st.s ∧
    (∀ q, q ≠ p → cacheGet (bufWrite st p ti).1 q = cacheGet st q) ∧
    (((bufWrite st p ti).2 = .ok () ∧ (bufWrite st p ti).1.buf = st.buf.set p ti ∧
        st.enabled = true ∧ cacheGet (bufWrite st p ti).1 p = some ti.val) ∨
      ((bufWrite st p ti).2 = .error (.exn .error) ∧ (bufWrite st p ti).1.buf = st.buf ∧
        cacheGet (bufWrite st p ti).1 p = none)) := by
  obtain ⟨c1, c2, c3, c4, c5⟩ := same_remove st p
  unfold bufWrite
  rcases addForTransaction_spec (cacheRemove st p) p ti with ⟨h1, h2, h3⟩ | ⟨h1, h2⟩
  · cases ha : addForTransaction (cacheRemove st p) p ti with
    | mk st1 r =>
      rw [ha] at h1 h2
      simp only at h1 h2
      subst h1
      simp only
      obtain ⟨a1, a2, a3, a4, a5⟩ := same_add st1 p ti.val
      have hcg : ∀ q, cacheGet st1 q = cacheGet (cacheRemove st p) q := fun q => by rw [h2]; rfl
      refine ⟨by rw [a1, h2]; exact c1, by rw [a3, h2]; exact c3, by rw [a4, h2]; exact c4,
        by rw [a5, h2]; exact c5, fun q hq => ?_, Or.inl ⟨trivial, by rw [a2, h2, ← c2], ?_, ?_⟩⟩
      · rw [cacheGet_add, if_neg (fun h => hq h.2.symm), hcg, cacheGet_remove, if_neg (Ne.symm hq)]
      · rw [← c1]; exact h3
      · rw [cacheGet_add, if_pos ⟨by rw [h2]; exact h3, rfl⟩]
  · cases ha : addForTransaction (cacheRemove st p) p ti with
    | mk st1 r =>
      rw [ha] at h1 h2
      simp only at h1 h2
      subst h1; subst h2
      exact ⟨c1, c3, c4, c5, fun q hq => by rw [cacheGet_remove, if_neg (Ne.symm hq)],
        Or.inr ⟨rfl, c2, by rw [cacheGet_remove, if_pos rfl]⟩⟩

end Verif.SysfsIO
