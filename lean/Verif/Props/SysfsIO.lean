import Verif.Lemmas.SysfsIO
import Verif.Lib.PyList

/-!
C11, C12, C13, C14: sysfs access.
-/

namespace Verif.SysfsIO

open PyStr (strip)

variable {W : World}

/-! ### Specification -/

/-- A method call on a `SysfsIO` object. -/
inductive Op where
  | read (p : Path)
  | write (p : Path) (v what : PyStr)
  | writeVerify (p : Path) (v what : PyStr) (retries : Int) (sleep : Nat)
  | start
  | flush
  | commit

/-- The path and the value a call writes. -/
def Op.writes : Op → Option (Path × PyStr)
  | .write p v _ => some (p, v)
  | .writeVerify p v _ _ _ => some (p, v)
  | _ => none

/-- Reads and writes, as opposed to transaction control. -/
def Op.isIO : Op → Bool
  | .read _ | .write _ _ _ | .writeVerify _ _ _ _ _ => true
  | _ => false

abbrev Result := Except SErr (Option PyStr)

/-- Execute a call. -/
def step (st : St W) : Op → St W × Result
  | .read p => ((SysfsIO.read st p).1, (SysfsIO.read st p).2.map some)
  | .write p v what =>
    ((SysfsIO.write st p v what).1, (SysfsIO.write st p v what).2.map fun _ => none)
  | .writeVerify p v what r s =>
    ((SysfsIO.writeVerify st p v what r s).1, (SysfsIO.writeVerify st p v what r s).2.map fun _ => none)
  | .start => ((SysfsIO.start st).1, (SysfsIO.start st).2.map fun _ => none)
  | .flush => ((SysfsIO.flush st).1, (SysfsIO.flush st).2.map fun _ => none)
  | .commit => ((SysfsIO.commit st).1, (SysfsIO.commit st).2.map fun _ => none)

/-- Execute a list of calls; a failing call does not prevent the following ones. -/
def run : List Op → St W → St W × List Result
  | [], st => (st, [])
  | op :: ops, st =>
    let r := step st op
    let rs := run ops r.1
    (rs.1, r.2 :: rs.2)

/-- The value reached the file (or the transaction buffer): the call succeeded, or the value was
written, but what was read back is different. -/
def reached : Result → Bool
  | .ok _ => true
  | .error (.verify _ _) => true
  | .error (.exn _) => false

/-- The specification: file contents as the user of the object should see them. -/
def specStep (M : Path → Option PyStr) (op : Op) (r : Result) : Path → Option PyStr :=
  match op.writes with
  | none => M
  | some (p, v) => if reached r then fun q => if q = p then some (strip v) else M q else M

def specRun : List Op → St W → (Path → Option PyStr) → Path → Option PyStr
  | [], _, M => M
  | op :: ops, st, M => specRun ops (step st op).1 (specStep M op (step st op).2)

/-- While a transaction is open, writes, flushes and the commit succeed. -/
def Clean : List Op → St W → Prop
  | [], _ => True
  | op :: ops, st =>
    (st.inTransaction = true → (∃ p, op = .read p) ∨ op = .start ∨ ∃ r, (step st op).2 = .ok r) ∧
    Clean ops (step st op).1

/-- A new object. -/
def Fresh (st : St W) : Prop := st.cache = [] ∧ st.buf = [] ∧ st.inTransaction = false

/-- The last value a list of calls writes to a path. -/
def lastWritten : List Op → Path → Option PyStr
  | [], _ => none
  | op :: ops, p =>
    match lastWritten ops p with
    | some v => some v
    | none => match op.writes with
      | some (q, v) => if q = p then some v else none
      | none => none

/-- The paths a list of calls writes to, in order, with repetitions. -/
def paths (ops : List Op) : List Path := ops.filterMap (fun op => op.writes.map Prod.fst)

/-- The n-th read-back of a file, starting from a state of the file system. -/
def readBack (W : World) (s : W.σ) (p : Path) : Nat → W.σ × IORes PyStr
  | 0 => W.readF s p
  | n + 1 => W.readF (readBack W s p n).1 p

/-! ### C14 -/

theorem readBack_shift (W : World) (s : W.σ) (p : Path) (n : Nat) :
    readBack W (W.readF s p).1 p n = readBack W s p (n + 1) := by
  induction n with
  | zero => rfl
  | succ n ih => simp only [readBack] at ih ⊢; rw [ih]

theorem cacheGet_remove_self (st : St W) (p : Path) : cacheGet (cacheRemove st p) p = none := by
  rw [cacheGet_remove, if_pos rfl]

theorem read_world (st : St W) (p : Path) (h : cacheGet st p = none) :
    (SysfsIO.read st p).1.s = (W.readF st.s p).1 ∧
    (∀ v, (SysfsIO.read st p).2 = .ok v ↔ ∃ raw, (W.readF st.s p).2 = .ok raw ∧ strip raw = v) ∧
    (∀ e, (SysfsIO.read st p).2 = .error e → ∃ e', e = .exn e') := by
  unfold SysfsIO.read
  simp only [h]
  cases hr : W.readF st.s p with
  | mk s r =>
    cases r with
    | ok raw =>
      refine ⟨(same_add _ p _).2.2.2.2, fun v => ?_, fun e he => by cases he⟩
      constructor
      · intro h; cases h; exact ⟨raw, rfl, rfl⟩
      · rintro ⟨raw', h1, rfl⟩; cases h1; rfl
    | ioErr e =>
      refine ⟨rfl, fun v => ⟨(fun h => by cases h), ?_⟩, fun e he => by cases he; exact ⟨_, rfl⟩⟩
      rintro ⟨raw', h1, _⟩; cases h1
    | openErr e =>
      cases e <;> refine ⟨rfl, fun v => ⟨(fun h => by cases h), ?_⟩,
        fun e he => by cases he; exact ⟨_, rfl⟩⟩ <;> (rintro ⟨raw', h1, _⟩; cases h1)

/-- The read-back differs from `v` (and succeeded). -/
def Differs (b : IORes PyStr) (v : PyStr) : Prop := ∃ raw, b = .ok raw ∧ strip raw ≠ v

/-- The read-back equals `v`. -/
def Equals (b : IORes PyStr) (v : PyStr) : Prop := ∃ raw, b = .ok raw ∧ strip raw = v

/-- Reading failed. -/
def Fails (b : IORes PyStr) : Prop := ∀ raw, b ≠ .ok raw

theorem verifyLoop_reads (p : Path) (v : PyStr) (n : Nat) (st : St W) :
    let b := fun k => (readBack W st.s p k).2
    ((verifyLoop p v n st).2 = .ok () → ∃ k, k ≤ n ∧ Equals (b k) v ∧ ∀ j, j < k → Differs (b j) v) ∧
    (∀ x a, (verifyLoop p v n st).2 = .error (.verify x a) →
      x = v ∧ (∀ j, j ≤ n → Differs (b j) v) ∧ Equals (b n) a) ∧
    (∀ e, (verifyLoop p v n st).2 = .error (.exn e) →
      ∃ k, k ≤ n ∧ Fails (b k) ∧ ∀ j, j < k → Differs (b j) v) := by
  induction n generalizing st with
  | zero =>
    intro b
    obtain ⟨h1, h2, h3⟩ := read_world (cacheRemove st p) p (cacheGet_remove_self st p)
    have hs : (cacheRemove st p).s = st.s := (same_remove st p).2.2.2.2
    rw [hs] at h1 h2
    have hb : b 0 = (W.readF st.s p).2 := rfl
    unfold verifyLoop
    cases hr : SysfsIO.read (cacheRemove st p) p with
    | mk st1 r =>
      rw [hr] at h1 h2 h3
      cases r with
      | error e =>
        simp only
        refine ⟨(fun h => by cases h), fun x a h => ?_, fun e' h => ⟨0, Nat.le_refl _, ?_, by omega⟩⟩
        · obtain ⟨e', he'⟩ := h3 e rfl
          subst he'; cases h
        · intro raw hraw
          rw [hb] at hraw
          have := (h2 (strip raw)).2 ⟨raw, hraw, rfl⟩
          cases this
      | ok new =>
        obtain ⟨raw, h4, h5⟩ := (h2 new).1 rfl
        simp only
        split
        · rename_i hv
          exact ⟨fun _ => ⟨0, Nat.le_refl _, ⟨raw, h4, h5.trans hv.symm⟩, by omega⟩,
            (fun x a h => by cases h), fun e h => by cases h⟩
        · rename_i hv
          refine ⟨(fun h => by cases h), fun x a h => ?_, fun e h => by cases h⟩
          cases h
          refine ⟨rfl, fun j hj => ?_, ⟨raw, h4, h5⟩⟩
          obtain rfl : j = 0 := by omega
          exact ⟨raw, h4, fun h => hv (h.symm.trans h5)⟩
  | succ n ih =>
    intro b
    obtain ⟨h1, h2, h3⟩ := read_world (cacheRemove st p) p (cacheGet_remove_self st p)
    have hs : (cacheRemove st p).s = st.s := (same_remove st p).2.2.2.2
    rw [hs] at h1 h2
    have hb : b 0 = (W.readF st.s p).2 := rfl
    unfold verifyLoop
    cases hr : SysfsIO.read (cacheRemove st p) p with
    | mk st1 r =>
      rw [hr] at h1 h2 h3
      cases r with
      | error e =>
        simp only
        refine ⟨(fun h => by cases h), fun x a h => ?_, fun e' h => ⟨0, by omega, ?_, by omega⟩⟩
        · obtain ⟨e', he'⟩ := h3 e rfl
          subst he'; cases h
        · intro raw hraw
          rw [hb] at hraw
          have := (h2 (strip raw)).2 ⟨raw, hraw, rfl⟩
          cases this
      | ok new =>
        obtain ⟨raw, h4, h5⟩ := (h2 new).1 rfl
        simp only
        split
        · rename_i hv
          exact ⟨fun _ => ⟨0, by omega, ⟨raw, h4, h5.trans hv.symm⟩, by omega⟩,
            (fun x a h => by cases h), fun e h => by cases h⟩
        · rename_i hv
          have hd0 : Differs (b 0) v := ⟨raw, h4, fun h => hv (h.symm.trans h5)⟩
          obtain ⟨g1, g2, g3⟩ := ih st1
          simp only at h1
          have hshift : ∀ k, (readBack W st1.s p k).2 = b (k + 1) := by
            intro k; rw [h1, readBack_shift]
          simp only [hshift] at g1 g2 g3
          have hall : ∀ k, (∀ j, j < k → Differs (b (j + 1)) v) → ∀ j, j < k + 1 → Differs (b j) v := by
            intro k hk j hj
            cases j with
            | zero => exact hd0
            | succ j => exact hk j (by omega)
          refine ⟨fun h => ?_, fun x a h => ?_, fun e h => ?_⟩
          · obtain ⟨k, k1, k2, k3⟩ := g1 h
            exact ⟨k + 1, by omega, k2, hall k k3⟩
          · obtain ⟨k1, k2, k3⟩ := g2 x a h
            exact ⟨k1, fun j hj => hall (n + 1) (fun j hj => k2 j (by omega)) j (by omega), k3⟩
          · obtain ⟨k, k1, k2, k3⟩ := g3 e h
            exact ⟨k + 1, by omega, k2, hall k k3⟩

/-- **C14.** For any file system and any number of re-tries, a `write_verify()` outside of a
transaction: succeeds only if the write succeeded and one of the at most retries+1 read-backs returned
exactly the value, all previous ones being different; raises `ErrorVerifyFailed` only if the write
succeeded and all the retries+1 read-backs differ, and carries the value and the last read-back; raises
any other error only if the write failed, or a read-back failed after differing ones. -/
theorem C14_write_verify (st : St W) (hi : st.inTransaction = false) (p : Path) (v what : PyStr)
    (retries : Int) (sleep : Nat) :
    let n := retries.toNat
    let w := W.writeF st.s p v
    let b := fun k => (readBack W w.1 p k).2
    let r := (writeVerify st p v what retries sleep).2
    (r = .ok () → w.2 = .ok () ∧ ∃ k, k ≤ n ∧ Equals (b k) v ∧ ∀ j, j < k → Differs (b j) v) ∧
    (∀ x a, r = .error (.verify x a) →
      w.2 = .ok () ∧ x = v ∧ (∀ j, j ≤ n → Differs (b j) v) ∧ Equals (b n) a) ∧
    (∀ e, r = .error (.exn e) →
      w.2 ≠ .ok () ∨ ∃ k, k ≤ n ∧ Fails (b k) ∧ ∀ j, j < k → Differs (b j) v) := by
  intro n w b r
  have hr : r = (immWrite st p v (some retries)).2 := by
    show (writeVerify st p v what retries sleep).2 = _
    rw [writeVerify_eq_imm hi]
  obtain ⟨r1, r2, r3⟩ := rawWrite_spec (cacheRemove st p) p v
  have hs : (cacheRemove st p).s = st.s := (same_remove st p).2.2.2.2
  rw [hs] at r1 r2
  unfold immWrite at hr
  cases hw : rawWrite (cacheRemove st p) p v with
  | mk st1 r' =>
    rw [hw] at hr r1 r2 r3
    cases r' with
    | error e =>
      simp only at hr
      obtain ⟨e', rfl⟩ := r3 e rfl
      rw [hr]
      refine ⟨(fun h => by cases h), (fun x a h => by cases h), fun e h => Or.inl fun hh => ?_⟩
      have := r2.2 hh
      cases this
    | ok u =>
      have hwok : w.2 = .ok () := r2.1 rfl
      have hs1 : st1.s = w.1 := by
        have := r1; simp only at this; rw [this]
      obtain ⟨g1, g2, g3⟩ := verifyLoop_reads p v n st1
      rw [hs1] at g1 g2 g3
      simp only [verify] at hr
      cases hv : verifyLoop p v n st1 with
      | mk st2 r2 =>
        rw [hv] at g1 g2 g3
        have hn : retries.toNat = n := rfl
        rw [hn, hv] at hr
        cases r2 with
        | error e =>
          simp only at hr
          rw [hr]
          refine ⟨(fun h => by cases h), fun x a h => ?_, fun e' h => ?_⟩
          · cases h; exact ⟨hwok, g2 x a rfl⟩
          · cases h; exact Or.inr (g3 e' rfl)
        | ok u =>
          simp only at hr
          rw [hr]
          exact ⟨fun _ => ⟨hwok, g1 rfl⟩, (fun x a h => by cases h), fun e h => by cases h⟩

/-- `write_verify_int()` is `write_verify()` of the decimal representation. -/
theorem C14_write_verify_int (st : St W) (p : Path) (v : Int) (what : PyStr) (retries : Int)
    (sleep : Nat) :
    writeVerifyInt st p v what retries sleep = writeVerify st p (PyStr.ofInt v) what retries sleep := rfl

/-- A file that stores the value only after it was read twice. -/
def lazyWorld : World where
  σ := List PyStr
  readF s _ := match s with
    | [] => ([], .openErr .notFound)
    | [x] => ([x], .ok x)
    | x :: y :: s => (y :: s, .ok x)
  writeF s _ v := (s ++ [v], .ok ())

/-- With two re-tries the write succeeds, with one it does not. -/
example :
    let st : St lazyWorld := ⟨true, [], [], false, ["1\n".toList, "2\n".toList], []⟩
    (writeVerify st [] "3".toList [] 2 0).2 = .ok () ∧
    (writeVerify st [] "3".toList [] 1 0).2 = .error (.verify "3".toList "2".toList) := by
  decide +kernel

/-! ### Structural invariant -/

/-- Transactions are used only with caching, and the buffer is used only in transactions. -/
structure BufInv (st : St W) : Prop where
  en : st.enabled = false → st.inTransaction = false
  nb : st.inTransaction = false → st.buf = []
  nd : (Dict.keys st.buf).Nodup

theorem bufInv_fresh {st : St W} (h : Fresh st) : BufInv st :=
  ⟨fun _ => h.2.2, fun _ => h.2.1, by rw [h.2.1]; exact List.nodup_nil⟩

theorem BufInv.of_eq {st st' : St W} (h : BufInv st) (h1 : st'.enabled = st.enabled)
    (h2 : st'.buf = st.buf) (h3 : st'.inTransaction = st.inTransaction) : BufInv st' :=
  ⟨fun he => by rw [h3]; exact h.en (h1 ▸ he), fun hi => by rw [h2]; exact h.nb (h3 ▸ hi),
    by rw [h2]; exact h.nd⟩

theorem bufWrite_inv {st : St W} (h : BufInv st) (hi : st.inTransaction = true) (p : Path) (ti : TInfo) :
    BufInv (bufWrite st p ti).1 := by
  obtain ⟨h1, h2, _, _, _, h6⟩ := bufWrite_spec st p ti
  rcases h6 with ⟨_, h7, _⟩ | ⟨_, h7, _⟩
  · refine ⟨fun he => by rw [h2]; exact h.en (h1 ▸ he), fun hi' => ?_, ?_⟩
    · rw [h2, hi] at hi'; cases hi'
    · rw [h7]; exact Dict.nodup_keys_set h.nd _ _
  · exact h.of_eq h1 h7 h2

theorem flushLoop_frame {cont : W.σ → Path → Option PyStr} (F : Files W cont) (l : Dict Path TInfo)
    (st : St W) :
    (flushLoop l st).1.enabled = st.enabled ∧ (flushLoop l st).1.buf = st.buf ∧
    (flushLoop l st).1.inTransaction = st.inTransaction ∧
    ∀ q, q ∉ Dict.keys l → cont (flushLoop l st).1.s q = cont st.s q ∧
      cacheGet (flushLoop l st).1 q = cacheGet st q := by
  induction l generalizing st with
  | nil => exact ⟨rfl, rfl, rfl, fun _ _ => ⟨rfl, rfl⟩⟩
  | cons e l ih =>
    obtain ⟨p, ti⟩ := e
    obtain ⟨h1, _⟩ := immWrite_spec F st p ti.val (if ti.verify then some ti.retries else none)
    rw [← flushOne_eq_imm] at h1
    unfold flushLoop
    cases hf : flushOne st p ti with
    | mk st1 r =>
      rw [hf] at h1
      have hq : ∀ q, q ∉ Dict.keys ((p, ti) :: l) → q ≠ p ∧ q ∉ Dict.keys l := by
        intro q hq
        simpa [Dict.keys] using hq
      cases r with
      | error e => exact ⟨h1.en, h1.buf, h1.tr, fun q hh => ⟨h1.files q (hq q hh).1, h1.cache q (hq q hh).1⟩⟩
      | ok u =>
        obtain ⟨g1, g2, g3, g4⟩ := ih st1
        refine ⟨g1.trans h1.en, g2.trans h1.buf, g3.trans h1.tr, fun q hh => ?_⟩
        obtain ⟨k1, k2⟩ := g4 q (hq q hh).2
        exact ⟨k1.trans (h1.files q (hq q hh).1), k2.trans (h1.cache q (hq q hh).1)⟩

theorem flush_frame {cont : W.σ → Path → Option PyStr} (F : Files W cont) (st : St W) :
    (SysfsIO.flush st).1.enabled = st.enabled ∧
    ((SysfsIO.flush st).1.buf = st.buf ∨ (SysfsIO.flush st).1.buf = []) ∧
    (SysfsIO.flush st).1.inTransaction = st.inTransaction ∧
    ∀ q, q ∉ Dict.keys st.buf → cont (SysfsIO.flush st).1.s q = cont st.s q ∧
      cacheGet (SysfsIO.flush st).1 q = cacheGet st q := by
  unfold SysfsIO.flush
  split
  · exact ⟨rfl, Or.inl rfl, rfl, fun _ _ => ⟨rfl, rfl⟩⟩
  · split
    · exact ⟨rfl, Or.inl rfl, rfl, fun _ _ => ⟨rfl, rfl⟩⟩
    · obtain ⟨g1, g2, g3, g4⟩ := flushLoop_frame F st.buf st
      cases hf : flushLoop st.buf st with
      | mk st1 r =>
        rw [hf] at g1 g2 g3 g4
        cases r with
        | error e => exact ⟨g1, Or.inl g2, g3, g4⟩
        | ok u => exact ⟨g1, Or.inr rfl, g3, g4⟩

theorem commit_frame {cont : W.σ → Path → Option PyStr} (F : Files W cont) (st : St W) :
    (SysfsIO.commit st).1.enabled = st.enabled ∧
    ((SysfsIO.commit st).1.buf = st.buf ∨ (SysfsIO.commit st).1.buf = []) ∧
    ((SysfsIO.commit st).1.inTransaction = st.inTransaction ∨
      ((SysfsIO.commit st).2 = .ok () ∧ (SysfsIO.commit st).1.inTransaction = false)) ∧
    ∀ q, q ∉ Dict.keys st.buf → cont (SysfsIO.commit st).1.s q = cont st.s q ∧
      cacheGet (SysfsIO.commit st).1 q = cacheGet st q := by
  obtain ⟨g1, g2, g3, g4⟩ := flush_frame F st
  unfold SysfsIO.commit
  cases hf : SysfsIO.flush st with
  | mk st1 r =>
    rw [hf] at g1 g2 g3 g4
    cases r with
    | error e => exact ⟨g1, g2, Or.inl g3, g4⟩
    | ok u => exact ⟨g1, g2, Or.inr ⟨rfl, rfl⟩, g4⟩

theorem start_frame (st : St W) :
    (SysfsIO.start st).1.enabled = st.enabled ∧ (SysfsIO.start st).1.buf = st.buf ∧
    (SysfsIO.start st).1.s = st.s ∧ (SysfsIO.start st).1.log = st.log ∧
    (∀ q, cacheGet (SysfsIO.start st).1 q = cacheGet st q) ∧
    ((SysfsIO.start st).1.inTransaction = st.inTransaction ∨ st.enabled = true) := by
  unfold SysfsIO.start
  split
  · exact ⟨rfl, rfl, rfl, rfl, fun _ => rfl, Or.inl rfl⟩
  · rename_i he
    split
    · exact ⟨rfl, rfl, rfl, rfl, fun _ => rfl, Or.inl rfl⟩
    · exact ⟨rfl, rfl, rfl, rfl, fun _ => rfl, Or.inr (by simpa using he)⟩

theorem flush_ok_buf {st : St W} (hb : BufInv st) (h : (SysfsIO.flush st).2 = .ok ()) :
    (SysfsIO.flush st).1.buf = [] := by
  unfold SysfsIO.flush at h ⊢
  split at h
  · rename_i he
    have he : st.enabled = false := by simpa using he
    simp only [he, Bool.not_false, if_true]
    exact hb.nb (hb.en he)
  · split at h
    · cases h
    · rename_i he hi
      simp only [he, hi, if_false, Bool.false_eq_true]
      cases hf : flushLoop st.buf st with
      | mk st1 r =>
        rw [hf] at h
        cases r with
        | error e => cases h
        | ok u => rfl

theorem step_bufInv {cont : W.σ → Path → Option PyStr} (F : Files W cont) {st : St W} (h : BufInv st)
    (op : Op) : BufInv (step st op).1 := by
  cases op with
  | read p =>
    have := read_frame F st p
    exact h.of_eq this.en this.buf this.tr
  | write p v what =>
    simp only [step]
    cases hi : st.inTransaction with
    | true => rw [write_eq_buf hi]; exact bufWrite_inv h hi _ _
    | false =>
      rw [write_eq_imm hi]
      have := (immWrite_spec F st p v none).1
      exact h.of_eq this.en this.buf this.tr
  | writeVerify p v what r s =>
    simp only [step]
    cases hi : st.inTransaction with
    | true => rw [writeVerify_eq_buf hi]; exact bufWrite_inv h hi _ _
    | false =>
      rw [writeVerify_eq_imm hi]
      have := (immWrite_spec F st p v (some r)).1
      exact h.of_eq this.en this.buf this.tr
  | start =>
    simp only [step]
    unfold SysfsIO.start
    split
    · exact h
    · rename_i he
      split
      · exact h
      · exact ⟨fun hh => by simp at he; simp [he] at hh, (fun hh => by simp at hh), h.nd⟩
  | flush =>
    obtain ⟨g1, g2, g3, _⟩ := flush_frame F st
    simp only [step]
    rcases g2 with g2 | g2
    · exact h.of_eq g1 g2 g3
    · exact ⟨fun he => by rw [g3]; exact h.en (g1 ▸ he), fun _ => g2, by rw [g2]; exact List.nodup_nil⟩
  | commit =>
    obtain ⟨g1, g2, g3, _⟩ := flush_frame F st
    have hok := flush_ok_buf h
    simp only [step]
    unfold SysfsIO.commit
    cases hf : SysfsIO.flush st with
    | mk st1 r =>
      rw [hf] at g1 g2 g3 hok
      have hb1 : BufInv st1 := by
        rcases g2 with g2 | g2
        · exact h.of_eq g1 g2 g3
        · exact ⟨fun he => by
            have := h.en (g1 ▸ he)
            exact g3.trans this, fun _ => g2, by
            simp only at g2
            rw [g2]; exact List.nodup_nil⟩
      cases r with
      | error e => exact hb1
      | ok u => exact ⟨fun _ => rfl, fun _ => hok rfl, hb1.nd⟩

theorem run_bufInv {cont : W.σ → Path → Option PyStr} (F : Files W cont) {st : St W} (h : BufInv st)
    (ops : List Op) : BufInv (run ops st).1 := by
  induction ops generalizing st with
  | nil => exact h
  | cons op ops ih => exact ih (step_bufInv F h op)

/-! ### C13 -/

/-- File `p` is not buffered and its cache entry, if any, is right. -/
def PathOK (cont : W.σ → Path → Option PyStr) (p : Path) (st : St W) : Prop :=
  p ∉ Dict.keys st.buf ∧ ∀ u, cacheGet st p = some u → cont st.s p = some u

theorem pathOK_step {cont : W.σ → Path → Option PyStr} (F : Files W cont) {p : Path} {st : St W}
    (h : PathOK cont p st) (op : Op) (hop : ∀ v, op.writes ≠ some (p, v)) :
    PathOK cont p (step st op).1 := by
  cases op with
  | read q =>
    have hf := read_frame F st q
    refine ⟨by rw [show (step st (.read q)).1.buf = st.buf from hf.buf]; exact h.1, fun u hu => ?_⟩
    show cont (SysfsIO.read st q).1.s p = _
    rw [hf.files]
    have hu : cacheGet (SysfsIO.read st q).1 p = some u := hu
    by_cases hpq : p = q
    · subst hpq
      cases hg : cacheGet st p with
      | some v =>
        rw [read_cached hg] at hu
        exact h.2 u hu
      | none =>
        obtain ⟨k1, k2⟩ := read_uncached F hg
        cases hc : cont st.s p with
        | none => rw [(k2 hc).2] at hu; cases hu
        | some c =>
          rw [(k1 c hc).2] at hu
          split at hu
          · exact hu
          · cases hu
    · rw [hf.cache p hpq] at hu
      exact h.2 u hu
  | write q v what =>
    have hpq : p ≠ q := fun e => hop v (by rw [e]; rfl)
    simp only [step]
    cases hi : st.inTransaction with
    | true =>
      rw [write_eq_buf hi]
      obtain ⟨_, _, _, h4, h5, h6⟩ := bufWrite_spec st q ⟨v, what, true, 0, 0⟩
      refine ⟨?_, fun u hu => by rw [h4]; rw [h5 p hpq] at hu; exact h.2 u hu⟩
      rcases h6 with ⟨_, h7, _⟩ | ⟨_, h7, _⟩ <;> rw [h7]
      · rw [Dict.mem_keys_set]; rintro (e | e)
        · exact hpq e
        · exact h.1 e
      · exact h.1
    | false =>
      rw [write_eq_imm hi]
      have := (immWrite_spec F st q v none).1
      exact ⟨by rw [this.buf]; exact h.1, fun u hu => by
        rw [this.files p hpq]; rw [this.cache p hpq] at hu; exact h.2 u hu⟩
  | writeVerify q v what r s =>
    have hpq : p ≠ q := fun e => hop v (by rw [e]; rfl)
    simp only [step]
    cases hi : st.inTransaction with
    | true =>
      rw [writeVerify_eq_buf hi]
      obtain ⟨_, _, _, h4, h5, h6⟩ := bufWrite_spec st q ⟨v, what, true, r, s⟩
      refine ⟨?_, fun u hu => by rw [h4]; rw [h5 p hpq] at hu; exact h.2 u hu⟩
      rcases h6 with ⟨_, h7, _⟩ | ⟨_, h7, _⟩ <;> rw [h7]
      · rw [Dict.mem_keys_set]; rintro (e | e)
        · exact hpq e
        · exact h.1 e
      · exact h.1
    | false =>
      rw [writeVerify_eq_imm hi]
      have := (immWrite_spec F st q v (some r)).1
      exact ⟨by rw [this.buf]; exact h.1, fun u hu => by
        rw [this.files p hpq]; rw [this.cache p hpq] at hu; exact h.2 u hu⟩
  | start =>
    obtain ⟨_, h2, h3, _, h5, _⟩ := start_frame st
    exact ⟨by rw [show (step st .start).1.buf = st.buf from h2]; exact h.1, fun u hu => by
      rw [show (step st .start).1.s = st.s from h3]; exact h.2 u (by rw [← h5 p]; exact hu)⟩
  | flush =>
    obtain ⟨_, g2, _, g4⟩ := flush_frame F st
    obtain ⟨k1, k2⟩ := g4 p h.1
    refine ⟨?_, fun u hu => by
      rw [show cont (step st .flush).1.s p = _ from k1]; exact h.2 u (by rw [← k2]; exact hu)⟩
    show p ∉ Dict.keys (SysfsIO.flush st).1.buf
    rcases g2 with g2 | g2 <;> rw [g2]
    · exact h.1
    · simp [Dict.keys]
  | commit =>
    obtain ⟨_, g2, _, g4⟩ := commit_frame F st
    obtain ⟨k1, k2⟩ := g4 p h.1
    refine ⟨?_, fun u hu => by
      rw [show cont (step st .commit).1.s p = _ from k1]; exact h.2 u (by rw [← k2]; exact hu)⟩
    show p ∉ Dict.keys (SysfsIO.commit st).1.buf
    rcases g2 with g2 | g2 <;> rw [g2]
    · exact h.1
    · simp [Dict.keys]

/-- **C13.** If, after any history on a new object, a write or its verification fails outside of a
transaction, then after any further calls that do not write that file, reading it gives the actual
contents of the file, whatever the kernel did to the file when it refused the value. -/
theorem C13_failed_write_not_cached (cont : W.σ → Path → Option PyStr) (F : Files W cont) (st0 : St W)
    (h0 : Fresh st0) (hist : List Op) (hi : (run hist st0).1.inTransaction = false) (op : Op) (p : Path)
    (v : PyStr) (hop : op.writes = some (p, v)) (e : SErr)
    (hfail : (step (run hist st0).1 op).2 = .error e) (later : List Op)
    (hl : ∀ o ∈ later, ∀ u, o.writes ≠ some (p, u)) :
    let st := (run later (step (run hist st0).1 op).1).1
    ∀ r, (SysfsIO.read st p).2 = .ok r → cont st.s p = some r := by
  have hb := run_bufInv F (bufInv_fresh h0) hist
  have hbuf := hb.nb hi
  generalize (run hist st0).1 = st1 at hi hfail hb hbuf
  have himm : ∀ retries, (∃ e, (immWrite st1 p v retries).2 = .error e) →
      PathOK cont p (immWrite st1 p v retries).1 := by
    rintro retries ⟨e, he⟩
    obtain ⟨k1, _, k3, _⟩ := immWrite_spec F st1 p v retries
    exact ⟨by rw [k1.buf, hbuf]; simp [Dict.keys], k3 e he⟩
  have hpk : PathOK cont p (step st1 op).1 := by
    cases op with
    | write q w what =>
      cases hop
      simp only [step] at hfail ⊢
      rw [write_eq_imm hi] at hfail ⊢
      refine himm none ?_
      cases hr : (immWrite st1 p v none).2 with
      | error e => exact ⟨e, rfl⟩
      | ok u => rw [hr] at hfail; cases hfail
    | writeVerify q w what r s =>
      cases hop
      simp only [step] at hfail ⊢
      rw [writeVerify_eq_imm hi] at hfail ⊢
      refine himm (some r) ?_
      cases hr : (immWrite st1 p v (some r)).2 with
      | error e => exact ⟨e, rfl⟩
      | ok u => rw [hr] at hfail; cases hfail
    | read q => cases hop
    | start => cases hop
    | flush => cases hop
    | commit => cases hop
  generalize (step st1 op).1 = st2 at hpk
  intro st r hr
  have hfin : PathOK cont p st := by
    show PathOK cont p (run later st2).1
    clear hr
    clear st
    induction later generalizing st2 with
    | nil => exact hpk
    | cons o later ih =>
      exact ih (fun o' ho' => hl o' (by simp [ho'])) _ (pathOK_step F hpk o (hl o (by simp)))
  cases hg : cacheGet st p with
  | some u =>
    rw [read_cached hg] at hr
    cases hr
    exact hfin.2 _ hg
  | none =>
    obtain ⟨k1, k2⟩ := read_uncached F hg
    cases hc : cont st.s p with
    | none =>
      obtain ⟨⟨e, he⟩, _⟩ := k2 hc
      rw [he] at hr; cases hr
    | some c =>
      rw [(k1 c hc).1] at hr
      cases hr; rfl

end Verif.SysfsIO
