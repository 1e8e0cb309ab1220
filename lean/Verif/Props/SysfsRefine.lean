import Verif.Props.SysfsTrans
import Verif.Props.PMQoS
import Verif.Model.SysFiles

/-!
C71: the cache and the read-back of a `SysfsIO` object are not visible to the callers: they see plain files
(`Verif.SysFiles`), which is what the models of the users of this class are built on.
-/

namespace Verif.SysfsIO

open PyStr (strip)

variable {W : World}

/-! ### Specification: files without a cache -/

/-- Plain files: a missing file cannot be opened; writing `v` to an existing file `p` fails when `E.wfail p v` says so,
because opening fails, or because writing fails (`_write()` reports these as `Error`). -/
structure PlainFiles (W : World) (cont : W.σ → Path → Option PyStr) (E : SysFiles.Env Path) : Prop
    extends Ordinary W cont where
  read_missing : ∀ s p, cont s p = none → (W.readF s p).2 = .openErr .notFound
  write_missing : ∀ s p v, cont s p = none → (W.writeF s p v).2 = .openErr .notFound
  write_good : ∀ s p v, cont s p ≠ none → E.wfail p v = none → (W.writeF s p v).2 = .ok ()
  write_fail : ∀ s p v e, cont s p ≠ none → E.wfail p v = some e →
    ((W.writeF s p v).2 = .openErr e ∧ e ≠ .notFound) ∨ (∃ e', (W.writeF s p v).2 = .ioErr e' ∧ e = .error)

/-- A call outside of transactions. -/
inductive PCall where
  | read (p : Path)
  | readInt (p : Path)
  | write (p : Path) (v what : PyStr)
  | writeInt (p : Path) (n : Int) (what : PyStr)
  | writeVerify (p : Path) (v what : PyStr) (retries : Int) (sleep : Nat)
  | writeVerifyInt (p : Path) (n : Int) (what : PyStr) (retries : Int) (sleep : Nat)

/-- What a call returns. -/
inductive Ans where
  | none
  | str (v : PyStr)
  | int (n : Int)
  deriving DecidableEq

/-- Execute a call on the object. -/
def pstep (st : St W) : PCall → St W × Except SErr Ans
  | .read p => ((SysfsIO.read st p).1, (SysfsIO.read st p).2.map .str)
  | .readInt p => ((SysfsIO.readInt st p).1, (SysfsIO.readInt st p).2.map .int)
  | .write p v w => ((SysfsIO.write st p v w).1, (SysfsIO.write st p v w).2.map fun _ => .none)
  | .writeInt p n w => ((SysfsIO.writeInt st p n w).1, (SysfsIO.writeInt st p n w).2.map fun _ => .none)
  | .writeVerify p v w r s =>
    ((SysfsIO.writeVerify st p v w r s).1, (SysfsIO.writeVerify st p v w r s).2.map fun _ => .none)
  | .writeVerifyInt p n w r s =>
    ((SysfsIO.writeVerifyInt st p n w r s).1, (SysfsIO.writeVerifyInt st p n w r s).2.map fun _ => .none)

def prun : List PCall → St W → St W × List (Except SErr Ans)
  | [], st => (st, [])
  | c :: cs, st => ((prun cs (pstep st c).1).1, (pstep st c).2 :: (prun cs (pstep st c).1).2)

/-- Execute a call on plain files. -/
def plainStep (E : SysFiles.Env Path) (F : SysFiles.Files Path) : PCall → SysFiles.Files Path × Except Exn Ans
  | .read p => (F, (SysFiles.read F p).map .str)
  | .readInt p => (F, (SysFiles.readInt F p).map .int)
  | .write p v _ | .writeVerify p v _ _ _ =>
    ((SysFiles.write E F p v).1, (SysFiles.write E F p v).2.map fun _ => .none)
  | .writeInt p n _ | .writeVerifyInt p n _ _ _ =>
    ((SysFiles.write E F p (PyStr.ofInt n)).1, (SysFiles.write E F p (PyStr.ofInt n)).2.map fun _ => .none)

def plainRun (E : SysFiles.Env Path) : List PCall → SysFiles.Files Path → SysFiles.Files Path × List (Except Exn Ans)
  | [], F => (F, [])
  | c :: cs, F =>
    ((plainRun E cs (plainStep E F c).1).1, (plainStep E F c).2 :: (plainRun E cs (plainStep E F c).1).2)

/-- The values written have no surrounding white space. -/
def PCall.Stripped : PCall → Prop
  | .write _ v _ | .writeVerify _ v _ _ _ => strip v = v
  | _ => True

/-! ### Proofs -/

theorem read_plain {cont : W.σ → Path → Option PyStr} {E : SysFiles.Env Path} (P : PlainFiles W cont E) {st : St W}
    (h : Inv cont (fun v => strip v = v) (cont st.s) st) (p : Path) :
    (SysfsIO.read st p).2 = (SysFiles.read (cont st.s) p).mapError .exn := by
  unfold SysFiles.read
  cases hg : cacheGet st p with
  | some v =>
    obtain ⟨h1, h2⟩ := h.cm p v hg
    rw [read_cached hg, h1, h2]; rfl
  | none =>
    cases hc : cont st.s p with
    | some c => rw [((read_uncached P.toFiles hg).1 c hc).1]; rfl
    | none =>
      have := P.read_missing st.s p hc
      unfold SysfsIO.read
      simp only [hg]
      cases hr : W.readF st.s p with
      | mk s r =>
        rw [hr] at this
        subst this
        rfl

theorem read_next {cont : W.σ → Path → Option PyStr} {E : SysFiles.Env Path} (P : PlainFiles W cont E) {st : St W}
    (h : Inv cont (fun v => strip v = v) (cont st.s) st) (hi : st.inTransaction = false) (p : Path) :
    cont (SysfsIO.read st p).1.s = cont st.s ∧ (SysfsIO.read st p).1.inTransaction = false ∧
      Inv cont (fun v => strip v = v) (cont st.s) (SysfsIO.read st p).1 := by
  have hf := read_frame P.toFiles st p
  exact ⟨hf.files, hf.tr.trans hi, step_inv P.toOrdinary PyStr.strip_idem h (.read p) (fun _ _ hw => by cases hw)
    (fun ht => by rw [hi] at ht; cases ht)⟩

theorem immWrite_plain {cont : W.σ → Path → Option PyStr} {E : SysFiles.Env Path} (P : PlainFiles W cont E) {st : St W}
    (h : Inv cont (fun v => strip v = v) (cont st.s) st) (hi : st.inTransaction = false) (p : Path) (v : PyStr)
    (hv : strip v = v) (retries : Option Int) :
    (immWrite st p v retries).2 = (SysFiles.write E (cont st.s) p v).2.mapError .exn ∧
      cont (immWrite st p v retries).1.s = (SysFiles.write E (cont st.s) p v).1 ∧
      (immWrite st p v retries).1.inTransaction = false ∧
      Inv cont (fun v => strip v = v) (SysFiles.write E (cont st.s) p v).1 (immWrite st p v retries).1 := by
  obtain ⟨k1, k2, k3, k4, k5, k6⟩ := immWrite_spec P.toFiles st p v retries
  have hinv := immWrite_inv P.toOrdinary PyStr.strip_idem h hi p v hv retries
  have hs : (cacheRemove st p).s = st.s := (same_remove st p).2.2.2.2
  have hres : (immWrite st p v retries).2 = (SysFiles.write E (cont st.s) p v).2.mapError .exn := by
    have hraw : (rawWrite (cacheRemove st p) p v).2 = (SysFiles.write E (cont st.s) p v).2.mapError .exn := by
      unfold rawWrite SysFiles.write
      rw [hs]
      cases hc : cont st.s p with
      | none =>
        have := P.write_missing st.s p v hc
        cases hw : W.writeF st.s p v with
        | mk s r => rw [hw] at this; subst this; rfl
      | some c =>
        have hne : cont st.s p ≠ none := by rw [hc]; exact fun h => by cases h
        cases he : E.wfail p v with
        | none =>
          have := P.write_good st.s p v hne he
          cases hw : W.writeF st.s p v with
          | mk s r => rw [hw] at this; subst this; rfl
        | some e =>
          have := P.write_fail st.s p v e hne he
          cases hw : W.writeF st.s p v with
          | mk s r =>
            rw [hw] at this
            rcases this with ⟨h1, h2⟩ | ⟨e', h1, h2⟩
            · simp only at h1; subst h1
              cases e <;> first | rfl | exact absurd rfl h2
            · simp only at h1; subst h1 h2; rfl
    cases hr : (SysFiles.write E (cont st.s) p v).2 with
    | error e =>
      rw [hr] at hraw
      unfold immWrite
      cases hw : rawWrite (cacheRemove st p) p v with
      | mk st1 r => rw [hw] at hraw; simp only at hraw; subst hraw; rfl
    | ok u =>
      rw [hr] at hraw
      obtain ⟨r1, r2, _⟩ := rawWrite_spec (cacheRemove st p) p v
      have hwf : (W.writeF st.s p v).2 = .ok () := by rw [← hs]; exact r2.1 hraw
      unfold immWrite
      cases hw : rawWrite (cacheRemove st p) p v with
      | mk st1 r =>
        rw [hw] at hraw r1
        simp only at hraw r1
        subst hraw
        cases retries with
        | none => rfl
        | some n =>
          have hc1 : cont (cacheRemove st1 p).s p = some v := by
            rw [(same_remove st1 p).2.2.2.2, r1]
            show cont (W.writeF (cacheRemove st p).s p v).1 p = _
            rw [hs, P.write_ok _ _ _ hwf, hv]
          have hrd := ((read_uncached P.toFiles (cacheGet_remove_self st1 p)).1 v hc1).1
          have hvl : (verify st1 p v n).2 = .ok () := by
            unfold verify verifyLoop
            cases hx : SysfsIO.read (cacheRemove st1 p) p with
            | mk st2 r2 =>
              rw [hx] at hrd; simp only at hrd; subst hrd
              simp
          show (match verify st1 p v n with
            | (st, .error e) => (st, .error e)
            | (st, .ok ()) => (cacheAdd st p v, .ok ()) : St W × Except SErr Unit).2 = _
          cases hx : verify st1 p v n with
          | mk st2 r2 => rw [hx] at hvl; simp only at hvl; subst hvl; rfl
  have hM : (if reached ((immWrite st p v retries).2.map fun _ => none) = true then
      fun q => if q = p then some (strip v) else cont st.s q else cont st.s) =
        (SysFiles.write E (cont st.s) p v).1 := by
    rw [hres]
    unfold SysFiles.write
    cases hc : cont st.s p with
    | none => rfl
    | some c =>
      cases he : E.wfail p v with
      | some e => rfl
      | none => rw [hv]; rfl
  have hinv' : Inv cont (fun v => strip v = v) (SysFiles.write E (cont st.s) p v).1 (immWrite st p v retries).1 := by
    rw [← hM]; exact hinv
  refine ⟨hres, ?_, k1.tr.trans hi, hinv'⟩
  funext q
  exact hinv'.fm q (by rw [hinv'.nb (k1.tr.trans hi)]; simp [Dict.keys])

theorem pstep_plain {cont : W.σ → Path → Option PyStr} {E : SysFiles.Env Path} (P : PlainFiles W cont E) {st : St W}
    (h : Inv cont (fun v => strip v = v) (cont st.s) st) (hi : st.inTransaction = false) (c : PCall)
    (hc : c.Stripped) :
    (pstep st c).2 = (plainStep E (cont st.s) c).2.mapError .exn ∧
      cont (pstep st c).1.s = (plainStep E (cont st.s) c).1 ∧ (pstep st c).1.inTransaction = false ∧
      Inv cont (fun v => strip v = v) (plainStep E (cont st.s) c).1 (pstep st c).1 := by
  have mapW : ∀ x : Except Exn Unit,
      (x.mapError SErr.exn).map (fun _ => Ans.none) = (x.map fun _ => Ans.none).mapError SErr.exn := by
    intro x; cases x <;> rfl
  cases c with
  | read p =>
    obtain ⟨h1, h2, h3⟩ := read_next P h hi p
    refine ⟨?_, h1, h2, h3⟩
    show (SysfsIO.read st p).2.map _ = ((SysFiles.read (cont st.s) p).map _).mapError _
    rw [read_plain P h]
    cases SysFiles.read (cont st.s) p <;> rfl
  | readInt p =>
    obtain ⟨h1, h2, h3⟩ := read_next P h hi p
    have hr := read_plain P h p
    show (SysfsIO.readInt st p).2.map _ = ((SysFiles.readInt (cont st.s) p).map _).mapError _ ∧
      cont (SysfsIO.readInt st p).1.s = cont st.s ∧ (SysfsIO.readInt st p).1.inTransaction = false ∧
      Inv cont (fun v => strip v = v) (cont st.s) (SysfsIO.readInt st p).1
    unfold SysfsIO.readInt SysFiles.readInt
    cases hx : SysfsIO.read st p with
    | mk st1 r =>
      rw [hx] at h1 h2 h3 hr
      simp only at hr
      subst hr
      cases SysFiles.read (cont st.s) p with
      | error e => exact ⟨rfl, h1, h2, h3⟩
      | ok v =>
        dsimp only [Except.mapError]
        cases Trivial.strToInt v <;> exact ⟨rfl, h1, h2, h3⟩
  | write p v w =>
    obtain ⟨h1, h2⟩ := immWrite_plain P h hi p v hc none
    rw [← write_eq_imm hi p v w] at h1 h2
    exact ⟨(congrArg _ h1).trans (mapW _), h2⟩
  | writeInt p n w =>
    obtain ⟨h1, h2⟩ := immWrite_plain P h hi p (PyStr.ofInt n) (PMQoS.strip_ofInt n) none
    rw [← write_eq_imm hi p _ w] at h1 h2
    exact ⟨(congrArg _ h1).trans (mapW _), h2⟩
  | writeVerify p v w r s =>
    obtain ⟨h1, h2⟩ := immWrite_plain P h hi p v hc (some r)
    rw [← writeVerify_eq_imm hi p v w r s] at h1 h2
    exact ⟨(congrArg _ h1).trans (mapW _), h2⟩
  | writeVerifyInt p n w r s =>
    obtain ⟨h1, h2⟩ := immWrite_plain P h hi p (PyStr.ofInt n) (PMQoS.strip_ofInt n) (some r)
    rw [← writeVerify_eq_imm hi p _ w r s] at h1 h2
    exact ⟨(congrArg _ h1).trans (mapW _), h2⟩

/-- **C71.** On plain files, any sequence of `read()`, `read_int()`, `write()`, `write_int()`, `write_verify()` and
`write_verify_int()` calls outside of transactions, on an object with any previous history (possibly with
transactions), has the same results (values and errors of every call) as accessing the files directly, and leaves the
same contents in the files. -/
theorem C71_refines_plain_files (cont : W.σ → Path → Option PyStr) (E : SysFiles.Env Path) (P : PlainFiles W cont E)
    (st0 : St W) (h0 : Fresh st0) (hist : List Op) (hc : Clean hist st0)
    (hs : ∀ op ∈ hist, ∀ p v, op.writes = some (p, v) → strip v = v) (st : St W) (hst : st = (run hist st0).1)
    (hi : st.inTransaction = false) (cs : List PCall) (hcs : ∀ c ∈ cs, c.Stripped) :
    (prun cs st).2 = (plainRun E cs (cont st.s)).2.map (·.mapError .exn) ∧
      cont (prun cs st).1.s = (plainRun E cs (cont st.s)).1 := by
  have hinv : Inv cont (fun v => strip v = v) (specRun hist st0 (cont st0.s)) st := by
    rw [hst]; exact run_inv P.toOrdinary (G := fun v => strip v = v) PyStr.strip_idem (inv_fresh cont _ h0) hist hs hc
  have hM : specRun hist st0 (cont st0.s) = cont st.s := by
    funext p
    exact (hinv.fm p (by rw [hinv.nb hi]; simp [Dict.keys])).symm
  rw [hM] at hinv
  clear hst hM
  induction cs generalizing st with
  | nil => exact ⟨rfl, rfl⟩
  | cons c cs ih =>
    obtain ⟨h1, h2, h3, h4⟩ := pstep_plain P hinv hi c (hcs c List.mem_cons_self)
    obtain ⟨j1, j2⟩ := ih (pstep st c).1 h3 (fun x hx => hcs x (List.mem_cons_of_mem _ hx)) (by rw [h2]; exact h4)
    rw [h2] at j1 j2
    exact ⟨by simp only [prun, plainRun, List.map_cons]; rw [h1, j1], j2⟩

/-- Two files, and only numbers of one digit can be written to the second one. -/
def exFail : SysFiles.Env Path := ⟨fun p v => if p = "b".toList ∧ v.length ≠ 1 then some .error else none⟩

def exWorld : World where
  σ := SysFiles.Files Path
  readF s p := (s, match s p with | none => .openErr .notFound | some v => .ok v)
  writeF s p v :=
    match s p with
    | none => (s, .openErr .notFound)
    | some _ =>
      match exFail.wfail p v with
      | some _ => (s, .ioErr .badFormat)
      | none => ((fun q => if q = p then some v else s q), .ok ())

def exSysSt : St exWorld :=
  ⟨true, [], [], false,
    (fun p => if p = "a".toList then some "x y\n".toList else if p = "b".toList then some "5\n".toList else none), []⟩

def exHist : List Op := [.read "b".toList, .start, .write "b".toList "6".toList [], .commit]

def exPCalls : List PCall :=
  [.readInt "b".toList, .readInt "a".toList, .writeVerifyInt "b".toList 77 [] 3 0, .read "b".toList,
    .writeInt "a".toList (-5) [], .readInt "a".toList, .write "c".toList "1".toList [], .read "c".toList]

/-- The hypotheses hold for files with contents, a missing file, a refused write and a transaction before. -/
example : PlainFiles exWorld (fun s p => (s p).map strip) exFail ∧ Fresh exSysSt ∧ Clean exHist exSysSt ∧
    (∀ op ∈ exHist, ∀ p v, op.writes = some (p, v) → strip v = v) ∧
    (run exHist exSysSt).1.inTransaction = false ∧ (∀ c ∈ exPCalls, c.Stripped) ∧
    (prun exPCalls (run exHist exSysSt).1).2 =
      [.ok (.int 6), .error (.exn .error), .error (.exn .error), .ok (.str "6".toList), .ok .none, .ok (.int (-5)),
        .error (.exn .notSupported), .error (.exn .notSupported)] := by
  refine ⟨⟨⟨⟨fun _ _ => rfl, ?_, ?_, ?_⟩, ?_, ?_⟩, ?_, ?_, ?_, ?_⟩, ⟨rfl, rfl, rfl⟩, ?_, ?_, by decide +kernel, ?_, ?_⟩
  · intro s p c h
    simp only [Option.map_eq_some_iff] at h
    obtain ⟨v, h1, h2⟩ := h
    exact ⟨v, by simp only [exWorld, h1], h2⟩
  · intro s p h raw
    simp only [Option.map_eq_none_iff] at h
    simp [exWorld, h]
  · intro s p v q hq
    simp only [exWorld]
    split <;> try rfl
    split <;> try rfl
    simp [hq]
  · intro s p v h
    simp only [exWorld] at h ⊢
    split at h <;> try cases h
    split at h <;> try cases h
    simp
  · intro s p v h
    simp only [exWorld] at h ⊢
    split at h <;> try rfl
    split at h <;> try rfl
    exact absurd rfl h
  · intro s p h
    simp only [Option.map_eq_none_iff] at h
    simp [exWorld, h]
  · intro s p v h
    simp only [Option.map_eq_none_iff] at h
    simp [exWorld, h]
  · intro s p v h he
    simp only [ne_eq, Option.map_eq_none_iff] at h
    simp only [exWorld, he]
    split
    · contradiction
    · rfl
  · intro s p v e h he
    simp only [ne_eq, Option.map_eq_none_iff] at h
    right
    refine ⟨.badFormat, ?_, ?_⟩
    · simp only [exWorld, he]
      split
      · contradiction
      · rfl
    · simp only [exFail] at he
      split at he <;> cases he
      rfl
  · exact ⟨(fun h => by cases h), (fun h => by cases h), fun _ => .inr (.inr ⟨none, by decide +kernel⟩),
      fun _ => .inr (.inr ⟨none, by decide +kernel⟩), trivial⟩
  · intro op hop p v hw
    simp only [exHist, List.mem_cons, List.not_mem_nil, or_false] at hop
    rcases hop with rfl | rfl | rfl | rfl <;> cases hw
    decide +kernel
  · intro c hc
    simp only [exPCalls, List.mem_cons, List.not_mem_nil, or_false] at hc
    rcases hc with rfl | rfl | rfl | rfl | rfl | rfl | rfl | rfl <;> trivial
  · decide +kernel

end Verif.SysfsIO
