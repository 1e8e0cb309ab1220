import Verif.Lemmas.Tpmi

/-!
C48 TPMI bit-field writes change only the field.
C49 64-bit TPMI registers are split and joined without loss.
C50 The TPMI memory dump parser locates every register.
C51 Iterating over a TPMI feature visits every instance of every device exactly once.

The specification of dumps (`Layout`, `render`, `Shown`, `Good`) is in Verif/Lemmas/TpmiDump.lean, the
specification of the memory (`Machine`, `Mem`) is in Verif/Lemmas/Tpmi.lean.
-/

namespace Verif.Tpmi

/-! ### C50: the parser -/

/-- C50: for every dump, the instances of the map are those of the dump, positions are known exactly for
the words shown, and the 8 characters at the position of a word are its hexadecimal digits. -/
theorem C50_parse (L : Layout) (m : Nat → Nat → Nat) (hg : Good L) :
    ∃ d, buildMdmap (render L m) = .ok d ∧ d.keys = L.map Inst.num ∧
      (∀ i o, ((d.get? i).bind (·.get? o)).isSome = true ↔ Shown L i o) ∧
      ∀ i o pos, (d.get? i).bind (·.get? o) = some pos → ((render L m).drop pos).take 8 = hexN 8 (m i o) := by
  obtain ⟨d, h1, h2, h3⟩ := buildMdmap_spec m hg
  refine ⟨d, h1, h2, fun i o => ?_, fun i o pos h => ?_⟩
  · rw [Option.isSome_iff_exists, MapOf.shown ⟨h2, h3⟩]
    exact Iff.rfl
  · obtain ⟨q, hq, ht⟩ := entries_at m L 0 ((h3 i o pos).1 h)
    rw [Nat.zero_add] at hq
    rw [hq]
    exact ht

/-- C50: for every dump of 32-bit words, a word shown at an aligned offset is read, anything else is an
error. -/
theorem C50_read (M : Machine) (hM : M.WF) (m : Mem) (hm : m.Words) (k : Key) (i o : Nat) :
    ∃ d, buildMdmap (M.kernel.dump m k) = .ok d ∧
      (o % 4 = 0 → Shown (M.lay k) i o → read M.kernel m k i o d = .ok (m k i o)) ∧
      (¬(o % 4 = 0 ∧ Shown (M.lay k) i o) → ∃ e, read M.kernel m k i o d = .error e) := by
  obtain ⟨d, h1, h2⟩ := buildMdmap_mapOf hM m k
  exact ⟨d, h1, fun ho hs => read_ok hm h2 ho hs, fun h => read_err h2 h⟩

/-- The digits of a word determine it. -/
theorem C50_digits (a b : Nat) (ha : a < 2 ^ 32) (hb : b < 2 ^ 32) (h : hexN 8 a = hexN 8 b) : a = b := by
  rw [← hexVal_hexN 8 a ha, ← hexVal_hexN 8 b hb, h]

/-- A dump with two instances, the first one with lines of 4 and 2 words, and offsets of different
lengths. -/
def exLayout : Layout :=
  [⟨0, "a10".toList, [⟨false, "00000000".toList, 4⟩, ⟨false, "00000010".toList, 2⟩]⟩,
   ⟨12, "1000".toList, [⟨true, "20".toList, 1⟩]⟩]

def exMem : Nat → Nat → Nat := fun i o => i * 0x100000 + o * 0x101

example : render exLayout exMem =
    ("TPMI Instance:0 offset:0xa10\n 00000000: 00000000 00000404 00000808 00000c0c\n" ++
     " 00000010: 00001010 00001414\nTPMI Instance:12 offset:0x1000\n[20] 00c02020\n").toList := by
  decide +kernel

theorem exLayout_good : Good exLayout := by
  refine ⟨by decide, ?_⟩
  intro x hx
  have hx' : x = exLayout[0] ∨ x = exLayout[1] := by simpa [exLayout] using hx
  rcases hx' with rfl | rfl
  · refine ⟨⟨by decide, by decide +kernel⟩, by decide +kernel, ?_⟩
    intro r hr
    have : r = ⟨false, "00000000".toList, 4⟩ ∨ r = ⟨false, "00000010".toList, 2⟩ := by simpa [exLayout] using hr
    rcases this with rfl | rfl <;> exact ⟨⟨by decide, by decide +kernel⟩, by decide⟩
  · refine ⟨⟨by decide, by decide +kernel⟩, by decide +kernel, ?_⟩
    intro r hr
    have : r = ⟨true, "20".toList, 1⟩ := by simpa [exLayout] using hr
    subst this
    exact ⟨⟨by decide, by decide +kernel⟩, by decide⟩

example : Shown exLayout 0 0x14 ∧ Shown exLayout 12 0x20 ∧ ¬Shown exLayout 12 0x14 := by
  refine ⟨⟨_, List.mem_cons_self, rfl, by decide +kernel⟩,
    ⟨_, List.mem_cons_of_mem _ List.mem_cons_self, rfl, by decide +kernel⟩, ?_⟩
  rintro ⟨x, hx, hn, ho⟩
  have hx' : x = exLayout[0] ∨ x = exLayout[1] := by simpa [exLayout] using hx
  rcases hx' with rfl | rfl
  · exact absurd hn (by decide)
  · exact absurd ho (by decide +kernel)

/-! ### Executions -/

/-- What a program may do with TPMI registers; `other`: the memory is changed by something else, such as
the hardware or a different program. -/
inductive Op where
  | read (fname addr : PyStr) (inst : Nat) (regname : PyStr) (bfname : Option PyStr)
  | write (value : Int) (fname addr : PyStr) (inst : Nat) (regname : PyStr) (bfname : Option PyStr)
  | iter (fname : PyStr) (addrs : Option (List PyStr)) (packages instances : Option (List Nat))
  | other (m : Mem)

/-- The state after an operation, whether it failed or not. -/
def Op.run (K : Kernel Mem) (E : Env) : Op → St Mem → St Mem
  | .read f a i r b, s => (readRegister K E f a i r b s).1
  | .write v f a i r b, s => (writeRegister K E v f a i r b s).1
  | .iter f as ps is, s => (iterFeature K E f as ps is s).1
  | .other m, s => { s with w := fun k i o => m k i o % 2 ^ 32 }

/-- The state after a sequence of operations, with nothing cached at the beginning. -/
def run (K : Kernel Mem) (E : Env) (m : Mem) (ops : List Op) : St Mem :=
  ops.foldl (fun s op => op.run K E s) ⟨m, []⟩

/-- Register definitions are those the spec files may have. -/
def Env.Valid (E : Env) : Prop := ∀ f r R, getReg E f r = .ok R → R.Valid

theorem readRegister_inv {M : Machine} (hM : M.WF) {E : Env} {f a : PyStr} {i : Nat} {r : PyStr} {b : Option PyStr}
    {s : St Mem} (hi : Inv M E s) :
    Inv M E (readRegister M.kernel E f a i r b s).1 ∧ (readRegister M.kernel E f a i r b s).1.w = s.w := by
  unfold readRegister
  split
  · exact ⟨hi, rfl⟩
  split
  · exact ⟨hi, rfl⟩
  obtain ⟨c, h1, h2⟩ := validateInstance_spec hM f a i hi
  rw [h1]
  by_cases hin : i ∈ (M.lay (a, E.fid f)).map Inst.num
  · rw [if_pos hin]; exact ⟨h2, rfl⟩
  · rw [if_neg hin]; exact ⟨h2, rfl⟩

theorem validateReg_ok {E : Env} {f r : PyStr} {b : Option PyStr} :
    validateReg E f r b = .ok () ↔ ∃ R, getReg E f r = .ok R ∧ ∀ x, b = some x → ∃ F, getField R x = .ok F := by
  unfold validateReg getField
  cases getReg E f r with
  | error e => simp
  | ok R =>
    cases b with
    | none => simp
    | some x => cases h : R.fields.get? x <;> simp [h]

theorem writeRegister_frame {M : Machine} (hM : M.WF) {E : Env} (hE : E.Valid) {v : Int} {f a : PyStr} {i : Nat}
    {r : PyStr} {b : Option PyStr} {s : St Mem} (hi : Inv M E s) :
    Inv M E (writeRegister M.kernel E v f a i r b s).1 ∧
    (∀ k' i' o', (∀ R, getReg E f r = .ok R → ¬(k' = (a, E.fid f) ∧ i' = i ∧ o' ∈ R.words)) →
      (writeRegister M.kernel E v f a i r b s).1.w k' i' o' = s.w k' i' o') := by
  unfold writeRegister
  split
  · exact ⟨hi, fun _ _ _ _ => rfl⟩
  cases hr : validateReg E f r b with
  | error e => exact ⟨hi, fun _ _ _ _ => rfl⟩
  | ok u =>
    obtain ⟨R, hR, -⟩ := validateReg_ok.1 hr
    dsimp only
    obtain ⟨c, h1, h2⟩ := validateInstance_spec hM f a i hi
    rw [h1]
    by_cases hin : i ∈ (M.lay (a, E.fid f)).map Inst.num
    · rw [if_pos hin]
      obtain ⟨k1, k2⟩ := writeReg_frame hM (v := v) (a := a) (i := i) (b := b) h2 hR (hE _ _ _ hR)
      exact ⟨k1, fun k' i' o' hn => k2 k' i' o' (hn R hR)⟩
    · rw [if_neg hin]
      exact ⟨h2, fun _ _ _ _ => rfl⟩

theorem validateInstances_spec {M : Machine} (hM : M.WF) {E : Env} (f a : PyStr) (is : List Nat) : ∀ {s : St Mem},
    Inv M E s → ∃ c r, validateInstances M.kernel E f a is s = ({ s with mdmaps := c }, r) ∧
      Inv M E { s with mdmaps := c } ∧
      (r = .ok () ↔ ∀ i ∈ is, i ∈ (M.lay (a, E.fid f)).map Inst.num) := by
  induction is with
  | nil => intro s hi; exact ⟨s.mdmaps, .ok (), rfl, hi, by simp⟩
  | cons i is ih =>
    intro s hi
    rw [validateInstances]
    obtain ⟨c, h1, h2⟩ := validateInstance_spec hM f a i hi
    rw [h1]
    by_cases hin : i ∈ (M.lay (a, E.fid f)).map Inst.num
    · rw [if_pos hin]
      obtain ⟨c', r, g1, g2, g3⟩ := ih h2
      refine ⟨c', r, g1, g2, ?_⟩
      rw [g3]
      simp only [List.mem_cons, forall_eq_or_imp, hin, true_and]
    · rw [if_neg hin]
      refine ⟨c, .error .error, rfl, h2, ?_⟩
      constructor
      · intro h; cases h
      · intro h; exact absurd (h i List.mem_cons_self) hin

theorem iterLoop_cons {W : Type} (K : Kernel W) (E : Env) (f : PyStr) (fm : Dict PyStr Nat) (a : PyStr) (p : Nat)
    (rest : List (PyStr × Nat)) (is : Option (List Nat)) (out : List Triple) (s : St W) :
    iterLoop K E f fm ((a, p) :: rest) is out s =
      if fm.get? a ≠ some p then iterLoop K E f fm rest is out s
      else match is with
        | some is =>
          match validateInstances K E f a is s with
          | (s, .error e) => (s, out, some e)
          | (s, .ok ()) => iterLoop K E f fm rest (some is) (out ++ is.map fun i => (a, p, i)) s
        | none =>
          match getMdmap K E f a s with
          | (s, .error e) => (s, out, some e)
          | (s, .ok mdmap) => iterLoop K E f fm rest (some mdmap.keys) (out ++ mdmap.keys.map fun i => (a, p, i)) s := by
  rw [iterLoop.eq_def]
  rfl

theorem iterLoop_inv {M : Machine} (hM : M.WF) {E : Env} (f : PyStr) (fm : Dict PyStr Nat)
    (ps : List (PyStr × Nat)) : ∀ (is : Option (List Nat)) (out : List Triple) {s : St Mem}, Inv M E s →
    Inv M E (iterLoop M.kernel E f fm ps is out s).1 ∧ (iterLoop M.kernel E f fm ps is out s).1.w = s.w := by
  induction ps with
  | nil => intro is out s hi; exact ⟨hi, rfl⟩
  | cons p ps ih =>
    obtain ⟨a, p⟩ := p
    intro is out s hi
    rw [iterLoop_cons]
    split
    · exact ih _ _ hi
    · cases is with
      | some is =>
        obtain ⟨c, r, g1, g2, -⟩ := validateInstances_spec hM f a is hi
        dsimp only
        rw [g1]
        cases r with
        | error e => exact ⟨g2, rfl⟩
        | ok u => exact ih _ _ g2
      | none =>
        obtain ⟨d, c, g1, -, g2⟩ := getMdmap_spec hM f a hi
        dsimp only
        rw [g1]
        exact ih _ _ g2

theorem iterFeature_inv {M : Machine} (hM : M.WF) {E : Env} (f : PyStr) (as : Option (List PyStr))
    (ps is : Option (List Nat)) {s : St Mem} (hi : Inv M E s) :
    Inv M E (iterFeature M.kernel E f as ps is s).1 ∧ (iterFeature M.kernel E f as ps is s).1.w = s.w := by
  unfold iterFeature
  split
  · exact ⟨hi, rfl⟩
  split
  · exact ⟨hi, rfl⟩
  · exact iterLoop_inv hM _ _ _ _ _ hi

theorem Op.run_inv {M : Machine} (hM : M.WF) {E : Env} (hE : E.Valid) (op : Op) {s : St Mem} (hi : Inv M E s) :
    Inv M E (op.run M.kernel E s) := by
  cases op with
  | read f a i r b => exact (readRegister_inv hM hi).1
  | write v f a i r b => exact (writeRegister_frame hM hE hi).1
  | iter f as ps is => exact (iterFeature_inv hM f as ps is hi).1
  | other m => exact ⟨fun _ _ _ => Nat.mod_lt _ (Nat.two_pow_pos 32), hi.maps⟩

theorem foldl_inv {M : Machine} (hM : M.WF) {E : Env} (hE : E.Valid) (ops : List Op) : ∀ {s : St Mem},
    Inv M E s → Inv M E (ops.foldl (fun s op => op.run M.kernel E s) s) := by
  induction ops with
  | nil => intro s hi; exact hi
  | cons op ops ih => intro s hi; exact ih (op.run_inv hM hE hi)

theorem run_inv {M : Machine} (hM : M.WF) {E : Env} (hE : E.Valid) {m : Mem} (hm : m.Words) (ops : List Op) :
    Inv M E (run M.kernel E m ops) :=
  foldl_inv hM hE ops ⟨hm, fun f a d h => by cases h⟩

theorem readRegister_ok {M : Machine} (hM : M.WF) {E : Env} {f a : PyStr} {i : Nat} {r : PyStr} {b : Option PyStr}
    {s : St Mem} (hi : Inv M E s) (ha : validateAddr E f a = .ok ()) (hr : validateReg E f r b = .ok ())
    (hin : i ∈ (M.lay (a, E.fid f)).map Inst.num) :
    (readRegister M.kernel E f a i r b s).2 = readReg M.kernel E s.w f a i r b := by
  unfold readRegister
  rw [ha]
  dsimp only
  rw [hr]
  dsimp only
  obtain ⟨c, h1, h2⟩ := validateInstance_spec hM f a i hi
  rw [h1, if_pos hin]

theorem writeRegister_ok {M : Machine} (hM : M.WF) {E : Env} {v : Int} {f a : PyStr} {i : Nat} {r : PyStr}
    {b : Option PyStr} {s s' : St Mem} (hi : Inv M E s) (h : writeRegister M.kernel E v f a i r b s = (s', .ok ())) :
    validateAddr E f a = .ok () ∧ validateReg E f r b = .ok () ∧ i ∈ (M.lay (a, E.fid f)).map Inst.num ∧
    ∃ c, Inv M E { s with mdmaps := c } ∧
      writeReg M.kernel E v f a i r b { s with mdmaps := c } = (s', .ok ()) := by
  unfold writeRegister at h
  cases ha : validateAddr E f a with
  | error e => rw [ha] at h; cases h
  | ok u =>
    rw [ha] at h
    dsimp only at h
    cases hr : validateReg E f r b with
    | error e => rw [hr] at h; cases h
    | ok u =>
      rw [hr] at h
      dsimp only at h
      obtain ⟨c, h1, h2⟩ := validateInstance_spec hM f a i hi
      rw [h1] at h
      by_cases hin : i ∈ (M.lay (a, E.fid f)).map Inst.num
      · rw [if_pos hin] at h
        exact ⟨rfl, rfl, hin, c, h2, h⟩
      · rw [if_neg hin] at h; cases h

/-! ### C48: fields -/

/-- C48 (partial): in every execution, on every machine: if a value which fits the field is written to a
field inside the register without an error, then reading the field returns the value, every other bit of the
register is unchanged, and no other word of memory changed. Missing: values which do not fit the field are
accepted too (see `C48_wide_counterexample`), and the definition of a field may exceed the register (see
`C48_high_counterexample`). -/
theorem C48_field_partial (M : Machine) (hM : M.WF) (E : Env) (hE : E.Valid) (m : Mem) (hm : m.Words) (ops : List Op)
    (f a : PyStr) (i : Nat) (r b : PyStr) (v : Int) (R : Reg) (F : Field) (hi lo : Nat)
    (hR : getReg E f r = .ok R) (hb : R.fields.get? b = some F) (hF : mkField hi lo = .ok F)
    (hhi : hi < R.width) (hv : v < 2 ^ (hi - lo + 1)) (s' : St Mem)
    (h : writeRegister M.kernel E v f a i r (some b) (run M.kernel E m ops) = (s', .ok ())) :
    (readRegister M.kernel E f a i r (some b) s').2 = .ok v.toNat ∧ v = v.toNat ∧
    (∃ old new, (readRegister M.kernel E f a i r none (run M.kernel E m ops)).2 = .ok old ∧
      (readRegister M.kernel E f a i r none s').2 = .ok new ∧
      ∀ k, ¬(lo ≤ k ∧ k ≤ hi) → new.testBit k = old.testBit k) ∧
    ∀ k' i' o', ¬(k' = (a, E.fid f) ∧ i' = i ∧ o' ∈ R.words) →
      s'.w k' i' o' = (run M.kernel E m ops).w k' i' o' := by
  have hinv := run_inv hM hE hm ops
  generalize run M.kernel E m ops = s at h hinv ⊢
  obtain ⟨ha, hr, hin, c, hc, hw⟩ := writeRegister_ok hM hinv h
  have hV := hE _ _ _ hR
  have hG : getField R b = .ok F := by unfold getField; rw [hb]
  have hframe := writeRegister_frame hM hE (v := v) (f := f) (a := a) (i := i) (r := r) (b := some b) hinv
  rw [h] at hframe
  have hlt : 0 ≤ v → v.toNat < 2 ^ (hi - lo + 1) := by
    intro h0
    have : (2 ^ (hi - lo + 1) : Int) = ((2 ^ (hi - lo + 1) : Nat) : Int) := by norm_cast
    omega
  obtain ⟨k1, k2, k3, k4⟩ := writeReg_ok hM (F := some F) hc hR hV hG (by
    intro G hG h0
    cases hG
    exact setBitfield_lt hF hhi (regVal_lt hc.words _ _ hV) (hlt h0)) hw
  have hr0 : validateReg E f r none = .ok () := validateReg_ok.2 ⟨R, hR, fun x hx => (by cases hx)⟩
  have hold := readReg_ok hM (E := E) hinv.words (f := f) (a := a) (i := i) hR k3
  have hnew := readReg_ok hM (E := E) hframe.1.words (f := f) (a := a) (i := i) hR k3
  refine ⟨?_, by omega, ⟨regVal s.w (a, E.fid f) i R, regVal s'.w (a, E.fid f) i R, ?_, ?_, ?_⟩, fun k' i' o' hn => hframe.2 k' i' o' (fun R' hR' => ?_)⟩
  · rw [readRegister_ok hM hframe.1 ha hr hin, readReg_field _ _ _ _ _ _ _ _ hR hG, hnew, k4]
    exact congrArg Except.ok (getBitfield_set hF (hlt k1))
  · rw [readRegister_ok hM hinv ha hr0 hin, hold]
  · rw [readRegister_ok hM hframe.1 ha hr0 hin, hnew]
  · intro k hk
    dsimp only at k4 ⊢
    rw [k4]
    unfold newVal
    dsimp only
    rw [testBit_setBitfield_of_lt hF (hlt k1), if_neg hk]
  · rw [hR] at hR'; cases hR'; exact hn

/-- C48, C49: writes do not fail without a reason: if the kernel accepts writes to the words it shows, the
feature, the device, the instance and the register or the field exist, the words of the register are
shown, and the value is not negative and not wider than the register, then the write succeeds. -/
theorem C48_succeeds (M : Machine) (hM : M.WF) (hopen : M.Open) (E : Env) (hE : E.Valid) (m : Mem) (hm : m.Words)
    (ops : List Op) (f a : PyStr) (i : Nat) (r : PyStr) (b : Option PyStr) (v : Int) (R : Reg)
    (addrs : Dict PyStr Nat) (hf : E.fmaps.get? f = some addrs) (ha : (addrs.get? a).isSome = true)
    (hR : getReg E f r = .ok R) (hb : ∀ x, b = some x → (R.fields.get? x).isSome = true)
    (hal : R.offset % 4 = 0) (hs : Shown (M.lay (a, E.fid f)) i R.offset)
    (hs2 : R.width > 32 → Shown (M.lay (a, E.fid f)) i (R.offset + 4)) (h0 : 0 ≤ v) (h1 : v < 2 ^ R.width) :
    (writeRegister M.kernel E v f a i r b (run M.kernel E m ops)).2 = .ok () := by
  have hinv := run_inv hM hE hm ops
  generalize run M.kernel E m ops = s at hinv ⊢
  have hva : validateAddr E f a = .ok () := by
    unfold validateAddr
    rw [hf]
    dsimp only
    rw [if_pos ha]
  have hbf : ∀ x, b = some x → ∃ F, getField R x = .ok F := by
    intro x hx
    have := hb x hx
    unfold getField
    cases hg : R.fields.get? x with
    | none => rw [hg] at this; cases this
    | some F => exact ⟨F, rfl⟩
  unfold writeRegister
  rw [hva]
  dsimp only
  rw [validateReg_ok.2 ⟨R, hR, hbf⟩]
  dsimp only
  obtain ⟨c, g1, g2⟩ := validateInstance_spec hM f a i hinv
  rw [g1, if_pos hs.inst]
  dsimp only
  exact writeReg_open hM hopen g2 hR (hE _ _ _ hR) hbf h0 h1 ⟨hal, hs, hs2⟩

/-! ### C49: registers -/

/-- C49: in every execution, on every machine: if a value is written to a register without an error, it fits
the register, and reading the register returns it. -/
theorem C49_round_trip (M : Machine) (hM : M.WF) (E : Env) (hE : E.Valid) (m : Mem) (hm : m.Words) (ops : List Op)
    (f a : PyStr) (i : Nat) (r : PyStr) (v : Int) (s' : St Mem)
    (h : writeRegister M.kernel E v f a i r none (run M.kernel E m ops) = (s', .ok ())) :
    0 ≤ v ∧ (∃ R, getReg E f r = .ok R ∧ v < 2 ^ R.width) ∧
    (readRegister M.kernel E f a i r none s').2 = .ok v.toNat := by
  have hinv := run_inv hM hE hm ops
  generalize run M.kernel E m ops = s at h hinv ⊢
  obtain ⟨ha, hr, hin, c, hc, hw⟩ := writeRegister_ok hM hinv h
  obtain ⟨R, hR, -⟩ := validateReg_ok.1 hr
  have hV := hE _ _ _ hR
  have hframe := writeRegister_frame hM hE (v := v) (f := f) (a := a) (i := i) (r := r) (b := none) hinv
  rw [h] at hframe
  obtain ⟨k1, k2, k3, k4⟩ := writeReg_ok hM (F := none) hc hR hV trivial (fun G hG => (by cases hG)) hw
  refine ⟨k1, ⟨R, hR, k2⟩, ?_⟩
  rw [readRegister_ok hM hframe.1 ha hr hin, readReg_ok hM hframe.1.words hR k3, k4]
  rfl

/-- C49: whatever the result of a write to a register or a field is, no word other than those of the
register changes. -/
theorem C49_others (M : Machine) (hM : M.WF) (E : Env) (hE : E.Valid) (m : Mem) (hm : m.Words) (ops : List Op)
    (f a : PyStr) (i : Nat) (r : PyStr) (b : Option PyStr) (v : Int) (k : Key) (i' o : Nat)
    (hn : ∀ R, getReg E f r = .ok R → ¬(k = (a, E.fid f) ∧ i' = i ∧ (o = R.offset ∨ R.width = 64 ∧ o = R.offset + 4))) :
    (writeRegister M.kernel E v f a i r b (run M.kernel E m ops)).1.w k i' o =
      (run M.kernel E m ops).w k i' o := by
  refine (writeRegister_frame hM hE (run_inv hM hE hm ops)).2 k i' o fun R hR hx => hn R hR ⟨hx.1, hx.2.1, ?_⟩
  have := hx.2.2
  unfold Reg.words at this
  rcases hE _ _ _ hR with hw | hw
  · rw [if_neg (by omega)] at this
    exact .inl (by simpa using this)
  · rw [if_pos (by omega)] at this
    have := List.mem_cons.1 this
    rcases this with h | h
    · exact .inl h
    · exact .inr ⟨hw, by simpa using h⟩

/-- C49: values which are negative or do not fit the register, unknown features, devices, registers, fields
and instances, and registers which are not in the dump are refused and nothing changes. -/
theorem C49_refused (M : Machine) (hM : M.WF) (E : Env) (hE : E.Valid) (m : Mem) (hm : m.Words) (ops : List Op)
    (f a : PyStr) (i : Nat) (r : PyStr) (b : Option PyStr) (v : Int)
    (h : v < 0 ∨ (∀ R, getReg E f r = .ok R → 2 ^ R.width ≤ v) ∨
      (∀ addrs, E.fmaps.get? f = some addrs → addrs.get? a = none) ∨ (∀ R, getReg E f r ≠ .ok R) ∨
      (∃ x, b = some x ∧ ∀ R, getReg E f r = .ok R → R.fields.get? x = none) ∨
      i ∉ (M.lay (a, E.fid f)).map Inst.num ∨
      (∀ R, getReg E f r = .ok R → ¬Shown (M.lay (a, E.fid f)) i R.offset)) :
    (∃ e, (writeRegister M.kernel E v f a i r b (run M.kernel E m ops)).2 = .error e) ∧
    (writeRegister M.kernel E v f a i r b (run M.kernel E m ops)).1.w = (run M.kernel E m ops).w := by
  have hinv := run_inv hM hE hm ops
  generalize run M.kernel E m ops = s at hinv ⊢
  unfold writeRegister
  cases hva : validateAddr E f a with
  | error e => exact ⟨⟨e, rfl⟩, rfl⟩
  | ok u =>
    dsimp only
    cases hvr : validateReg E f r b with
    | error e => exact ⟨⟨e, rfl⟩, rfl⟩
    | ok u =>
      dsimp only
      obtain ⟨c, g1, g2⟩ := validateInstance_spec hM f a i hinv
      rw [g1]
      by_cases hin : i ∈ (M.lay (a, E.fid f)).map Inst.num
      · rw [if_pos hin]
        dsimp only
        obtain ⟨R, hR, hRb⟩ := validateReg_ok.1 hvr
        unfold writeReg
        rw [hR]
        dsimp only
        split
        · exact ⟨⟨_, rfl⟩, rfl⟩
        next h0 =>
        split
        · exact ⟨⟨_, rfl⟩, rfl⟩
        next h1 =>
        obtain ⟨d, c', e1, e2, -⟩ := getMdmap_spec hM f a g2
        rw [e1]
        dsimp only
        cases hvo : validateOffset d i R.offset with
        | error e => exact ⟨⟨e, rfl⟩, rfl⟩
        | ok u =>
          exfalso
          have hsh := (validateOffset_ok e2).1 hvo
          rcases h with h | h | h | h | ⟨x, hx, h⟩ | h | h
          · exact h0 h
          · have := h R hR
            rw [Nat.shiftLeft_eq, Nat.one_mul] at h1
            have hp : (2 ^ R.width : Int) = ((2 ^ R.width : Nat) : Int) := by norm_cast
            have := Nat.two_pow_pos R.width
            omega
          · unfold validateAddr at hva
            cases hfm : E.fmaps.get? f with
            | none => rw [hfm] at hva; cases hva
            | some addrs =>
              rw [hfm] at hva
              dsimp only at hva
              rw [h addrs hfm] at hva
              cases hva
          · exact h R hR
          · obtain ⟨F, hF⟩ := hRb x hx
            unfold getField at hF
            rw [h R hR] at hF
            cases hF
          · exact h hin
          · exact h R hR hsh.2
      · rw [if_neg hin]
        exact ⟨⟨_, rfl⟩, rfl⟩

/-- Operations which do not write to the words of a register. -/
def Op.Apart (E : Env) (k : Key) (i : Nat) (R : Reg) : Op → Prop
  | .read .. | .iter .. => True
  | .write _ f a i' r _ => ∀ R', getReg E f r = .ok R' → (a, E.fid f) = k → i' = i → ∀ o ∈ R'.words, o ∉ R.words
  | .other _ => False

/-- C49: a value written to a register stays until the words of the register are written: it is read after
any sequence of operations on other registers, whether they fail or not. -/
theorem C49_stays (M : Machine) (hM : M.WF) (E : Env) (hE : E.Valid) (m : Mem) (hm : m.Words) (ops : List Op)
    (f a : PyStr) (i : Nat) (r : PyStr) (v : Int) (R : Reg) (hR : getReg E f r = .ok R) (s' : St Mem)
    (h : writeRegister M.kernel E v f a i r none (run M.kernel E m ops) = (s', .ok ()))
    (later : List Op) (hl : ∀ op ∈ later, op.Apart E (a, E.fid f) i R) :
    (readRegister M.kernel E f a i r none (later.foldl (fun s op => op.run M.kernel E s) s')).2 = .ok v.toNat := by
  have hinv := run_inv hM hE hm ops
  have hrt := (C49_round_trip M hM E hE m hm ops f a i r v s' h).2.2
  generalize run M.kernel E m ops = s at h hinv
  obtain ⟨ha, hr, hin, c, hc, hw⟩ := writeRegister_ok hM hinv h
  have hi' := (writeRegister_frame hM hE (v := v) (f := f) (a := a) (i := i) (r := r) (b := none) hinv).1
  rw [h] at hi'
  dsimp only at hi'
  clear h hw hc
  revert hrt hi'
  generalize s' = t
  induction later generalizing t with
  | nil => intro hrt _; exact hrt
  | cons op later ih =>
    intro hrt hit
    rw [List.foldl_cons]
    refine ih (fun op h => hl op (List.mem_cons_of_mem _ h)) _ ?_ (op.run_inv hM hE hit)
    have hsame : ∀ o ∈ R.words, (op.run M.kernel E t).w (a, E.fid f) i o = t.w (a, E.fid f) i o := by
      intro o ho
      have hap := hl op List.mem_cons_self
      cases op with
      | read f a i r b => exact congrFun (congrFun (congrFun (readRegister_inv hM hit).2 _) _) _
      | iter f as ps is => exact congrFun (congrFun (congrFun (iterFeature_inv hM f as ps is hit).2 _) _) _
      | other m => exact absurd hap id
      | write v' f' a' i'' r' b' =>
        refine (writeRegister_frame hM hE hit).2 _ _ _ fun R' hR' hx => ?_
        exact hap R' hR' hx.1.symm hx.2.1.symm o hx.2.2 ho
    rw [readRegister_ok hM (op.run_inv hM hE hit) ha hr hin]
    rw [readRegister_ok hM hit ha hr hin] at hrt
    by_cases hs : RegShown (M.lay (a, E.fid f)) i R
    · rw [readReg_ok hM hit.words hR hs] at hrt
      rw [readReg_ok hM (op.run_inv hM hE hit).words hR hs, ← hrt]
      refine congrArg Except.ok ?_
      unfold regVal
      unfold Reg.words at hsame
      split
      · next hw =>
        rw [if_pos hw] at hsame
        rw [hsame _ (by simp), hsame _ (by simp)]
      · next hw =>
        rw [if_neg hw] at hsame
        rw [hsame _ (by simp)]
    · obtain ⟨e, he⟩ := readReg_err hM hR hit.words hs none
      rw [he] at hrt
      cases hrt

/-! ### A concrete machine -/

def exKey : Key := ("0000:00:03.1".toList, 2)

/-- One device with one feature; the kernel accepts writes to words it shows. -/
def exMachine : Machine where
  lay := fun _ => exLayout
  accepts := fun _ _ i o _ => exLayout.any fun x => x.num == i && x.offsets.contains o

def exReg (b : List (PyStr × Nat × Nat)) (offset width : Nat) : Reg where
  offset := offset
  width := width
  fields := b.filterMap fun x => match mkField x.2.1 x.2.2 with
    | .ok F => some (x.1, F)
    | .error _ => none

/-- A 64-bit register at offset 0 with two adjacent fields, and a 32-bit one at offset 16, which has a field
defined outside of it. -/
def exEnv : Env where
  fmaps := [("uncore".toList, [("0000:00:03.1".toList, 0)])]
  fid := fun _ => 2
  fdict := fun f => if f = "uncore".toList then
    some [("CTL".toList, exReg [("LOW".toList, 35, 28), ("HIGH".toList, 43, 36)] 0 64),
      ("STATUS".toList, exReg [("X".toList, 39, 32)] 16 32)] else none
  packages := [0]

def exW : Mem := fun _ i o => exMem i o

theorem exMachine_wf : exMachine.WF where
  good := fun _ => exLayout_good
  shown := by
    intro m k i o v h
    simp only [exMachine, List.any_eq_true, Bool.and_eq_true, beq_iff_eq, List.contains_iff_mem] at h
    obtain ⟨x, hx, h1, h2⟩ := h
    exact ⟨x, hx, h1, h2⟩

theorem exMachine_open : exMachine.Open := by
  rintro m k i o v ⟨x, hx, h1, h2⟩
  simp only [exMachine, List.any_eq_true, Bool.and_eq_true, beq_iff_eq, List.contains_iff_mem]
  exact ⟨x, hx, h1, h2⟩

theorem exEnv_valid : exEnv.Valid := by
  intro f r R h
  unfold getReg exEnv at h
  dsimp only at h
  by_cases hf : f = "uncore".toList
  · rw [if_pos hf] at h
    dsimp only at h
    split at h
    · cases h
    · next R' hg =>
      cases h
      have := Dict.mem_of_get? hg
      simp only [List.mem_cons, Prod.mk.injEq, List.not_mem_nil, or_false] at this
      rcases this with ⟨-, rfl⟩ | ⟨-, rfl⟩
      · exact .inr rfl
      · exact .inl rfl
  · rw [if_neg hf] at h; cases h

theorem exW_words : Mem.Words (fun k i o => exW k i o % 2 ^ 32) := fun _ _ _ => Nat.mod_lt _ (by decide)

/-- A field across the two words is written and read, its neighbours stay. -/
example :
    let w : Mem := fun k i o => exW k i o % 2 ^ 32
    let K := exMachine.kernel
    let s := run K exEnv w [.write 0x123456789abcdef0 "uncore".toList "0000:00:03.1".toList 0 "CTL".toList none]
    let r := writeRegister K exEnv 0x42 "uncore".toList "0000:00:03.1".toList 0 "CTL".toList (some "LOW".toList) s
    r.2 = .ok () ∧
    (readRegister K exEnv "uncore".toList "0000:00:03.1".toList 0 "CTL".toList none s).2 = .ok 0x123456789abcdef0 ∧
    (readRegister K exEnv "uncore".toList "0000:00:03.1".toList 0 "CTL".toList none r.1).2 = .ok 0x123456742abcdef0 := by
  decide +kernel

/-- C48 is false for values wider than the field: 0x142 is accepted for an 8-bit field, 0x42 is read, and a
bit of the next field is set. -/
theorem C48_wide_counterexample :
    let w : Mem := fun k i o => exW k i o % 2 ^ 32
    let K := exMachine.kernel
    let s := run K exEnv w [.write 0 "uncore".toList "0000:00:03.1".toList 0 "CTL".toList none]
    let r := writeRegister K exEnv 0x142 "uncore".toList "0000:00:03.1".toList 0 "CTL".toList (some "LOW".toList) s
    r.2 = .ok () ∧
    (readRegister K exEnv "uncore".toList "0000:00:03.1".toList 0 "CTL".toList (some "LOW".toList) r.1).2 = .ok 0x42 ∧
    (readRegister K exEnv "uncore".toList "0000:00:03.1".toList 0 "CTL".toList (some "HIGH".toList) s).2 = .ok 0 ∧
    (readRegister K exEnv "uncore".toList "0000:00:03.1".toList 0 "CTL".toList (some "HIGH".toList) r.1).2 = .ok 1 := by
  decide +kernel

/-- C48 is false for fields defined outside of the register, which the spec file may have: the write succeeds,
and 0 is read. -/
theorem C48_high_counterexample :
    let w : Mem := fun k i o => exW k i o % 2 ^ 32
    let K := exMachine.kernel
    let s := run K exEnv w []
    let r := writeRegister K exEnv 0x42 "uncore".toList "0000:00:03.1".toList 0 "STATUS".toList (some "X".toList) s
    r.2 = .ok () ∧
    (readRegister K exEnv "uncore".toList "0000:00:03.1".toList 0 "STATUS".toList (some "X".toList) r.1).2 = .ok 0 := by
  decide +kernel

/-- A write after which the register is read, with reads, failed writes and writes to the other register in
between. -/
example :
    let w : Mem := fun k i o => exW k i o % 2 ^ 32
    let K := exMachine.kernel
    let s := run K exEnv w []
    let r := writeRegister K exEnv (2 ^ 64 - 1) "uncore".toList "0000:00:03.1".toList 0 "CTL".toList none s
    r.2 = .ok () ∧
    (readRegister K exEnv "uncore".toList "0000:00:03.1".toList 0 "CTL".toList none
      ([Op.write 1 "uncore".toList "0000:00:03.1".toList 0 "STATUS".toList none,
        Op.write 1 "uncore".toList "0000:00:03.1".toList 12 "STATUS".toList none,
        Op.iter "uncore".toList none none none].foldl (fun s op => op.run K exEnv s) r.1)).2 = .ok (2 ^ 64 - 1) := by
  decide +kernel

/-! ### C51: iterating -/

/-- The triples of a feature: its devices with their packages and the instances of the dump. -/
def Triples (M : Machine) (E : Env) (f : PyStr) (fm : Dict PyStr Nat) (t : Triple) : Prop :=
  fm.get? t.1 = some t.2.1 ∧ t.2.2 ∈ (M.lay (t.1, E.fid f)).map Inst.num

/-- The pairs of the loops with matching packages: one for each device. -/
theorem filter_pairs {fm : Dict PyStr Nat} {pkgs : List Nat} (hp : pkgs.Nodup) (as : List PyStr)
    (hin : ∀ a ∈ as, ∃ p, fm.get? a = some p ∧ p ∈ pkgs) :
    (as.flatMap fun a => pkgs.map fun p => (a, p)).filter (fun x => decide (fm.get? x.1 = some x.2)) =
      as.map fun a => (a, (fm.get? a).getD 0) := by
  induction as with
  | nil => rfl
  | cons a as ih =>
    rw [List.flatMap_cons, List.filter_append, ih (fun x hx => hin x (List.mem_cons_of_mem _ hx)), List.map_cons]
    obtain ⟨p, h1, h2⟩ := hin a List.mem_cons_self
    have : (pkgs.map fun p => (a, p)).filter (fun x => decide (fm.get? x.1 = some x.2)) = [(a, p)] := by
      clear ih hin
      induction pkgs with
      | nil => cases h2
      | cons q qs ih =>
        rw [List.nodup_cons] at hp
        rw [List.map_cons, List.filter_cons, h1]
        by_cases hq : p = q
        · subst hq
          rw [if_pos (by simp)]
          congr 1
          rw [List.filter_eq_nil_iff]
          rintro ⟨x, y⟩ hxy
          obtain ⟨z, hz, e⟩ := List.mem_map.1 hxy
          cases e
          simp only [h1, Option.some.injEq, decide_eq_true_eq]
          rintro rfl
          exact hp.1 hz
        · rw [if_neg (by simpa using hq)]
          exact ih hp.2 (by simpa [hq] using h2)
    rw [this, h1]
    rfl

theorem iterLoop_filter {M : Machine} {E : Env} (f : PyStr) (fm : Dict PyStr Nat) (ps : List (PyStr × Nat)) :
    ∀ (is : Option (List Nat)) (out : List Triple) (s : St Mem),
    iterLoop M.kernel E f fm ps is out s =
      iterLoop M.kernel E f fm (ps.filter fun x => decide (fm.get? x.1 = some x.2)) is out s := by
  induction ps with
  | nil => intros; rfl
  | cons p ps ih =>
    obtain ⟨a, p⟩ := p
    intro is out s
    rw [iterLoop_cons]
    by_cases h : fm.get? a = some p
    · rw [if_neg (by simpa using h), List.filter_cons_of_pos (by simpa using h), iterLoop_cons, if_neg (by simpa using h)]
      cases is with
      | none =>
        dsimp only
        split
        · rfl
        · exact ih _ _ _
      | some is =>
        dsimp only
        split
        · rfl
        · exact ih _ _ _
    · rw [if_pos (by simpa using h), List.filter_cons_of_neg (by simpa using h)]
      exact ih _ _ _

/-- With known instances, which all devices have. -/
theorem iterLoop_same {M : Machine} (hM : M.WF) {E : Env} (f : PyStr) (fm : Dict PyStr Nat) (is : List Nat)
    (ps : List (PyStr × Nat)) : ∀ (out : List Triple) {s : St Mem}, Inv M E s →
    (∀ x ∈ ps, fm.get? x.1 = some x.2) →
    (∀ x ∈ ps, ∀ i ∈ is, i ∈ (M.lay (x.1, E.fid f)).map Inst.num) →
    (iterLoop M.kernel E f fm ps (some is) out s).2 =
      (out ++ ps.flatMap fun x => is.map fun i => (x.1, x.2, i), none) := by
  induction ps with
  | nil => intro out s _ _ _; rw [List.flatMap_nil, List.append_nil]; rfl
  | cons p ps ih =>
    obtain ⟨a, p⟩ := p
    intro out s hi hp his
    rw [iterLoop_cons, if_neg (by simpa using hp _ List.mem_cons_self)]
    obtain ⟨c, r, g1, g2, g3⟩ := validateInstances_spec hM f a is hi
    have := g3.2 (his _ List.mem_cons_self)
    subst this
    dsimp only
    rw [g1]
    dsimp only
    rw [ih _ g2 (fun x hx => hp x (List.mem_cons_of_mem _ hx)) (fun x hx => his x (List.mem_cons_of_mem _ hx)),
      List.flatMap_cons, List.append_assoc]

theorem nodup_triples {is : List Nat} (his : is.Nodup) (g : PyStr → Nat) (as : List PyStr) (has : as.Nodup) :
    (as.flatMap fun a => is.map fun i => ((a, g a, i) : Triple)).Nodup := by
  induction as with
  | nil => exact List.nodup_nil
  | cons a as ih =>
    rw [List.nodup_cons] at has
    rw [List.flatMap_cons, List.nodup_append]
    refine ⟨?_, ih has.2, ?_⟩
    · rw [List.nodup_iff_pairwise_ne, List.pairwise_map]
      exact (List.nodup_iff_pairwise_ne.1 his).imp fun h e => h (by cases e; rfl)
    · intro x hx y hy e
      subst e
      obtain ⟨i, -, rfl⟩ := List.mem_map.1 hx
      obtain ⟨a', ha', hy'⟩ := List.mem_flatMap.1 hy
      obtain ⟨j, -, e⟩ := List.mem_map.1 hy'
      cases e
      exact has.1 ha'

/-- C51 (partial): in every execution, if all devices of the feature have the same instances, in any order,
then `iter_feature(fname)` yields every triple of the feature exactly once. Missing: devices with
different instances (see `C51_fewer_counterexample`, `C51_more_counterexample`). -/
theorem C51_iter_partial (M : Machine) (hM : M.WF) (E : Env) (hE : E.Valid) (m : Mem) (hm : m.Words) (ops : List Op)
    (f : PyStr) (fm : Dict PyStr Nat) (hf : E.fmaps.get? f = some fm) (hnd : fm.keys.Nodup) (hpk : E.packages.Nodup)
    (hpin : ∀ a p, fm.get? a = some p → p ∈ E.packages) (is : List Nat)
    (hsame : ∀ a ∈ fm.keys, ∀ i, i ∈ (M.lay (a, E.fid f)).map Inst.num ↔ i ∈ is) :
    let r := (iterFeature M.kernel E f none none none (run M.kernel E m ops)).2
    r.2 = none ∧ r.1.Nodup ∧ ∀ t, t ∈ r.1 ↔ Triples M E f fm t := by
  have hinv := run_inv hM hE hm ops
  generalize run M.kernel E m ops = s at hinv ⊢
  have hin : ∀ a ∈ fm.keys, ∃ p, fm.get? a = some p ∧ p ∈ E.packages := by
    intro a ha
    cases hg : fm.get? a with
    | none => exact absurd ha ((Dict.get?_eq_none_iff _ _).1 hg)
    | some p => exact ⟨p, rfl, hpin a p hg⟩
  have hlist : ∃ js : List Nat, js.Nodup ∧ (fm.keys ≠ [] → ∀ i, i ∈ js ↔ i ∈ is) ∧
      (iterFeature M.kernel E f none none none s).2 =
        (fm.keys.flatMap fun a => js.map fun i => (a, (fm.get? a).getD 0, i), none) := by
    have hv : validateAddrs E f none none = .ok () := rfl
    unfold iterFeature
    rw [hv]
    dsimp only
    rw [hf]
    dsimp only [Option.getD_none]
    rw [iterLoop_filter, filter_pairs hpk _ hin]
    cases hk : fm.keys with
    | nil => exact ⟨[], List.nodup_nil, fun h => absurd rfl h, rfl⟩
    | cons a as =>
      have hp : ∀ x ∈ fm.keys.map (fun a => (a, (fm.get? a).getD 0)), fm.get? x.1 = some x.2 := by
        intro x hx
        obtain ⟨a, ha, rfl⟩ := List.mem_map.1 hx
        obtain ⟨p, hp, -⟩ := hin a ha
        dsimp only
        rw [hp]
        rfl
      rw [hk] at hp
      rw [List.map_cons] at hp ⊢
      rw [iterLoop_cons, if_neg (by simpa using hp _ List.mem_cons_self)]
      dsimp only
      obtain ⟨d, c, g1, g2, g3⟩ := getMdmap_spec hM f a hinv
      rw [g1]
      dsimp only
      have hd : ∀ i, i ∈ d.keys ↔ i ∈ is := by rw [g2.1]; exact hsame a (by rw [hk]; exact List.mem_cons_self)
      refine ⟨d.keys, by rw [g2.1]; exact (hM.good _).1, fun _ => hd, ?_⟩
      rw [iterLoop_same hM f fm d.keys _ _ g3 (fun x hx => hp x (List.mem_cons_of_mem _ hx))]
      · rw [List.nil_append, List.flatMap_cons, List.flatMap_map]
      · intro x hx i hi
        obtain ⟨a', ha', rfl⟩ := List.mem_map.1 hx
        exact (hsame a' (by rw [hk]; exact List.mem_cons_of_mem _ ha') i).2 ((hd i).1 hi)
  obtain ⟨js, hjs, hji, hlist⟩ := hlist
  dsimp only
  rw [hlist]
  refine ⟨rfl, nodup_triples hjs _ _ hnd, ?_⟩
  · rintro ⟨a, p, i⟩
    unfold Triples
    simp only [List.mem_flatMap, List.mem_map]
    constructor
    · rintro ⟨a', ha', i', hi', e⟩
      cases e
      obtain ⟨p, hp, -⟩ := hin _ ha'
      refine ⟨by rw [hp]; rfl, ?_⟩
      rw [← List.mem_map, hsame _ ha']
      exact (hji (List.ne_nil_of_mem ha') _).1 hi'
    · rintro ⟨h1, h2⟩
      have ha : a ∈ fm.keys := Decidable.byContradiction fun hn => by
        rw [(Dict.get?_eq_none_iff _ _).2 hn] at h1; cases h1
      refine ⟨a, ha, i, ?_, ?_⟩
      · rw [← List.mem_map, hsame a ha, ← hji (List.ne_nil_of_mem ha)] at h2; exact h2
      · rw [h1]; rfl

/-- C51: with one device, or with the devices restricted to one, all instances are visited. -/
theorem C51_single (M : Machine) (hM : M.WF) (E : Env) (hE : E.Valid) (m : Mem) (hm : m.Words) (ops : List Op)
    (f : PyStr) (fm : Dict PyStr Nat) (hf : E.fmaps.get? f = some fm) (hpk : E.packages.Nodup)
    (a : PyStr) (p : Nat) (ha : fm.get? a = some p) (hp : p ∈ E.packages) :
    (iterFeature M.kernel E f (some [a]) none none (run M.kernel E m ops)).2 =
      ((M.lay (a, E.fid f)).map fun x => (a, p, x.num), none) := by
  have hinv := run_inv hM hE hm ops
  generalize run M.kernel E m ops = s at hinv ⊢
  have hv : validateAddrs E f (some [a]) none = .ok () := by
    unfold validateAddrs orNone
    simp only [List.map_cons, List.map_nil, List.flatMap_cons, List.flatMap_nil, List.append_nil, checkAll]
    unfold validateAddrPkg
    simp only [hf, ha]
  unfold iterFeature
  rw [hv]
  dsimp only
  rw [hf]
  dsimp only [Option.getD_none, Option.getD_some]
  rw [iterLoop_filter, filter_pairs hpk _ (by intro x hx; rw [List.mem_singleton] at hx; subst hx; exact ⟨p, ha, hp⟩)]
  simp only [List.map_cons, List.map_nil]
  rw [iterLoop_cons, ha, if_neg (by simp)]
  dsimp only
  obtain ⟨d, c, g1, g2, g3⟩ := getMdmap_spec hM f a hinv
  rw [g1]
  dsimp only
  rw [iterLoop, g2.1]
  simp only [List.nil_append, List.map_map, Option.getD_some]
  rfl

/-- Two devices, in packages 0 and 1. -/
def exEnv2 : Env where
  fmaps := [("uncore".toList, [("a".toList, 0), ("b".toList, 1)])]
  fid := fun _ => 2
  fdict := fun _ => none
  packages := [0, 1]

def exInst (n : Nat) : Inst := ⟨n, "0".toList, [⟨false, "00".toList, 1⟩]⟩

/-- The instances of the two devices. -/
def exMachine2 (a b : List Nat) : Machine where
  lay := fun k => if k.1 = "a".toList then a.map exInst else b.map exInst
  accepts := fun _ _ _ _ _ => false

theorem exMachine2_wf (a b : List Nat) (ha : a.Nodup) (hb : b.Nodup) : (exMachine2 a b).WF where
  good := by
    have : ∀ l : List Nat, l.Nodup → Good (l.map exInst) := by
      intro l hl
      refine ⟨?_, ?_⟩
      · rw [List.map_map, show (Inst.num ∘ exInst) = id from rfl, List.map_id]; exact hl
      · intro x hx
        obtain ⟨n, -, rfl⟩ := List.mem_map.1 hx
        refine ⟨⟨show "0".toList ≠ [] by decide, ?_⟩, ?_, ?_⟩
        · intro c hc; exact (show ∀ c ∈ "0".toList, c ∈ "0123456789abcdef".toList by decide +kernel) c hc
        · exact (show ([⟨false, "00".toList, 1⟩] : List Row).flatMap Row.offsets |>.Nodup by decide +kernel)
        · intro r hr
          have : r = ⟨false, "00".toList, 1⟩ := List.mem_singleton.1 hr
          subst this
          exact ⟨⟨by decide, by decide +kernel⟩, by decide⟩
    intro k
    unfold exMachine2
    dsimp only
    split
    · exact this a ha
    · exact this b hb
  shown := fun _ _ _ _ _ h => by cases h

/-- Devices with the same instances. -/
example : (iterFeature (exMachine2 [0, 2] [2, 0]).kernel exEnv2 "uncore".toList none none none ⟨fun _ _ _ => 0, []⟩).2 =
    ([("a".toList, 0, 0), ("a".toList, 0, 2), ("b".toList, 1, 0), ("b".toList, 1, 2)], none) := by
  decide +kernel

/-- C51 is false if a later device has instances the first one does not have: they are skipped. -/
theorem C51_more_counterexample : (exMachine2 [0] [0, 1]).WF ∧
    (iterFeature (exMachine2 [0] [0, 1]).kernel exEnv2 "uncore".toList none none none ⟨fun _ _ _ => 0, []⟩).2 =
      ([("a".toList, 0, 0), ("b".toList, 1, 0)], none) ∧
    Triples (exMachine2 [0] [0, 1]) exEnv2 "uncore".toList [("a".toList, 0), ("b".toList, 1)] ("b".toList, 1, 1) :=
  ⟨exMachine2_wf _ _ (by decide) (by decide), by decide +kernel, by decide +kernel, by decide +kernel⟩

/-- C51 is false if the first device has instances a later one does not have: the iteration fails. -/
theorem C51_fewer_counterexample : (exMachine2 [0, 1] [0]).WF ∧
    (iterFeature (exMachine2 [0, 1] [0]).kernel exEnv2 "uncore".toList none none none ⟨fun _ _ _ => 0, []⟩).2 =
      ([("a".toList, 0, 0), ("a".toList, 0, 1)], some .error) ∧
    Triples (exMachine2 [0, 1] [0]) exEnv2 "uncore".toList [("a".toList, 0), ("b".toList, 1)] ("b".toList, 1, 0) :=
  ⟨exMachine2_wf _ _ (by decide) (by decide), by decide +kernel, by decide +kernel, by decide +kernel⟩

end Verif.Tpmi
