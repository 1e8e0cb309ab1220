import Verif.Lemmas.TpmiCmd
import Verif.Props.TpmiDiscover

/-!
C91 The 'pepc tpmi write' and 'pepc tpmi read' commands.
-/

namespace Verif.Tpmi

/-! ### Writing -/

/-- The cases of a successful write, from any reachable state. -/
theorem writeCmd_ok {M : Machine} (hM : M.WF) {E : Env} (hE : E.Valid) {f : PyStr} {fm : Dict PyStr Nat}
    (hf : FmapOk E f fm) {S : Sel} (hS : S.Nodup) {r : PyStr} {b : Option PyStr} {v : Int} {R : Reg}
    (hR : getReg E f r = .ok R) {F : Option Field} (hF : FieldIs R b F)
    (hwid : ∀ G old, F = some G → 0 ≤ v → old < 2 ^ R.width → setBitfield G old v.toNat < 2 ^ R.width)
    {s : St Mem} (hi : Inv M E s) :
    let x := writeCmd M.kernel E v f r b S s
    Inv M E x.1 ∧
    ((x.2.2 = none ∧ x.2.1.Nodup ∧ (∀ t ∈ x.2.1, S.Target M E f fm t) ∧
        (S.Same M E f fm → (∀ t, S.Target M E f fm t → t ∈ x.2.1) ∧ IterOk S M E f fm) ∧ Done E f R F v s.w x.2.1 x.1.w) ∨
      (∃ e, x.2.2 = some e ∧ x.2.1.Nodup ∧ (∀ t ∈ x.2.1, S.Target M E f fm t) ∧ Done E f R F v s.w x.2.1 x.1.w ∧
        ¬IterOk S M E f fm) ∨
      (∃ e t m1 s1, x.2.2 = some e ∧ x.2.1.Nodup ∧ (∀ t ∈ x.2.1, S.Target M E f fm t) ∧ S.Target M E f fm t ∧ t ∉ x.2.1 ∧
        Done E f R F v s.w x.2.1 m1 ∧ OnlyReg m1 x.1.w (t.1, E.fid f) t.2.2 R ∧ s1.w = m1 ∧ Inv M E s1 ∧
        (writeRegister M.kernel E v f t.1 t.2.2 r b s1).2 = .error e)) := by
  have h := forFeature_rule hM hf hS (writeBody_ok hM hE hR hF hwid (S := S) (fm := fm) s.w) s [] hi
    ⟨rfl, fun t ht => (by cases ht), fun _ _ _ _ => rfl⟩
  unfold writeCmd
  generalize forFeature M.kernel E (writeBody M.kernel E v f r b) f S s [] = x at h
  obtain ⟨s', out, oe⟩ := x
  obtain ⟨h1, h2⟩ := h
  refine ⟨h1, ?_⟩
  rcases h2 with ⟨g1, ts, g2, g3, g4, rfl, g5⟩ | ⟨us, e, g1, g2, g3, ⟨rfl, g4⟩, g5⟩ |
    ⟨us, t, e, g1, g2, g3, g4, g5, rfl, m1, g6, g7, s1, g8, g9, g10⟩
  · exact .inl ⟨g1, g2, g3, g4, g5⟩
  · exact .inr (.inl ⟨e, g1, g3, g2, g4, g5⟩)
  · exact .inr (.inr ⟨e, t, m1, s1, g1, g5, g2, g3, g4, g6, g7, g8, g9, g10⟩)

/-- The words of the registers which were reported are shown. -/
theorem writeCmd_shown {M : Machine} (hM : M.WF) {E : Env} (hE : E.Valid) {f : PyStr} {fm : Dict PyStr Nat}
    (hf : FmapOk E f fm) {S : Sel} (hS : S.Nodup) {r : PyStr} {v : Int} {R : Reg}
    (hR : getReg E f r = .ok R) {s : St Mem} (hi : Inv M E s) :
    ∀ t ∈ (writeCmd M.kernel E v f r none S s).2.1, RegShown (M.lay (t.1, E.fid f)) t.2.2 R := by
  have hb : BodyOk M E (writeBody M.kernel E v f r none) (S.Target M E f fm)
      (fun ts _ out => out = ts ∧ ∀ t ∈ out, RegShown (M.lay (t.1, E.fid f)) t.2.2 R)
      (fun _ _ _ out _ => ∀ t ∈ out, RegShown (M.lay (t.1, E.fid f)) t.2.2 R) := by
    rintro ts t s out hi hT hts hnot hnd ⟨rfl, hok⟩
    have hV := hE _ _ _ hR
    have hframe := writeRegister_frame hM hE (v := v) (f := f) (a := t.1) (i := t.2.2) (r := r) (b := none) hi
    unfold writeBody
    generalize hw : writeRegister M.kernel E v f t.1 t.2.2 r none s = x at hframe
    obtain ⟨s', res⟩ := x
    cases res with
    | error e => exact ⟨hframe.1, .inr ⟨e, rfl, hok⟩⟩
    | ok u =>
      obtain ⟨ha, hr, hin, c, hc, hw'⟩ := writeRegister_ok hM hi hw
      obtain ⟨k1, k2, k3, k4⟩ := writeReg_ok hM (F := none) hc hR hV trivial (fun G hG => (by cases hG)) hw'
      refine ⟨hframe.1, .inl ⟨rfl, rfl, fun u hu => ?_⟩⟩
      rcases List.mem_append.1 hu with hu | hu
      · exact hok u hu
      · rw [List.mem_singleton.1 hu]; exact k3
  obtain ⟨-, ⟨-, ts, -, -, -, -, h⟩ | ⟨us, e, -, -, -, ⟨-, h⟩, -⟩ | ⟨us, t, e, -, -, -, -, -, h⟩⟩ :=
    forFeature_rule hM hf hS hb s [] hi ⟨rfl, fun t ht => (by cases ht)⟩
  · exact h
  · exact h
  · exact h

/-- **C91.** In every execution: if 'pepc tpmi write' succeeds, it reports every selected instance of every selected
device exactly once and nothing else, their registers have the new value, and no other word of memory changed.
Instances were given, or the devices have the same ones (see `C91_instances_counterexample`). -/
theorem C91_write (M : Machine) (hM : M.WF) (E : Env) (hE : E.Valid) (hE' : EnvOk E) (m : Mem) (hm : m.Words)
    (ops : List Op) (f : PyStr) (fm : Dict PyStr Nat) (hf : E.fmaps.get? f = some fm) (S : Sel) (hS : S.Nodup)
    (hsame : S.Same M E f fm) (r : PyStr) (R : Reg) (hR : getReg E f r = .ok R) (v : Int) (s' : St Mem)
    (out : List Triple) (h : writeCmd M.kernel E v f r none S (run M.kernel E m ops) = (s', out, none)) :
    out.Nodup ∧ (∀ t, t ∈ out ↔ S.Target M E f fm t) ∧
    (∀ t, S.Target M E f fm t → (regVal s'.w (t.1, E.fid f) t.2.2 R : Int) = v) ∧
    ∀ k i o, (∀ t, S.Target M E f fm t → ¬(k = (t.1, E.fid f) ∧ i = t.2.2 ∧ o ∈ R.words)) →
      s'.w k i o = (run M.kernel E m ops).w k i o := by
  have hx := writeCmd_ok hM hE (hE' f fm hf) hS (b := none) (v := v) hR (F := none) trivial (fun G old h => (by cases h))
    (run_inv hM hE hm ops)
  rw [h] at hx
  obtain ⟨-, ⟨-, g2, g3, g4, g5⟩ | ⟨e, g1, -⟩ | ⟨e, t, m1, s1, g1, -⟩⟩ := hx
  · dsimp only at g2 g3 g4 g5
    have hiff : ∀ t, t ∈ out ↔ S.Target M E f fm t := fun t => ⟨g3 t, (g4 hsame).1 t⟩
    refine ⟨g2, hiff, fun t ht => ?_, fun k i o hn => g5.2 k i o fun t ht => hn t ((hiff t).1 ht)⟩
    obtain ⟨j1, -, j2⟩ := g5.1 t ((hiff t).2 ht)
    rw [j2]
    exact Int.toNat_of_nonneg j1
  · cases g1
  · cases g1

/-- **C91 (partial).** The same for bit fields, if the value fits the field and the field is inside the register: the
field has the value, other bits of the register are as before. Missing: values which do not fit
(see `C91_field_counterexample`). -/
theorem C91_write_field_partial (M : Machine) (hM : M.WF) (E : Env) (hE : E.Valid) (hE' : EnvOk E) (m : Mem)
    (hm : m.Words) (ops : List Op) (f : PyStr) (fm : Dict PyStr Nat) (hf : E.fmaps.get? f = some fm) (S : Sel)
    (hS : S.Nodup) (hsame : S.Same M E f fm) (r b : PyStr) (R : Reg) (hR : getReg E f r = .ok R) (F : Field)
    (hb : R.fields.get? b = some F) (hi lo : Nat) (hF : mkField hi lo = .ok F) (hhi : hi < R.width) (v : Int)
    (hv : v < 2 ^ (hi - lo + 1)) (s' : St Mem) (out : List Triple)
    (h : writeCmd M.kernel E v f r (some b) S (run M.kernel E m ops) = (s', out, none)) :
    out.Nodup ∧ (∀ t, t ∈ out ↔ S.Target M E f fm t) ∧
    (∀ t, S.Target M E f fm t →
      let old := regVal (run M.kernel E m ops).w (t.1, E.fid f) t.2.2 R
      let new := regVal s'.w (t.1, E.fid f) t.2.2 R
      (slice new hi lo : Int) = v ∧ ∀ k, ¬(lo ≤ k ∧ k ≤ hi) → new.testBit k = old.testBit k) ∧
    ∀ k i o, (∀ t, S.Target M E f fm t → ¬(k = (t.1, E.fid f) ∧ i = t.2.2 ∧ o ∈ R.words)) →
      s'.w k i o = (run M.kernel E m ops).w k i o := by
  have hlt : 0 ≤ v → v.toNat < 2 ^ (hi - lo + 1) := by
    intro h0
    have : (2 ^ (hi - lo + 1) : Int) = ((2 ^ (hi - lo + 1) : Nat) : Int) := by norm_cast
    omega
  have hx := writeCmd_ok hM hE (hE' f fm hf) hS (b := some b) (v := v) hR (F := some F)
    (show getField R b = .ok F by unfold getField; rw [hb])
    (fun G old h h0 hold => by cases h; exact setBitfield_lt hF hhi hold (hlt h0)) (run_inv hM hE hm ops)
  rw [h] at hx
  obtain ⟨-, ⟨-, g2, g3, g4, g5⟩ | ⟨e, g1, -⟩ | ⟨e, t, m1, s1, g1, -⟩⟩ := hx
  · dsimp only at g2 g3 g4 g5
    have hiff : ∀ t, t ∈ out ↔ S.Target M E f fm t := fun t => ⟨g3 t, (g4 hsame).1 t⟩
    refine ⟨g2, hiff, fun t ht => ?_, fun k i o hn => g5.2 k i o fun t ht => hn t ((hiff t).1 ht)⟩
    obtain ⟨j1, -, j2⟩ := g5.1 t ((hiff t).2 ht)
    dsimp only
    rw [j2]
    unfold newVal
    dsimp only
    refine ⟨?_, fun k hk => ?_⟩
    · rw [← getBitfield_slice hF, getBitfield_set hF (hlt j1)]
      exact Int.toNat_of_nonneg j1
    · rw [testBit_setBitfield_of_lt hF (hlt j1), if_neg hk]
  · cases g1
  · cases g1

/-- **C91.** In every execution: if 'pepc tpmi write' fails, the instances it reported were selected and their registers
have the new value, and at most one other selected register may have been changed. -/
theorem C91_write_fails (M : Machine) (hM : M.WF) (E : Env) (hE : E.Valid) (hE' : EnvOk E) (m : Mem) (hm : m.Words)
    (ops : List Op) (f : PyStr) (fm : Dict PyStr Nat) (hf : E.fmaps.get? f = some fm) (S : Sel) (hS : S.Nodup)
    (r : PyStr) (R : Reg) (hR : getReg E f r = .ok R) (v : Int) (s' : St Mem) (out : List Triple) (e : Exn)
    (h : writeCmd M.kernel E v f r none S (run M.kernel E m ops) = (s', out, some e)) :
    out.Nodup ∧ (∀ t ∈ out, S.Target M E f fm t ∧ (regVal s'.w (t.1, E.fid f) t.2.2 R : Int) = v) ∧
    ∃ last : Option Triple, (∀ t, last = some t → S.Target M E f fm t ∧ t ∉ out) ∧
      ∀ k i o, (∀ t, t ∈ out ∨ last = some t → ¬(k = (t.1, E.fid f) ∧ i = t.2.2 ∧ o ∈ R.words)) →
        s'.w k i o = (run M.kernel E m ops).w k i o := by
  have hx := writeCmd_ok hM hE (hE' f fm hf) hS (b := none) (v := v) hR (F := none) trivial (fun G old h => (by cases h))
    (run_inv hM hE hm ops)
  rw [h] at hx
  obtain ⟨-, ⟨g1, -⟩ | ⟨e', -, g2, g3, g5, -⟩ | ⟨e', t, m1, s1, -, g2, g3, g4, g5, g6, g7, -⟩⟩ := hx
  · cases g1
  · dsimp only at g2 g3 g5
    refine ⟨g2, fun t ht => ⟨g3 t ht, ?_⟩, none, fun t h => (by cases h), fun k i o hn => g5.2 k i o fun t ht => hn t (.inl ht)⟩
    obtain ⟨j1, -, j2⟩ := g5.1 t ht
    rw [j2]
    exact Int.toNat_of_nonneg j1
  · dsimp only at g2 g3 g4 g5 g6 g7
    refine ⟨g2, fun u hu => ⟨g3 u hu, ?_⟩, some t, fun u hu => by cases hu; exact ⟨g4, g5⟩, fun k i o hn => ?_⟩
    · obtain ⟨j1, -, j2⟩ := g6.1 u hu
      rw [regVal_congr (m' := m1) fun o _ => g7 _ _ _ ?_, j2]
      · exact Int.toNat_of_nonneg j1
      · rintro ⟨h1, h2, -⟩
        exact Target.ne (g3 u hu) g4 (fun e => g5 (e ▸ hu)) ⟨(Prod.mk.inj h1).1, h2⟩
    · rw [g7 k i o (hn t (.inr rfl))]
      exact g6.2 k i o fun u hu => hn u (.inl hu)

/-- **C91.** 'pepc tpmi write' does not fail without a reason: what was selected exists, the words of the register are
shown, the value is not negative and not wider than the register, and the kernel accepts writes. -/
theorem C91_write_works (M : Machine) (hM : M.WF) (hopen : M.Open) (E : Env) (hE : E.Valid) (hE' : EnvOk E) (m : Mem)
    (hm : m.Words) (ops : List Op) (f : PyStr) (fm : Dict PyStr Nat) (hf : E.fmaps.get? f = some fm) (S : Sel)
    (hS : S.Nodup) (hval : S.Valid M E f fm) (r : PyStr) (R : Reg) (hR : getReg E f r = .ok R) (v : Int) (h0 : 0 ≤ v)
    (h1 : v < 2 ^ R.width) (hshown : ∀ t, S.Target M E f fm t → RegShown (M.lay (t.1, E.fid f)) t.2.2 R) :
    (writeCmd M.kernel E v f r none S (run M.kernel E m ops)).2.2 = none := by
  have hx := writeCmd_ok hM hE (hE' f fm hf) hS (b := none) (v := v) hR (F := none) trivial (fun G old h => (by cases h))
    (run_inv hM hE hm ops)
  obtain ⟨-, ⟨g1, -⟩ | ⟨e', -, -, -, -, g⟩ | ⟨e', t, m1, s1, -, -, -, g4, -, -, -, -, g8, g9⟩⟩ := hx
  · exact g1
  · exact absurd (hval.iterOk (hE' f fm hf)) g
  · exfalso
    have hva : validateAddr E f t.1 = .ok () := by
      unfold validateAddr
      rw [hf]
      dsimp only
      rw [g4.1.1]
      rfl
    have hok : (writeRegister M.kernel E v f t.1 t.2.2 r none s1).2 = .ok () := by
      unfold writeRegister
      rw [hva]
      dsimp only
      rw [validateReg_ok.2 ⟨R, hR, fun x hx => (by cases hx)⟩]
      dsimp only
      obtain ⟨c, k1, k2⟩ := validateInstance_spec hM f t.1 t.2.2 g8
      rw [k1, if_pos (show t.2.2 ∈ (M.lay (t.1, E.fid f)).map Inst.num from g4.2.1)]
      dsimp only
      exact writeReg_open hM hopen k2 hR (hE _ _ _ hR) (fun x hx => (by cases hx)) h0 h1 (hshown t g4)
    rw [hok] at g9
    cases g9

/-! ### Reading -/

/-- What a successful read command prints. -/
theorem readCmd_ok {M : Machine} (hM : M.WF) {E : Env} (hE' : EnvOk E) {fnames regnames bfnames : Option (List PyStr)}
    {S : Sel} (hS : S.Nodup) {s : St Mem} (hi : Inv M E s) :
    let x := readCmd M.kernel E fnames regnames bfnames S s
    x.1.w = s.w ∧
    match x.2 with
    | .ok info => info.keys.Nodup ∧ ∀ f, match info.get? f with
      | some fi => f ∈ fnames.getD E.fmaps.keys ∧ FeatOk M E s.w f regnames bfnames S fi
      | none => f ∉ fnames.getD E.fmaps.keys
    | .error _ => (regnames = none ∧ bfnames ≠ none) ∨ fnames.getD E.fmaps.keys = [] ∨
        ∃ f ∈ fnames.getD E.fmaps.keys, ¬CanReadFeat M E f regnames bfnames S := by
  unfold readCmd
  by_cases hb : (regnames.isNone && bfnames.isSome) = true
  · rw [if_pos hb]
    refine ⟨rfl, .inl ?_⟩
    cases regnames with
    | none => cases bfnames with
      | none => cases hb
      | some l => exact ⟨rfl, by simp⟩
    | some l => cases hb
  · rw [if_neg hb]
    have h := readFeatures_spec hM hE' regnames bfnames hS (fnames.getD E.fmaps.keys) [] hi
    generalize fnames.getD E.fmaps.keys = fs at h
    generalize readFeatures M.kernel E regnames bfnames S fs s [] = x at h
    obtain ⟨s', res⟩ := x
    obtain ⟨-, h2, h3⟩ := h
    dsimp only at h2 h3
    cases res with
    | error e => exact ⟨h2, .inr (.inr h3)⟩
    | ok info =>
      dsimp only at h3 ⊢
      by_cases hem : info.isEmpty
      · rw [if_pos hem]
        refine ⟨h2, .inr (.inl ?_)⟩
        cases fs with
        | nil => rfl
        | cons g fs =>
          have := h3.2 g
          have hn : info = [] := by simpa using hem
          rw [hn] at this
          exact absurd List.mem_cons_self this.1
      · rw [if_neg hem]
        refine ⟨h2, h3.1 List.nodup_nil, fun f => ?_⟩
        have := h3.2 f
        cases hg : info.get? f with
        | none => rw [hg] at this; exact this.1
        | some fi =>
          rw [hg] at this
          rcases this with h | h
          · exact h
          · cases h.2

theorem wantsReg_iff {regnames : Option (List PyStr)} {fd : Dict PyStr Reg} {r : PyStr} {R : Reg} (h : fd.get? r = some R) :
    r ∈ regsOf regnames fd ↔ WantsReg regnames r := by
  unfold regsOf WantsReg
  cases regnames with
  | some l => exact Iff.rfl
  | none =>
    dsimp only [Option.getD_none]
    rw [List.mem_filter]
    constructor
    · rintro ⟨-, h⟩
      exact reserved_iff.1 (by simpa using h)
    · intro hp
      exact ⟨mem_keys_of_get? h, by rw [reserved_iff.2 hp]; rfl⟩

/-- **C91.** Reading changes nothing, whether it fails or not. -/
theorem C91_read_pure (M : Machine) (hM : M.WF) (E : Env) (hE : E.Valid) (hE' : EnvOk E) (m : Mem) (hm : m.Words)
    (ops : List Op) (fnames regnames bfnames : Option (List PyStr)) (S : Sel) (hS : S.Nodup) :
    (readCmd M.kernel E fnames regnames bfnames S (run M.kernel E m ops)).1.w = (run M.kernel E m ops).w :=
  (readCmd_ok hM hE' hS (run_inv hM hE hm ops)).1

/-- **C91.** In every execution: if 'pepc tpmi read' succeeds, then it prints exactly the selected registers of the
selected instances of the selected features, with the package of the device and the value the register has in
memory. -/
theorem C91_read (M : Machine) (hM : M.WF) (E : Env) (hE : E.Valid) (hE' : EnvOk E) (m : Mem) (hm : m.Words)
    (ops : List Op) (fnames regnames bfnames : Option (List PyStr)) (S : Sel) (hS : S.Nodup) (s' : St Mem)
    (info : Dict PyStr FeatInfo)
    (h : readCmd M.kernel E fnames regnames bfnames S (run M.kernel E m ops) = (s', .ok info))
    (f : PyStr) (fm : Dict PyStr Nat) (hf : E.fmaps.get? f = some fm) (hsame : S.Same M E f fm) (a : PyStr) (i : Nat)
    (r : PyStr) (p v : Nat) :
    shownAt info f a i r = some (p, v) ↔
      (∀ l, fnames = some l → f ∈ l) ∧ S.Target M E f fm (a, p, i) ∧ WantsReg regnames r ∧
      ∃ R, getReg E f r = .ok R ∧ v = regVal (run M.kernel E m ops).w (a, E.fid f) i R := by
  have hx := readCmd_ok hM hE' (fnames := fnames) (regnames := regnames) (bfnames := bfnames) hS (run_inv hM hE hm ops)
  rw [h] at hx
  obtain ⟨-, -, hx⟩ := hx
  have hx := hx f
  have hfn : f ∈ fnames.getD E.fmaps.keys ↔ ∀ l, fnames = some l → f ∈ l := by
    cases fnames with
    | none => exact ⟨fun _ l h => (by cases h), fun _ => mem_keys_of_get? hf⟩
    | some l => exact ⟨fun h l' e => by cases e; exact h, fun h => h l rfl⟩
  rw [← hfn]
  unfold shownAt
  cases hg : info.get? f with
  | none =>
    rw [hg] at hx
    dsimp only at hx
    simp [hx]
  | some fi =>
    rw [hg] at hx
    dsimp only at hx
    obtain ⟨hmem, fm', fd, ts, k1, k2, k3, k4, k5⟩ := hx
    rw [hf] at k1
    cases k1
    have k5 := k5 hsame
    simp only [Option.bind_some]
    constructor
    · intro hs
      cases hd : fi.get? a with
      | none => rw [hd] at hs; cases hs
      | some d =>
        rw [hd] at hs
        simp only [Option.bind_some] at hs
        cases hxi : d.instances.get? i with
        | none => rw [hxi] at hs; cases hs
        | some x =>
          rw [hxi] at hs
          simp only [Option.bind_some] at hs
          cases hri : x.get? r with
          | none => rw [hri] at hs; cases hs
          | some ri =>
            rw [hri] at hs
            simp only [Option.map_some, Option.some.injEq, Prod.mk.injEq] at hs
            obtain ⟨rfl, rfl⟩ := hs
            obtain ⟨j1, j2, j3⟩ := k3.2.1 a d hd
            obtain ⟨j4, j5⟩ := j3 i x hxi
            obtain ⟨j6, R, j7, j8⟩ := j5.2.1 r ri hri
            exact ⟨hmem, k4 _ j4, (wantsReg_iff j7).1 j6, R, getReg_of_fdict k2 j7, j8.1⟩
    · rintro ⟨-, hT, hw, R, hR, rfl⟩
      have hR' : fd.get? r = some R := by
        unfold getReg at hR
        rw [k2] at hR
        dsimp only at hR
        cases hr : fd.get? r with
        | none => rw [hr] at hR; cases hR
        | some R' => rw [hr] at hR; cases hR; rfl
      obtain ⟨d, x, j1, j2, j3⟩ := k3.2.2 _ (k5 _ hT)
      dsimp only at j1 j2 j3
      obtain ⟨-, -, j4⟩ := k3.2.1 a d j1
      obtain ⟨-, j5⟩ := j4 i x j3
      obtain ⟨ri, hri⟩ := j5.2.2 r ((wantsReg_iff hR').2 hw)
      obtain ⟨-, R', j7, j8⟩ := j5.2.1 r ri hri
      rw [hR'] at j7
      cases j7
      rw [j1]
      simp only [Option.bind_some]
      rw [j3]
      simp only [Option.bind_some]
      rw [hri, Option.map_some, j2, j8.1]

/-- **C91.** The bit fields which are printed are those of the registers which are printed, except for reserved ones and for
those which were not asked for, and the values are the bits of the registers. -/
theorem C91_read_field (M : Machine) (hM : M.WF) (E : Env) (hE : E.Valid) (hE' : EnvOk E) (m : Mem) (hm : m.Words)
    (ops : List Op) (fnames regnames bfnames : Option (List PyStr)) (S : Sel) (hS : S.Nodup) (s' : St Mem)
    (info : Dict PyStr FeatInfo)
    (h : readCmd M.kernel E fnames regnames bfnames S (run M.kernel E m ops) = (s', .ok info))
    (f : PyStr) (fm : Dict PyStr Nat) (hf : E.fmaps.get? f = some fm) (hsame : S.Same M E f fm) (a : PyStr) (i : Nat)
    (r b : PyStr) (R : Reg) (hR : getReg E f r = .ok R) (v : Nat) :
    (R.fields.get? b = none → fieldAt info f a i r b = none) ∧
    ∀ F hi lo, R.fields.get? b = some F → mkField hi lo = .ok F →
      (fieldAt info f a i r b = some v ↔
        (∀ l, fnames = some l → f ∈ l) ∧ (∃ p, S.Target M E f fm (a, p, i)) ∧ WantsReg regnames r ∧ WantsField bfnames b ∧
        v = slice (regVal (run M.kernel E m ops).w (a, E.fid f) i R) hi lo) := by
  have hx := readCmd_ok hM hE' (fnames := fnames) (regnames := regnames) (bfnames := bfnames) hS (run_inv hM hE hm ops)
  rw [h] at hx
  obtain ⟨-, -, hx⟩ := hx
  have hx := hx f
  have hfn : f ∈ fnames.getD E.fmaps.keys ↔ ∀ l, fnames = some l → f ∈ l := by
    cases fnames with
    | none => exact ⟨fun _ l h => (by cases h), fun _ => mem_keys_of_get? hf⟩
    | some l => exact ⟨fun h l' e => by cases e; exact h, fun h => h l rfl⟩
  rw [← hfn]
  unfold fieldAt
  cases hg : info.get? f with
  | none =>
    rw [hg] at hx
    dsimp only at hx
    refine ⟨fun _ => rfl, fun F hi lo _ _ => ?_⟩
    simp [hx]
  | some fi =>
    rw [hg] at hx
    dsimp only at hx
    obtain ⟨hmem, fm', fd, ts, k1, k2, k3, k4, k5⟩ := hx
    rw [hf] at k1
    cases k1
    have k5 := k5 hsame
    have hR' : fd.get? r = some R := by
      unfold getReg at hR
      rw [k2] at hR
      dsimp only at hR
      cases hr : fd.get? r with
      | none => rw [hr] at hR; cases hR
      | some R' => rw [hr] at hR; cases hR; rfl
    simp only [Option.bind_some]
    -- What is there for the field.
    have hfwd : ∀ v, ((fi.get? a).bind fun d => (d.instances.get? i).bind fun rs => (rs.get? r).bind fun ri =>
        ri.fields.bind fun fs => fs.get? b) = some v →
        (∃ p, S.Target M E f fm (a, p, i)) ∧ WantsReg regnames r ∧ WantsField bfnames b ∧
        ∃ F, R.fields.get? b = some F ∧ v = getBitfield F (regVal (run M.kernel E m ops).w (a, E.fid f) i R) := by
      intro v hs
      obtain ⟨d, hd, hs⟩ := Option.bind_eq_some_iff.1 hs
      obtain ⟨x, hxi, hs⟩ := Option.bind_eq_some_iff.1 hs
      obtain ⟨ri, hri, hs⟩ := Option.bind_eq_some_iff.1 hs
      obtain ⟨fs, hfs, hs⟩ := Option.bind_eq_some_iff.1 hs
      obtain ⟨j1, j2, j3⟩ := k3.2.1 a d hd
      obtain ⟨j4, j5⟩ := j3 i x hxi
      obtain ⟨j6, R', j7, j8, j9, j10⟩ := j5.2.1 r ri hri
      rw [hR'] at j7
      cases j7
      rw [hfs] at j10
      obtain ⟨l1, l2, l3⟩ := (j10.2 b v).1 hs
      refine ⟨⟨_, k4 _ j4⟩, (wantsReg_iff hR').1 j6, ⟨l2, fun l hl => ?_⟩, l3⟩
      rw [hl] at l1
      exact l1
    refine ⟨fun hnone => ?_, fun F hi lo hF hmk => ⟨fun hs => ?_, ?_⟩⟩
    · cases hv : ((fi.get? a).bind fun d => (d.instances.get? i).bind fun rs => (rs.get? r).bind fun ri =>
        ri.fields.bind fun fs => fs.get? b) with
      | none => rfl
      | some v =>
        obtain ⟨-, -, -, F, hF, -⟩ := hfwd v hv
        rw [hnone] at hF
        cases hF
    · obtain ⟨h1, h2, h3, G, hG, hv⟩ := hfwd v hs
      rw [hF] at hG
      cases hG
      exact ⟨hmem, h1, h2, h3, by rw [hv, getBitfield_slice hmk]⟩
    · rintro ⟨-, ⟨p, hT⟩, hw, hwf, rfl⟩
      obtain ⟨d, x, j1, j2, j3⟩ := k3.2.2 _ (k5 _ hT)
      dsimp only at j1 j2 j3
      obtain ⟨-, -, j4⟩ := k3.2.1 a d j1
      obtain ⟨-, j5⟩ := j4 i x j3
      obtain ⟨ri, hri⟩ := j5.2.2 r ((wantsReg_iff hR').2 hw)
      obtain ⟨-, R', j7, j8, j9, j10⟩ := j5.2.1 r ri hri
      rw [hR'] at j7
      cases j7
      have hval := (j10.2 b (getBitfield F (regVal (run M.kernel E m ops).w (a, E.fid f) i R))).2
        ⟨by
          cases hbf : bfnames with
          | none => exact mem_keys_of_get? hF
          | some l => exact hwf.2 l hbf, hwf.1, F, hF, rfl⟩
      rw [j1]
      simp only [Option.bind_some]
      rw [j3]
      simp only [Option.bind_some]
      rw [hri]
      simp only [Option.bind_some]
      cases hfs : ri.fields with
      | none => rw [hfs] at hval; cases hval
      | some fs =>
        rw [hfs] at hval
        simp only [Option.bind_some]
        rw [← getBitfield_slice hmk]
        exact hval

/-- **C91.** Nothing is printed twice. -/
theorem C91_once (M : Machine) (hM : M.WF) (E : Env) (hE : E.Valid) (hE' : EnvOk E) (m : Mem) (hm : m.Words)
    (ops : List Op) (fnames regnames bfnames : Option (List PyStr)) (S : Sel) (hS : S.Nodup) (s' : St Mem)
    (info : Dict PyStr FeatInfo)
    (h : readCmd M.kernel E fnames regnames bfnames S (run M.kernel E m ops) = (s', .ok info)) :
    info.keys.Nodup ∧ ∀ f fi, info.get? f = some fi → fi.keys.Nodup ∧ ∀ a d, fi.get? a = some d →
      d.instances.keys.Nodup ∧ ∀ i rs, d.instances.get? i = some rs → rs.keys.Nodup ∧
        ∀ r ri, rs.get? r = some ri → ri.fields ≠ some [] ∧ ∀ fs, ri.fields = some fs → fs.keys.Nodup := by
  have hx := readCmd_ok hM hE' (fnames := fnames) (regnames := regnames) (bfnames := bfnames) hS (run_inv hM hE hm ops)
  rw [h] at hx
  obtain ⟨-, h1, hx⟩ := hx
  refine ⟨h1, fun f fi hf => ?_⟩
  have hx := hx f
  rw [hf] at hx
  obtain ⟨-, fm', fd, ts, -, -, k3, -⟩ := hx
  refine ⟨k3.1, fun a d hd => ?_⟩
  obtain ⟨-, j2, j3⟩ := k3.2.1 a d hd
  refine ⟨j2, fun i rs hrs => ?_⟩
  obtain ⟨-, j5⟩ := j3 i rs hrs
  refine ⟨j5.1, fun r ri hri => ?_⟩
  obtain ⟨-, R, -, -, j6, j7⟩ := j5.2.1 r ri hri
  refine ⟨j6, fun fs hfs => ?_⟩
  rw [hfs] at j7
  exact j7.1

/-- The conditions under which a feature can be read. -/
theorem canReadFeat_of {M : Machine} {E : Env} {f : PyStr} {fm : Dict PyStr Nat} {fd : Dict PyStr Reg}
    (hf : E.fmaps.get? f = some fm) (hfd : E.fdict f = some fd) {S : Sel} (hit : IterOk S M E f fm)
    {regnames bfnames : Option (List PyStr)} (hnd : fd.keys.Nodup) (hrn : ∀ l, regnames = some l → l.Nodup)
    (hregs : ∀ r, WantsReg regnames r → (regnames ≠ none ∨ r ∈ fd.keys) → ∃ R, fd.get? r = some R ∧
      (∀ t, S.Target M E f fm t → RegShown (M.lay (t.1, E.fid f)) t.2.2 R) ∧
      ∀ l, bfnames = some l → ∀ b ∈ l, Public b → b ∈ R.fields.keys) : CanReadFeat M E f regnames bfnames S := by
  refine ⟨fm, fd, hf, hfd, hit, ?_, ?_⟩
  · unfold regsOf
    cases h : regnames with
    | none => exact hnd.sublist List.filter_sublist
    | some l => exact hrn l h
  · intro t ht r hr
    have hw : WantsReg regnames r ∧ (regnames ≠ none ∨ r ∈ fd.keys) := by
      unfold regsOf at hr
      unfold WantsReg
      cases regnames with
      | some l => exact ⟨hr, .inl (by simp)⟩
      | none =>
        obtain ⟨h1, h2⟩ := List.mem_filter.1 hr
        exact ⟨reserved_iff.1 (by simpa using h2), .inr h1⟩
    obtain ⟨R, h1, h2, h3⟩ := hregs r hw.1 hw.2
    refine ⟨R, h1, h2 t ht, fun b hb hp => ?_⟩
    intro hn
    have hn := (Dict.get?_eq_none_iff _ _).1 hn
    cases h : bfnames with
    | none => rw [h] at hb; exact hn hb
    | some l => rw [h] at hb; exact hn (h3 l h b hb hp)

/-- **C91.** 'pepc tpmi read' does not fail without a reason: what was selected exists, the words of the registers are
shown, the registers and the bit fields which were asked for exist. -/
theorem C91_read_works (M : Machine) (hM : M.WF) (E : Env) (hE : E.Valid) (hE' : EnvOk E) (m : Mem) (hm : m.Words)
    (ops : List Op) (fnames regnames bfnames : Option (List PyStr)) (S : Sel) (hS : S.Nodup)
    (hb : bfnames ≠ none → regnames ≠ none) (hrn : ∀ l, regnames = some l → l.Nodup)
    (hne : fnames.getD E.fmaps.keys ≠ [])
    (hfeat : ∀ f ∈ fnames.getD E.fmaps.keys, ∃ fm fd, E.fmaps.get? f = some fm ∧ E.fdict f = some fd ∧ fd.keys.Nodup ∧
      S.Valid M E f fm ∧
      ∀ r, WantsReg regnames r → (regnames ≠ none ∨ r ∈ fd.keys) → ∃ R, fd.get? r = some R ∧
        (∀ t, S.Target M E f fm t → RegShown (M.lay (t.1, E.fid f)) t.2.2 R) ∧
        ∀ l, bfnames = some l → ∀ b ∈ l, Public b → b ∈ R.fields.keys) :
    ∃ info, (readCmd M.kernel E fnames regnames bfnames S (run M.kernel E m ops)).2 = .ok info := by
  have hx := readCmd_ok hM hE' (fnames := fnames) (regnames := regnames) (bfnames := bfnames) hS (run_inv hM hE hm ops)
  obtain ⟨-, hx⟩ := hx
  generalize (readCmd M.kernel E fnames regnames bfnames S (run M.kernel E m ops)).2 = x at hx
  cases x with
  | ok info => exact ⟨info, rfl⟩
  | error e =>
    rcases hx with ⟨h1, h2⟩ | h1 | ⟨f, hf, hn⟩
    · exact absurd h1 (hb h2)
    · exact absurd h1 hne
    · obtain ⟨fm, fd, j1, j2, j3, j4, j5⟩ := hfeat f hf
      exact absurd (canReadFeat_of j1 j2 (j4.iterOk (hE' f fm j1)) j3 hrn j5) hn

/-- **C91.** `--bfname` without `--register` is refused. -/
theorem C91_bfname (M : Machine) (E : Env) (fnames : Option (List PyStr)) (l : List PyStr) (S : Sel) (s : St Mem) :
    readCmd M.kernel E fnames none (some l) S s = (s, .error .error) := by
  unfold readCmd
  exact if_pos rfl

/-- **C91.** In every execution: after a successful 'pepc tpmi write', a new 'pepc tpmi read' with the same options succeeds
and prints the value which was written for every selected instance, and prints no other instance. -/
theorem C91_round_trip (M : Machine) (hM : M.WF) (E : Env) (hE : E.Valid) (hE' : EnvOk E) (m : Mem) (hm : m.Words)
    (ops : List Op) (f : PyStr) (fm : Dict PyStr Nat) (hf : E.fmaps.get? f = some fm) (S : Sel) (hS : S.Nodup)
    (hsame : S.Same M E f fm) (r : PyStr) (hr : ∃ R, getReg E f r = .ok R) (hfd : ∀ fd, E.fdict f = some fd → fd.keys.Nodup)
    (v : Int) (s' : St Mem) (out : List Triple)
    (h : writeCmd M.kernel E v f r none S (run M.kernel E m ops) = (s', out, none))
    (ops' : List Op) (hops : (run M.kernel E s'.w ops').w = s'.w) :
    ∃ info, (readCmd M.kernel E (some [f]) (some [r]) none S (run M.kernel E s'.w ops')).2 = .ok info ∧
      ∀ a i p x, shownAt info f a i r = some (p, x) ↔ S.Target M E f fm (a, p, i) ∧ (x : Int) = v := by
  obtain ⟨R, hR⟩ := hr
  obtain ⟨fd, hfdE, hRd⟩ : ∃ fd, E.fdict f = some fd ∧ fd.get? r = some R := by
    unfold getReg at hR
    cases hd : E.fdict f with
    | none => rw [hd] at hR; cases hR
    | some fd =>
      rw [hd] at hR
      dsimp only at hR
      cases hr : fd.get? r with
      | none => rw [hr] at hR; cases hR
      | some R' => rw [hr] at hR; cases hR; exact ⟨fd, rfl, hr⟩
  obtain ⟨-, g2, g3, -⟩ := C91_write M hM E hE hE' m hm ops f fm hf S hS hsame r R hR v s' out h
  have hx := writeCmd_ok hM hE (hE' f fm hf) hS (b := none) (v := v) hR (F := none) trivial (fun G old h => (by cases h))
    (run_inv hM hE hm ops)
  have hshown := writeCmd_shown hM hE (hE' f fm hf) hS hR (v := v) (run_inv hM hE hm ops)
  rw [h] at hx hshown
  obtain ⟨hinv, ⟨-, -, -, g4, -⟩ | ⟨e, g1, -⟩ | ⟨e, t, m1, s1, g1, -⟩⟩ := hx
  · have hinv' := run_inv hM hE hinv.words ops'
    have hrd := readCmd_ok hM hE' (fnames := some [f]) (regnames := some [r]) (bfnames := none) hS hinv'
    have hcan : CanReadFeat M E f (some [r]) none S := by
      refine canReadFeat_of hf hfdE (g4 hsame).2 (hfd fd hfdE) (fun l hl => ?_) ?_
      · cases hl; rw [List.nodup_cons]; exact ⟨by simp, List.nodup_nil⟩
      · intro q hq _
        have : q = r := List.mem_singleton.1 hq
        subst this
        exact ⟨R, hRd, fun t ht => hshown t ((g2 t).2 ht), fun l hl => (by cases hl)⟩
    obtain ⟨-, hrd⟩ := hrd
    cases hres : (readCmd M.kernel E (some [f]) (some [r]) none S (run M.kernel E s'.w ops')).2 with
    | error e =>
      rw [hres] at hrd
      rcases hrd with ⟨h1, -⟩ | h1 | ⟨g, hg, hn⟩
      · cases h1
      · cases h1
      · rw [List.mem_singleton.1 hg] at hn
        exact absurd hcan hn
    | ok info =>
      refine ⟨info, rfl, fun a i p x => ?_⟩
      have hrun := C91_read M hM E hE hE' s'.w hinv.words ops' (some [f]) (some [r]) none S hS _ info
        (show _ = (_, _) from Prod.ext rfl hres) f fm hf hsame a i r p x
      rw [hrun, hops]
      constructor
      · rintro ⟨-, hT, -, R', hR', rfl⟩
        rw [hR] at hR'
        cases hR'
        exact ⟨hT, g3 _ hT⟩
      · rintro ⟨hT, hv⟩
        refine ⟨fun l hl => by cases hl; exact List.mem_cons_self, hT, List.mem_cons_self, R, hR, ?_⟩
        have := g3 _ hT
        dsimp only at this
        omega
  · cases g1
  · cases g1

/-- **C91 (partial).** The same for bit fields: a later read command which prints the field prints the value which was
written. Missing: as in `C91_write_field_partial`. -/
theorem C91_round_trip_field_partial (M : Machine) (hM : M.WF) (E : Env) (hE : E.Valid) (hE' : EnvOk E) (m : Mem)
    (hm : m.Words) (ops : List Op) (f : PyStr) (fm : Dict PyStr Nat) (hf : E.fmaps.get? f = some fm) (S : Sel)
    (hS : S.Nodup) (hsame : S.Same M E f fm) (r b : PyStr) (R : Reg) (hR : getReg E f r = .ok R) (F : Field)
    (hb : R.fields.get? b = some F) (hp : Public b) (hi lo : Nat) (hF : mkField hi lo = .ok F) (hhi : hi < R.width) (v : Int)
    (hv : v < 2 ^ (hi - lo + 1)) (s' : St Mem) (out : List Triple)
    (h : writeCmd M.kernel E v f r (some b) S (run M.kernel E m ops) = (s', out, none))
    (ops' : List Op) (hops : (run M.kernel E s'.w ops').w = s'.w) (s2 : St Mem) (info : Dict PyStr FeatInfo)
    (hread : readCmd M.kernel E (some [f]) (some [r]) (some [b]) S (run M.kernel E s'.w ops') = (s2, .ok info)) :
    ∀ a i, (∃ p, S.Target M E f fm (a, p, i)) → ∃ x : Nat, fieldAt info f a i r b = some x ∧ (x : Int) = v := by
  rintro a i ⟨p, hT⟩
  obtain ⟨-, -, g3, -⟩ := C91_write_field_partial M hM E hE hE' m hm ops f fm hf S hS hsame r b R hR F hb hi lo hF hhi v hv s' out h
  have hw : s'.w.Words := by
    have hlt : 0 ≤ v → v.toNat < 2 ^ (hi - lo + 1) := by
      intro h0
      have : (2 ^ (hi - lo + 1) : Int) = ((2 ^ (hi - lo + 1) : Nat) : Int) := by norm_cast
      omega
    have hx := writeCmd_ok hM hE (hE' f fm hf) hS (b := some b) (v := v) hR (F := some F)
      (show getField R b = .ok F by unfold getField; rw [hb])
      (fun G old h h0 hold => by cases h; exact setBitfield_lt hF hhi hold (hlt h0)) (run_inv hM hE hm ops)
    rw [h] at hx
    exact hx.1.words
  have hx := (C91_read_field M hM E hE hE' s'.w hw ops' (some [f]) (some [r]) (some [b]) S hS s2 info hread f fm hf hsame a i r b
    R hR (slice (regVal s'.w (a, E.fid f) i R) hi lo)).2 F hi lo hb hF
  refine ⟨_, hx.2 ⟨fun l hl => by cases hl; exact List.mem_cons_self, ⟨p, hT⟩, List.mem_cons_self,
    ⟨hp, fun l hl => by cases hl; exact List.mem_cons_self⟩, by rw [hops]⟩, (g3 _ hT).1⟩

/-- **C91.** The hypotheses about the features hold after the discovery of `C90_info`. -/
theorem C91_env {W : Type} (K : Kernel W) (w : W) (dirs : List (List SpecFile)) (root : Root) (D : Found)
    (h : discover K w dirs root = .ok D) : (D.env dirs).Valid ∧ EnvOk (D.env dirs) := by
  obtain ⟨h1, h2, h3, -⟩ := C90_env K w dirs root D h
  obtain ⟨h4, h5⟩ := C90_packages K w dirs root D h
  refine ⟨h1, fun f fm hf => ⟨hf, (h3 f fm hf).1, h4, fun a p hp => ?_⟩⟩
  exact (h5 p).2 ⟨f, a, ((h3 f fm hf).2 a p).1 hp⟩

/-! ### A concrete machine -/

/-- Two devices, in packages 0 and 1, with a 32-bit register with two bit fields, one of them reserved, and a reserved
register. -/
def exEnv3 : Env where
  fmaps := [("uncore".toList, [("a".toList, 0), ("b".toList, 1)])]
  fid := fun _ => 2
  fdict := fun f => if f = "uncore".toList then
    some [("CTL".toList, exReg [("LOW".toList, 7, 4), ("RESERVED_0".toList, 31, 8)] 0 32),
      ("RESERVED_1".toList, exReg [] 0 32)] else none
  packages := [0, 1]

/-- The instances of the two devices; the only word can be written. -/
def exMachine3 (a b : List Nat) : Machine where
  lay := (exMachine2 a b).lay
  accepts := fun _ k i o _ => ((exMachine2 a b).lay k).any fun x => x.num == i && x.offsets.contains o

theorem exMachine3_wf (a b : List Nat) (ha : a.Nodup) (hb : b.Nodup) : (exMachine3 a b).WF where
  good := (exMachine2_wf a b ha hb).good
  shown := by
    intro m k i o v h
    simp only [exMachine3, List.any_eq_true, Bool.and_eq_true, beq_iff_eq, List.contains_iff_mem] at h
    obtain ⟨x, hx, h1, h2⟩ := h
    exact ⟨x, hx, h1, h2⟩

theorem exEnv3_ok : exEnv3.Valid ∧ EnvOk exEnv3 := by
  refine ⟨?_, ?_⟩
  · intro f r R h
    unfold getReg exEnv3 at h
    dsimp only at h
    by_cases hf : f = "uncore".toList
    · rw [if_pos hf] at h
      dsimp only at h
      split at h
      · cases h
      · next R' hg =>
        cases h
        have := Dict.mem_of_get? hg
        simp only [List.mem_cons, Prod.mk.injEq, List.not_mem_nil, or_false] at this
        rcases this with ⟨-, rfl⟩ | ⟨-, rfl⟩
        · exact .inl rfl
        · exact .inl rfl
    · rw [if_neg hf] at h; cases h
  · intro f fm h
    have hm := Dict.mem_of_get? h
    have : fm = [("a".toList, 0), ("b".toList, 1)] := by
      have := List.mem_singleton.1 hm
      exact (Prod.mk.inj this).2
    subst this
    refine ⟨h, by decide, by decide, fun a p hp => ?_⟩
    have hm := Dict.mem_of_get? hp
    simp only [List.mem_cons, Prod.mk.injEq, List.not_mem_nil, or_false] at hm
    rcases hm with ⟨-, rfl⟩ | ⟨-, rfl⟩ <;> decide

/-- All instances of both devices. -/
def allSel : Sel := ⟨none, none, none⟩

example : allSel.Nodup := ⟨fun _ h => (by cases h), fun _ h => (by cases h), fun _ h => (by cases h)⟩

/-- Both devices have instances 0 and 1: a write to the field of all, and the output of the read command. -/
example :
    let K := (exMachine3 [0, 1] [1, 0]).kernel
    let w := writeCmd K exEnv3 5 "uncore".toList "CTL".toList (some "LOW".toList) allSel ⟨fun _ _ _ => 0x102, []⟩
    w.2 = ([("a".toList, 0, 0), ("a".toList, 0, 1), ("b".toList, 1, 0), ("b".toList, 1, 1)], none) ∧
    (readCmd K exEnv3 none none none ⟨none, some [1], some [1]⟩ ⟨w.1.w, []⟩).2 =
      .ok [("uncore".toList, [("b".toList, ⟨1, [(1, [("CTL".toList, ⟨0x152, some [("LOW".toList, 5)]⟩)])]⟩)])] := by
  exact ⟨by decide +kernel, by decide +kernel⟩

/-- One device and one instance only. -/
example :
    let K := (exMachine3 [0, 1] [1, 0]).kernel
    let w := writeCmd K exEnv3 7 "uncore".toList "CTL".toList none ⟨some ["b".toList], none, some [0]⟩ ⟨fun _ _ _ => 1, []⟩
    w.2 = ([("b".toList, 1, 0)], none) ∧
    (readCmd K exEnv3 none none none allSel ⟨w.1.w, []⟩).2 =
      .ok [("uncore".toList,
        [("a".toList, ⟨0, [(0, [("CTL".toList, ⟨1, some [("LOW".toList, 0)]⟩)]), (1, [("CTL".toList, ⟨1, some [("LOW".toList, 0)]⟩)])]⟩),
         ("b".toList, ⟨1, [(0, [("CTL".toList, ⟨7, some [("LOW".toList, 0)]⟩)]), (1, [("CTL".toList, ⟨1, some [("LOW".toList, 0)]⟩)])]⟩)])] := by
  exact ⟨by decide +kernel, by decide +kernel⟩

/-- C91 is false if the devices have different instances and none are given: the write command succeeds, but instance 1 of the
second device is not written; or it fails after the first device was written. -/
theorem C91_instances_counterexample :
    (exMachine3 [0] [0, 1]).WF ∧ (exMachine3 [0, 1] [0]).WF ∧ exEnv3.Valid ∧ EnvOk exEnv3 ∧
    allSel.Target (exMachine3 [0] [0, 1]) exEnv3 "uncore".toList [("a".toList, 0), ("b".toList, 1)] ("b".toList, 1, 1) ∧
    (let w := writeCmd (exMachine3 [0] [0, 1]).kernel exEnv3 7 "uncore".toList "CTL".toList none allSel ⟨fun _ _ _ => 1, []⟩
     w.2 = ([("a".toList, 0, 0), ("b".toList, 1, 0)], none) ∧ w.1.w ("b".toList, 2) 1 0 = 1) ∧
    (writeCmd (exMachine3 [0, 1] [0]).kernel exEnv3 7 "uncore".toList "CTL".toList none allSel ⟨fun _ _ _ => 1, []⟩).2 =
      ([("a".toList, 0, 0), ("a".toList, 0, 1)], some .error) :=
  ⟨exMachine3_wf _ _ (by decide) (by decide), exMachine3_wf _ _ (by decide) (by decide), exEnv3_ok.1, exEnv3_ok.2,
    ⟨⟨by decide +kernel, fun _ h => (by cases h), fun _ h => (by cases h)⟩, by decide +kernel, fun _ h => (by cases h)⟩,
    ⟨by decide +kernel, by decide +kernel⟩, by decide +kernel⟩

/-- C91 is false for values wider than the bit field: the command succeeds, but the field has a different value, and other
bits of the register changed. -/
theorem C91_field_counterexample :
    let w := writeCmd (exMachine3 [0] [0]).kernel exEnv3 0x15 "uncore".toList "CTL".toList (some "LOW".toList)
      ⟨some ["a".toList], none, none⟩ ⟨fun _ _ _ => 0, []⟩
    w.2 = ([("a".toList, 0, 0)], none) ∧ w.1.w ("a".toList, 2) 0 0 = 0x150 := by
  exact ⟨by decide +kernel, by decide +kernel⟩

/-- The name of an unknown feature is an error of the read command, but the write command crashes. -/
theorem C91_unknown_counterexample :
    (readCmd (exMachine3 [0] [0]).kernel exEnv3 (some ["nope".toList]) none none allSel ⟨fun _ _ _ => 0, []⟩).2 =
      .error .notSupported ∧
    (writeCmd (exMachine3 [0] [0]).kernel exEnv3 1 "nope".toList "CTL".toList none allSel ⟨fun _ _ _ => 0, []⟩).2 =
      ([], some .pyKeyError) :=
  ⟨by decide +kernel, by decide +kernel⟩

end Verif.Tpmi
