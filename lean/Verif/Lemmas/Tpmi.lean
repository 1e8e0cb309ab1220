import Verif.Lemmas.TpmiDump

/-! The memory of TPMI devices, and helper lemmas about register accesses. -/

namespace Verif.Tpmi

/-! ### Specification: the memory -/

/-- The memory: device and feature, instance, offset to a 32-bit word. -/
abbrev Mem := Key → Nat → Nat → Nat

/-- The memory with one word replaced. -/
def Mem.put (m : Mem) (k : Key) (i o v : Nat) : Mem :=
  fun k' i' o' => if k' = k ∧ i' = i ∧ o' = o then v else m k' i' o'

/-- A machine: what the dumps look like, and which writes the kernel accepts. -/
structure Machine where
  lay : Key → Layout
  accepts : Mem → Key → (i o v : Nat) → Bool

/-- The kernel of the machine: it prints the memory in the dump format, and stores the word or refuses. -/
def Machine.kernel (M : Machine) : Kernel Mem where
  dump m k := render (M.lay k) (m k)
  write m k i o v := if M.accepts m k i o v then (m.put k i o v, .ok ()) else (m, .error .error)

/-- The dumps are as in `Good`, and only words which are shown can be written. -/
structure Machine.WF (M : Machine) : Prop where
  good : ∀ k, Good (M.lay k)
  shown : ∀ m k i o v, M.accepts m k i o v = true → Shown (M.lay k) i o

/-- Words are 32-bit. -/
def Mem.Words (m : Mem) : Prop := ∀ k i o, m k i o < 2 ^ 32

/-! ### Accesses to the map -/

/-- `d` is the map of a dump with layout `L`. -/
def MapOf (L : Layout) (d : Mdmap) : Prop :=
  d.keys = L.map Inst.num ∧ ∀ i o p, d.at i o = some p ↔ (i, o, p) ∈ entries 0 L

theorem buildMdmap_mapOf {M : Machine} (hM : M.WF) (m : Mem) (k : Key) :
    ∃ d, buildMdmap (M.kernel.dump m k) = .ok d ∧ MapOf (M.lay k) d := by
  obtain ⟨d, h1, h2, h3⟩ := buildMdmap_spec (m k) (hM.good k)
  exact ⟨d, h1, h2, h3⟩

theorem MapOf.shown {L : Layout} {d : Mdmap} (h : MapOf L d) {i o : Nat} :
    Shown L i o ↔ ∃ p, d.at i o = some p := by
  rw [← shown_iff (pos := 0)]
  exact exists_congr fun p => (h.2 i o p).symm

theorem MapOf.isSome {L : Layout} {d : Mdmap} (h : MapOf L d) {i : Nat} :
    (d.get? i).isSome = true ↔ i ∈ L.map Inst.num := by
  rw [← h.1]
  cases hd : d.get? i with
  | none => simp [(Dict.get?_eq_none_iff _ _).1 hd]
  | some x =>
    have : i ∈ d.keys := Decidable.byContradiction fun hn => by
      rw [(Dict.get?_eq_none_iff _ _).2 hn] at hd; cases hd
    simp [this]

theorem Shown.inst {L : Layout} {i o : Nat} (h : Shown L i o) : i ∈ L.map Inst.num := by
  obtain ⟨x, hx, rfl, -⟩ := h
  exact List.mem_map_of_mem hx

theorem validateOffset_ok {L : Layout} {d : Mdmap} (h : MapOf L d) {i o : Nat} :
    validateOffset d i o = .ok () ↔ o % 4 = 0 ∧ Shown L i o := by
  rw [h.shown]
  unfold validateOffset Mdmap.at
  cases hd : d.get? i with
  | none => simp
  | some x =>
    dsimp only
    by_cases ho : o % 4 ≠ 0 ∨ (x.get? o).isNone = true
    · rw [if_pos ho]
      constructor
      · intro h; split at h <;> cases h
      · rintro ⟨h1, p, h2⟩
        rcases ho with ho | ho
        · exact absurd h1 ho
        · rw [Option.bind_some] at h2
          rw [h2] at ho; cases ho
    · rw [if_neg ho]
      rw [not_or] at ho
      refine ⟨fun _ => ⟨Decidable.byContradiction ho.1, ?_⟩, fun _ => rfl⟩
      rw [Option.bind_some]
      cases hx : x.get? o with
      | none => rw [hx] at ho; exact absurd rfl ho.2
      | some p => exact ⟨p, rfl⟩

theorem read_ok {M : Machine} {m : Mem} (hm : m.Words) {k : Key} {d : Mdmap} (h : MapOf (M.lay k) d) {i o : Nat}
    (ho : o % 4 = 0) (hs : Shown (M.lay k) i o) : read M.kernel m k i o d = .ok (m k i o) := by
  unfold read
  rw [(validateOffset_ok h).2 ⟨ho, hs⟩]
  obtain ⟨p, hp⟩ := h.shown.1 hs
  have hp' : (d.get? i).bind (·.get? o) = some p := hp
  dsimp only
  rw [hp']
  dsimp only
  obtain ⟨q, hq, ht⟩ := entries_at (m k) (M.lay k) 0 ((h.2 i o p).1 hp)
  rw [Nat.zero_add] at hq
  subst hq
  have e : ((M.kernel.dump m k).drop p).take 8 = hexN 8 (m k i o) := ht
  rw [e, strToInt16_hex (hex_hexN 7 _), hexVal_hexN 8 _ (hm k i o)]
  rfl

theorem read_err {M : Machine} {m : Mem} {k : Key} {d : Mdmap} (h : MapOf (M.lay k) d) {i o : Nat}
    (hs : ¬(o % 4 = 0 ∧ Shown (M.lay k) i o)) : ∃ e, read M.kernel m k i o d = .error e := by
  unfold read
  cases hv : validateOffset d i o with
  | error e => exact ⟨e, rfl⟩
  | ok u => exact absurd ((validateOffset_ok h).1 hv) hs

/-! ### Registers -/

/-- The value of the register in memory. -/
def regVal (m : Mem) (k : Key) (i : Nat) (R : Reg) : Nat :=
  if R.width > 32 then m k i R.offset + 2 ^ 32 * m k i (R.offset + 4) else m k i R.offset

/-- The words of the register are in the dump. -/
def RegShown (L : Layout) (i : Nat) (R : Reg) : Prop :=
  R.offset % 4 = 0 ∧ Shown L i R.offset ∧ (R.width > 32 → Shown L i (R.offset + 4))

theorem readReg_ok {M : Machine} (hM : M.WF) {E : Env} {m : Mem} (hm : m.Words) {f a : PyStr} {i : Nat}
    {r : PyStr} {R : Reg} (hR : getReg E f r = .ok R) (hs : RegShown (M.lay (a, E.fid f)) i R) :
    readReg M.kernel E m f a i r none = .ok (regVal m (a, E.fid f) i R) := by
  unfold readReg regVal
  rw [hR]
  obtain ⟨d, hd, hmap⟩ := buildMdmap_mapOf hM m (a, E.fid f)
  dsimp only
  rw [hd]
  dsimp only
  rw [read_ok hm hmap hs.1 hs.2.1]
  dsimp only
  by_cases hw : R.width > 32
  · rw [if_pos hw, if_pos hw, read_ok hm hmap (by have := hs.1; omega) (hs.2.2 hw)]
    dsimp only
    rw [Nat.shiftLeft_eq, Nat.mul_comm (m _ _ _)]
  · rw [if_neg hw, if_neg hw]

theorem readReg_err {M : Machine} (hM : M.WF) {E : Env} {m : Mem} {f a : PyStr} {i : Nat}
    {r : PyStr} {R : Reg} (hR : getReg E f r = .ok R) (hm : m.Words)
    (hs : ¬RegShown (M.lay (a, E.fid f)) i R) (b : Option PyStr) :
    ∃ e, readReg M.kernel E m f a i r b = .error e := by
  unfold readReg
  rw [hR]
  obtain ⟨d, hd, hmap⟩ := buildMdmap_mapOf hM m (a, E.fid f)
  dsimp only
  rw [hd]
  dsimp only
  by_cases h0 : R.offset % 4 = 0 ∧ Shown (M.lay (a, E.fid f)) i R.offset
  · rw [read_ok hm hmap h0.1 h0.2]
    dsimp only
    by_cases hw : R.width > 32
    · obtain ⟨e, he⟩ := read_err (m := m) hmap (i := i) (o := R.offset + 4)
        (fun h => hs ⟨h0.1, h0.2, fun _ => h.2⟩)
      rw [if_pos hw, he]
      exact ⟨e, rfl⟩
    · exact absurd ⟨h0.1, h0.2, fun h => absurd h hw⟩ hs
  · obtain ⟨e, he⟩ := read_err (m := m) hmap h0
    rw [he]
    exact ⟨e, rfl⟩

/-- Reading a field is reading the register and extracting the field. -/
theorem readReg_field {W : Type} (K : Kernel W) (E : Env) (w : W) (f a : PyStr) (i : Nat) (r b : PyStr) {R : Reg}
    {F : Field} (hR : getReg E f r = .ok R) (hF : getField R b = .ok F) :
    readReg K E w f a i r (some b) = (readReg K E w f a i r none).map (getBitfield F) := by
  unfold readReg
  rw [hR]
  dsimp only
  cases buildMdmap (K.dump w (a, E.fid f)) with
  | error e => rfl
  | ok d =>
    dsimp only
    cases read K w (a, E.fid f) i R.offset d with
    | error e => rfl
    | ok lo =>
      dsimp only
      split
      · rfl
      · rw [hF]; rfl

/-! ### The invariant -/

/-- The words are 32-bit, cached maps are those of the dumps. -/
structure Inv (M : Machine) (E : Env) (s : St Mem) : Prop where
  words : s.w.Words
  maps : ∀ f a d, s.mdmaps.get? (f, a) = some d → MapOf (M.lay (a, E.fid f)) d

theorem getMdmap_spec {M : Machine} (hM : M.WF) {E : Env} (f a : PyStr) {s : St Mem} (hi : Inv M E s) :
    ∃ d c, getMdmap M.kernel E f a s = ({ s with mdmaps := c }, .ok d) ∧ MapOf (M.lay (a, E.fid f)) d ∧
      Inv M E { s with mdmaps := c } := by
  unfold getMdmap
  have hbuild : ∃ d c, (match buildMdmap (M.kernel.dump s.w (a, E.fid f)) with
      | .error e => (s, .error e)
      | .ok m => (({ s with mdmaps := s.mdmaps.set (f, a) m } : St Mem), (.ok m : Except Exn Mdmap))) =
      (({ s with mdmaps := c } : St Mem), .ok d) ∧ MapOf (M.lay (a, E.fid f)) d ∧
      Inv M E { s with mdmaps := c } := by
    obtain ⟨d, hd, hmap⟩ := buildMdmap_mapOf hM s.w (a, E.fid f)
    rw [hd]
    refine ⟨d, _, rfl, hmap, hi.words, ?_⟩
    intro f' a' d' h
    dsimp only at h
    rw [Dict.get?_set] at h
    split at h
    · next e => cases e; cases h; exact hmap
    · exact hi.maps f' a' d' h
  split
  · next p m h => exact ⟨p :: m, s.mdmaps, rfl, hi.maps f a _ h, hi⟩
  · exact hbuild

theorem validateInstance_spec {M : Machine} (hM : M.WF) {E : Env} (f a : PyStr) (i : Nat) {s : St Mem}
    (hi : Inv M E s) :
    ∃ c, validateInstance M.kernel E f a i s = ({ s with mdmaps := c },
        if i ∈ (M.lay (a, E.fid f)).map Inst.num then .ok () else .error .error) ∧
      Inv M E { s with mdmaps := c } := by
  unfold validateInstance
  obtain ⟨d, c, h1, h2, h3⟩ := getMdmap_spec hM f a hi
  rw [h1]
  refine ⟨c, ?_, h3⟩
  dsimp only
  by_cases hin : i ∈ (M.lay (a, E.fid f)).map Inst.num
  · rw [if_pos (h2.isSome.2 hin), if_pos hin]
  · rw [if_neg (fun h => hin (h2.isSome.1 h)), if_neg hin]

/-- The words of a register. -/
def Reg.words (R : Reg) : List Nat := if R.width > 32 then [R.offset, R.offset + 4] else [R.offset]

/-- `m'` differs from `m` only in the words of the register. -/
def OnlyReg (m m' : Mem) (k : Key) (i : Nat) (R : Reg) : Prop :=
  ∀ k' i' o', ¬(k' = k ∧ i' = i ∧ o' ∈ R.words) → m' k' i' o' = m k' i' o'

/-- A register width the spec files may have. -/
def Reg.Valid (R : Reg) : Prop := R.width = 32 ∨ R.width = 64

theorem put_words {m : Mem} (hm : m.Words) {k : Key} {i o v : Nat} (hv : v < 2 ^ 32) : (m.put k i o v).Words := by
  intro k' i' o'
  unfold Mem.put
  split
  · exact hv
  · exact hm _ _ _

theorem writeWords_frame {M : Machine} {k : Key} {i : Nat} (n : Nat) : ∀ (o v : Nat) (m : Mem), m.Words →
    (writeWords M.kernel k i n o v m).1.Words ∧
    ∀ k' i' o', ¬(k' = k ∧ i' = i ∧ ∃ j, j < n ∧ o' = o + 4 * j) →
      (writeWords M.kernel k i n o v m).1 k' i' o' = m k' i' o' := by
  induction n with
  | zero => intro o v m hm; exact ⟨hm, fun _ _ _ _ => rfl⟩
  | succ n ih =>
    intro o v m hm
    rw [writeWords]
    unfold Machine.kernel
    dsimp only
    have hlt : v &&& 0xffffffff < 2 ^ 32 := Nat.lt_of_le_of_lt Nat.and_le_right (by decide)
    by_cases ha : M.accepts m k i o (v &&& 0xffffffff) = true
    · rw [if_pos ha]
      dsimp only
      obtain ⟨h1, h2⟩ := ih (o + 4) (v >>> 32) (m.put k i o (v &&& 0xffffffff)) (put_words hm hlt)
      refine ⟨h1, fun k' i' o' hn => ?_⟩
      have := h2 k' i' o' (by
        rintro ⟨e1, e2, j, hj, e3⟩
        exact hn ⟨e1, e2, j + 1, by omega, by omega⟩)
      unfold Machine.kernel at this
      rw [this]
      unfold Mem.put
      rw [if_neg]
      rintro ⟨e1, e2, e3⟩
      exact hn ⟨e1, e2, 0, by omega, by omega⟩
    · rw [if_neg ha]
      exact ⟨hm, fun _ _ _ _ => rfl⟩

theorem and_mask32 (v : Nat) : v &&& 0xffffffff = v % 2 ^ 32 := Nat.and_two_pow_sub_one_eq_mod v 32

theorem writeWords_ok {M : Machine} (hM : M.WF) {k : Key} {i : Nat} {R : Reg} (hR : R.Valid) {v : Nat}
    (hv : v < 2 ^ R.width) {m m' : Mem}
    (h : writeWords M.kernel k i ((R.width + 31) / 32) R.offset v m = (m', .ok ())) :
    regVal m' k i R = v ∧ Shown (M.lay k) i R.offset ∧ (R.width > 32 → Shown (M.lay k) i (R.offset + 4)) := by
  unfold regVal
  have one : ∀ o v m m', M.kernel.write m k i o v = (m', .ok ()) →
      m' = m.put k i o v ∧ Shown (M.lay k) i o := by
    intro o v m m' h
    unfold Machine.kernel at h
    dsimp only at h
    split at h
    · next ha => cases h; exact ⟨rfl, hM.shown _ _ _ _ _ ha⟩
    · cases h
  rcases hR with hw | hw
  · rw [hw] at h hv ⊢
    rw [show (32 + 31) / 32 = 1 from rfl] at h
    rw [writeWords] at h
    cases hx : M.kernel.write m k i R.offset (v &&& 0xffffffff) with
    | mk m1 r =>
      rw [hx] at h
      cases r with
      | error e => cases h
      | ok u =>
        cases h
        obtain ⟨rfl, hs⟩ := one _ _ _ _ hx
        refine ⟨?_, hs, fun h => absurd h (by decide)⟩
        rw [if_neg (by decide)]
        unfold Mem.put
        rw [if_pos ⟨rfl, rfl, rfl⟩, and_mask32, Nat.mod_eq_of_lt hv]
  · rw [hw] at h hv ⊢
    rw [show (64 + 31) / 32 = 2 from rfl] at h
    rw [writeWords] at h
    cases hx : M.kernel.write m k i R.offset (v &&& 0xffffffff) with
    | mk m1 r =>
      rw [hx] at h
      cases r with
      | error e => cases h
      | ok u =>
        dsimp only at h
        rw [writeWords] at h
        cases hy : M.kernel.write m1 k i (R.offset + 4) ((v >>> 32) &&& 0xffffffff) with
        | mk m2 r2 =>
          rw [hy] at h
          cases r2 with
          | error e => cases h
          | ok u =>
            cases h
            obtain ⟨rfl, hs⟩ := one _ _ _ _ hx
            obtain ⟨rfl, hs2⟩ := one _ _ _ _ hy
            refine ⟨?_, hs, fun _ => hs2⟩
            rw [if_pos (by decide)]
            unfold Mem.put
            rw [if_neg (by omega), if_pos ⟨rfl, rfl, rfl⟩, if_pos ⟨rfl, rfl, rfl⟩, and_mask32, and_mask32,
              Nat.shiftRight_eq_div_pow]
            have : v / 2 ^ 32 < 2 ^ 32 := Nat.div_lt_of_lt_mul (by rw [← Nat.pow_add]; exact hv)
            rw [Nat.mod_eq_of_lt this]
            exact Nat.mod_add_div v (2 ^ 32)

/-- The kernel accepts every write to the words it shows. -/
def Machine.Open (M : Machine) : Prop := ∀ m k i o v, Shown (M.lay k) i o → M.accepts m k i o v = true

theorem writeWords_open {M : Machine} (ho : M.Open) {k : Key} {i : Nat} {R : Reg} (hR : R.Valid)
    (hs : RegShown (M.lay k) i R) (v : Nat) (m : Mem) :
    (writeWords M.kernel k i ((R.width + 31) / 32) R.offset v m).2 = .ok () := by
  have one : ∀ o v m, Shown (M.lay k) i o → M.kernel.write m k i o v = (m.put k i o v, .ok ()) := by
    intro o v m h
    unfold Machine.kernel
    dsimp only
    rw [if_pos (ho m k i o v h)]
  rcases hR with hw | hw
  · rw [hw, show (32 + 31) / 32 = 1 from rfl, writeWords, one _ _ _ hs.2.1]
    rfl
  · rw [hw, show (64 + 31) / 32 = 2 from rfl, writeWords, one _ _ _ hs.2.1]
    dsimp only
    rw [writeWords, one _ _ _ (hs.2.2 (by omega))]
    rfl

/-- The value `writeReg` writes to the register. -/
def newVal (F : Option Field) (old : Nat) (v : Nat) : Nat :=
  match F with
  | none => v
  | some F => setBitfield F old v

theorem writeReg_frame {M : Machine} (hM : M.WF) {E : Env} {v : Int} {f a : PyStr} {i : Nat} {r : PyStr}
    {b : Option PyStr} {s : St Mem} (hi : Inv M E s) {R : Reg} (hR : getReg E f r = .ok R) (hv : R.Valid) :
    Inv M E (writeReg M.kernel E v f a i r b s).1 ∧
    OnlyReg s.w (writeReg M.kernel E v f a i r b s).1.w (a, E.fid f) i R := by
  unfold writeReg
  rw [hR]
  dsimp only
  have triv : Inv M E s ∧ OnlyReg s.w s.w (a, E.fid f) i R := ⟨hi, fun _ _ _ _ => rfl⟩
  split
  · exact triv
  split
  · exact triv
  obtain ⟨d, c, h1, h2, h3⟩ := getMdmap_spec hM f a hi
  rw [h1]
  dsimp only
  have triv2 : Inv M E { s with mdmaps := c } ∧ OnlyReg s.w s.w (a, E.fid f) i R := ⟨h3, fun _ _ _ _ => rfl⟩
  split
  · exact triv2
  split
  · exact triv2
  · next value _ =>
    obtain ⟨g1, g2⟩ := writeWords_frame (M := M) (k := (a, E.fid f)) (i := i) ((R.width + 31) / 32) R.offset value s.w
      hi.words
    refine ⟨⟨g1, h3.maps⟩, ?_⟩
    intro k' i' o' hn
    apply g2
    rintro ⟨e1, e2, j, hj, e3⟩
    apply hn
    refine ⟨e1, e2, ?_⟩
    unfold Reg.words
    rcases hv with hw | hw
    · rw [if_neg (by omega)]
      have : j = 0 := by omega
      subst this
      simp [e3]
    · rw [if_pos (by omega)]
      have : j = 0 ∨ j = 1 := by omega
      rcases this with rfl | rfl <;> simp [e3]

theorem writeReg_ok {M : Machine} (hM : M.WF) {E : Env} {v : Int} {f a : PyStr} {i : Nat} {r : PyStr}
    {b : Option PyStr} {s s' : St Mem} (hi : Inv M E s) {R : Reg} (hR : getReg E f r = .ok R) (hv : R.Valid)
    {F : Option Field} (hF : match b, F with | none, none => True | some b, some F => getField R b = .ok F | _, _ => False)
    (hwid : ∀ G, F = some G → 0 ≤ v → setBitfield G (regVal s.w (a, E.fid f) i R) v.toNat < 2 ^ R.width)
    (h : writeReg M.kernel E v f a i r b s = (s', .ok ())) :
    0 ≤ v ∧ v < 2 ^ R.width ∧ RegShown (M.lay (a, E.fid f)) i R ∧
    regVal s'.w (a, E.fid f) i R = newVal F (regVal s.w (a, E.fid f) i R) v.toNat := by
  unfold writeReg at h
  rw [hR] at h
  dsimp only at h
  split at h
  · cases h
  next hv0 =>
  split at h
  · cases h
  next hv1 =>
  obtain ⟨d, c, h1, h2, h3⟩ := getMdmap_spec hM f a hi
  rw [h1] at h
  dsimp only at h
  have hlt : v < 2 ^ R.width := by
    rw [Nat.shiftLeft_eq, Nat.one_mul] at hv1
    have : (2 ^ R.width : Int) = ((2 ^ R.width : Nat) : Int) := by norm_cast
    have := Nat.two_pow_pos R.width
    omega
  split at h
  · cases h
  next hval =>
  have hoff := (validateOffset_ok h2).1 hval
  have key : ∀ x : Nat, x < 2 ^ R.width →
      (({ s with mdmaps := c, w := (writeWords M.kernel (a, E.fid f) i ((R.width + 31) / 32) R.offset x s.w).1 } : St Mem),
      (writeWords M.kernel (a, E.fid f) i ((R.width + 31) / 32) R.offset x s.w).2) = (s', .ok ()) →
      RegShown (M.lay (a, E.fid f)) i R ∧ regVal s'.w (a, E.fid f) i R = x := by
    intro x hx hw
    cases hr : writeWords M.kernel (a, E.fid f) i ((R.width + 31) / 32) R.offset x s.w with
    | mk m1 r =>
      rw [hr] at hw
      cases hw
      obtain ⟨k1, k2, k3⟩ := writeWords_ok hM hv hx hr
      exact ⟨⟨hoff.1, k2, k3⟩, k1⟩
  cases b with
  | none =>
    cases F with
    | some F => exact absurd hF id
    | none =>
      dsimp only at h
      have hx : v.toNat < 2 ^ R.width := by
        have : (2 ^ R.width : Int) = ((2 ^ R.width : Nat) : Int) := by norm_cast
        omega
      obtain ⟨k1, k2⟩ := key _ hx h
      exact ⟨by omega, hlt, k1, k2⟩
  | some b =>
    cases F with
    | none => exact absurd hF id
    | some F =>
      dsimp only at h hF
      by_cases hs : RegShown (M.lay (a, E.fid f)) i R
      · rw [readReg_ok hM hi.words hR hs] at h
        dsimp only at h
        rw [hF] at h
        dsimp only at h
        obtain ⟨k1, k2⟩ := key _ (hwid F rfl (by omega)) h
        exact ⟨by omega, hlt, k1, k2⟩
      · obtain ⟨e, he⟩ := readReg_err hM (m := s.w) hR hi.words hs none
        rw [he] at h
        cases h

theorem writeReg_open {M : Machine} (hM : M.WF) (ho : M.Open) {E : Env} {v : Int} {f a : PyStr} {i : Nat} {r : PyStr}
    {b : Option PyStr} {s : St Mem} (hi : Inv M E s) {R : Reg} (hR : getReg E f r = .ok R) (hv : R.Valid)
    (hb : ∀ x, b = some x → ∃ F, getField R x = .ok F)
    (h0 : 0 ≤ v) (h1 : v < 2 ^ R.width) (hs : RegShown (M.lay (a, E.fid f)) i R) :
    (writeReg M.kernel E v f a i r b s).2 = .ok () := by
  unfold writeReg
  rw [hR]
  dsimp only
  have hp : (2 ^ R.width : Int) = ((2 ^ R.width : Nat) : Int) := by norm_cast
  have := Nat.two_pow_pos R.width
  rw [if_neg (by omega), if_neg (by rw [Nat.shiftLeft_eq, Nat.one_mul]; omega)]
  obtain ⟨d, c, k1, k2, k3⟩ := getMdmap_spec hM f a hi
  rw [k1]
  dsimp only
  rw [(validateOffset_ok k2).2 ⟨hs.1, hs.2.1⟩]
  dsimp only
  cases b with
  | none =>
    dsimp only
    exact writeWords_open ho hv hs _ _
  | some b =>
    obtain ⟨F, hF⟩ := hb b rfl
    dsimp only
    rw [readReg_ok hM hi.words hR hs]
    dsimp only
    rw [hF]
    dsimp only
    exact writeWords_open ho hv hs _ _

/-! ### Bit fields -/

theorem testBit_mask {hi lo : Nat} {F : Field} (h : mkField hi lo = .ok F) (k : Nat) :
    F.mask.testBit k = decide (lo ≤ k ∧ k ≤ hi) := by
  unfold mkField at h
  split at h
  · cases h
  next hlt =>
  cases h
  dsimp only
  have e : (1 <<< (hi + 1) - 1) - (1 <<< lo - 1) = (2 ^ (hi + 1 - lo) - 1) <<< lo := by
    rw [Nat.shiftLeft_eq, Nat.shiftLeft_eq, Nat.shiftLeft_eq, Nat.one_mul, Nat.one_mul, Nat.sub_mul, ← Nat.pow_add,
      Nat.sub_add_cancel (by omega), Nat.one_mul]
    have := Nat.two_pow_pos lo
    omega
  rw [e, Nat.testBit_shiftLeft, Nat.testBit_two_pow_sub_one]
  simp only [ge_iff_le, Bool.decide_and]
  by_cases h1 : lo ≤ k
  · have : (k - lo < hi + 1 - lo) ↔ k ≤ hi := by omega
    simp [h1, this]
  · simp [h1]

theorem mkField_shift {hi lo : Nat} {F : Field} (h : mkField hi lo = .ok F) : F.shift = lo ∧ lo ≤ hi := by
  unfold mkField at h
  split at h
  · cases h
  next hlt => cases h; exact ⟨rfl, by omega⟩

theorem testBit_setBitfield {hi lo : Nat} {F : Field} (h : mkField hi lo = .ok F) (old v k : Nat) :
    (setBitfield F old v).testBit k =
      ((!decide (lo ≤ k ∧ k ≤ hi) && old.testBit k) || (decide (lo ≤ k) && v.testBit (k - lo))) := by
  unfold setBitfield
  rw [Nat.testBit_or, Nat.testBit_xor, Nat.testBit_and, Nat.testBit_shiftLeft, testBit_mask h, (mkField_shift h).1]
  cases old.testBit k <;> cases decide (lo ≤ k ∧ k ≤ hi) <;> simp

theorem testBit_getBitfield {hi lo : Nat} {F : Field} (h : mkField hi lo = .ok F) (x k : Nat) :
    (getBitfield F x).testBit k = (decide (lo + k ≤ hi) && x.testBit (lo + k)) := by
  unfold getBitfield
  rw [Nat.testBit_shiftRight, Nat.testBit_and, testBit_mask h, (mkField_shift h).1]
  have : (lo ≤ lo + k ∧ lo + k ≤ hi) ↔ lo + k ≤ hi := by omega
  simp only [this]
  rw [Bool.and_comm]

theorem setBitfield_lt {hi lo : Nat} {F : Field} (h : mkField hi lo = .ok F) {old v n : Nat} (hn : hi < n)
    (hold : old < 2 ^ n) (hv : v < 2 ^ (hi - lo + 1)) : setBitfield F old v < 2 ^ n := by
  apply Nat.lt_pow_two_of_testBit
  intro k hk
  rw [testBit_setBitfield h]
  have h1 : old.testBit k = false := Nat.testBit_lt_two_pow (Nat.lt_of_lt_of_le hold (Nat.pow_le_pow_right (by decide) hk))
  have h2 : v.testBit (k - lo) = false := Nat.testBit_lt_two_pow (Nat.lt_of_lt_of_le hv
    (Nat.pow_le_pow_right (by decide) (by have := (mkField_shift h).2; omega)))
  rw [h1, h2]
  simp

theorem getBitfield_set {hi lo : Nat} {F : Field} (h : mkField hi lo = .ok F) {old v : Nat}
    (hv : v < 2 ^ (hi - lo + 1)) : getBitfield F (setBitfield F old v) = v := by
  apply Nat.eq_of_testBit_eq
  intro k
  rw [testBit_getBitfield h, testBit_setBitfield h]
  have hle := (mkField_shift h).2
  by_cases hk : lo + k ≤ hi
  · have : lo ≤ lo + k ∧ lo + k ≤ hi := ⟨by omega, hk⟩
    simp [hk]
  · have h2 : v.testBit k = false := Nat.testBit_lt_two_pow (Nat.lt_of_lt_of_le hv
      (Nat.pow_le_pow_right (by decide) (by omega)))
    simp [hk, h2]

theorem testBit_setBitfield_of_lt {hi lo : Nat} {F : Field} (h : mkField hi lo = .ok F) {old v : Nat}
    (hv : v < 2 ^ (hi - lo + 1)) (k : Nat) : (setBitfield F old v).testBit k =
      if lo ≤ k ∧ k ≤ hi then v.testBit (k - lo) else old.testBit k := by
  rw [testBit_setBitfield h]
  by_cases hk : lo ≤ k ∧ k ≤ hi
  · simp [hk]
  · have h2 : lo ≤ k → v.testBit (k - lo) = false := fun hl => Nat.testBit_lt_two_pow (Nat.lt_of_lt_of_le hv
      (Nat.pow_le_pow_right (by decide) (by have := (mkField_shift h).2; omega)))
    rw [if_neg hk]
    by_cases hl : lo ≤ k
    · simp [hk, h2 hl]
    · simp [hl]

theorem regVal_lt {m : Mem} (hm : m.Words) (k : Key) (i : Nat) {R : Reg} (hR : R.Valid) :
    regVal m k i R < 2 ^ R.width := by
  unfold regVal
  have h1 := hm k i R.offset
  have h2 := hm k i (R.offset + 4)
  rcases hR with hw | hw <;> rw [hw]
  · rw [if_neg (by decide)]; exact h1
  · rw [if_pos (by decide)]; omega

end Verif.Tpmi
