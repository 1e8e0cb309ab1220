import Verif.Props.FeaturedMSR
import Verif.Model.PCStateConfigCtl

/-!
C38 and C39: the package C-state limit.
-/

namespace Verif.PCStateConfigCtl

open Verif.Bits (BitRange FieldVal InRange getBits setBits)
open Verif.RegFile (Reg EnvWF Uniform)
open Verif.FeaturedMSR (Feature Val rvals reverse reverse_some reverse_mem Means Table SameText Name)

/-! ### Specification -/

/-- No two names have the same code. -/
def Injective (codes : Dict PyStr Int) : Prop :=
  ∀ p ∈ codes, ∀ q ∈ codes, p.2 = q.2 → p.1 = q.1

/-- A known code which may stand for an unknown code `code`. -/
def Lower (codes : Dict PyStr Int) (code c : Int) (n : PyStr) : Prop :=
  (n, c) ∈ codes ∧ c ≤ code ∧ n ≠ "unlimited".toList

/-- `limit` is the right name for `code`. -/
def Decodes (codes : Dict PyStr Int) (code : Int) (limit : PyStr) : Prop :=
  (limit, code) ∈ codes ∨
  ((∀ n, (n, code) ∉ codes) ∧
    ((∃ c, Lower codes code c limit ∧ ∀ d m, Lower codes code d m → d ≤ c) ∨
     ((∀ d m, ¬ Lower codes code d m) ∧ limit = PyStr.ofInt code)))

/-- The MSR of CPU `c` is locked. -/
def Locked (R : Reg) (c : Nat) : Prop := (R c).testBit 15 = true

/-! ### C38 -/

theorem rvals_get {codes : Dict PyStr Int} (h : Injective codes) {n : PyStr} {c : Int} :
    (reverse codes []).get? c = some n ↔ (n, c) ∈ codes := by
  constructor
  · intro hg
    rcases reverse_mem _ _ _ _ hg with h' | h'
    · cases h'
    · exact h'
  · intro hm
    exact reverse_some _ _ _ _ (fun p hp he => h p hp _ hm he) (Or.inr ⟨_, hm, rfl⟩)

theorem mem_keys {rv : Dict Int PyStr} {c : Int} : c ∈ rv.keys ↔ ∃ n, rv.get? c = some n := by
  cases h : rv.get? c with
  | none =>
    rw [Dict.get?_eq_none_iff] at h
    simp [h]
  | some n =>
    simp only [Option.some.injEq, exists_eq', iff_true]
    exact List.mem_map.2 ⟨_, Dict.mem_of_get? h, rfl⟩

theorem closest_max {rv : Dict Int PyStr} {code c : Int} {n : PyStr} {l : List Int}
    (hs : l.Pairwise (fun a b => b ≤ a)) (hc : c ∈ l) (hn : rv.get? c = some n) (hle : c ≤ code)
    (hu : n ≠ "unlimited".toList)
    (hm : ∀ d ∈ l, ∀ m, rv.get? d = some m → d ≤ code → m ≠ "unlimited".toList → d ≤ c) :
    closest rv code l = some n := by
  induction l with
  | nil => cases hc
  | cons a l ih =>
    unfold closest
    have hs' := List.pairwise_cons.1 hs
    by_cases hac : a = c
    · subst hac
      simp only [hn]
      rw [if_pos ⟨hle, hu⟩]
    · have hcl : c ∈ l := by
        rcases List.mem_cons.1 hc with h | h
        · exact absurd h.symm hac
        · exact h
      have ih := ih hs'.2 hcl (fun d hd => hm d (by simp [hd]))
      cases ha : rv.get? a with
      | none => exact ih
      | some m =>
        dsimp only
        rw [if_neg]
        · exact ih
        · rintro ⟨h1, h2⟩
          have := hm a (by simp) m ha h1 h2
          have := hs'.1 c hcl
          omega

theorem closest_none {rv : Dict Int PyStr} {code : Int} {l : List Int}
    (hm : ∀ d ∈ l, ∀ m, rv.get? d = some m → ¬ (d ≤ code ∧ m ≠ "unlimited".toList)) :
    closest rv code l = none := by
  induction l with
  | nil => rfl
  | cons a l ih =>
    unfold closest
    have ih := ih (fun d hd => hm d (by simp [hd]))
    cases ha : rv.get? a with
    | none => exact ih
    | some m =>
      dsimp only
      rw [if_neg (hm a (by simp) m ha)]
      exact ih

/-- There is a largest lower known code, if there is any. -/
theorem exists_max (codes : Dict PyStr Int) (code : Int) :
    (∀ d m, ¬ Lower codes code d m) ∨
      ∃ c n, Lower codes code c n ∧ ∀ d m, Lower codes code d m → d ≤ c := by
  induction codes with
  | nil => left; rintro d m ⟨h, _⟩; cases h
  | cons p codes ih =>
    obtain ⟨n, c⟩ := p
    have hstep : ∀ d m, Lower ((n, c) :: codes) code d m →
        (d = c ∧ m = n ∧ c ≤ code ∧ n ≠ "unlimited".toList) ∨ Lower codes code d m := by
      rintro d m ⟨h1, h2⟩
      rcases List.mem_cons.1 h1 with h | h
      · injection h with h h'; subst h; subst h'
        exact Or.inl ⟨rfl, rfl, h2⟩
      · exact Or.inr ⟨h, h2⟩
    have hup : ∀ d m, Lower codes code d m → Lower ((n, c) :: codes) code d m :=
      fun d m h => ⟨by simp [h.1], h.2⟩
    by_cases hc : c ≤ code ∧ n ≠ "unlimited".toList
    · right
      have hself : Lower ((n, c) :: codes) code c n := ⟨by simp, hc⟩
      rcases ih with ih | ⟨c', n', h1, h2⟩
      · refine ⟨c, n, hself, ?_⟩
        intro d m h
        rcases hstep d m h with ⟨rfl, _⟩ | h
        · omega
        · exact absurd h (ih d m)
      · by_cases hle : c' ≤ c
        · refine ⟨c, n, hself, ?_⟩
          intro d m h
          rcases hstep d m h with ⟨rfl, _⟩ | h
          · omega
          · have := h2 d m h; omega
        · refine ⟨c', n', hup _ _ h1, ?_⟩
          intro d m h
          rcases hstep d m h with ⟨rfl, _⟩ | h
          · omega
          · exact h2 d m h
    · rcases ih with ih | ⟨c', n', h1, h2⟩
      · left
        intro d m h
        rcases hstep d m h with ⟨_, _, h3⟩ | h
        · exact hc h3
        · exact ih d m h
      · right
        refine ⟨c', n', hup _ _ h1, ?_⟩
        intro d m h
        rcases hstep d m h with ⟨_, _, h3⟩ | h
        · exact absurd h3 hc
        · exact h2 d m h

theorem decodeLimit_eq {codes : Dict PyStr Int} (h : Injective codes) {code : Int} {limit : PyStr}
    (hd : Decodes codes code limit) : decodeLimit (reverse codes []) code = limit := by
  unfold decodeLimit
  rcases hd with hd | ⟨hun, hd⟩
  · rw [(rvals_get h).2 hd]
  · have hg : (reverse codes []).get? code = none := by
      cases hg : (reverse codes []).get? code with
      | none => rfl
      | some n => exact absurd ((rvals_get h).1 hg) (hun n)
    simp only [hg]
    have hsort : (sortBy (fun a b : Int => decide (b ≤ a)) (reverse codes []).keys).Pairwise
        (fun a b => b ≤ a) := by
      have := sortBy_sorted (le := fun a b : Int => decide (b ≤ a))
        (fun a b => by simp only [decide_eq_true_eq]; omega)
        (fun a b c h1 h2 => by simp only [decide_eq_true_eq] at *; omega) (reverse codes []).keys
      exact this.imp (fun h => by simpa using h)
    rcases hd with ⟨c, ⟨h1, h2, h3⟩, hmax⟩ | ⟨hno, rfl⟩
    · have hn := (rvals_get h).2 h1
      rw [closest_max hsort (mem_sortBy.2 (mem_keys.2 ⟨_, hn⟩)) hn h2 h3]
      intro d _ m hm hle hu
      exact hmax d m ⟨(rvals_get h).1 hm, hle, hu⟩
    · rw [closest_none]
      rintro d _ m hm ⟨hle, hu⟩
      exact hno d m ⟨(rvals_get h).1 hm, hle, hu⟩

/-- Every code has exactly one right name. -/
theorem decodes_exists (codes : Dict PyStr Int) (code : Int) : ∃ limit, Decodes codes code limit := by
  by_cases hk : ∃ n, (n, code) ∈ codes
  · obtain ⟨n, hn⟩ := hk
    exact ⟨n, Or.inl hn⟩
  · have hk' : ∀ n, (n, code) ∉ codes := fun n hn => hk ⟨n, hn⟩
    rcases exists_max codes code with h | ⟨c, n, h1, h2⟩
    · exact ⟨_, Or.inr ⟨hk', Or.inr ⟨h, rfl⟩⟩⟩
    · exact ⟨n, Or.inr ⟨hk', Or.inl ⟨c, h1, h2⟩⟩⟩

/-- C38: reading the limit never fails, whatever is in the registers, and gives the right name for the
code in the register of every requested CPU: the name of this code if it is known, otherwise the name of
the closest known lower code other than "unlimited", otherwise the decimal code. -/
theorem C38_read (F : Feature) (hf : 0 ≤ F.bits.2 ∧ F.bits.2 ≤ F.bits.1 ∧ F.bits.1 ≤ 63)
    (hi : Injective F.vals) (cpus : List Nat) (hs : ∀ c ∈ cpus, F.supported c = true) (R : Reg) :
    ∃ f : Nat → PyStr, readLimit F cpus R = .ok (cpus.map fun c => (c, f c)) ∧
      ∀ c ∈ cpus, ∃ code, getBits (R c) F.bits = .ok code ∧ Decodes F.vals code (f c) := by
  refine ⟨fun c => decodeLimit (rvals F) (HWP.fieldOf (R c) F.bits), ?_, ?_⟩
  · unfold readLimit
    rw [FeaturedMSR.validateSupported_ok hs]
    dsimp only
    rw [RegFile.readBits_ok F.bits R cpus _ (fun c _ => HWP.getBits_fieldOf hf (R c))]
    simp [Function.comp_def]
  · intro c _
    refine ⟨_, HWP.getBits_fieldOf hf (R c), ?_⟩
    obtain ⟨l, hl⟩ := decodes_exists F.vals (HWP.fieldOf (R c) F.bits)
    have := decodeLimit_eq hi hl
    unfold rvals
    dsimp only
    rw [this]
    exact hl

/-- C38: the reported limit is never deeper than the programmed one, i.e. the code of the reported name is
not above the code in the register. Only an exactly matching code is reported as "unlimited". -/
theorem C38_never_over_reports (codes : Dict PyStr Int) (code : Int) (limit : PyStr)
    (h : Decodes codes code limit) :
    (∀ c, (limit, c) ∈ codes → (∀ p ∈ codes, ∀ q ∈ codes, p.1 = q.1 → p.2 = q.2) →
      (∃ n, (n, code) ∈ codes ∨ ∃ d, Lower codes code d n) → c ≤ code) ∧
    (limit = "unlimited".toList → (∃ n, (n, code) ∈ codes ∨ ∃ d, Lower codes code d n) →
      (limit, code) ∈ codes) := by
  constructor
  · intro c hc hfun hex
    rcases h with h | ⟨h1, ⟨d, h2, _⟩ | ⟨h2, _⟩⟩
    · have := hfun _ hc _ h rfl
      dsimp only at this
      omega
    · have := hfun _ hc _ h2.1 rfl
      dsimp only at this
      have := h2.2.1
      omega
    · obtain ⟨n, hn | ⟨d, hd⟩⟩ := hex
      · exact absurd hn (h1 n)
      · exact absurd hd (h2 d n)
  · intro hl hex
    rcases h with h | ⟨h1, ⟨d, h2, _⟩ | ⟨h2, _⟩⟩
    · exact h
    · exact absurd hl h2.2.2
    · obtain ⟨n, hn | ⟨d, hd⟩⟩ := hex
      · exact absurd hn (h1 n)
      · exact absurd hd (h2 d n)

/-- The right name is unique. -/
theorem decodes_unique {codes : Dict PyStr Int} (h : Injective codes) {code : Int} {l l' : PyStr}
    (h1 : Decodes codes code l) (h2 : Decodes codes code l') : l = l' :=
  (decodeLimit_eq h h1).symm.trans (decodeLimit_eq h h2)

/-! ### C39 -/

theorem locked_iff (R : Reg) (c : Nat) :
    ∃ v, getBits (R c) lockBits = .ok v ∧ (v ≠ 0 ↔ Locked R c) := by
  have hf : RegFile.Field lockBits := by unfold RegFile.Field; decide
  refine ⟨_, HWP.getBits_fieldOf hf (R c), ?_⟩
  have hr := RegFile.field_range hf (HWP.getBits_fieldOf hf (R c))
  have ht := RegFile.testBit_field hf (HWP.getBits_fieldOf hf (R c)) 0
  generalize HWP.fieldOf (R c) lockBits = v at *
  have h1 : v = 0 ∨ v = 1 := by
    have : (2 : Int) ^ Bits.width lockBits = 2 := by decide
    omega
  unfold Locked
  have e : (R c).testBit 15 = v.testBit 0 := by
    rw [ht]
    show (R c).testBit 15 = ((R c).testBit (15 + 0) && decide (0 < Bits.width lockBits))
    simp [show 0 < Bits.width lockBits by decide]
  rw [e]
  rcases h1 with rfl | rfl
  · simp [show (0 : Int).testBit 0 = false by decide]
  · simp [show (1 : Int).testBit 0 = true by decide]

theorem modifyLimit_locked (bits : BitRange) (limit : FieldVal) (R : Reg) (cpus : List Nat)
    (d : Dict Int (List Nat)) (h : ∃ c ∈ cpus, Locked R c) :
    ∃ e, modifyLimit bits limit R cpus d = .error e ∧
      ((∀ c ∈ cpus, ∃ r, setBits (R c) bits limit = .ok r) → e = .error) := by
  induction cpus generalizing d with
  | nil => obtain ⟨_, h, _⟩ := h; cases h
  | cons a cpus ih =>
    obtain ⟨v, hv, hl⟩ := locked_iff R a
    unfold modifyLimit
    rw [hv]
    dsimp only
    by_cases h0 : v ≠ 0
    · rw [if_pos h0]
      exact ⟨_, rfl, fun _ => rfl⟩
    · rw [if_neg h0]
      have h' : ∃ c ∈ cpus, Locked R c := by
        obtain ⟨c, hc, h⟩ := h
        rcases List.mem_cons.1 hc with rfl | hc
        · exact absurd (hl.2 h) h0
        · exact ⟨c, hc, h⟩
      cases hs : setBits (R a) bits limit with
      | error e =>
        refine ⟨e, rfl, fun h => ?_⟩
        obtain ⟨r, hr⟩ := h a (by simp)
        rw [hs] at hr; cases hr
      | ok new =>
        dsimp only
        split
        · obtain ⟨e, h1, h2⟩ := ih d h'
          exact ⟨e, h1, fun h => h2 (fun c hc => h c (by simp [hc]))⟩
        · obtain ⟨e, h1, h2⟩ := ih _ h'
          exact ⟨e, h1, fun h => h2 (fun c hc => h c (by simp [hc]))⟩

theorem modifyLimit_unlocked (bits : BitRange) (limit : FieldVal) (R : Reg) (cpus : List Nat)
    (d : Dict Int (List Nat)) (h : ∀ c ∈ cpus, ¬ Locked R c) :
    modifyLimit bits limit R cpus d = RegFile.modifyRegs bits limit R cpus d := by
  induction cpus generalizing d with
  | nil => rfl
  | cons a cpus ih =>
    obtain ⟨v, hv, hl⟩ := locked_iff R a
    unfold modifyLimit RegFile.modifyRegs
    rw [hv]
    have h0 : ¬ v ≠ 0 := fun h0 => h a (by simp) (hl.1 h0)
    dsimp only
    rw [if_neg h0]
    cases setBits (R a) bits limit with
    | error e => rfl
    | ok new =>
      dsimp only
      rw [ih _ (fun c hc => h c (by simp [hc])), ih _ (fun c hc => h c (by simp [hc]))]

/-- C39: if the register is locked on any of the requested CPUs, setting the limit to whatever value fails
and no register is written, also not those of the CPUs which are not locked. -/
theorem C39_locked (E : RegFile.Env) (F : Feature) (val : Val) (cpus : List Nat) (R : Reg)
    (h : ∃ c ∈ cpus, Locked R c) :
    ∃ e, writeLimit E F val cpus R = (R, .error e) := by
  unfold writeLimit
  cases FeaturedMSR.validateSupported F cpus with
  | error e => exact ⟨e, rfl⟩
  | ok u =>
    dsimp only
    cases FeaturedMSR.normalizeValue F val with
    | error e => exact ⟨e, rfl⟩
    | ok v =>
      dsimp only
      cases F.writable with
      | false => exact ⟨_, rfl⟩
      | true =>
        obtain ⟨e, he, _⟩ := modifyLimit_locked F.bits (FeaturedMSR.fieldVal v) R cpus [] h
        refine ⟨e, ?_⟩
        show setLimit E F.bits (FeaturedMSR.fieldVal v) cpus R = _
        unfold setLimit
        rw [he]

/-- C39: otherwise exactly the limit bits change, only on the requested CPUs and the CPUs sharing the
register with them; the limit is read back as the canonical name of the given one; the request succeeds
unless the hardware refuses it. -/
theorem C39_unlocked (E : RegFile.Env) (w : EnvWF E) (F : Feature) (t : Table F) (hnb : F.isBool = false)
    (val : Val) (n : PyStr) (hm : Means F val n) (cpus : List Nat)
    (hs : ∀ c ∈ cpus, F.supported c = true) (hw : F.writable = true) (R : Reg) (hu : Uniform E R)
    (hR : ∀ c, 0 ≤ R c ∧ R c < 2 ^ 64) (hl : ∀ c ∈ cpus, ¬ Locked R c) :
    ((writeLimit E F val cpus R).2 = .ok () →
      readLimit F cpus (writeLimit E F val cpus R).1 = .ok (cpus.map fun c => (c, n))) ∧
    (∀ c, (∀ a ∈ cpus, E.same a c = false) → (writeLimit E F val cpus R).1 c = R c) ∧
    (∀ c (k : Nat), ¬ InRange F.bits k →
      ((writeLimit E F val cpus R).1 c).testBit k = (R c).testBit k) ∧
    ((∀ c ∈ cpus, E.wfail c = none) → (writeLimit E F val cpus R).2 = .ok ()) := by
  have hb : ∀ b, val = .bool b → F.aliases = none := by
    rintro b rfl
    obtain ⟨h, _⟩ := hm
    rw [hnb] at h; cases h
  have e : writeLimit E F val cpus R = FeaturedMSR.writeFeature E F val cpus R := by
    unfold writeLimit FeaturedMSR.writeFeature
    cases FeaturedMSR.validateSupported F cpus with
    | error e => rfl
    | ok u =>
      dsimp only
      cases FeaturedMSR.normalizeValue F val with
      | error e => rfl
      | ok v =>
        dsimp only
        cases F.writable with
        | false => rfl
        | true =>
          show setLimit E F.bits (FeaturedMSR.fieldVal v) cpus R =
            RegFile.writeBits E F.bits (FeaturedMSR.fieldVal v) cpus R
          unfold setLimit RegFile.writeBits
          rw [modifyLimit_unlocked _ _ _ _ _ hl]
          cases RegFile.modifyRegs F.bits (FeaturedMSR.fieldVal v) R cpus [] <;> rfl
  rw [e]
  obtain ⟨k1, k2, k3, k4⟩ := FeaturedMSR.C37_round_trip_partial E w F t val n hm hb cpus hs hw R hu hR
  refine ⟨?_, k2, k3, k4⟩
  intro hok
  have hread := k1 hok
  obtain ⟨f, hf, hdec⟩ := C38_read F t.field t.codes cpus hs (FeaturedMSR.writeFeature E F val cpus R).1
  rw [hf]
  congr 1
  apply List.map_congr_left
  intro c hc
  congr 1
  obtain ⟨code, h1, h2⟩ := hdec c hc
  -- The name read via 'read_feature()' and the decoded name are the same.
  have h3 : (n, code) ∈ F.vals := by
    rw [FeaturedMSR.readFeature_eq t.field hs] at hread
    have : ∀ (l : List Nat) (g : Nat → Int), c ∈ l →
        FeaturedMSR.decodeAll F (l.map fun c => (c, g c)) = .ok (l.map fun c => (c, .str n)) →
        (n, g c) ∈ F.vals := by
      intro l g
      induction l with
      | nil => intro h; cases h
      | cons a l ih =>
        intro hcl h
        simp only [List.map_cons, FeaturedMSR.decodeAll, List.isEmpty_iff, if_neg t.nonempty] at h
        cases hg : (rvals F).get? (g a) with
        | none => rw [hg] at h; cases h
        | some m =>
          rw [hg] at h
          dsimp only at h
          cases hr : FeaturedMSR.decodeAll F (l.map fun c => (c, g c)) with
          | error e => rw [hr] at h; cases h
          | ok l' =>
            rw [hr] at h
            simp only [Except.map] at h
            injection h with h
            injection h with h h'
            rcases List.mem_cons.1 hcl with rfl | hcl
            · injection h with _ h
              injection h with h
              subst h
              exact (rvals_get t.codes).1 hg
            · exact ih hcl (by rw [hr, h'])
    have := this cpus _ hc hread
    rwa [HWP.fieldOf_eq t.field h1] at this
  exact decodes_unique t.codes h2 (Or.inl h3)

/-! ### The tables of the supported processors -/

/-- All package C-state limit tables meet the conditions of C37, C38 and C39. -/
theorem C38_tables (L : Limits) (h : L ∈ allLimits) (sup : Nat → Bool) :
    Table (limitFeature L sup) ∧ Injective (limitFeature L sup).vals := by
  have key : Table (limitFeature L sup) := by
    simp only [allLimits, List.mem_cons, List.not_mem_nil, or_false] at h
    apply FeaturedMSR.Table.of_checks <;>
    rcases h with rfl | rfl | rfl | rfl | rfl | rfl | rfl | rfl <;>
    simp only [limitFeature, Option.getD_some] <;> decide +kernel
  exact ⟨key, key.codes⟩

/-- On Denverton, where 0 is "unlimited", the unknown code 1 is reported as a number and code 7 as PC6. -/
example : decodeLimit (rvals (limitFeature dnvLimits fun _ => true)) 1 = "1".toList ∧
    decodeLimit (rvals (limitFeature dnvLimits fun _ => true)) 7 = "PC6".toList ∧
    decodeLimit (rvals (limitFeature icxLimits fun _ => true)) 5 = "PC6".toList := by decide +kernel

/-- "pc6" is an alias on Sky Lake Xeon: PC6R is written and read back; with the lock bit set on CPU 2 the
request for CPUs 0 and 2 changes nothing. -/
example : Means (limitFeature skxLimits fun _ => true) (.str "pc6".toList) "PC6R".toList ∧
    (∃ R, writeLimit FeaturedMSR.exEnv (limitFeature skxLimits fun _ => true) (.str "pc6".toList) [0]
        (fun _ => 0x400) = (R, .ok ()) ∧ R 1 = 0x403 ∧ R 2 = 0x400) ∧
    (∃ e, writeLimit FeaturedMSR.exEnv (limitFeature skxLimits fun _ => true) (.str "pc6".toList) [0, 2]
        (fun c => if c < 2 then 0x400 else 0x8400) = (fun c => if c < 2 then 0x400 else 0x8400, .error e)) := by
  refine ⟨Or.inr ⟨"PC6".toList, ⟨_, rfl, by decide⟩, by decide⟩, ⟨_, Prod.ext rfl ?_, ?_, ?_⟩, ?_⟩
  · decide +kernel
  · decide +kernel
  · decide +kernel
  · exact C39_locked _ _ _ _ _ ⟨2, by simp, by unfold Locked; decide +kernel⟩

end Verif.PCStateConfigCtl
