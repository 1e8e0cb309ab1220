import Verif.Lemmas.MSRFeatures

/-!
C104: the features of the model-specific registers.
-/

namespace Verif.MSRFeatures

open Verif.Bits (BitRange FieldVal)
open Verif.FeaturedMSR (Feature Val)
open Verif.RegFile (Reg)
open Verif.CPUInfo (Scope Level)

/-- C104: an object has exactly the documented features, and a feature is reported as supported on a CPU if and only if the processor
has it there: the model is listed, the CPU has the flags, and, for the HWP registers, HWP is on in the package of the CPU. -/
theorem C104_supported (H : Host) (P : Partition H) (m : Module) (fs : List Finfo) (h : create H m = .ok fs) :
    fs.map (·.name) = m.features.map (·.name) ∧
    ∀ f ∈ fs, ∃ f0 ∈ m.features, f.name = f0.name ∧ f.writable = f0.writable ∧ f.isBool = f0.isBool ∧
      ∀ c, f.supported c = true ↔ Has H f0 c ∧ (NeedsHwp m → HwpOn H c) := by
  refine ⟨(created h).1, fun f hf => ?_⟩
  obtain ⟨f0, hf0, k, _, hs⟩ := (created h).2 f hf
  exact ⟨f0, hf0, k.name, k.writable, k.bool, hs P⟩

/-- C104: on any other processor, or if the processor has none of the features, there is no object, with a "not supported" error. -/
theorem C104_refused (H : Host) (m : Module)
    (h : H.vendor ≠ "GenuineIntel".toList ∨ ∀ f ∈ m.features, ∀ c, ¬ Has H f c) : create H m = .error .notSupported :=
  create_refused h

/-- C104: in all other cases the object is created, whatever the processor model is; reading `MSR_PM_ENABLE` is the only thing
which may fail. -/
theorem C104_created (H : Host) (P : Partition H) (m : Module) (hv : H.vendor = "GenuineIntel".toList)
    (hs : ∃ f ∈ m.features, ∃ c, Has H f c) (hr : ∀ p ∈ H.packages, ∀ c ∈ p, ∃ v, H.pmEnable c = .ok v) :
    ∃ fs, create H m = .ok fs :=
  create_total hv hs P.nonempty hr

/-- C104: every supported feature has bits within the 64-bit register, and two features of one register have no bit in common, on
every processor model. -/
theorem C104_disjoint (H : Host) (m : Module) (fs : List Finfo) (h : create H m = .ok fs) (f g : Finfo) (hf : f ∈ fs) (hg : g ∈ fs)
    (c d : Nat) (hc : f.supported c = true) (hd : g.supported d = true) :
    ∃ a b, f.bits = some a ∧ g.bits = some b ∧ Proper a ∧ Proper b ∧ (f.name ≠ g.name → Apart a b) := by
  obtain ⟨a, ha, pa, _⟩ := live_bits h hf hc
  obtain ⟨b, hb, pb, _⟩ := live_bits h hg hd
  refine ⟨a, b, ha, hb, pa, pb, fun hne => ?_⟩
  obtain ⟨f0, hf0, n1, x1, e1, _⟩ := live h hf hc
  obtain ⟨g0, hg0, n2, x2, e2, _⟩ := live h hg hd
  obtain ⟨a', b', ha', hb', hab⟩ := apart_ok hf0 hg0 x1 x2 (by rw [← n1, ← n2]; exact hne)
  rw [e1, ha'] at ha
  rw [e2, hb'] at hb
  injection ha with ha; injection hb with hb
  rw [← ha, ← hb]
  exact hab

/-- C104: the classes are about different registers. -/
theorem C104_addresses (m m' : Module) (h : m.regaddr = m'.regaddr) : m = m' := regaddr_inj h

/-- C104: the value names of every supported feature with names meet the conditions of C37, C38 and C39, on every processor model:
the codes fit into the bits, no two names have the same code or differ only in the letter case, and aliases stand for names. -/
theorem C104_tables (H : Host) (m : Module) (fs : List Finfo) (h : create H m = .ok fs) (f : Finfo) (hf : f ∈ fs)
    (c : Nat) (hc : f.supported c = true) (hv : f.vals ≠ []) : ∃ b, f.bits = some b ∧ FeaturedMSR.Table (f.feature b) := by
  obtain ⟨b, hb, _, ht⟩ := live_bits h hf hc
  exact ⟨b, hb, ht hv⟩

/-- C104: writing a feature, whatever the value is and whether the write succeeds or fails, has no effect on what any other feature,
of the same or of any other register, reads as on any CPU. -/
theorem C104_independent (H : Host) (units : Val → Except Exn Int) (E : Nat → RegFile.Env) (S : Regs) (M : Machine E S)
    (m m' : Module) (fs gs : List Finfo) (h : create H m = .ok fs) (h' : create H m' = .ok gs) (f g : Finfo) (hf : f ∈ fs)
    (hg : g ∈ gs) (hne : ¬ (m = m' ∧ f.name = g.name)) (val : Val) (cpus cpus' : List Nat) :
    readFeature m' g cpus' (writeFeature units E m f val cpus S).1 = readFeature m' g cpus' S := by
  by_cases hw : cpus.all f.supported = false ∨ cpus = []
  · rw [write_none val hw]
  have hall : cpus.all f.supported = true := by
    cases hb : cpus.all f.supported with
    | true => rfl
    | false => exact absurd (Or.inl hb) hw
  obtain ⟨c, hc⟩ := List.exists_mem_of_ne_nil cpus fun hn => hw (Or.inr hn)
  have hsc := List.all_eq_true.1 hall c hc
  obtain ⟨a, ha, _, _⟩ := live_bits h hf hsc
  obtain ⟨n1, n2⟩ := near_write (units := units) ha val cpus (M.env _) (M.uniform _)
  apply read_congr
  intro b hb hs
  by_cases hmm : m = m'
  · subst hmm
    cases hcp : cpus' with
    | nil => rfl
    | cons d l =>
      rw [← hcp]
      have hsd := List.all_eq_true.1 hs d (by rw [hcp]; simp)
      obtain ⟨fs_eq⟩ : fs = gs := by rw [h] at h'; injection h'
      obtain ⟨a', b', ha', hb', _, pb, hab⟩ := C104_disjoint H m fs h f g hf hg c d hsc hsd
      rw [ha] at ha'; rw [hb] at hb'
      injection ha' with ha'; injection hb' with hb'
      subst ha'; subst hb'
      have hab := hab fun hn => hne ⟨rfl, hn⟩
      refine readBits_congr pb cpus' fun x _ k hk => n1 x k fun hk' => ?_
      unfold Apart at hab
      obtain ⟨q1, q2⟩ := hk
      obtain ⟨q3, q4⟩ := hk'
      omega
  · rw [n2 _ fun he => hmm (regaddr_inj he).symm]

/-- C104: a number written to a supported feature which takes numbers is read back on every CPU of the request; numbers which do not
fit, negative ones included, are refused and change nothing. The power limits, which are converted to power units, are in C40. -/
theorem C104_numbers (H : Host) (units : Val → Except Exn Int) (E : Nat → RegFile.Env) (S : Regs) (M : Machine E S) (m : Module)
    (hm : m ≠ .packagePowerLimit) (fs : List Finfo) (h : create H m = .ok fs) (f : Finfo) (hf : f ∈ fs) (cpus : List Nat)
    (hne : cpus ≠ []) (hs : ∀ c ∈ cpus, f.supported c = true) (hw : f.writable = true) (hv : f.vals = []) (n : Int) :
    ∃ b, f.bits = some b ∧ Proper b ∧
      ((writeFeature units E m f (.int n) cpus S).2 = .ok () →
        0 ≤ n ∧ n < 2 ^ (b.1 - b.2 + 1).toNat ∧
        readFeature m f cpus (writeFeature units E m f (.int n) cpus S).1 = .ok (cpus.map fun c => (c, .int n))) ∧
      (0 ≤ n → n < 2 ^ (b.1 - b.2 + 1).toNat → (∀ c ∈ cpus, (E m.regaddr).wfail c = none) →
        (writeFeature units E m f (.int n) cpus S).2 = .ok ()) ∧
      (n < 0 ∨ 2 ^ (b.1 - b.2 + 1).toNat ≤ n → (writeFeature units E m f (.int n) cpus S).1 = S ∧
        ∃ e, (writeFeature units E m f (.int n) cpus S).2 = .error e) := by
  obtain ⟨d, hd⟩ := List.exists_mem_of_ne_nil cpus hne
  obtain ⟨b, hb, pb, _⟩ := live_bits h hf (hs d hd)
  refine ⟨b, hb, pb, ?_⟩
  have hnl : ¬ (m = .pcStateConfigCtl ∧ f.name = "pkg_cstate_limit".toList) := by
    rintro ⟨rfl, hn⟩
    exact (live_limit h hf (hs d hd) hn).2 hv
  have hW : FeaturedMSR.writeFeature (E m.regaddr) (f.feature b) (.int n) cpus (S m.regaddr) =
      RegFile.writeBits (E m.regaddr) b (.num n) cpus (S m.regaddr) := by
    unfold FeaturedMSR.writeFeature
    rw [FeaturedMSR.validateSupported_ok (F := f.feature b) hs]
    dsimp only
    have : FeaturedMSR.normalizeValue (f.feature b) (.int n) = .ok (.int n) := by
      unfold FeaturedMSR.normalizeValue
      rw [show (f.feature b).vals = [] from hv]
      rfl
    rw [this]
    dsimp only
    rw [show (f.feature b).writable = true from hw]
    rfl
  have e1 : (writeFeature units E m f (.int n) cpus S).2 =
      (RegFile.writeBits (E m.regaddr) b (.num n) cpus (S m.regaddr)).2 := by
    unfold writeFeature
    rw [hb]
    dsimp only
    rw [if_neg hnl, if_neg hm, hW]
  have e2 : (writeFeature units E m f (.int n) cpus S).1 = fun x =>
      if x = m.regaddr then (RegFile.writeBits (E m.regaddr) b (.num n) cpus (S m.regaddr)).1 else S x := by
    unfold writeFeature
    rw [hb]
    dsimp only
    rw [if_neg hnl, if_neg hm, hW]
  have e3 : ∀ S', readFeature m f cpus S' = .ok (cpus.map fun c => (c, .int (HWP.fieldOf (S' m.regaddr c) b))) := by
    intro S'
    unfold readFeature
    rw [hb]
    dsimp only
    rw [if_neg hnl, FeaturedMSR.readFeature_eq (F := f.feature b) pb hs, decodeAll_numbers hv, List.map_map]
    rfl
  have hwd : Bits.width b = (b.1 - b.2 + 1).toNat := rfl
  obtain ⟨_, _, k3, k4, k5, k6⟩ := RegFile.writeBits_field (E m.regaddr) (M.env _) pb n cpus (S m.regaddr) (M.uniform _) (M.reg64 _)
  have hbad : n < 0 ∨ 2 ^ (b.1 - b.2 + 1).toNat ≤ n → (RegFile.writeBits (E m.regaddr) b (.num n) cpus (S m.regaddr)).1 =
      S m.regaddr ∧ ∃ e, (RegFile.writeBits (E m.regaddr) b (.num n) cpus (S m.regaddr)).2 = .error e := by
    rintro (hn | hn)
    · refine ⟨funext fun c => ?_, ?_⟩
      · rcases k3 c with h | ⟨h, _⟩
        · exact h
        · omega
      · cases hr : (RegFile.writeBits (E m.regaddr) b (.num n) cpus (S m.regaddr)).2 with
        | error e => exact ⟨e, rfl⟩
        | ok _ =>
          have := (k4 hr d hd d ((M.env _).refl d)).1
          omega
    · exact k6 hne (by rw [hwd]; exact hn)
  refine ⟨?_, ?_, ?_⟩
  · intro hok
    rw [e1] at hok
    have hr : ¬ (n < 0 ∨ 2 ^ (b.1 - b.2 + 1).toNat ≤ n) := fun hn => by
      obtain ⟨_, e, he⟩ := hbad hn
      rw [he] at hok; cases hok
    refine ⟨by omega, by omega, ?_⟩
    rw [e3, e2]
    dsimp only
    rw [if_pos rfl]
    congr 1
    refine List.map_congr_left fun c hc => ?_
    have hu := (k4 hok c hc c ((M.env _).refl c)).2.1
    rw [HWP.getBits_fieldOf pb] at hu
    injection hu with hu
    rw [hu]
  · intro h0 h1 hwf
    rw [e1]
    exact k5 hwf h0 (by rw [hwd]; exact h1)
  · intro hn
    obtain ⟨q1, q2⟩ := hbad hn
    rw [e1, e2, q1]
    refine ⟨funext fun x => ?_, q2⟩
    split
    · rename_i hx; rw [hx]
    · rfl

/-- C104: a value written to a supported feature by its name, by an alias, in any letter case or as True/False is read back as the
canonical name on every CPU of the request; the write succeeds unless the hardware refuses it or, for the package C-state limit,
the register is locked. -/
theorem C104_names (H : Host) (units : Val → Except Exn Int) (E : Nat → RegFile.Env) (S : Regs) (M : Machine E S) (m : Module)
    (fs : List Finfo) (h : create H m = .ok fs) (f : Finfo) (hf : f ∈ fs) (cpus : List Nat) (hne : cpus ≠ [])
    (hs : ∀ c ∈ cpus, f.supported c = true) (hw : f.writable = true) (b : BitRange) (hb : f.bits = some b) (val : Val) (n : PyStr)
    (hn : FeaturedMSR.Means (f.feature b) val n) :
    ((writeFeature units E m f val cpus S).2 = .ok () →
      readFeature m f cpus (writeFeature units E m f val cpus S).1 = .ok (cpus.map fun c => (c, .str n))) ∧
    ((∀ c ∈ cpus, (E m.regaddr).wfail c = none) →
      (m = .pcStateConfigCtl → f.name = "pkg_cstate_limit".toList → ∀ c ∈ cpus, (S 0xe2 c).testBit 15 = false) →
      (writeFeature units E m f val cpus S).2 = .ok ()) := by
  obtain ⟨d, hd⟩ := List.exists_mem_of_ne_nil cpus hne
  have hsd := hs d hd
  obtain ⟨b', hb', pb, ht⟩ := live_bits h hf hsd
  rw [hb] at hb'
  injection hb' with hb'
  subst hb'
  have hv : f.vals ≠ [] := by
    intro hv
    have hN : ∀ k, ¬ FeaturedMSR.Name (f.feature b) k := by
      rintro k ⟨c, hc⟩
      rw [show (f.feature b).vals = [] from hv] at hc; cases hc
    cases val with
    | int i => exact hn
    | bool x => exact hN _ hn.2.1
    | str s =>
      rcases hn with ⟨h1, _⟩ | ⟨a, h1, _⟩
      · exact hN _ h1
      · by_cases hl : IsLimit m f
        · obtain ⟨rfl, hl⟩ := hl
          exact (live_limit h hf hsd hl).2 hv
        · obtain ⟨al, hal, _⟩ := h1
          rw [show (f.feature b).aliases = none from live_aliases h hf hsd hl] at hal
          cases hal
  have t := ht hv
  by_cases hl : m = .pcStateConfigCtl ∧ f.name = "pkg_cstate_limit".toList
  · have e : writeFeature units E m f val cpus S =
        (fun x => if x = m.regaddr then (Verif.PCStateConfigCtl.writeLimit (E m.regaddr) (f.feature b) val cpus (S m.regaddr)).1
          else S x, (Verif.PCStateConfigCtl.writeLimit (E m.regaddr) (f.feature b) val cpus (S m.regaddr)).2) := by
      unfold writeFeature
      rw [hb]
      dsimp only
      rw [if_pos hl]
    have er : ∀ S', readFeature m f cpus S' =
        (Verif.PCStateConfigCtl.readLimit (f.feature b) cpus (S' m.regaddr)).map (List.map fun p => (p.1, .str p.2)) := by
      intro S'
      unfold readFeature
      rw [hb]
      dsimp only
      rw [if_pos hl]
    rw [er, e]
    dsimp only
    rw [if_pos rfl]
    obtain ⟨hm, hl⟩ := hl
    have hbool : (f.feature b).isBool = false := by
      subst hm
      exact (live_limit h hf hsd hl).1
    have key := fun hlk => Verif.PCStateConfigCtl.C39_unlocked (E m.regaddr) (M.env _) (f.feature b) t hbool val n hn cpus hs hw
      (S m.regaddr) (M.uniform _) (M.reg64 _) hlk
    refine ⟨fun hok => ?_, fun hwf hlk => ?_⟩
    · have hlk : ∀ c ∈ cpus, ¬ Verif.PCStateConfigCtl.Locked (S m.regaddr) c := by
        intro c hc hlc
        obtain ⟨e', he'⟩ := Verif.PCStateConfigCtl.C39_locked (E m.regaddr) (f.feature b) val cpus (S m.regaddr) ⟨c, hc, hlc⟩
        rw [he'] at hok; cases hok
      rw [(key hlk).1 hok]
      show Except.ok _ = _
      rw [List.map_map]
      rfl
    · refine (key fun c hc hlc => ?_).2.2.2 hwf
      have := hlk hm hl c hc
      subst hm
      unfold Verif.PCStateConfigCtl.Locked at hlc
      rw [show S Module.pcStateConfigCtl.regaddr c = S 0xe2 c from rfl, this] at hlc
      cases hlc
  · have hal : f.aliases = none := live_aliases h hf hsd hl
    have e : writeFeature units E m f val cpus S =
        (fun x => if x = m.regaddr then (FeaturedMSR.writeFeature (E m.regaddr) (f.feature b) val cpus (S m.regaddr)).1
          else S x, (FeaturedMSR.writeFeature (E m.regaddr) (f.feature b) val cpus (S m.regaddr)).2) := by
      unfold writeFeature
      rw [hb]
      dsimp only
      rw [if_neg hl]
      by_cases hp : m = .packagePowerLimit
      · rw [if_pos hp]
        subst hp
        obtain ⟨f0, hf0, en, _, _, e2, _⟩ := live h hf hsd
        have hsuf := check_ppl f0 hf0 (by rw [← show f.vals = f0.vals from e2]; exact hv)
        rw [← en] at hsuf
        rw [writePpl_named hsuf]
      · rw [if_neg hp]
    have er : ∀ S', readFeature m f cpus S' = FeaturedMSR.readFeature (f.feature b) cpus (S' m.regaddr) := by
      intro S'
      unfold readFeature
      rw [hb]
      dsimp only
      rw [if_neg hl]
    rw [er, e]
    dsimp only
    rw [if_pos rfl]
    obtain ⟨k1, _, _, k4⟩ := FeaturedMSR.C37_round_trip_partial (E m.regaddr) (M.env _) (f.feature b) t val n hn (fun _ _ => hal) cpus hs
      hw (S m.regaddr) (M.uniform _) (M.reg64 _)
    exact ⟨k1, fun hwf _ => k4 hwf⟩

/-- C104: features which are read-only cannot be written. -/
theorem C104_read_only (units : Val → Except Exn Int) (E : Nat → RegFile.Env) (S : Regs) (m : Module) (f : Finfo)
    (hw : f.writable = false) (val : Val) (cpus : List Nat) :
    (writeFeature units E m f val cpus S).1 = S ∧ ∃ e, (writeFeature units E m f val cpus S).2 = .error e := by
  unfold writeFeature
  cases hb : f.bits with
  | none => exact ⟨rfl, _, rfl⟩
  | some b =>
    dsimp only
    have key : ∀ W : Reg × Except Exn Unit, (W.1 = S m.regaddr ∧ ∃ e, W.2 = .error e) →
        (fun x => if x = m.regaddr then W.1 else S x) = S ∧ ∃ e, W.2 = .error e := by
      rintro W ⟨h1, h2⟩
      refine ⟨funext fun x => ?_, h2⟩
      split
      · rename_i hx; rw [h1, hx]
      · rfl
    apply key
    split
    · unfold Verif.PCStateConfigCtl.writeLimit
      rw [show (f.feature b).writable = false from hw]
      split
      · exact ⟨rfl, _, rfl⟩
      · split
        · exact ⟨rfl, _, rfl⟩
        · exact ⟨rfl, _, rfl⟩
    · split
      · unfold writePpl
        rw [hw]
        split
        · exact ⟨rfl, _, rfl⟩
        · split
          · exact ⟨rfl, _, rfl⟩
          · exact ⟨rfl, _, rfl⟩
      · unfold FeaturedMSR.writeFeature
        rw [show (f.feature b).writable = false from hw]
        split
        · exact ⟨rfl, _, rfl⟩
        · split
          · exact ⟨rfl, _, rfl⟩
          · exact ⟨rfl, _, rfl⟩

/-- C104: every feature has a functional scope, and an I/O scope, which the MSR class needs to know which CPUs share the register.
Missing for the full claim: the uncore ratio limit, see the counterexample. -/
theorem C104_scopes_partial (H : Host) (m : Module) (fs : List Finfo) (h : create H m = .ok fs) (f : Finfo) (hf : f ∈ fs) :
    f.sname ≠ none ∧ (m ≠ .uncoreRatioLimit → f.iosname ≠ none) := by
  obtain ⟨f0, hf0, k, _⟩ := (created h).2 f hf
  rw [k.sname, k.iosname]
  have key : ∀ m ∈ Module.all, (m = .pmLogicalId ∨ m = .packagePowerLimit ∨ m = .packagePowerInfo ∨ m = .hwpCapabilities ∨
      m = .hwpRequest ∨ m = .swLTROvrd) → ∀ f ∈ m.features, f.sname.isSome = true ∧ f.iosname.isSome = true := by decide +kernel
  have key' : ∀ f ∈ MiscFeatureControl.features, f.name = "l2_hw_prefetcher".toList ∨
      (f.sname.isSome = true ∧ f.iosname.isSome = true) := by decide +kernel
  have some_ne : ∀ {o : Option Scope}, o.isSome = true → o ≠ none := by rintro _ h rfl; cases h
  cases m
  case miscFeatureControl =>
    unfold setScopes
    dsimp only
    rcases key' f0 hf0 with h1 | ⟨h1, h2⟩
    · rw [if_pos h1]; exact ⟨(nomatch ·), fun _ => (nomatch ·)⟩
    · split
      · exact ⟨(nomatch ·), fun _ => (nomatch ·)⟩
      · exact ⟨some_ne h1, fun _ => some_ne h2⟩
  case uncoreRatioLimit => exact ⟨(nomatch ·), fun h => absurd rfl h⟩
  case pmLogicalId => exact ⟨some_ne (key _ (mem_all _) (by simp) f0 hf0).1, fun _ => some_ne (key _ (mem_all _) (by simp) f0 hf0).2⟩
  case packagePowerLimit =>
    exact ⟨some_ne (key _ (mem_all _) (by simp) f0 hf0).1, fun _ => some_ne (key _ (mem_all _) (by simp) f0 hf0).2⟩
  case packagePowerInfo =>
    exact ⟨some_ne (key _ (mem_all _) (by simp) f0 hf0).1, fun _ => some_ne (key _ (mem_all _) (by simp) f0 hf0).2⟩
  case hwpCapabilities =>
    exact ⟨some_ne (key _ (mem_all _) (by simp) f0 hf0).1, fun _ => some_ne (key _ (mem_all _) (by simp) f0 hf0).2⟩
  case hwpRequest =>
    exact ⟨some_ne (key _ (mem_all _) (by simp) f0 hf0).1, fun _ => some_ne (key _ (mem_all _) (by simp) f0 hf0).2⟩
  case swLTROvrd =>
    exact ⟨some_ne (key _ (mem_all _) (by simp) f0 hf0).1, fun _ => some_ne (key _ (mem_all _) (by simp) f0 hf0).2⟩
  all_goals exact ⟨(nomatch ·), fun _ => (nomatch ·)⟩

/-! ### Examples -/

/-- An Ice Lake Xeon with two packages, HWP is on only in the first one. -/
def exHost : Host :=
  ⟨"GenuineIntel".toList, CPUModels.ICELAKE_X, [0, 1, 2, 3],
   fun _ => ["hwp".toList, "hwp_epp".toList, "hwp_pkg_req".toList, "epb".toList],
   [[0, 2], [1, 3]], 1, fun c => .ok (if c = 0 then 1 else 0)⟩

theorem exPartition : Partition exHost := by
  have key : ∀ p ∈ [[0, 2], [1, 3]], ∀ q ∈ [[0, 2], [1, 3]], ∀ c ∈ p, c ∈ q → p = q := by decide
  exact ⟨by decide, by decide, fun p hp q hq c h1 h2 => key p hp q hq c h1 h2⟩

theorem of_check {H : Host} {m : Module} (p : Finfo → Bool)
    (h : (match create H m with
      | .ok fs => fs.any p
      | .error _ => false) = true) : ∃ fs, create H m = .ok fs ∧ ∃ f ∈ fs, p f = true := by
  cases hc : create H m with
  | error e => rw [hc] at h; cases h
  | ok fs =>
    rw [hc] at h
    exact ⟨fs, rfl, List.any_eq_true.1 h⟩

/-- Hypotheses of `C104_supported`: EPP is supported on CPU 2, the package of which has HWP on, and not on CPU 3. -/
example : ∃ fs, create exHost .hwpRequest = .ok fs ∧ ∃ f ∈ fs, f.name = "epp".toList ∧ f.supported 2 = true ∧
    f.supported 3 = false := by
  obtain ⟨fs, h, f, hf, hp⟩ := of_check (H := exHost) (m := .hwpRequest)
    (fun f => decide (f.name = "epp".toList) && f.supported 2 && !f.supported 3) (by decide +kernel)
  simp only [Bool.and_eq_true, decide_eq_true_eq, Bool.not_eq_true'] at hp
  exact ⟨fs, h, f, hf, hp.1.1, hp.1.2, hp.2⟩

/-- Hypotheses of `C104_refused`: there is no FSB register on Ice Lake, and no registers at all on AMD processors. -/
example : create exHost .fsbFreq = .error .notSupported ∧
    create { exHost with vendor := "AuthenticAMD".toList } .powerCtl = .error .notSupported := by
  refine ⟨C104_refused _ _ (Or.inr ?_), C104_refused _ _ (Or.inl (by decide +kernel))⟩
  have key : ∀ f ∈ FSBFreq.features, f.cpumodels.all (fun l => decide (CPUModels.ICELAKE_X ∉ l)) = true ∧
      f.cpumodels.isSome = true := by decide +kernel
  intro f hf c hh
  obtain ⟨h1, h2⟩ := key f hf
  cases hm : f.cpumodels with
  | none => rw [hm] at h2; cases h2
  | some l =>
    rw [hm] at h1
    exact of_decide_eq_true h1 (hh.2.1 l hm)

/-- The prefetchers are in different bits on Xeon Phi, and the lock bit of the package C-state limit stays when the limit is set. -/
example : (∃ fs, create { exHost with model := CPUModels.XEON_PHI_KNL } .miscFeatureControl = .ok fs ∧
      ∃ f ∈ fs, f.name = "dcu_hw_prefetcher".toList ∧ f.bits = some (0, 0)) ∧
    ∃ fs, create exHost .miscFeatureControl = .ok fs ∧ ∃ f ∈ fs, f.name = "dcu_hw_prefetcher".toList ∧ f.bits = some (2, 2) := by
  constructor
  · obtain ⟨fs, h, f, hf, hp⟩ := of_check (H := { exHost with model := CPUModels.XEON_PHI_KNL }) (m := .miscFeatureControl)
      (fun f => decide (f.name = "dcu_hw_prefetcher".toList ∧ f.bits = some (0, 0))) (by decide +kernel)
    exact ⟨fs, h, f, hf, of_decide_eq_true hp⟩
  · obtain ⟨fs, h, f, hf, hp⟩ := of_check (H := exHost) (m := .miscFeatureControl)
      (fun f => decide (f.name = "dcu_hw_prefetcher".toList ∧ f.bits = some (2, 2))) (by decide +kernel)
    exact ⟨fs, h, f, hf, of_decide_eq_true hp⟩

/-- Package scope registers: the CPUs 0 and 2, and the CPUs 1 and 3. -/
def exMachine : Nat → RegFile.Env := fun _ => ⟨fun a b => a % 2 == b % 2, fun _ => none⟩

example : Machine exMachine (fun _ c => if c % 2 = 0 then 0x1f1f else 5) := by
  refine ⟨fun _ => ⟨by simp [exMachine], ?_, ?_⟩, ?_, ?_⟩
  · intro c d h
    simp only [exMachine, beq_iff_eq] at h ⊢
    omega
  · intro a b c h h'
    simp only [exMachine, beq_iff_eq] at h h' ⊢
    omega
  · intro _ c d h
    simp only [exMachine, beq_iff_eq] at h
    dsimp only
    rw [h]
  · intro _ c
    unfold RegFile.Reg64
    split <;> decide

/-- Hypotheses of `C104_independent`, `C104_numbers` and `C104_names`: the minimum ratio is set, the limit "pc6n" is an alias of "PC6",
and "c1_demotion" is set with True. -/
example : (∃ fs, create exHost .uncoreRatioLimit = .ok fs ∧ ∃ f ∈ fs, f.name = "min_ratio".toList ∧ f.vals = [] ∧ f.writable = true ∧
      ∀ c ∈ exHost.cpus, f.supported c = true) ∧
    (∃ fs, create exHost .pcStateConfigCtl = .ok fs ∧ ∃ f ∈ fs, f.bits = some (2, 0) ∧ f.writable = true ∧ f.supported 0 = true ∧
      FeaturedMSR.Means (f.feature (2, 0)) (.str "pc6n".toList) "PC6".toList) ∧
    ∃ fs, create exHost .pcStateConfigCtl = .ok fs ∧ ∃ f ∈ fs, f.bits = some (26, 26) ∧ f.writable = true ∧ f.supported 0 = true ∧
      FeaturedMSR.Means (f.feature (26, 26)) (.bool true) "on".toList := by
  refine ⟨?_, ?_, ?_⟩
  · obtain ⟨fs, h, f, hf, hp⟩ := of_check (H := exHost) (m := .uncoreRatioLimit)
      (fun f => decide (f.name = "min_ratio".toList ∧ f.vals = [] ∧ f.writable = true ∧ ∀ c ∈ exHost.cpus, f.supported c = true))
      (by decide +kernel)
    exact ⟨fs, h, f, hf, of_decide_eq_true hp⟩
  · obtain ⟨fs, h, f, hf, hp⟩ := of_check (H := exHost) (m := .pcStateConfigCtl)
      (fun f => decide (f.bits = some (2, 0) ∧ f.writable = true ∧ f.supported 0 = true ∧
        f.aliases = some [("PC6N".toList, "PC6".toList)])) (by decide +kernel)
    obtain ⟨h1, h2, h3, h4⟩ := of_decide_eq_true hp
    exact ⟨fs, h, f, hf, h1, h2, h3, Or.inr ⟨"PC6N".toList, ⟨_, h4, by simp⟩, by decide +kernel⟩⟩
  · obtain ⟨fs, h, f, hf, hp⟩ := of_check (H := exHost) (m := .pcStateConfigCtl)
      (fun f => decide (f.bits = some (26, 26) ∧ f.writable = true ∧ f.supported 0 = true ∧
        f.isBool = true ∧ ("on".toList, 1) ∈ f.vals)) (by decide +kernel)
    obtain ⟨h1, h2, h3, h4, h5⟩ := of_decide_eq_true hp
    exact ⟨fs, h, f, hf, h1, h2, h3, h4, ⟨1, h5⟩, rfl⟩

/-- Hypotheses of `C104_read_only`. -/
example : ∃ fs, create exHost .pcStateConfigCtl = .ok fs ∧ ∃ f ∈ fs, f.name = "pkg_cstate_limit_lock".toList ∧
    f.supported 0 = true ∧ f.writable = false := by
  obtain ⟨fs, h, f, hf, hp⟩ := of_check (H := exHost) (m := .pcStateConfigCtl)
    (fun f => decide (f.name = "pkg_cstate_limit_lock".toList ∧ f.supported 0 = true ∧ f.writable = false)) (by decide +kernel)
  exact ⟨fs, h, f, hf, of_decide_eq_true hp⟩

/-- C104: the uncore ratio limit has no I/O scope. -/
theorem C104_scopes_counterexample : ∃ fs, create exHost .uncoreRatioLimit = .ok fs ∧ ∃ f ∈ fs,
    f.name = "max_ratio".toList ∧ f.supported 0 = true ∧ f.sname = some (.lvl .package) ∧ f.iosname = none := by
  obtain ⟨fs, h, f, hf, hp⟩ := of_check (H := exHost) (m := .uncoreRatioLimit)
    (fun f => decide (f.name = "max_ratio".toList ∧ f.supported 0 = true ∧ f.sname = some (.lvl .package) ∧ f.iosname = none))
    (by decide +kernel)
  exact ⟨fs, h, f, hf, of_decide_eq_true hp⟩

end Verif.MSRFeatures
