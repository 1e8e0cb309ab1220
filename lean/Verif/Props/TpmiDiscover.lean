import Verif.Lemmas.TpmiDiscover
import Verif.Props.Tpmi
import Verif.Props.TpmiSpecFile

/-!
C90 The known TPMI features are those which have a spec file and are on a device, and devices are in the package
the hardware says.
-/

namespace Verif.Tpmi

/-! ### Spec files -/

/-- **C90.** A feature has the description, the ID and the path of the last file which describes a feature of that
name; all other files do not matter. -/
theorem C90_specs {W : Type} (K : Kernel W) (w : W) (dirs : List (List SpecFile)) (root : Root) (D : Found)
    (h : discover K w dirs root = .ok D) (f : PyStr) (s : SDict) :
    D.sdicts.get? f = some s ↔ LastNamed (allFiles 0 dirs) f s := by
  obtain ⟨devs, s', -, hsd, -⟩ := discover_ok h
  rw [buildSdicts_ok hsd]
  exact get?_addFile _ f s

/-- **C90.** The scan of the spec directories succeeds if there are at most 32 files which are not YAML, 4 broken
and 256 good spec files in each of them, and at least one good file. -/
theorem C90_scan (dirs : List (List SpecFile)) (hs : ∀ i (h : i < dirs.length), Scannable i dirs[i])
    (x : Nat × SpecFile) (hx : x ∈ allFiles 0 dirs) (s : SDict) (hd : Describes x s) :
    ∃ sd, buildSdicts dirs = .ok sd := by
  obtain ⟨r, hr⟩ := scanDirs_works (i := 0) (d := []) (fun k h => by rw [Nat.zero_add]; exact hs k h)
  unfold buildSdicts
  rw [hr]
  dsimp only
  split
  · next he =>
    exfalso
    have hemp : r = [] := by simpa using he
    have hr' := scanDirs_ok hr
    rw [hemp] at hr'
    have hne : ∀ (l : List (Nat × SpecFile)) (d : Dict PyStr SDict), (x ∈ l ∨ d ≠ []) → l.foldl addFile d ≠ [] := by
      intro l
      induction l with
      | nil =>
        rintro d (h | h)
        · cases h
        · exact h
      | cons y l ih =>
        intro d h
        apply ih
        rcases h with h | h
        · rcases List.mem_cons.1 h with rfl | h
          · right
            have := (describes_iff _ _).1 hd
            unfold addFile
            rw [if_pos this.1, this.2]
            dsimp only
            intro e
            have hk := Dict.mem_keys_set d s.name s.name s
            rw [e] at hk
            exact absurd (hk.2 (.inl rfl)) (fun h => nomatch h)
          · exact .inl h
        · right
          unfold addFile
          split
          · split
            · next t _ =>
              intro e
              have hk := Dict.mem_keys_set d t.name t.name t
              rw [e] at hk
              exact absurd (hk.2 (.inl rfl)) (fun h => nomatch h)
            · exact h
          · exact h
    exact hne _ _ (.inl hx) hr'.symm
  · exact ⟨r, rfl⟩

/-! ### Features and devices -/

theorem listed_iff {root devs : Root} {sd : Dict PyStr SDict} (hnd : sd.keys.Nodup) (hdev : tpmiDirs root = .ok devs)
    (f a : PyStr) : (Listed (collect (fid2fname sd) devs [] []).1 f a → ∃ s, sd.get? f = some s ∧ HasDir root a s.fid) ∧
    ((∀ f s, sd.get? f = some s → f ≠ []) → (∀ f g s t, sd.get? f = some s → sd.get? g = some t → s.fid = t.fid → f = g) →
      (∃ s, sd.get? f = some s ∧ HasDir root a s.fid) → Listed (collect (fid2fname sd) devs [] []).1 f a) := by
  obtain ⟨-, h2, -⟩ := collect_spec (fid2fname sd) devs [] [] lists_nil
  rw [h2]
  constructor
  · rintro (h | ⟨-, ents, hm, n, hn, i, hi, hf⟩)
    · cases h
    · obtain ⟨s, h1, h2⟩ := fid2fname_sound hnd hf
      obtain ⟨t, ht, hx, hv⟩ := (featureId_iff n i).1 hi
      exact ⟨s, h1, ents, t, (tpmiDirs_ok hdev a ents).1 hm, ht ▸ hn, hx, by rw [hv, h2]⟩
  · rintro hne hinj ⟨s, hs, ents, t, hm, hn, hx, hv⟩
    obtain ⟨g, hg⟩ := fid2fname_some hs
    obtain ⟨s', hs', he⟩ := fid2fname_sound hnd hg
    have : g = f := hinj g f s' s hs' hs he
    subst this
    exact .inr ⟨hne _ _ hs, ents, (tpmiDirs_ok hdev a ents).2 hm, _, hn, hexVal t, (featureId_iff _ _).2 ⟨t, rfl, hx, rfl⟩,
      by rw [hv]; exact hg⟩

theorem discover_inv {W : Type} {K : Kernel W} {w : W} {dirs : List (List SpecFile)} {root : Root} {D : Found}
    (h : discover K w dirs root = .ok D) :
    D.sdicts.keys.Nodup ∧ ∃ devs s, tpmiDirs root = .ok devs ∧ D.sdicts.get? kInfo = some s ∧ MInv K w dirs s.fid.toNat D.maps ∧
      (∀ g b, (∃ p, D.package? g b = some p) ↔ ∃ f, (g = f ∨ g = kInfo) ∧ Listed (collect (fid2fname D.sdicts) devs [] []).1 f b) ∧
      (∀ g, g ∈ D.maps.fmaps.keys ↔ ∃ b, Listed (collect (fid2fname D.sdicts) devs [] []).1 g b) ∧
      D.unknown = (collect (fid2fname D.sdicts) devs [] []).2 := by
  obtain ⟨devs, s, hdev, hsd, hs, ⟨li, hli⟩, hadd, hunk⟩ := discover_ok h
  have hnd : D.sdicts.keys.Nodup := by
    rw [buildSdicts_ok hsd]
    exact nodup_addFile _ List.nodup_nil
  obtain ⟨hl, -, -⟩ := collect_spec (fid2fname D.sdicts) devs [] [] lists_nil
  obtain ⟨hi, h1, h2⟩ := addFeatures_spec (init_inv K w dirs s.fid.toNat) hadd
  have h0 : ∀ g b, ¬∃ p, Maps.pkg ⟨[(kInfo, [])], [], []⟩ g b = some p := by
    rintro g b ⟨p, hp⟩
    obtain ⟨d, -, hd⟩ := (init_inv K w dirs s.fid.toNat).read b p ((init_inv K w dirs s.fid.toNat).same g b p hp)
    cases hd
  refine ⟨hnd, devs, s, hdev, hs, hi, fun g b => ?_, fun g => ?_, hunk⟩
  · generalize (collect (fid2fname D.sdicts) devs [] []).1 = c at hl hli hadd h1 h2 ⊢
    rw [Found.package?_eq, h1]
    constructor
    · rintro (h | ⟨x, hx, hg, hb⟩)
      · exact absurd h (h0 g b)
      · refine ⟨x.1, hg, ?_⟩
        unfold Listed
        rw [Dict.get?_of_mem hl.1 (show (x.1, x.2) ∈ c from hx)]
        exact hb
    · rintro ⟨f, hg, hb⟩
      unfold Listed at hb
      cases hf : c.get? f with
      | none => rw [hf] at hb; cases hb
      | some l =>
        rw [hf] at hb
        exact .inr ⟨(f, l), Dict.mem_of_get? hf, hg, hb⟩
  · generalize (collect (fid2fname D.sdicts) devs [] []).1 = c at hl hli hadd h1 h2 ⊢
    have key : ∀ g, (∃ x ∈ c, g = x.1) ↔ ∃ b, Listed c g b := by
      intro g
      constructor
      · rintro ⟨x, hx, rfl⟩
        have hg := Dict.get?_of_mem hl.1 (show (x.1, x.2) ∈ c from hx)
        obtain ⟨b, hb⟩ := List.exists_mem_of_ne_nil _ (hl.2 _ _ hg)
        exact ⟨b, by unfold Listed; rw [hg]; exact hb⟩
      · rintro ⟨b, hb⟩
        unfold Listed at hb
        cases hf : c.get? g with
        | none => rw [hf] at hb; cases hb
        | some l => exact ⟨(g, l), Dict.mem_of_get? hf, rfl⟩
    rw [h2, ← key]
    constructor
    · rintro (h | h)
      · rw [show g = kInfo from List.mem_singleton.1 h]
        exact ⟨(kInfo, li), Dict.mem_of_get? hli, rfl⟩
      · exact h
    · exact .inr

/-- **C90.** A device has a feature exactly if there is a spec file for it and the device has the debugfs directory
with the ID of the spec file. -/
theorem C90_devices {W : Type} (K : Kernel W) (w : W) (dirs : List (List SpecFile)) (root : Root) (D : Found)
    (h : discover K w dirs root = .ok D) (hd : D.Distinct) (f a : PyStr) (hf : f ≠ "tpmi_info".toList) :
    (∃ p, D.package? f a = some p) ↔ ∃ s, D.sdicts.get? f = some s ∧ HasDir root a s.fid := by
  obtain ⟨hnd, devs, s, hdev, hs, hi, h1, -⟩ := discover_inv h
  rw [h1]
  constructor
  · rintro ⟨g, rfl | hg, hl⟩
    · exact (listed_iff hnd hdev f a).1 hl
    · exact absurd hg hf
  · intro hx
    exact ⟨f, .inl rfl, (listed_iff hnd hdev f a).2 hd.1 hd.2 hx⟩

/-- **C90.** The 'tpmi_info' feature is assumed to be on every device with a known feature. -/
theorem C90_info {W : Type} (K : Kernel W) (w : W) (dirs : List (List SpecFile)) (root : Root) (D : Found)
    (h : discover K w dirs root = .ok D) (hd : D.Distinct) (a : PyStr) :
    (∃ p, D.package? "tpmi_info".toList a = some p) ↔ ∃ f s, D.sdicts.get? f = some s ∧ HasDir root a s.fid := by
  obtain ⟨hnd, devs, s, hdev, hs, hi, h1, -⟩ := discover_inv h
  rw [h1]
  constructor
  · rintro ⟨g, -, hl⟩
    exact ⟨g, (listed_iff hnd hdev g a).1 hl⟩
  · rintro ⟨f, hx⟩
    exact ⟨f, .inr rfl, (listed_iff hnd hdev f a).2 hd.1 hd.2 hx⟩

/-- **C90.** Even if spec files share IDs: a device which is said to have a feature has the directory with its ID. -/
theorem C90_sound {W : Type} (K : Kernel W) (w : W) (dirs : List (List SpecFile)) (root : Root) (D : Found)
    (h : discover K w dirs root = .ok D) (f a : PyStr) (hf : f ≠ "tpmi_info".toList) (p : Nat) (hp : D.package? f a = some p) :
    ∃ s, D.sdicts.get? f = some s ∧ HasDir root a s.fid := by
  obtain ⟨hnd, devs, s, hdev, hs, hi, h1, -⟩ := discover_inv h
  obtain ⟨g, rfl | hg, hl⟩ := (h1 f a).1 ⟨p, hp⟩
  · exact (listed_iff hnd hdev f a).1 hl
  · exact absurd hg hf

/-- **C90.** The list of known features: every feature with a spec file which is on some device, once. -/
theorem C90_features {W : Type} (K : Kernel W) (w : W) (dirs : List (List SpecFile)) (root : Root) (D : Found)
    (h : discover K w dirs root = .ok D) (hd : D.Distinct) :
    ∃ l, knownFeatures D = .ok l ∧ (l.map SDict.name).Nodup ∧
      ∀ s, s ∈ l ↔ D.sdicts.get? s.name = some s ∧ ∃ a, HasDir root a s.fid := by
  have hspec := C90_specs K w dirs root D h
  obtain ⟨hnd, devs, s, hdev, hs, hi, -, h2, -⟩ := discover_inv h
  have hname : ∀ f s, D.sdicts.get? f = some s → s.name = f := by
    intro f s h
    obtain ⟨_, _, _, _, _, h, _⟩ := (hspec f s).1 h
    exact h
  have key : ∀ ks : List PyStr, (∀ f ∈ ks, ∃ s, D.sdicts.get? f = some s) →
      ∃ l : List SDict, (ks.mapM fun f => match D.sdicts.get? f with
        | some s => (.ok s : Except Exn SDict)
        | none => .error .pyKeyError) = .ok l ∧ l.map SDict.name = ks ∧
        ∀ s, s ∈ l ↔ D.sdicts.get? s.name = some s ∧ s.name ∈ ks := by
    intro ks
    induction ks with
    | nil => exact fun _ => ⟨[], rfl, rfl, fun s => by simp⟩
    | cons f ks ih =>
      intro hk
      obtain ⟨s, hs⟩ := hk f List.mem_cons_self
      obtain ⟨l, h1, h2, h3⟩ := ih fun g hg => hk g (List.mem_cons_of_mem _ hg)
      refine ⟨s :: l, ?_, ?_, ?_⟩
      · rw [List.mapM_cons, hs, h1]
        rfl
      · rw [List.map_cons, h2, hname f s hs]
      · intro t
        rw [List.mem_cons, h3, List.mem_cons]
        constructor
        · rintro (rfl | ⟨h, h'⟩)
          · rw [hname f t hs]
            exact ⟨hs, .inl rfl⟩
          · exact ⟨h, .inr h'⟩
        · rintro ⟨h, h' | h'⟩
          · rw [h', hs] at h
            cases h
            exact .inl rfl
          · exact .inr ⟨h, h'⟩
  obtain ⟨l, k1, k2, k3⟩ := key D.maps.fmaps.keys fun f hf => by
    obtain ⟨b, hb⟩ := (h2 f).1 hf
    obtain ⟨s, hs, -⟩ := (listed_iff hnd hdev f b).1 hb
    exact ⟨s, hs⟩
  refine ⟨l, k1, k2 ▸ hi.nodup, fun t => ?_⟩
  rw [k3]
  apply and_congr_right
  intro ht
  rw [h2]
  constructor
  · rintro ⟨b, hb⟩
    obtain ⟨t', ht', hdir⟩ := (listed_iff hnd hdev _ b).1 hb
    rw [ht] at ht'
    cases ht'
    exact ⟨b, hdir⟩
  · rintro ⟨b, hb⟩
    exact ⟨b, (listed_iff hnd hdev _ b).2 hd.1 hd.2 ⟨t, ht, hb⟩⟩

/-- **C90.** The unknown features are the IDs of debugfs directories no spec file is for. -/
theorem C90_unknown {W : Type} (K : Kernel W) (w : W) (dirs : List (List SpecFile)) (root : Root) (D : Found)
    (h : discover K w dirs root = .ok D) (hd : ∀ f s, D.sdicts.get? f = some s → f ≠ []) (i : Nat) :
    i ∈ unknownFeatures D ↔ (∃ a, HasDir root a i) ∧ ∀ f s, D.sdicts.get? f = some s → s.fid ≠ i := by
  obtain ⟨hnd, devs, s, hdev, hs, hi, -, -, hu⟩ := discover_inv h
  obtain ⟨-, -, h3⟩ := collect_spec (fid2fname D.sdicts) devs [] [] lists_nil
  unfold unknownFeatures
  rw [hu, h3]
  constructor
  · rintro (h | ⟨a, ents, hm, n, hn, hf, hx⟩)
    · cases h
    · obtain ⟨t, ht, hx', hv⟩ := (featureId_iff n i).1 hf
      refine ⟨⟨a, ents, t, (tpmiDirs_ok hdev a ents).1 hm, ht ▸ hn, hx', by rw [hv]⟩, ?_⟩
      intro f s hs he
      obtain ⟨g, hg⟩ := fid2fname_some hs
      rw [he] at hg
      rcases hx with hx | hx
      · rw [hx] at hg; cases hg
      · obtain ⟨s', hs', -⟩ := fid2fname_sound hnd hx
        exact hd _ _ hs' rfl
  · rintro ⟨⟨a, ents, t, hm, hn, hx, hv⟩, hnone⟩
    refine .inr ⟨a, ents, (tpmiDirs_ok hdev a ents).2 hm, _, hn, (featureId_iff _ _).2 ⟨t, rfl, hx, by exact_mod_cast hv⟩, .inl ?_⟩
    cases hg : (fid2fname D.sdicts).get? (i : Int) with
    | none => rfl
    | some g =>
      obtain ⟨s', hs', he⟩ := fid2fname_sound hnd hg
      exact absurd he (hnone _ _ hs')

/-! ### Packages -/

/-- **C90.** The package of a device, for every feature, is the bit field PACKAGE_ID of the register TPMI_BUS_INFO,
instance 0, of the 'tpmi_info' feature of that device, with the bits and the offset in the spec file. -/
theorem C90_package (M : Machine) (hM : M.WF) (m : Mem) (hm : m.Words) (dirs : List (List SpecFile)) (root : Root) (D : Found)
    (h : discover M.kernel m dirs root = .ok D) (f a : PyStr) (p : Nat) (hp : D.package? f a = some p) :
    ∃ s y regs R F, D.sdicts.get? "tpmi_info".toList = some s ∧
      FirstFile dirs "tpmi_info.yml".toList y ∧ Says y regs ∧ R ∈ regs ∧ R.name = "TPMI_BUS_INFO".toList ∧
      F ∈ R.fields ∧ F.name = "PACKAGE_ID".toList ∧ 0 ≤ R.offset ∧
      RegShown (M.lay (a, s.fid.toNat)) 0 ⟨R.offset.toNat, R.width, []⟩ ∧
      ∀ k, p.testBit k = (decide (F.lo + k ≤ F.hi) &&
        (regVal m (a, s.fid.toNat) 0 ⟨R.offset.toNat, R.width, []⟩).testBit (F.lo + k)) := by
  obtain ⟨hnd, devs, s, hdev, hs, hi, -⟩ := discover_inv h
  rw [Found.package?_eq] at hp
  obtain ⟨d, hr, -⟩ := hi.read a p (hi.same f a p hp)
  obtain ⟨-, fd, R, F, h1, h2, h3, h4, h5⟩ := (readPackage_ok hM hm).1 hr
  obtain ⟨y, sfd, hy, hf, rfl⟩ := getFdict_spec h1
  obtain ⟨regs, hsays, hmeans⟩ := C89_accepted y sfd hf
  obtain ⟨S, hS, rfl⟩ := get?_map_reg h2
  obtain ⟨Rd, hRd, e1, e2, e3, e4⟩ := hmeans.mem _ hS
  obtain ⟨Fd, hFd, e5, e6, -⟩ := e4.mem _ (Dict.mem_of_get? h3)
  dsimp only at e1 e2 e3 e5
  have hnn : 0 ≤ S.offset := by
    apply Classical.byContradiction
    intro hn
    have := h4.1
    unfold SpecReg.reg at this
    dsimp only at this
    rw [if_pos (by omega)] at this
    exact absurd this (by decide)
  have hreg : S.reg = ⟨Rd.offset.toNat, Rd.width, S.fields⟩ := by
    unfold SpecReg.reg
    rw [if_neg (by omega), e2, e3]
  rw [hreg] at h4 h5
  refine ⟨s, y, regs, Rd, Fd, hs, ?_, hsays, hRd, e1.symm, hFd, e5.symm, by omega, h4, fun k => ?_⟩
  · exact hy
  · rw [h5]
    exact e6 _ k

/-- **C90.** The packages are those of the devices, each once. -/
theorem C90_packages {W : Type} (K : Kernel W) (w : W) (dirs : List (List SpecFile)) (root : Root) (D : Found)
    (h : discover K w dirs root = .ok D) :
    (D.env dirs).packages.Nodup ∧ ∀ p, p ∈ (D.env dirs).packages ↔ ∃ f a, D.package? f a = some p := by
  obtain ⟨hnd, devs, s, hdev, hs, hi, -⟩ := discover_inv h
  refine ⟨hi.pkgs, fun p => ?_⟩
  show p ∈ D.maps.pkg2addrs.keys ↔ _
  constructor
  · intro hp
    cases hl : D.maps.pkg2addrs.get? p with
    | none => exact absurd hp ((Dict.get?_eq_none_iff _ _).1 hl)
    | some l =>
      obtain ⟨a, ha⟩ := List.exists_mem_of_ne_nil _ (hi.some p l hl)
      refine ⟨kInfo, a, ?_⟩
      rw [Found.package?_eq]
      exact (hi.addrs p a).1 (by rw [hl]; exact ha)
  · rintro ⟨f, a, hp⟩
    rw [Found.package?_eq] at hp
    have := (hi.addrs p a).2 (hi.same f a p hp)
    apply Classical.byContradiction
    intro hn
    rw [(Dict.get?_eq_none_iff _ _).2 hn] at this
    cases this

/-! ### What the other properties assume -/

/-- **C90.** The registers are as C48 to C51 and C66 assume, and the devices and features are listed once. -/
theorem C90_env {W : Type} (K : Kernel W) (w : W) (dirs : List (List SpecFile)) (root : Root) (D : Found)
    (h : discover K w dirs root = .ok D) :
    (D.env dirs).Valid ∧ (D.env dirs).fmaps.keys.Nodup ∧
    (∀ f fm, (D.env dirs).fmaps.get? f = some fm → fm.keys.Nodup ∧ ∀ a p, fm.get? a = some p ↔ D.package? f a = some p) ∧
    ∀ f s, D.sdicts.get? f = some s → (D.env dirs).fid f = s.fid.toNat := by
  obtain ⟨hnd, devs, s, hdev, hs, hi, -⟩ := discover_inv h
  refine ⟨?_, hi.nodup, fun f fm hf => ⟨hi.nodups f fm hf, fun a p => ?_⟩, fun f s hs => ?_⟩
  · intro f r R hR
    unfold getReg Found.env at hR
    dsimp only at hR
    cases hg : getFdict dirs f with
    | error e => rw [hg] at hR; cases hR
    | ok fd =>
      rw [hg] at hR
      dsimp only at hR
      cases hr : fd.get? r with
      | none => rw [hr] at hR; cases hR
      | some R' =>
        rw [hr] at hR
        cases hR
        obtain ⟨y, sfd, -, hf, rfl⟩ := getFdict_spec hg
        obtain ⟨S, hS, rfl⟩ := get?_map_reg hr
        exact (C89_width y sfd hf _ hS).1
  · have hf : D.maps.fmaps.get? f = some fm := hf
    unfold Found.package?
    rw [hf]
    rfl
  · unfold Found.env
    dsimp only
    rw [hs]

theorem set_absent {κ β : Type} [DecidableEq κ] (d : Dict κ β) (k : κ) (v : β) (h : k ∉ d.keys) : d.set k v = d ++ [(k, v)] := by
  induction d with
  | nil => rfl
  | cons p d ih =>
    obtain ⟨k', v'⟩ := p
    have h1 : k' ≠ k := fun e => h (e ▸ List.mem_cons_self)
    have h2 : k ∉ Dict.keys d := fun h' => h (List.mem_cons_of_mem _ h')
    rw [Dict.set, if_neg h1]
    exact congrArg _ (ih h2)

theorem dict_eq_map {κ β α : Type} [DecidableEq κ] (d : Dict κ β) (as : List α) (k : α → κ) (g : α → β) (hk : d.keys = as.map k)
    (hnd : d.keys.Nodup) (hg : ∀ a ∈ as, d.get? (k a) = some (g a)) : d = as.map fun a => (k a, g a) := by
  induction as generalizing d with
  | nil =>
    cases d with
    | nil => rfl
    | cons p d => cases hk
  | cons a as ih =>
    cases d with
    | nil => cases hk
    | cons p d =>
      obtain ⟨k', v⟩ := p
      have hk1 : k' = k a := (List.cons.inj hk).1
      have hk2 : Dict.keys d = as.map k := (List.cons.inj hk).2
      subst hk1
      have hv := hg a List.mem_cons_self
      rw [Dict.get?, if_pos rfl] at hv
      cases hv
      have hnd' := List.nodup_cons.1 hnd
      rw [List.map_cons, ← ih d hk2 hnd'.2]
      intro b hb
      have := hg b (List.mem_cons_of_mem _ hb)
      rwa [Dict.get?, if_neg] at this
      intro e
      refine hnd'.1 ?_
      show k a ∈ Dict.keys d
      rw [hk2, e]
      exact List.mem_map.2 ⟨b, hb, rfl⟩

/-- **C90.** After the discovery, the object is in a state of an execution, in the sense of C48 to C51 and C66: that of
reading the register TPMI_BUS_INFO of every device. -/
theorem C90_start (M : Machine) (hM : M.WF) (m : Mem) (hm : m.Words) (dirs : List (List SpecFile)) (root : Root) (D : Found)
    (h : discover M.kernel m dirs root = .ok D) :
    ∃ ops, run M.kernel (D.env dirs) m ops = ⟨m, D.maps.mdmaps⟩ := by
  obtain ⟨hV, -, -, hfid⟩ := C90_env M.kernel m dirs root D h
  obtain ⟨hnd, devs, s, hdev, hs, hi, -⟩ := discover_inv h
  obtain ⟨fm, hfm⟩ : ∃ fm, D.maps.fmaps.get? kInfo = some fm := by
    cases hg : D.maps.fmaps.get? kInfo with
    | none => exact absurd hi.info ((Dict.get?_eq_none_iff _ _).1 hg)
    | some fm => exact ⟨fm, rfl⟩
  have hfid : (D.env dirs).fid kInfo = s.fid.toNat := hfid _ _ hs
  let dm : PyStr → Mdmap := fun a => match buildMdmap (M.kernel.dump m (a, s.fid.toNat)) with
    | .ok d => d
    | .error _ => []
  have hdm : ∀ a, buildMdmap (M.kernel.dump m (a, s.fid.toNat)) = .ok (dm a) := by
    intro a
    obtain ⟨d, hd, -⟩ := buildMdmap_mapOf hM m (a, s.fid.toNat)
    show _ = Except.ok (match buildMdmap (M.kernel.dump m (a, s.fid.toNat)) with
      | .ok d => d
      | .error _ => [])
    rw [hd]
  have hpk : ∀ a p, D.maps.pkg kInfo a = some p ↔ fm.get? a = some p := by
    intro a p
    unfold Maps.pkg
    rw [hfm]
    rfl
  have hmd : D.maps.mdmaps = fm.keys.map fun a => ((kInfo, a), dm a) := by
    have ho := hi.order
    rw [hfm, Option.getD_some] at ho
    refine dict_eq_map _ _ _ _ ho ?_ ?_
    · rw [ho]
      refine List.Pairwise.map _ (fun a b hab e => hab (Prod.mk.inj e).2) (hi.nodups _ _ hfm)
    · intro a ha
      cases hp : fm.get? a with
      | none => exact absurd ha ((Dict.get?_eq_none_iff _ _).1 hp)
      | some p =>
        obtain ⟨d, hr, hd⟩ := hi.read a p ((hpk a p).2 hp)
        obtain ⟨hb, -⟩ := (readPackage_ok hM hm).1 hr
        rw [hdm a] at hb
        cases hb
        exact hd
  have step : ∀ (as : List PyStr) (c : Dict (PyStr × PyStr) Mdmap), as.Nodup → (∀ a ∈ as, a ∈ fm.keys) →
      (∀ a ∈ as, (kInfo, a) ∉ c.keys) →
      (as.map fun a => Op.read kInfo a 0 "TPMI_BUS_INFO".toList none).foldl (fun s op => op.run M.kernel (D.env dirs) s) ⟨m, c⟩ =
        ⟨m, c ++ as.map fun a => ((kInfo, a), dm a)⟩ := by
    intro as
    induction as with
    | nil => intro c _ _ _; rw [List.map_nil, List.foldl_nil, List.map_nil, List.append_nil]
    | cons a as ih =>
      intro c hn hk hc
      have hn' := List.nodup_cons.1 hn
      have hone : Op.run M.kernel (D.env dirs) (.read kInfo a 0 "TPMI_BUS_INFO".toList none) ⟨m, c⟩ =
          ⟨m, c ++ [((kInfo, a), dm a)]⟩ := by
        obtain ⟨p, hp⟩ : ∃ p, fm.get? a = some p := by
          cases hp : fm.get? a with
          | none => exact absurd (hk a List.mem_cons_self) ((Dict.get?_eq_none_iff _ _).1 hp)
          | some p => exact ⟨p, rfl⟩
        obtain ⟨d, hr, hd⟩ := hi.read a p ((hpk a p).2 hp)
        obtain ⟨-, fd, R, F, hfd, hR, -⟩ := (readPackage_ok hM hm).1 hr
        have hva : validateAddr (D.env dirs) kInfo a = .ok () := by
          unfold validateAddr
          have : (D.env dirs).fmaps.get? kInfo = some fm := hfm
          rw [this]
          dsimp only
          rw [hp]
          rfl
        have hvr : validateReg (D.env dirs) kInfo "TPMI_BUS_INFO".toList none = .ok () := by
          refine validateReg_ok.2 ⟨R, ?_, fun x hx => nomatch hx⟩
          unfold getReg Found.env
          dsimp only
          rw [hfd]
          dsimp only
          rw [hR]
        have hg : getMdmap M.kernel (D.env dirs) kInfo a ⟨m, c⟩ = (⟨m, c ++ [((kInfo, a), dm a)]⟩, .ok (dm a)) := by
          have hnone : c.get? (kInfo, a) = none := (Dict.get?_eq_none_iff _ _).2 (hc a List.mem_cons_self)
          unfold getMdmap
          dsimp only
          rw [hnone, hfid, hdm a]
          dsimp only
          rw [set_absent _ _ _ (hc a List.mem_cons_self)]
        show (readRegister M.kernel (D.env dirs) kInfo a 0 "TPMI_BUS_INFO".toList none ⟨m, c⟩).1 = _
        unfold readRegister validateInstance
        rw [hva]
        dsimp only
        rw [hvr]
        dsimp only
        rw [hg]
        dsimp only
        by_cases h0 : ((dm a).get? 0).isSome = true
        · rw [if_pos h0]
        · rw [if_neg h0]
      rw [List.map_cons, List.foldl_cons, hone, ih _ hn'.2 (fun b hb => hk b (List.mem_cons_of_mem _ hb))]
      · rw [List.append_assoc]; rfl
      · intro b hb hm'
        unfold Dict.keys at hm'
        rw [List.map_append, List.mem_append] at hm'
        rcases hm' with hm' | hm'
        · exact hc b (List.mem_cons_of_mem _ hb) hm'
        · have := List.mem_singleton.1 hm'
          cases this
          exact hn'.1 hb
  refine ⟨fm.keys.map fun a => Op.read kInfo a 0 "TPMI_BUS_INFO".toList none, ?_⟩
  unfold run
  rw [step fm.keys [] (hi.nodups _ _ hfm) (fun a h => h) (fun a _ h => nomatch h), hmd]
  rfl

/-- **C90.** The discovery succeeds if the scan does, the spec file of 'tpmi_info' is well-formed, the feature is on some
device, and the package register of every device with a known feature is in the memory dump. -/
theorem C90_works (M : Machine) (hM : M.WF) (m : Mem) (hm : m.Words) (dirs : List (List SpecFile)) (root : Root)
    (sd : Dict PyStr SDict) (hsd : buildSdicts dirs = .ok sd)
    (hdist : ∀ f g s t, sd.get? f = some s → sd.get? g = some t → s.fid = t.fid → f = g)
    (hne : ∀ f s, sd.get? f = some s → f ≠ [])
    (s : SDict) (hs : sd.get? "tpmi_info".toList = some s) (b : PyStr) (hb : HasDir root b s.fid)
    (hnames : ∀ d ∈ dirs, (d.map SpecFile.name).Nodup) (y : Yaml) (hy : FirstFile dirs "tpmi_info.yml".toList y)
    (regs : List RegDef) (hsays : Says y regs) (hregs : (regs.map RegDef.name).Nodup) (Rd : RegDef) (hRd : Rd ∈ regs)
    (hRn : Rd.name = "TPMI_BUS_INFO".toList) (hfields : (Rd.fields.map FieldDef.name).Nodup) (Fd : FieldDef)
    (hFd : Fd ∈ Rd.fields) (hFn : Fd.name = "PACKAGE_ID".toList) (hoff : 0 ≤ Rd.offset)
    (hshown : ∀ f t a, sd.get? f = some t → HasDir root a t.fid →
      RegShown (M.lay (a, s.fid.toNat)) 0 ⟨Rd.offset.toNat, Rd.width, []⟩) :
    ∃ D, discover M.kernel m dirs root = .ok D ∧ D.sdicts = sd := by
  obtain ⟨sfd, hfmt, hmeans⟩ := C89_accepts y regs hsays
  have hfd : getFdict dirs kInfo = .ok (sfd.map fun p => (p.1, p.2.reg)) := getFdict_complete hnames hy hfmt
  obtain ⟨S, hS, -, hSo, hSw, hSf⟩ := hmeans.get? (nm := RegDef.name) (fun a b h => h.1) hregs Rd hRd
  obtain ⟨F, hF, -⟩ := hSf.get? (nm := FieldDef.name) (fun a b h => h.1) hfields Fd hFd
  rw [hRn] at hS
  rw [hFn] at hF
  have hR := get?_map_some hS
  have hF : S.reg.fields.get? "PACKAGE_ID".toList = some F := hF
  have hshown : ∀ f t a, sd.get? f = some t → HasDir root a t.fid → RegShown (M.lay (a, s.fid.toNat)) 0 S.reg := by
    intro f t a ht hd
    have := hshown f t a ht hd
    have e : S.reg = ⟨Rd.offset.toNat, Rd.width, S.fields⟩ := by
      unfold SpecReg.reg
      dsimp only at hSo hSw
      rw [if_neg (by omega), hSo, hSw]
    rw [e]
    exact this
  generalize S.reg = R at hR hF hshown
  generalize (sfd.map fun p => (p.1, p.2.reg)) = fd at hfd hR
  have hnd : sd.keys.Nodup := by
    rw [buildSdicts_ok hsd]
    exact nodup_addFile _ List.nodup_nil
  obtain ⟨devs, hdev⟩ : ∃ devs, tpmiDirs root = .ok devs := by
    obtain ⟨ents, t, hm', -⟩ := hb
    unfold tpmiDirs
    split
    · next he =>
      have : (b, ents) ∈ root.filterMap (fun d => (stripPrefix "tpmi-".toList d.1).map fun a => (a, d.2)) :=
        List.mem_filterMap.2 ⟨_, hm', by dsimp only; rw [stripPrefix_append]; rfl⟩
      rw [he] at this
      cases this
    · exact ⟨_, rfl⟩
  have hL := (listed_iff hnd hdev kInfo b).2 hne hdist ⟨s, hs, hb⟩
  obtain ⟨hl, -, -⟩ := collect_spec (fid2fname sd) devs [] [] lists_nil
  have hall : ∀ f a, Listed (collect (fid2fname sd) devs [] []).1 f a → ∃ r, readPackage M.kernel m dirs s.fid.toNat a = .ok r := by
    intro f a hla
    obtain ⟨t, ht, hd⟩ := (listed_iff hnd hdev f a).1 hla
    obtain ⟨d, hd', -⟩ := buildMdmap_mapOf hM m (a, s.fid.toNat)
    exact ⟨(d, _), (readPackage_ok hM hm).2 ⟨hd', fd, R, F, hfd, hR, hF, hshown f t a ht hd, rfl⟩⟩
  unfold discover
  rw [hdev]
  dsimp only
  rw [hsd]
  dsimp only
  unfold buildFmaps
  dsimp only
  generalize collect (fid2fname sd) devs [] [] = c at hL hl hall ⊢
  unfold Listed at hL
  cases hk : c.1.get? kInfo with
  | none => rw [hk] at hL; cases hL
  | some li =>
    have hce : c.1.isEmpty = false := by
      cases hc : c.1 with
      | nil => rw [hc] at hk; cases hk
      | cons _ _ => rfl
    rw [hce, if_neg (by decide), if_neg (by rw [Option.isNone_some]; decide)]
    have hs : sd.get? kInfo = some s := hs
    rw [hs]
    dsimp only
    obtain ⟨M', hM'⟩ := addFeatures_works (K := M.kernel) (w := m) (dirs := dirs) (infoFid := s.fid.toNat) (l := c.1) (by
      intro x hx a ha
      refine hall x.1 a ?_
      unfold Listed
      rw [Dict.get?_of_mem hl.1 (show (x.1, x.2) ∈ c.1 from hx)]
      exact ha) ⟨[(kInfo, [])], [], []⟩
    rw [hM']
    exact ⟨_, rfl, rfl⟩

/-! ### A concrete system -/

/-- The head of a spec file, as the YAML parser sees it. -/
def exHead (name fid : String) : List Ev :=
  [.mark, .mark, .mark, .scalar "name".toList, .scalar name.toList, .scalar "desc".toList, .scalar "A feature".toList,
    .scalar "feature-id".toList, .scalar fid.toList, .scalar "registers".toList, .mark]

/-- A spec file: file name, feature name, feature ID, the registers. -/
def exSpec (file name fid : String) (regs : List (PyStr × Yaml)) : SpecFile :=
  ⟨file.toList, .ok (exHead name fid), .ok (exFile name 0 regs)⟩

/-- The spec file of 'tpmi_info'; the bits of the package number are a parameter. -/
def exInfo (bits : String) : SpecFile := exSpec "tpmi_info.yml" "tpmi_info" "0x81" [exRegY "TPMI_BUS_INFO" 8 64 [exBf "PACKAGE_ID" bits]]

/-- The spec file of the 'uncore' feature. -/
def exUncore : SpecFile := exSpec "uncore.yml" "uncore" "2" [exRegY "CTL" 0 32 []]

/-- Two devices; the second one has a feature which is not known. -/
def exRoot : Root :=
  [("tpmi-a".toList, ["tpmi-id-81".toList, "tpmi-id-02".toList]), ("tracing".toList, []),
   ("tpmi-b".toList, ["tpmi-id-81".toList, "tpmi-id-05".toList, "pfs_dump".toList, "tpmi-id-02".toList])]

/-- The memory: device "a" is in package 1, device "b" in package 0. -/
def exMemory : Mem := fun k _ o => if k.1 = "a".toList ∧ o = 8 then 0x100 else 0

/-- What was found: features with IDs, directories and files; devices and packages by feature; packages; unknown
features. -/
structure Seen where
  specs : List (String × Int × Nat × String)
  devices : List (String × List (String × Nat))
  packages : List Nat
  unknown : List Nat
  deriving DecidableEq

def seen (dirs : List (List SpecFile)) (root : Root) : Except Exn Seen :=
  match discover exMachine.kernel exMemory dirs root with
  | .error e => .error e
  | .ok D => .ok ⟨D.sdicts.map fun x => (String.ofList x.1, x.2.fid, x.2.dir, String.ofList x.2.file),
      D.maps.fmaps.map fun x => (String.ofList x.1, x.2.map fun y => (String.ofList y.1, y.2)),
      (D.env dirs).packages, unknownFeatures D⟩

/-- The discovery succeeds, with a file which is not YAML and a broken spec file: the hypotheses of the theorems. -/
example : seen [[⟨"README".toList, .error .error, .error .error⟩, exInfo "15:8",
      ⟨"broken.yml".toList, .ok (exHead "broken" "x"), .error .error⟩, exUncore]] exRoot =
    .ok ⟨[("tpmi_info", 0x81, 0, "tpmi_info.yml"), ("uncore", 2, 0, "uncore.yml")],
      [("tpmi_info", [("a", 1), ("b", 0)]), ("uncore", [("a", 1), ("b", 0)])], [1, 0], [5]⟩ := by
  decide +kernel

/-- The machine and the memory are as assumed. -/
example : exMachine.WF ∧ Mem.Words exMemory := by
  refine ⟨exMachine_wf, fun k i o => ?_⟩
  unfold exMemory
  split <;> decide

/-- The devices have the directories, in the sense of the specification. -/
example : HasDir exRoot "b".toList 0x81 ∧ HasDir exRoot "a".toList 2 := by
  refine ⟨⟨_, "81".toList, List.mem_cons_of_mem _ (List.mem_cons_of_mem _ List.mem_cons_self), List.mem_cons_self, ?_, ?_⟩,
    ⟨_, "02".toList, List.mem_cons_self, List.mem_cons_of_mem _ List.mem_cons_self, ?_, ?_⟩⟩
  · exact ⟨by decide, by decide +kernel⟩
  · decide +kernel
  · exact ⟨by decide, by decide +kernel⟩
  · decide +kernel

/-- A spec file which describes a feature, in the sense of the specification. -/
example : Describes (0, exUncore) ⟨"uncore".toList, "A feature".toList, 2, 0, "uncore.yml".toList⟩ :=
  (describes_iff _ _).2 ⟨by decide +kernel, by decide +kernel⟩

/-! ### What is not true -/

/-- A spec file in the user's directory, which is first, does not override the standard one as a whole: the name, the ID
and the path are those of the last file, the registers those of the first. Here the user corrects the feature ID, which
is ignored, and the bits of the package number, which are not. -/
theorem C90_override_counterexample :
    seen [[exSpec "tpmi_info.yml" "tpmi_info" "0x80" [exRegY "TPMI_BUS_INFO" 8 64 [exBf "PACKAGE_ID" "9:9"]]], [exInfo "15:8"]]
      exRoot = .ok ⟨[("tpmi_info", 0x81, 1, "tpmi_info.yml")], [("tpmi_info", [("a", 0), ("b", 0)])], [0], [2, 5, 2]⟩ := by
  decide +kernel

/-- A feature with a ".yaml" file is listed as known, but its registers cannot be accessed. -/
theorem C90_yaml_counterexample :
    seen [[exInfo "15:8", exSpec "uncore.yaml" "uncore" "2" [exRegY "CTL" 0 32 []]]] exRoot =
      .ok ⟨[("tpmi_info", 0x81, 0, "tpmi_info.yml"), ("uncore", 2, 0, "uncore.yaml")],
        [("tpmi_info", [("a", 1), ("b", 0)]), ("uncore", [("a", 1), ("b", 0)])], [1, 0], [5]⟩ ∧
    (match getFdict [[exInfo "15:8", exSpec "uncore.yaml" "uncore" "2" [exRegY "CTL" 0 32 []]]] "uncore".toList with
      | .ok _ => none
      | .error e => some e) = some .notSupported := by
  constructor <;> decide +kernel

/-- Broken spec files are skipped, but one which ends after a key is not: a Python exception ends the program. -/
theorem C90_truncated_counterexample :
    seen [[exInfo "15:8", ⟨"x.yml".toList, .ok [.mark, .mark, .mark, .scalar "name".toList, .mark], .error .error⟩]] exRoot =
      .error .pyAttributeError := by
  decide +kernel

/-- An unknown feature is listed once per device. -/
theorem C90_unknown_counterexample :
    seen [[exInfo "15:8"]] exRoot =
      .ok ⟨[("tpmi_info", 0x81, 0, "tpmi_info.yml")], [("tpmi_info", [("a", 1), ("b", 0)])], [1, 0], [2, 5, 2]⟩ := by
  decide +kernel

/-- If two spec files have the same ID, only the feature of one of them is known. -/
theorem C90_same_id_counterexample :
    seen [[exInfo "15:8", exUncore, exSpec "other.yml" "other" "2" []]] exRoot =
      .ok ⟨[("tpmi_info", 0x81, 0, "tpmi_info.yml"), ("uncore", 2, 0, "uncore.yml"), ("other", 2, 0, "other.yml")],
        [("tpmi_info", [("a", 1), ("b", 0)]), ("other", [("a", 1), ("b", 0)])], [1, 0], [5]⟩ := by
  decide +kernel

end Verif.Tpmi
