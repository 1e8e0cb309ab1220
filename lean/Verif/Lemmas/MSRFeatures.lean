import Verif.Props.MSRFeaturesSpec
import Verif.Props.FeaturedMSR
import Verif.Props.PCStateConfigCtl

/-!
Lemmas about the features of the model-specific registers.
-/

namespace Verif.MSRFeatures

open Verif.Bits (BitRange FieldVal)
open Verif.FeaturedMSR (Feature Val)
open Verif.RegFile (Reg)
open Verif.CPUModels
open Verif.CPUInfo (Scope Level)

/-! ### The tables -/

/-- The keys which depend on the CPU model, for a supported feature. -/
def stat (m : Module) (x : Nat) (f : Finfo) : Finfo :=
  match m with
  | .fsbFreq =>
    match FSBFreq.fsbCodes.lookup x with
    | some (codes, bits) => { f with bits := some bits, vals := codes }
    | none => f
  | .pcStateConfigCtl =>
    if f.name = "pkg_cstate_limit".toList then
      match PCStateConfigCtl.pkgCstLimits.lookup x with
      | some L => { f with bits := some L.bits, vals := L.codes, aliases := some L.aliases }
      | none => f
    else f
  | .miscFeatureControl =>
    if x ∈ Group.PHI then
      if f.name = "l2_hw_prefetcher".toList then { f with bits := some (1, 1) }
      else if f.name = "dcu_hw_prefetcher".toList then { f with bits := some (0, 0) }
      else f
    else
      if f.name = "l2_hw_prefetcher".toList then { f with bits := some (0, 0) }
      else if f.name = "l2_adj_prefetcher".toList then { f with bits := some (1, 1) }
      else if f.name = "dcu_hw_prefetcher".toList then { f with bits := some (2, 2) }
      else if f.name = "dcu_ip_prefetcher".toList then { f with bits := some (3, 3) }
      else f
  | _ => f

/-- Check a statement for all the models both features are there on. -/
def allModels (f g : Finfo) (P : Nat → Bool) : Bool :=
  match f.cpumodels, g.cpumodels with
  | some l, some l' => l.all fun x => P x || !l'.contains x
  | some l, none => l.all P
  | none, some l => l.all P
  | none, none => P 0

theorem allModels_sound {f g : Finfo} {P : Nat → Bool} (h : allModels f g P = true) (x : Nat)
    (hf : ∀ l, f.cpumodels = some l → x ∈ l) (hg : ∀ l, g.cpumodels = some l → x ∈ l)
    (hP : f.cpumodels = none → g.cpumodels = none → P x = P 0) : P x = true := by
  unfold allModels at h
  cases e1 : f.cpumodels <;> cases e2 : g.cpumodels <;> simp only [e1, e2] at h
  · rw [hP e1 e2]; exact h
  · exact List.all_eq_true.1 h x (hg _ e2)
  · exact List.all_eq_true.1 h x (hf _ e1)
  · have := List.all_eq_true.1 h x (hf _ e1)
    rw [Bool.or_eq_true] at this
    rcases this with h | h
    · exact h
    · simp [hg _ e2] at h

theorem stat_static : ∀ (m : Module) (x : Nat), ∀ f ∈ m.features, f.cpumodels = none → stat m x f = f := by
  intro m x f hf hn
  cases m
  case fsbFreq =>
    exfalso
    have key : ∀ f ∈ FSBFreq.features, f.cpumodels.isSome = true := by decide +kernel
    have := key f hf
    rw [hn] at this; cases this
  case pcStateConfigCtl =>
    have key : ∀ f ∈ PCStateConfigCtl.features, f.name = "pkg_cstate_limit".toList → f.cpumodels.isSome = true := by
      decide +kernel
    refine if_neg fun h => ?_
    have := key f hf h
    rw [hn] at this; cases this
  case miscFeatureControl =>
    exfalso
    have key : ∀ f ∈ MiscFeatureControl.features, f.cpumodels.isSome = true := by decide +kernel
    have := key f hf
    rw [hn] at this; cases this
  all_goals rfl

/-- The bits are there and are a part of the register. -/
def okRange (f : Finfo) : Bool :=
  match f.bits with
  | some b => decide (0 ≤ b.2 ∧ b.2 ≤ b.1 ∧ b.1 ≤ 63)
  | none => false

/-- The bits do not overlap. -/
def apart (f g : Finfo) : Bool :=
  match f.bits, g.bits with
  | some a, some b => decide (a.1 < b.2 ∨ b.1 < a.2)
  | _, _ => false

/-- The checks of `FeaturedMSR.Table.of_checks`. -/
def okTable (f : Finfo) : Bool :=
  match f.bits with
  | some b =>
    decide (0 ≤ b.2 ∧ b.2 ≤ b.1 ∧ b.1 ≤ 63) &&
    decide (∀ p ∈ f.vals, 0 ≤ p.2 ∧ p.2 < 2 ^ Bits.width b) &&
    decide (∀ p ∈ f.vals, ∀ q ∈ f.vals, p.2 = q.2 → p.1 = q.1) &&
    decide (∀ p ∈ f.vals, ∀ q ∈ f.vals, FeaturedMSR.SameText p.1 q.1 → p = q) &&
    decide (∀ p ∈ f.aliases.getD [], p.2 ∈ f.vals.map Prod.fst) &&
    decide (∀ p ∈ f.aliases.getD [], ∀ q ∈ f.aliases.getD [], FeaturedMSR.SameText p.1 q.1 → p.2 = q.2) &&
    decide (∀ p ∈ f.aliases.getD [], ∀ q ∈ f.vals, FeaturedMSR.SameText p.1 q.1 → q.1 = p.2)
  | none => false

theorem okTable_sound {f : Finfo} (h : okTable f = true) :
    ∃ b, f.bits = some b ∧ Proper b ∧ (f.vals ≠ [] → FeaturedMSR.Table (f.feature b)) := by
  unfold okTable at h
  cases hb : f.bits with
  | none => rw [hb] at h; cases h
  | some b =>
    rw [hb] at h
    simp only [Bool.and_eq_true, decide_eq_true_eq] at h
    obtain ⟨⟨⟨⟨⟨⟨h2, h3⟩, h4⟩, h5⟩, h6⟩, h7⟩, h8⟩ := h
    exact ⟨b, rfl, h2, fun h1 => FeaturedMSR.Table.of_checks h1 h2 h3 h4 h5 h6 h7 h8⟩

theorem check_tables : ∀ m ∈ Module.all, ∀ f ∈ m.features, allModels f f (fun x => okTable (stat m x f)) = true := by
  decide +kernel

theorem check_apart : ∀ m ∈ Module.all, ∀ f ∈ m.features, ∀ g ∈ m.features, f.name ≠ g.name →
    allModels f g (fun x => apart (stat m x f) (stat m x g)) = true := by
  decide +kernel

theorem mem_all (m : Module) : m ∈ Module.all := by cases m <;> decide

theorem table_ok {m : Module} {x : Nat} {f : Finfo} (hf : f ∈ m.features) (hx : ∀ l, f.cpumodels = some l → x ∈ l) :
    ∃ b, (stat m x f).bits = some b ∧ Proper b ∧
      ((stat m x f).vals ≠ [] → FeaturedMSR.Table ((stat m x f).feature b)) := by
  apply okTable_sound
  refine allModels_sound (check_tables m (mem_all m) f hf) x hx hx fun h _ => ?_
  show okTable _ = okTable _
  rw [stat_static m x f hf h, stat_static m 0 f hf h]

theorem apart_ok {m : Module} {x : Nat} {f g : Finfo} (hf : f ∈ m.features) (hg : g ∈ m.features)
    (hx : ∀ l, f.cpumodels = some l → x ∈ l) (hy : ∀ l, g.cpumodels = some l → x ∈ l) (hne : f.name ≠ g.name) :
    ∃ a b, (stat m x f).bits = some a ∧ (stat m x g).bits = some b ∧ Apart a b := by
  have h : apart (stat m x f) (stat m x g) = true := by
    refine allModels_sound (check_apart m (mem_all m) f hf g hg hne) x hx hy fun h h' => ?_
    show apart _ _ = apart _ _
    rw [stat_static m x f hf h, stat_static m 0 f hf h, stat_static m x g hg h', stat_static m 0 g hg h']
  unfold apart at h
  cases e1 : (stat m x f).bits <;> cases e2 : (stat m x g).bits <;> simp only [e1, e2] at h
  · cases h
  · cases h
  · cases h
  · exact ⟨_, _, rfl, rfl, show _ ∨ _ from of_decide_eq_true h⟩

/-! ### Creating an object -/

theorem mapE_ok {α β : Type} {g : α → Except Exn β} {h : α → β} {l : List α} (hg : ∀ a ∈ l, g a = .ok (h a)) :
    mapE g l = .ok (l.map h) := by
  induction l with
  | nil => rfl
  | cons a l ih =>
    rw [mapE, hg a (by simp)]
    dsimp only
    rw [ih fun a ha => hg a (by simp [ha])]
    rfl

theorem setSupported_iff (H : Host) (f : Finfo) (c : Nat) : (setSupported H f).supported c = true ↔ Has H f c := by
  unfold setSupported Has
  simp only [Bool.and_eq_true, decide_eq_true_eq, and_assoc]
  refine and_congr Iff.rfl (and_congr ?_ ?_)
  · cases f.cpumodels <;> simp
  · cases f.cpuflags <;> simp

/-- The features right before `mapE`. -/
def early (H : Host) (m : Module) (f : Finfo) : Finfo := setSupported H (setScopes H m f)

theorem setScopes_same (H : Host) (m : Module) (f : Finfo) :
    (setScopes H m f).name = f.name ∧ (setScopes H m f).cpumodels = f.cpumodels ∧ (setScopes H m f).cpuflags = f.cpuflags ∧
    (setScopes H m f).isBool = f.isBool ∧ (setScopes H m f).writable = f.writable ∧ (setScopes H m f).bits = f.bits ∧
    (setScopes H m f).vals = f.vals ∧ (setScopes H m f).aliases = f.aliases := by
  cases m <;> try exact ⟨rfl, rfl, rfl, rfl, rfl, rfl, rfl, rfl⟩
  unfold setScopes
  dsimp only
  split <;> exact ⟨rfl, rfl, rfl, rfl, rfl, rfl, rfl, rfl⟩

theorem early_has (H : Host) (m : Module) (f : Finfo) (c : Nat) : (early H m f).supported c = true ↔ Has H f c := by
  unfold early
  rw [setSupported_iff]
  obtain ⟨_, h2, h3, _⟩ := setScopes_same H m f
  unfold Has
  rw [h2, h3]

/-- The total version of `initModel`. -/
def late (H : Host) (m : Module) (f : Finfo) : Finfo :=
  match initModel H m f with
  | .ok f' => f'
  | .error _ => f

theorem fsb_keys : ∀ f ∈ FSBFreq.features, f.cpuflags = none ∧
    ∃ l, f.cpumodels = some l ∧ ∀ x ∈ l, (FSBFreq.fsbCodes.lookup x).isSome = true := by
  intro f hf
  simp only [FSBFreq.features, List.mem_singleton] at hf
  subst hf
  exact ⟨rfl, _, rfl, by decide +kernel⟩

theorem limit_keys : ∀ f ∈ PCStateConfigCtl.features, f.name = "pkg_cstate_limit".toList → f.cpuflags = none ∧
    ∃ l, f.cpumodels = some l ∧ ∀ x ∈ l, (PCStateConfigCtl.pkgCstLimits.lookup x).isSome = true := by
  have h2 : ∀ x ∈ PCStateConfigCtl.pkgCstLimits.map Prod.fst, (PCStateConfigCtl.pkgCstLimits.lookup x).isSome = true := by
    decide +kernel
  intro f hf hn
  have h1 : ∀ f ∈ PCStateConfigCtl.features, f.name = "pkg_cstate_limit".toList →
      f.cpuflags = none ∧ f.cpumodels = some (PCStateConfigCtl.pkgCstLimits.map Prod.fst) := by decide +kernel
  exact ⟨(h1 f hf hn).1, _, (h1 f hf hn).2, h2⟩

/-- If a feature needs no flags, then it is there on all the CPUs or on none. -/
theorem has_all {H : Host} {m : Module} {f : Finfo} (hfl : f.cpuflags = none) {c : Nat} (h : Has H f c) :
    H.cpus.all (early H m f).supported = true := by
  rw [List.all_eq_true]
  intro d hd
  rw [early_has]
  exact ⟨hd, h.2.1, fun l hl => by rw [hfl] at hl; cases hl⟩

theorem initModel_ok (H : Host) (hne : H.cpus ≠ []) (m : Module) (f : Finfo) (hf : f ∈ m.features) :
    initModel H m (early H m f) = .ok (late H m (early H m f)) := by
  have key : ∃ f', initModel H m (early H m f) = .ok f' := by
    cases m <;> try exact ⟨_, rfl⟩
    · unfold initModel
      dsimp only
      split
      · rename_i hs
        obtain ⟨c, hc⟩ := List.exists_mem_of_ne_nil _ hne
        have hh := (early_has H .fsbFreq f c).1 (List.all_eq_true.1 hs c hc)
        obtain ⟨_, l, hl, hk⟩ := fsb_keys f hf
        have := hk _ (hh.2.1 l hl)
        cases hlk : FSBFreq.fsbCodes.lookup H.model with
        | none => rw [hlk] at this; cases this
        | some p => exact ⟨_, rfl⟩
      · exact ⟨_, rfl⟩
    · unfold initModel
      dsimp only
      split
      · rename_i hs
        obtain ⟨hn, hs⟩ := hs
        have hn' : f.name = "pkg_cstate_limit".toList := (setScopes_same H .pcStateConfigCtl f).1.symm.trans hn
        obtain ⟨c, hc⟩ := List.exists_mem_of_ne_nil _ hne
        have hh := (early_has H .pcStateConfigCtl f c).1 (List.all_eq_true.1 hs c hc)
        obtain ⟨_, l, hl, hk⟩ := limit_keys f hf hn'
        have := hk _ (hh.2.1 l hl)
        cases hlk : PCStateConfigCtl.pkgCstLimits.lookup H.model with
        | none => rw [hlk] at this; cases this
        | some p => exact ⟨_, rfl⟩
      · exact ⟨_, rfl⟩
  obtain ⟨f', h⟩ := key
  unfold late
  rw [h]

/-- What stays the same from the features dictionary to the object. -/
structure Kin (H : Host) (m : Module) (f0 f : Finfo) : Prop where
  name : f.name = f0.name
  models : f.cpumodels = f0.cpumodels
  flags : f.cpuflags = f0.cpuflags
  bool : f.isBool = f0.isBool
  writable : f.writable = f0.writable
  sname : f.sname = (setScopes H m f0).sname
  iosname : f.iosname = (setScopes H m f0).iosname
  stat : (∃ c, Has H f0 c) → f.bits = (stat m H.model f0).bits ∧ f.vals = (stat m H.model f0).vals ∧
    f.aliases = (stat m H.model f0).aliases

theorem late_kin (H : Host) (m : Module) (f : Finfo) (hf : f ∈ m.features) :
    Kin H m f (late H m (early H m f)) ∧ (late H m (early H m f)).supported = (early H m f).supported := by
  obtain ⟨s1, s2, s3, s4, s5, s6, s7, s8⟩ := setScopes_same H m f
  cases m
  case fsbFreq =>
    unfold late initModel
    dsimp only
    by_cases hall : H.cpus.all (early H .fsbFreq f).supported = true
    · rw [if_pos hall]
      cases hlk : FSBFreq.fsbCodes.lookup H.model with
      | none =>
        refine ⟨⟨s1, s2, s3, s4, s5, rfl, rfl, fun _ => ?_⟩, rfl⟩
        simp only [MSRFeatures.stat, hlk]
        exact ⟨s6, s7, s8⟩
      | some p =>
        refine ⟨⟨s1, s2, s3, s4, s5, rfl, rfl, fun _ => ?_⟩, rfl⟩
        simp only [MSRFeatures.stat, hlk]
        exact ⟨trivial, trivial, s8⟩
    · rw [if_neg hall]
      refine ⟨⟨s1, s2, s3, s4, s5, rfl, rfl, fun h => ?_⟩, rfl⟩
      obtain ⟨c, hc⟩ := h
      exact absurd (has_all (fsb_keys f hf).1 hc) hall
  case pcStateConfigCtl =>
    unfold late initModel
    dsimp only
    have hn : (early H .pcStateConfigCtl f).name = f.name := s1
    rw [hn]
    by_cases hnm : f.name = "pkg_cstate_limit".toList
    · by_cases hall : H.cpus.all (early H .pcStateConfigCtl f).supported = true
      · rw [if_pos ⟨hnm, hall⟩]
        cases hlk : PCStateConfigCtl.pkgCstLimits.lookup H.model with
        | none =>
          refine ⟨⟨s1, s2, s3, s4, s5, rfl, rfl, fun _ => ?_⟩, rfl⟩
          have e : MSRFeatures.stat .pcStateConfigCtl H.model f = f := (if_pos hnm).trans (by rw [hlk])
          rw [e]
          exact ⟨s6, s7, s8⟩
        | some p =>
          refine ⟨⟨s1, s2, s3, s4, s5, rfl, rfl, fun _ => ?_⟩, rfl⟩
          have e : MSRFeatures.stat .pcStateConfigCtl H.model f =
              { f with bits := some p.bits, vals := p.codes, aliases := some p.aliases } := (if_pos hnm).trans (by rw [hlk])
          rw [e]
          exact ⟨rfl, rfl, rfl⟩
      · rw [if_neg fun h => hall h.2]
        refine ⟨⟨s1, s2, s3, s4, s5, rfl, rfl, fun h => ?_⟩, rfl⟩
        obtain ⟨c, hc⟩ := h
        exact absurd (has_all (limit_keys f hf hnm).1 hc) hall
    · rw [if_neg fun h => hnm h.1]
      refine ⟨⟨s1, s2, s3, s4, s5, rfl, rfl, fun h => ?_⟩, rfl⟩
      have e : MSRFeatures.stat .pcStateConfigCtl H.model f = f := if_neg hnm
      rw [e]
      exact ⟨s6, s7, s8⟩
  case miscFeatureControl =>
    unfold late initModel
    dsimp only
    have hn : (early H .miscFeatureControl f).name = f.name := s1
    rw [hn]
    have hs : MSRFeatures.stat .miscFeatureControl H.model f = MSRFeatures.stat .miscFeatureControl H.model f := rfl
    conv at hs => rhs; unfold MSRFeatures.stat
    dsimp only at hs
    by_cases hphi : H.model ∈ Group.PHI
    · rw [if_pos hphi] at hs ⊢
      by_cases h1 : f.name = "l2_hw_prefetcher".toList
      · rw [if_pos h1] at hs ⊢
        exact ⟨⟨rfl, s2, s3, s4, s5, rfl, rfl, fun _ => by rw [hs]; exact ⟨rfl, s7, s8⟩⟩, rfl⟩
      rw [if_neg h1] at hs ⊢
      by_cases h2 : f.name = "dcu_hw_prefetcher".toList
      · rw [if_pos h2] at hs ⊢
        exact ⟨⟨rfl, s2, s3, s4, s5, rfl, rfl, fun _ => by rw [hs]; exact ⟨rfl, s7, s8⟩⟩, rfl⟩
      rw [if_neg h2] at hs ⊢
      exact ⟨⟨s1, s2, s3, s4, s5, rfl, rfl, fun _ => by rw [hs]; exact ⟨s6, s7, s8⟩⟩, rfl⟩
    · rw [if_neg hphi] at hs ⊢
      by_cases h1 : f.name = "l2_hw_prefetcher".toList
      · rw [if_pos h1] at hs ⊢
        exact ⟨⟨rfl, s2, s3, s4, s5, rfl, rfl, fun _ => by rw [hs]; exact ⟨rfl, s7, s8⟩⟩, rfl⟩
      rw [if_neg h1] at hs ⊢
      by_cases h2 : f.name = "l2_adj_prefetcher".toList
      · rw [if_pos h2] at hs ⊢
        exact ⟨⟨rfl, s2, s3, s4, s5, rfl, rfl, fun _ => by rw [hs]; exact ⟨rfl, s7, s8⟩⟩, rfl⟩
      rw [if_neg h2] at hs ⊢
      by_cases h3 : f.name = "dcu_hw_prefetcher".toList
      · rw [if_pos h3] at hs ⊢
        exact ⟨⟨rfl, s2, s3, s4, s5, rfl, rfl, fun _ => by rw [hs]; exact ⟨rfl, s7, s8⟩⟩, rfl⟩
      rw [if_neg h3] at hs ⊢
      by_cases h4 : f.name = "dcu_ip_prefetcher".toList
      · rw [if_pos h4] at hs ⊢
        exact ⟨⟨rfl, s2, s3, s4, s5, rfl, rfl, fun _ => by rw [hs]; exact ⟨rfl, s7, s8⟩⟩, rfl⟩
      rw [if_neg h4] at hs ⊢
      exact ⟨⟨s1, s2, s3, s4, s5, rfl, rfl, fun _ => by rw [hs]; exact ⟨s6, s7, s8⟩⟩, rfl⟩
  all_goals exact ⟨⟨s1, s2, s3, s4, s5, rfl, rfl, fun _ => ⟨s6, s7, s8⟩⟩, rfl⟩

theorem hwpUnsupported_spec {H : Host} {pkgs : List (List Nat)} {cpus : List Nat} (h : hwpUnsupported H pkgs = .ok cpus) (c : Nat) :
    c ∈ cpus ↔ ∃ first rest, first :: rest ∈ pkgs ∧ c ∈ first :: rest ∧
      ¬ ("hwp".toList ∈ H.flags first ∧ ∃ v, H.pmEnable first = .ok v ∧ v.testBit 0 = true) := by
  induction pkgs generalizing cpus with
  | nil =>
    injection h with h; subst h
    simp
  | cons p pkgs ih =>
    cases p with
    | nil => cases h
    | cons d p =>
      have step : ∀ off, ((match hwpUnsupported H pkgs with
            | .error e => .error e
            | .ok l => .ok (if off then d :: p ++ l else l) : Except Exn (List Nat)) = .ok cpus) →
          (off = true ↔ ¬ ("hwp".toList ∈ H.flags d ∧ ∃ v, H.pmEnable d = .ok v ∧ v.testBit 0 = true)) →
          (c ∈ cpus ↔ ∃ first rest, first :: rest ∈ (d :: p) :: pkgs ∧ c ∈ first :: rest ∧
            ¬ ("hwp".toList ∈ H.flags first ∧ ∃ v, H.pmEnable first = .ok v ∧ v.testBit 0 = true)) := by
        intro off h hoff
        cases hr : hwpUnsupported H pkgs with
        | error e => rw [hr] at h; cases h
        | ok l =>
          rw [hr] at h
          injection h with h
          subst h
          have ih' := ih hr
          constructor
          · intro hc
            by_cases ho : off = true
            · rw [if_pos ho] at hc
              rcases List.mem_append.1 hc with hc | hc
              · exact ⟨d, p, by simp, hc, hoff.1 ho⟩
              · obtain ⟨a, r, h1, h2⟩ := ih'.1 hc
                exact ⟨a, r, List.mem_cons_of_mem _ h1, h2⟩
            · rw [if_neg ho] at hc
              obtain ⟨a, r, h1, h2⟩ := ih'.1 hc
              exact ⟨a, r, List.mem_cons_of_mem _ h1, h2⟩
          · rintro ⟨a, r, h1, h2, h3⟩
            rcases List.mem_cons.1 h1 with h1 | h1
            · injection h1 with e1 e2
              subst e1; subst e2
              rw [if_pos (hoff.2 h3)]
              exact List.mem_append_left _ h2
            · have := ih'.2 ⟨a, r, h1, h2, h3⟩
              by_cases ho : off = true
              · rw [if_pos ho]; exact List.mem_append_right _ this
              · rw [if_neg ho]; exact this
      unfold hwpUnsupported at h
      dsimp only at h
      by_cases hf : "hwp".toList ∈ H.flags d
      · rw [if_pos hf] at h
        cases hp : H.pmEnable d with
        | error e => rw [hp] at h; cases h
        | ok v =>
          rw [hp] at h
          dsimp only at h
          have hfield : RegFile.Field ((0, 0) : BitRange) := by unfold RegFile.Field; decide
          rw [HWP.getBits_fieldOf hfield] at h
          dsimp only at h
          refine step _ h ?_
          have hb : (HWP.fieldOf v (0, 0) == 0) = true ↔ v.testBit 0 = false := by
            have hr := RegFile.field_range hfield (HWP.getBits_fieldOf hfield v)
            have ht := RegFile.testBit_field hfield (HWP.getBits_fieldOf hfield v) 0
            generalize HWP.fieldOf v (0, 0) = w at *
            have h1 : w = 0 ∨ w = 1 := by
              have : (2 : Int) ^ Bits.width ((0, 0) : BitRange) = 2 := by decide
              omega
            have e : v.testBit 0 = w.testBit 0 := by
              rw [ht]
              show v.testBit 0 = (v.testBit (0 + 0) && decide (0 < Bits.width ((0, 0) : BitRange)))
              simp [show 0 < Bits.width ((0, 0) : BitRange) by decide]
            rw [e]
            rcases h1 with rfl | rfl
            · simp [show (0 : Int).testBit 0 = false by decide]
            · simp [show (1 : Int).testBit 0 = true by decide]
          rw [hb, hp]
          constructor
          · rintro h0 ⟨_, w, hw, ht⟩
            injection hw with hw
            subst hw
            rw [h0] at ht; cases ht
          · intro hn
            cases ht : v.testBit 0 with
            | false => rfl
            | true => exact absurd ⟨hf, v, rfl, ht⟩ hn
      · rw [if_neg hf] at h
        exact step true h ⟨fun _ hh => hf hh.1, fun _ => rfl⟩

theorem hwp_flag : ∀ m ∈ Module.all, m.hwp = true → ∀ f ∈ m.features, ∃ l, f.cpuflags = some l ∧ "hwp".toList ∈ l := by
  have key : ∀ m ∈ Module.all, m.hwp = true → ∀ f ∈ m.features,
      (match f.cpuflags with
        | some l => decide ("hwp".toList ∈ l)
        | none => false) = true := by decide +kernel
  intro m hm hh f hf
  have := key m hm hh f hf
  cases hc : f.cpuflags with
  | none => rw [hc] at this; cases this
  | some l => rw [hc] at this; exact ⟨l, rfl, of_decide_eq_true this⟩

theorem hwp_iff (m : Module) : m.hwp = true ↔ NeedsHwp m := by
  unfold NeedsHwp
  cases m <;> simp [Module.hwp]

theorem create_ok {H : Host} {m : Module} {fs : List Finfo} (h : create H m = .ok fs) :
    H.vendor = "GenuineIntel".toList ∧ (∃ f ∈ m.features, ∃ c, Has H f c) ∧
    ((m.hwp = false ∧ fs = m.features.map fun f => late H m (early H m f)) ∨
      (m.hwp = true ∧ ∃ cpus, hwpUnsupported H H.packages = .ok cpus ∧
        fs = m.features.map fun f => dropCpus cpus (late H m (early H m f)))) := by
  unfold create at h
  by_cases hv : H.vendor ≠ "GenuineIntel".toList
  · rw [if_pos hv] at h; cases h
  rw [if_neg hv] at h
  rw [ne_eq, Decidable.not_not] at hv
  refine ⟨hv, ?_⟩
  unfold initSupported at h
  dsimp only at h
  rw [List.map_map] at h
  by_cases ha : ((m.features.map (setSupported H ∘ setScopes H m)).any fun f => H.cpus.any f.supported) = true
  · rw [if_pos ha] at h
    rw [List.any_eq_true] at ha
    obtain ⟨f', hf', hc'⟩ := ha
    obtain ⟨f, hf, rfl⟩ := List.mem_map.1 hf'
    rw [List.any_eq_true] at hc'
    obtain ⟨c, hc, hs⟩ := hc'
    have hne : H.cpus ≠ [] := fun hn => by rw [hn] at hc; cases hc
    refine ⟨⟨f, hf, c, (early_has H m f c).1 hs⟩, ?_⟩
    dsimp only at h
    have hm : mapE (initModel H m) (m.features.map (setSupported H ∘ setScopes H m)) =
        .ok ((m.features.map (setSupported H ∘ setScopes H m)).map (late H m)) := by
      apply mapE_ok
      intro a ha
      obtain ⟨f, hf, rfl⟩ := List.mem_map.1 ha
      exact initModel_ok H hne m f hf
    rw [hm] at h
    dsimp only at h
    by_cases hh : m.hwp = true
    · rw [if_pos hh] at h
      refine Or.inr ⟨hh, ?_⟩
      cases hu : hwpUnsupported H H.packages with
      | error e => rw [hu] at h; cases h
      | ok cpus =>
        rw [hu] at h
        injection h with h
        refine ⟨cpus, rfl, ?_⟩
        rw [← h, List.map_map, List.map_map]
        rfl
    · rw [if_neg hh] at h
      injection h with h
      refine Or.inl ⟨Bool.eq_false_iff.2 hh, ?_⟩
      rw [← h, List.map_map]
      rfl
  · rw [if_neg ha] at h; cases h

theorem dropCpus_kin {H : Host} {m : Module} {f0 f : Finfo} (k : Kin H m f0 f) (cpus : List Nat) : Kin H m f0 (dropCpus cpus f) := by
  unfold dropCpus
  split
  · split
    · exact ⟨k.name, k.models, k.flags, k.bool, k.writable, k.sname, k.iosname, k.stat⟩
    · exact k
  · exact k

/-- The features of a created object. -/
theorem created {H : Host} {m : Module} {fs : List Finfo} (h : create H m = .ok fs) :
    fs.map (·.name) = m.features.map (·.name) ∧
    ∀ f ∈ fs, ∃ f0 ∈ m.features, Kin H m f0 f ∧ (∀ c, f.supported c = true → Has H f0 c) ∧
      (Partition H → ∀ c, f.supported c = true ↔ Has H f0 c ∧ (NeedsHwp m → HwpOn H c)) := by
  obtain ⟨_, _, ⟨hh, rfl⟩ | ⟨hh, cpus, hu, rfl⟩⟩ := create_ok h
  · have hn : ¬ NeedsHwp m := fun hn => by rw [(hwp_iff m).2 hn] at hh; cases hh
    constructor
    · rw [List.map_map]
      exact List.map_congr_left fun f hf => (late_kin H m f hf).1.name
    · intro f hf
      obtain ⟨f0, hf0, rfl⟩ := List.mem_map.1 hf
      obtain ⟨k, hs⟩ := late_kin H m f0 hf0
      refine ⟨f0, hf0, k, ?_, ?_⟩
      · intro c hc
        rw [hs] at hc
        exact (early_has H m f0 c).1 hc
      · intro _ c
        rw [hs, early_has]
        exact ⟨fun h => ⟨h, fun h' => absurd h' hn⟩, fun h => h.1⟩
  · have hn : NeedsHwp m := (hwp_iff m).1 hh
    constructor
    · rw [List.map_map]
      exact List.map_congr_left fun f hf => (dropCpus_kin (late_kin H m f hf).1 cpus).name
    · intro f hf
      obtain ⟨f0, hf0, rfl⟩ := List.mem_map.1 hf
      obtain ⟨k, hs⟩ := late_kin H m f0 hf0
      obtain ⟨l, hl, hwl⟩ := hwp_flag m (mem_all m) hh f0 hf0
      have hd : ∀ c, (dropCpus cpus (late H m (early H m f0))).supported c = true ↔ Has H f0 c ∧ c ∉ cpus := by
        intro c
        unfold dropCpus
        rw [k.flags, hl]
        dsimp only
        rw [if_pos hwl, hs]
        simp only [Bool.and_eq_true, Bool.not_eq_true', decide_eq_false_iff_not]
        rw [early_has]
      refine ⟨f0, hf0, dropCpus_kin k cpus, fun c hc => ((hd c).1 hc).1, ?_⟩
      intro P c
      rw [hd]
      refine and_congr_right fun hhas => ?_
      rw [hwpUnsupported_spec hu c]
      constructor
      · intro hno _
        obtain ⟨p, hp, hcp⟩ := P.cover c hhas.1
        cases p with
        | nil => cases hcp
        | cons first rest =>
          by_cases hon : "hwp".toList ∈ H.flags first ∧ ∃ v, H.pmEnable first = .ok v ∧ v.testBit 0 = true
          · exact ⟨first, rest, hp, hcp, hon⟩
          · exact absurd ⟨first, rest, hp, hcp, hon⟩ hno
      · rintro hon ⟨first, rest, hp, hcp, hoff⟩
        obtain ⟨first', rest', hp', hcp', hon'⟩ := hon hn
        have e := P.unique _ hp _ hp' c hcp hcp'
        injection e with e1 e2
        rw [e1] at hoff
        exact hoff hon'

theorem hwpUnsupported_total {H : Host} {pkgs : List (List Nat)} (hne : [] ∉ pkgs)
    (hr : ∀ p ∈ pkgs, ∀ c ∈ p, ∃ v, H.pmEnable c = .ok v) : ∃ cpus, hwpUnsupported H pkgs = .ok cpus := by
  induction pkgs with
  | nil => exact ⟨_, rfl⟩
  | cons p pkgs ih =>
    obtain ⟨l, hl⟩ := ih (fun h => hne (List.mem_cons_of_mem _ h)) fun p hp => hr p (List.mem_cons_of_mem _ hp)
    cases p with
    | nil => exact absurd (List.mem_cons_self ..) hne
    | cons d p =>
      obtain ⟨v, hv⟩ := hr (d :: p) (by simp) d (by simp)
      have hfield : RegFile.Field ((0, 0) : BitRange) := by unfold RegFile.Field; decide
      unfold hwpUnsupported
      dsimp only
      split
      · rw [hv]
        dsimp only
        rw [HWP.getBits_fieldOf hfield]
        dsimp only
        rw [hl]
        exact ⟨_, rfl⟩
      · rw [hl]
        exact ⟨_, rfl⟩

theorem create_total {H : Host} {m : Module} (hv : H.vendor = "GenuineIntel".toList) (hs : ∃ f ∈ m.features, ∃ c, Has H f c)
    (hne : [] ∉ H.packages) (hr : ∀ p ∈ H.packages, ∀ c ∈ p, ∃ v, H.pmEnable c = .ok v) : ∃ fs, create H m = .ok fs := by
  obtain ⟨f, hf, c, hc⟩ := hs
  obtain ⟨cpus, hcpus⟩ := hwpUnsupported_total hne hr
  have hcne : H.cpus ≠ [] := fun hn => by have := hc.1; rw [hn] at this; cases this
  unfold create
  rw [if_neg (fun h => h hv)]
  unfold initSupported
  dsimp only
  rw [List.map_map]
  have ha : ((m.features.map (setSupported H ∘ setScopes H m)).any fun f => H.cpus.any f.supported) = true := by
    rw [List.any_eq_true]
    refine ⟨_, List.mem_map.2 ⟨f, hf, rfl⟩, ?_⟩
    rw [List.any_eq_true]
    exact ⟨c, hc.1, (early_has H m f c).2 hc⟩
  rw [if_pos ha]
  dsimp only
  have hm : mapE (initModel H m) (m.features.map (setSupported H ∘ setScopes H m)) =
      .ok ((m.features.map (setSupported H ∘ setScopes H m)).map (late H m)) := by
    apply mapE_ok
    intro a ha
    obtain ⟨f, hf, rfl⟩ := List.mem_map.1 ha
    exact initModel_ok H hcne m f hf
  rw [hm]
  dsimp only
  split
  · rw [hcpus]; exact ⟨_, rfl⟩
  · exact ⟨_, rfl⟩

theorem create_refused {H : Host} {m : Module} (h : H.vendor ≠ "GenuineIntel".toList ∨ ∀ f ∈ m.features, ∀ c, ¬ Has H f c) :
    create H m = .error .notSupported := by
  unfold create
  by_cases hv : H.vendor ≠ "GenuineIntel".toList
  · rw [if_pos hv]
  rw [if_neg hv]
  have h := h.resolve_left hv
  unfold initSupported
  dsimp only
  rw [List.map_map, if_neg]
  intro ha
  rw [List.any_eq_true] at ha
  obtain ⟨f', hf', hc'⟩ := ha
  obtain ⟨f, hf, rfl⟩ := List.mem_map.1 hf'
  rw [List.any_eq_true] at hc'
  obtain ⟨c, hc, hs⟩ := hc'
  exact h f hf c ((early_has H m f c).1 hs)

/-- A created feature which is supported somewhere. -/
theorem live {H : Host} {m : Module} {fs : List Finfo} (h : create H m = .ok fs) {f : Finfo} (hf : f ∈ fs) {c : Nat}
    (hc : f.supported c = true) :
    ∃ f0 ∈ m.features, f.name = f0.name ∧ (∀ l, f0.cpumodels = some l → H.model ∈ l) ∧
      f.bits = (stat m H.model f0).bits ∧ f.vals = (stat m H.model f0).vals ∧ f.aliases = (stat m H.model f0).aliases := by
  obtain ⟨f0, hf0, k, hh, _⟩ := (created h).2 f hf
  have hx := hh c hc
  exact ⟨f0, hf0, k.name, hx.2.1, k.stat ⟨c, hx⟩⟩

theorem live_bits {H : Host} {m : Module} {fs : List Finfo} (h : create H m = .ok fs) {f : Finfo} (hf : f ∈ fs) {c : Nat}
    (hc : f.supported c = true) : ∃ b, f.bits = some b ∧ Proper b ∧ (f.vals ≠ [] → FeaturedMSR.Table (f.feature b)) := by
  obtain ⟨f0, hf0, _, hx, e1, e2, e3⟩ := live h hf hc
  obtain ⟨b, hb, hp, ht⟩ := table_ok hf0 hx
  refine ⟨b, e1.trans hb, hp, fun hv => ?_⟩
  obtain ⟨t1, t2, t3, t4, t5, t6, t7, t8⟩ := ht (by rw [← e2]; exact hv)
  have ev : (f.feature b).vals = ((stat m H.model f0).feature b).vals := e2
  have ea : (f.feature b).aliases = ((stat m H.model f0).feature b).aliases := e3
  have hA : ∀ a n, FeaturedMSR.Alias (f.feature b) a n → FeaturedMSR.Alias ((stat m H.model f0).feature b) a n := by
    rintro a n ⟨al, h1, h2⟩; exact ⟨al, ea ▸ h1, h2⟩
  have hN : ∀ n, FeaturedMSR.Name (f.feature b) n ↔ FeaturedMSR.Name ((stat m H.model f0).feature b) n := by
    intro n; unfold FeaturedMSR.Name; rw [ev]
  refine ⟨hv, t2, by rw [ev]; exact t3, by rw [ev]; exact t4, by rw [ev]; exact t5, ?_, ?_, ?_⟩
  · intro a n ha; exact (hN n).2 (t6 a n (hA a n ha))
  · intro a n a' n' ha ha'; exact t7 a n a' n' (hA a n ha) (hA a' n' ha')
  · intro a n k ha hk; exact t8 a n k (hA a n ha) ((hN k).1 hk)

/-! ### Access -/

theorem lor_neg {a b : Int} (h : b < 0) : Int.lor a b < 0 := by
  cases a <;> cases b
  · rename_i x y
    exact absurd h (by simp)
  · exact Int.negSucc_lt_zero _
  · exact Int.negSucc_lt_zero _
  · exact Int.negSucc_lt_zero _

/-- A non-negative result of `set_bits()` differs from the old value only in the bits of the range. -/
theorem setBits_confined {reg r : Int} {bits : BitRange} {val : FieldVal} (h : Bits.setBits reg bits val = .ok r) (h0 : 0 ≤ r)
    (k : Nat) (hk : ¬ Bits.InRange bits k) : r.testBit k = reg.testBit k := by
  obtain ⟨v, hv, hle, h1, h2, h3, e⟩ := Bits.setBits_ok h
  by_cases hneg : v < 0
  · exfalso
    have : shl v bits.2.toNat < 0 := by
      unfold shl
      exact Int.mul_neg_of_neg_of_pos hneg (by positivity)
    have := lor_neg (a := Int.land reg (Int.lnot (shl (onesMask (Bits.width bits)) bits.2.toNat))) this
    rw [← e] at this
    omega
  · exact (Bits.C01_get_set_bits reg r v bits val h hv (by omega)).2 k hk

/-- The registers differ only in the bits of the range. -/
def Near (b : BitRange) (R R' : Reg) : Prop := ∀ c k, ¬ Bits.InRange b k → (R' c).testBit k = (R c).testBit k

theorem near_refl (b : BitRange) (R : Reg) : Near b R R := fun _ _ _ => rfl

theorem near_writeBits {E : RegFile.Env} (w : RegFile.EnvWF E) (b : BitRange) (val : FieldVal) (cpus : List Nat) {R : Reg}
    (hu : RegFile.Uniform E R) : Near b R (RegFile.writeBits E b val cpus R).1 := by
  intro c k hk
  rcases (RegFile.writeBits_spec E w b val cpus R hu).2.1 c with h | ⟨_, h, h0, _⟩
  · rw [h]
  · exact setBits_confined h h0 k hk

theorem near_setLimit {E : RegFile.Env} (w : RegFile.EnvWF E) (b : BitRange) (val : FieldVal) (cpus : List Nat) {R : Reg}
    (hu : RegFile.Uniform E R) : Near b R (Verif.PCStateConfigCtl.setLimit E b val cpus R).1 := by
  by_cases hl : ∀ c ∈ cpus, ¬ Verif.PCStateConfigCtl.Locked R c
  · unfold Verif.PCStateConfigCtl.setLimit
    rw [Verif.PCStateConfigCtl.modifyLimit_unlocked _ _ _ _ _ hl]
    exact near_writeBits w b val cpus hu
  · have : ∃ c ∈ cpus, Verif.PCStateConfigCtl.Locked R c := by
      apply Classical.byContradiction
      intro hn
      exact hl fun c hc h => hn ⟨c, hc, h⟩
    obtain ⟨e, he, _⟩ := Verif.PCStateConfigCtl.modifyLimit_locked b val R cpus [] this
    unfold Verif.PCStateConfigCtl.setLimit
    rw [he]
    exact near_refl b R

/-- What a write of a feature does to its register. -/
theorem near_write {units : Val → Except Exn Int} {E : Nat → RegFile.Env} {m : Module} {f : Finfo} {b : BitRange}
    (hb : f.bits = some b) (val : Val) (cpus : List Nat) {S : Regs} (w : RegFile.EnvWF (E m.regaddr))
    (hu : RegFile.Uniform (E m.regaddr) (S m.regaddr)) :
    Near b (S m.regaddr) ((writeFeature units E m f val cpus S).1 m.regaddr) ∧
    ∀ a, a ≠ m.regaddr → (writeFeature units E m f val cpus S).1 a = S a := by
  unfold writeFeature
  rw [hb]
  dsimp only
  constructor
  · rw [if_pos rfl]
    split
    · unfold Verif.PCStateConfigCtl.writeLimit
      split
      · exact near_refl _ _
      · split
        · exact near_refl _ _
        · split
          · exact near_refl _ _
          · exact near_setLimit w _ _ _ hu
    · split
      · unfold writePpl
        split
        · exact near_refl _ _
        · split
          · exact near_refl _ _
          · split
            · exact near_refl _ _
            · split
              · exact near_writeBits w _ _ _ hu
              · split
                · split
                  · exact near_refl _ _
                  · exact near_writeBits w _ _ _ hu
                · exact near_refl _ _
      · unfold FeaturedMSR.writeFeature
        split
        · exact near_refl _ _
        · split
          · exact near_refl _ _
          · split
            · exact near_refl _ _
            · exact near_writeBits w _ _ _ hu
  · intro a ha
    rw [if_neg ha]

/-- A write of a feature which is not supported on one of the CPUs, or for no CPUs at all, changes nothing. -/
theorem write_none {units : Val → Except Exn Int} {E : Nat → RegFile.Env} {m : Module} {f : Finfo} (val : Val) {cpus : List Nat}
    {S : Regs} (h : cpus.all f.supported = false ∨ cpus = []) : (writeFeature units E m f val cpus S).1 = S := by
  unfold writeFeature
  cases hb : f.bits with
  | none => rfl
  | some b =>
    dsimp only
    funext x
    by_cases hx : x = m.regaddr
    · rw [if_pos hx, hx]
      have hval : (cpus.all f.supported = false ∧ FeaturedMSR.validateSupported (f.feature b) cpus = .error .notSupported) ∨
          cpus = [] := by
        rcases h with h | h
        · refine Or.inl ⟨h, ?_⟩
          unfold FeaturedMSR.validateSupported
          exact if_neg (by rw [show (f.feature b).supported = f.supported from rfl, h]; simp)
        · exact Or.inr h
      rcases hval with ⟨_, hval⟩ | rfl
      · split
        · unfold Verif.PCStateConfigCtl.writeLimit; rw [hval]
        · split
          · unfold writePpl; rw [hval]
          · unfold FeaturedMSR.writeFeature; rw [hval]
      · have hnil : ∀ v, RegFile.writeBits (E m.regaddr) b v [] (S m.regaddr) = (S m.regaddr, .ok ()) := fun _ => rfl
        have hnil' : ∀ v, Verif.PCStateConfigCtl.setLimit (E m.regaddr) b v [] (S m.regaddr) = (S m.regaddr, .ok ()) := fun _ => rfl
        split
        · unfold Verif.PCStateConfigCtl.writeLimit
          split
          · rfl
          · split
            · rfl
            · split
              · rfl
              · exact congrArg Prod.fst (hnil' _)
        · split
          · unfold writePpl
            split
            · rfl
            · split
              · rfl
              · split
                · rfl
                · split
                  · rw [hnil]
                  · split
                    · split
                      · rfl
                      · rw [hnil]
                    · rfl
          · unfold FeaturedMSR.writeFeature
            split
            · rfl
            · split
              · rfl
              · split
                · rfl
                · exact congrArg Prod.fst (hnil _)
    · rw [if_neg hx]

theorem readBits_congr {b : BitRange} (hb : Proper b) {R R' : Reg} (cpus : List Nat)
    (h : ∀ c ∈ cpus, ∀ k, Bits.InRange b k → (R' c).testBit k = (R c).testBit k) :
    RegFile.readBits b R' cpus = RegFile.readBits b R cpus := by
  induction cpus with
  | nil => rfl
  | cons c cpus ih =>
    unfold RegFile.readBits
    rw [RegFile.getBits_congr hb (h c (by simp)), ih fun c hc => h c (by simp [hc])]

theorem read_congr {m : Module} {f : Finfo} {cpus : List Nat} {S S' : Regs}
    (h : ∀ b, f.bits = some b → cpus.all f.supported = true →
      RegFile.readBits b (S' m.regaddr) cpus = RegFile.readBits b (S m.regaddr) cpus) :
    readFeature m f cpus S' = readFeature m f cpus S := by
  unfold readFeature
  cases hb : f.bits with
  | none => rfl
  | some b =>
    dsimp only
    by_cases hs : cpus.all f.supported = true
    · have e := h b hb hs
      split
      · unfold Verif.PCStateConfigCtl.readLimit
        rw [show (f.feature b).bits = b from rfl, e]
      · unfold FeaturedMSR.readFeature
        rw [show (f.feature b).bits = b from rfl, e]
    · have hval : FeaturedMSR.validateSupported (f.feature b) cpus = .error .notSupported := by
        unfold FeaturedMSR.validateSupported
        exact if_neg hs
      split
      · unfold Verif.PCStateConfigCtl.readLimit; rw [hval]
      · unfold FeaturedMSR.readFeature; rw [hval]

theorem regaddr_inj {m m' : Module} (h : m.regaddr = m'.regaddr) : m = m' := by
  have key : ∀ a ∈ Module.all, ∀ b ∈ Module.all, a.regaddr = b.regaddr → a = b := by decide +kernel
  exact key m (mem_all m) m' (mem_all m') h

/-! ### Round trips -/

theorem check_aliases : ∀ m ∈ Module.all, ∀ f ∈ m.features, (m = .pcStateConfigCtl → f.name ≠ "pkg_cstate_limit".toList) →
    allModels f f (fun x => (stat m x f).aliases.isNone) = true := by
  decide +kernel

theorem check_limit : ∀ f ∈ PCStateConfigCtl.features, f.name = "pkg_cstate_limit".toList →
    f.isBool = false ∧ allModels f f (fun x => !(stat .pcStateConfigCtl x f).vals.isEmpty) = true := by
  decide +kernel

theorem check_ppl : ∀ f ∈ PackagePowerLimit.features, f.vals ≠ [] →
    "_clamp".toList.isSuffixOf f.name ∨ "_enable".toList.isSuffixOf f.name := by
  decide +kernel

/-- The feature with a method of its own for reading and writing. -/
def IsLimit (m : Module) (f : Finfo) : Prop := m = .pcStateConfigCtl ∧ f.name = "pkg_cstate_limit".toList

instance (m : Module) (f : Finfo) : Decidable (IsLimit m f) := inferInstanceAs (Decidable (_ ∧ _))

theorem live_aliases {H : Host} {m : Module} {fs : List Finfo} (h : create H m = .ok fs) {f : Finfo} (hf : f ∈ fs) {c : Nat}
    (hc : f.supported c = true) (hn : ¬ IsLimit m f) : f.aliases = none := by
  obtain ⟨f0, hf0, en, hx, _, _, e3⟩ := live h hf hc
  rw [e3]
  have key : (stat m H.model f0).aliases.isNone = true := by
    refine allModels_sound (check_aliases m (mem_all m) f0 hf0 fun hm hn' => hn ⟨hm, en.trans hn'⟩) H.model hx hx fun h _ => ?_
    show Option.isNone _ = Option.isNone _
    rw [stat_static m _ f0 hf0 h, stat_static m 0 f0 hf0 h]
  exact Option.isNone_iff_eq_none.1 key

theorem live_limit {H : Host} {fs : List Finfo} (h : create H .pcStateConfigCtl = .ok fs) {f : Finfo} (hf : f ∈ fs) {c : Nat}
    (hc : f.supported c = true) (hn : f.name = "pkg_cstate_limit".toList) : f.isBool = false ∧ f.vals ≠ [] := by
  obtain ⟨f0, hf0, k, hh, _⟩ := (created h).2 f hf
  have hx := hh c hc
  obtain ⟨h1, h2⟩ := check_limit f0 hf0 (k.name.symm.trans hn)
  refine ⟨k.bool.trans h1, ?_⟩
  rw [(k.stat ⟨c, hx⟩).2.1]
  have key := allModels_sound h2 H.model hx.2.1 hx.2.1 fun h _ => by
    show (!List.isEmpty _) = (!List.isEmpty _)
    rw [stat_static .pcStateConfigCtl _ f0 hf0 h, stat_static .pcStateConfigCtl 0 f0 hf0 h]
  simpa using key

theorem writePpl_named {units : Val → Except Exn Int} {E : RegFile.Env} {f : Finfo} {b : BitRange} {val : Val} {cpus : List Nat}
    {R : Reg} (hn : "_clamp".toList.isSuffixOf f.name ∨ "_enable".toList.isSuffixOf f.name) :
    writePpl units E f b val cpus R = FeaturedMSR.writeFeature E (f.feature b) val cpus R := by
  unfold writePpl FeaturedMSR.writeFeature
  cases FeaturedMSR.validateSupported (f.feature b) cpus with
  | error e => rfl
  | ok _ =>
    dsimp only
    cases FeaturedMSR.normalizeValue (f.feature b) val with
    | error e => rfl
    | ok v =>
      dsimp only
      rw [if_pos hn]
      rfl

theorem decodeAll_numbers {F : Feature} (h : F.vals = []) (l : List (Nat × Int)) :
    FeaturedMSR.decodeAll F l = .ok (l.map fun p => (p.1, .int p.2)) := by
  induction l with
  | nil => rfl
  | cons p l ih =>
    obtain ⟨c, v⟩ := p
    unfold FeaturedMSR.decodeAll
    rw [h]
    dsimp only [List.isEmpty]
    rw [if_pos rfl, ih]
    rfl

end Verif.MSRFeatures
