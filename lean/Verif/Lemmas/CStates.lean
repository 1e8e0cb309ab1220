import Verif.Props.CStatesSpec
import Verif.Lemmas.IdleGov

/-!
Lemmas about the C-state properties model.
-/

namespace Verif.CStates

open Verif.Bits (BitRange getBits InRange width)
open Verif.RegFile (Reg EnvWF Uniform Field Upd Reg64)
open Verif.FeaturedMSR (Feature Val Means Table SameText readFeature writeFeature normalizeValue)
open Verif.PCStateConfigCtl (Limits limitFeature allLimits Decodes readLimit writeLimit Locked)
open Verif.PropsBase
open Verif.CPUInfo (Scope WF Nums normalizeCpus)

/-! ### Registers -/

theorem bit_field {k : Nat} (hk : k ≤ 63) : Field ((k : Int), (k : Int)) := by
  unfold RegFile.Field
  dsimp only
  omega

theorem getBits_bit {k : Nat} (hk : k ≤ 63) (r : Int) :
    getBits r ((k : Int), (k : Int)) = .ok (if r.testBit k then 1 else 0) := by
  have hf := bit_field hk
  rw [HWP.getBits_fieldOf hf]
  congr 1
  have hr := RegFile.field_range hf (HWP.getBits_fieldOf hf r)
  have ht := RegFile.testBit_field hf (HWP.getBits_fieldOf hf r) 0
  generalize HWP.fieldOf r ((k : Int), (k : Int)) = v at *
  have hw : width ((k : Int), (k : Int)) = 1 := by simp [width]
  rw [hw] at hr ht
  have e : r.testBit k = v.testBit 0 := by
    rw [ht]; simp
  rw [e]
  have h1 : v = 0 ∨ v = 1 := by omega
  rcases h1 with rfl | rfl <;> decide

theorem flag_table {k : Nat} (hk : k ≤ 63) {one : Int} (h : one = 0 ∨ one = 1) (w s : Bool) :
    Table (flag k one w s) :=
  have t := FeaturedMSR.onOff_table (k : Int) (by omega) (by omega) one h
  ⟨t.nonempty, t.field, t.range, t.codes, t.names, t.aliasOk, t.aliases, t.aliasName⟩

/-- The name of a bit. -/
def bitName (one : Int) (b : Bool) : PyStr :=
  if b = decide (one = 1) then "on".toList else "off".toList

theorem bitName_code {one : Int} (h : one = 0 ∨ one = 1) (b : Bool) (k : Int) (w s : Bool) :
    (bitName one b, (if b then 1 else 0 : Int)) ∈ (flag k one w s).vals := by
  rcases h with rfl | rfl <;> cases b <;> simp [bitName, flag]

theorem readFlag_ok {k : Nat} (hk : k ≤ 63) {one : Int} (h : one = 0 ∨ one = 1) (w : Bool) (cpus : List Nat)
    (R : Reg) : readFeature (flag k one w true) cpus R =
      .ok (cpus.map fun c => (c, .str (bitName one ((R c).testBit k)))) := by
  apply (FeaturedMSR.C37_read _ (flag_table hk h w true) cpus (fun c _ => rfl) R).1
  intro c _
  exact ⟨_, getBits_bit hk (R c), bitName_code h _ k w true⟩

theorem readFlag_unsupported {k : Nat} {one : Int} (w : Bool) (cpus : List Nat) (hne : cpus ≠ [])
    (R : Reg) : readFeature (flag k one w false) cpus R = .error .notSupported := by
  unfold readFeature
  obtain ⟨c, hc⟩ := List.exists_mem_of_ne_nil cpus hne
  rw [FeaturedMSR.validateSupported_error ⟨c, hc, rfl⟩]

/-- What writing field `bits` of the registers of CPUs `l` with value `v` may lead to. -/
structure Wrote (E : RegFile.Env) (bits : BitRange) (v : Int) (l : List Nat) (R R' : Reg)
    (r : Except Exn Unit) : Prop where
  wf : Uniform E R' ∧ ∀ c, Reg64 (R' c)
  each : ∀ c, R' c = R c ∨ ((∃ a ∈ l, E.same a c = true) ∧ Upd bits v (R c) (R' c))
  all : r = .ok () → ∀ a ∈ l, Upd bits v (R a) (R' a)
  works : (∀ a ∈ l, E.wfail a = none) → r = .ok ()

theorem Wrote.of_writeBits {E : RegFile.Env} (w : EnvWF E) {bits : BitRange} (hf : Field bits) {v : Int}
    (h0 : 0 ≤ v) (h1 : v < 2 ^ width bits) (l : List Nat) {R : Reg} (hu : Uniform E R)
    (hR : ∀ c, Reg64 (R c)) :
    Wrote E bits v l R (RegFile.writeBits E bits (.num v) l R).1 (RegFile.writeBits E bits (.num v) l R).2 := by
  obtain ⟨k1, k2, k3, k4, k5, _⟩ := RegFile.writeBits_field E w hf v l R hu hR
  refine ⟨⟨k1, k2⟩, ?_, ?_, ?_⟩
  · intro c
    rcases k3 c with h | ⟨_, h, h'⟩
    · exact .inl h
    · exact .inr ⟨h, h'⟩
  · intro hok a ha
    exact (k4 hok a ha a (w.refl a)).2
  · exact fun h => k5 h h0 h1

/-- A feature write is either refused, or a write of the code of the value. -/
theorem writeFeature_cases {E : RegFile.Env} (w : EnvWF E) {F : Feature} (t : Table F)
    (hal : F.isBool = true → F.aliases = none)
    (hon : F.isBool = true → ∀ b : Bool, FeaturedMSR.Name F (if b then "on".toList else "off".toList))
    (v : Val) (l : List Nat) {R : Reg} (hu : Uniform E R) (hR : ∀ c, Reg64 (R c)) :
    (¬ (F.writable = true ∧ (∀ c ∈ l, F.supported c = true) ∧ ∃ n, Means F v n) ∧
      ∃ e, writeFeature E F v l R = (R, .error e)) ∨
    (F.writable = true ∧ (∀ c ∈ l, F.supported c = true) ∧
      ∃ n c, Means F v n ∧ (n, c) ∈ F.vals ∧
        normalizeValue F v = .ok (.int c) ∧
        writeFeature E F v l R = RegFile.writeBits E F.bits (.num c) l R ∧
        Wrote E F.bits c l R (writeFeature E F v l R).1 (writeFeature E F v l R).2) := by
  by_cases hm : ∃ n, Means F v n
  · by_cases hsw : F.writable = true ∧ ∀ c ∈ l, F.supported c = true
    · obtain ⟨hw, hs⟩ := hsw
      obtain ⟨n, hn⟩ := hm
      have hb : ∀ b, v = .bool b → F.aliases = none := by
        rintro b rfl
        exact hal hn.1
      obtain ⟨c, hc, hnv⟩ := FeaturedMSR.normalize_ok t hn hb
      refine .inr ⟨hw, hs, n, c, hn, hc, hnv, ?_⟩
      have e : writeFeature E F v l R = RegFile.writeBits E F.bits (.num c) l R := by
        unfold writeFeature
        rw [FeaturedMSR.validateSupported_ok hs]
        dsimp only
        rw [hnv]
        dsimp only
        rw [hw]
        rfl
      rw [e]
      exact ⟨rfl, .of_writeBits w t.field (t.range _ hc).1 (t.range _ hc).2 l hu hR⟩
    · refine .inl ⟨fun h => hsw ⟨h.1, h.2.1⟩, ?_⟩
      have : F.writable = false ∨ ∃ c ∈ l, F.supported c = false := by
        by_cases hw : F.writable = true
        · right
          have : ¬ ∀ c ∈ l, F.supported c = true := fun h => hsw ⟨hw, h⟩
          simpa using this
        · left; simpa using hw
      obtain ⟨e, he, _⟩ := FeaturedMSR.C37_not_modified E F v l this R
      exact ⟨e, he⟩
  · refine .inl ⟨fun h => hm h.2.2, ?_⟩
    cases v with
    | int k => exact FeaturedMSR.C37_bad_type_refused E F t _ (.inl ⟨k, rfl⟩) l R
    | bool b =>
      cases hb : F.isBool with
      | false => exact FeaturedMSR.C37_bad_type_refused E F t _ (.inr ⟨b, rfl, hb⟩) l R
      | true => exact absurd ⟨_, hb, hon hb b, rfl⟩ hm
    | str x =>
      by_cases hs : ∀ c ∈ l, F.supported c = true
      · exact ⟨_, FeaturedMSR.C37_unknown_refused E F t x hm l hs R⟩
      · obtain ⟨e, he, _⟩ := FeaturedMSR.C37_not_modified E F (.str x) l
          (.inr (by simpa using hs)) R
        exact ⟨e, he⟩

theorem writeLimit_unlocked (E : RegFile.Env) (F : Feature) (v : Val) (l : List Nat) (R : Reg)
    (hl : ∀ c ∈ l, ¬ Locked R c) : writeLimit E F v l R = writeFeature E F v l R := by
  unfold writeLimit FeaturedMSR.writeFeature
  cases FeaturedMSR.validateSupported F l with
  | error e => rfl
  | ok u =>
    dsimp only
    cases FeaturedMSR.normalizeValue F v with
    | error e => rfl
    | ok v =>
      dsimp only
      cases F.writable with
      | false => rfl
      | true =>
        show PCStateConfigCtl.setLimit E F.bits (FeaturedMSR.fieldVal v) l R =
          RegFile.writeBits E F.bits (FeaturedMSR.fieldVal v) l R
        unfold PCStateConfigCtl.setLimit RegFile.writeBits
        rw [PCStateConfigCtl.modifyLimit_unlocked _ _ _ _ _ hl]
        cases RegFile.modifyRegs F.bits (FeaturedMSR.fieldVal v) R l [] <;> rfl

/-! ### Values -/

theorem limits_bits {L : Limits} (h : L ∈ allLimits) : L.bits.2 = 0 ∧ 0 ≤ L.bits.1 ∧ L.bits.1 ≤ 3 := by
  revert L
  decide +kernel

theorem limit_field {L : Limits} (h : L ∈ allLimits) : Field L.bits := by
  have := limits_bits h
  unfold RegFile.Field
  omega

theorem frame_pcst {H : Host} (hH : HostWF H) {s : St} {R' : Reg} {bits : BitRange} {v : Int} {c : Nat}
    (h : R' c = s.pcst c ∨ Upd bits v (s.pcst c) (R' c)) (q : Name)
    (h1 : q = .limit → 3 < bits.2) (h2 : q = .lock → ¬ InRange bits 15)
    (h3 : q = .c1Demotion → ¬ InRange bits 26) (h4 : q = .c1Undemotion → ¬ InRange bits 28) (x : PVal) :
    Value H { s with pcst := R' } q c x ↔ Value H s q c x := by
  have bit : ∀ k : Nat, ¬ InRange bits k → (R' c).testBit k = (s.pcst c).testBit k := by
    intro k hk
    rcases h with h | h
    · rw [h]
    · exact h.2 k hk
  cases q with
  | limit =>
    have : ∀ L, H.limits = some L → getBits (R' c) L.bits = getBits (s.pcst c) L.bits := by
      intro L hL
      have hb := limits_bits (hH.table L hL)
      apply RegFile.getBits_congr (limit_field (hH.table L hL))
      intro k hk
      apply bit
      have := h1 rfl
      unfold InRange at *
      omega
    constructor
    · rintro ⟨hi, L, code, n, hL, hg, hd⟩
      exact ⟨hi, L, code, n, hL, by rw [← this L hL]; exact hg, hd⟩
    · rintro ⟨hi, L, code, n, hL, hg, hd⟩
      exact ⟨hi, L, code, n, hL, by show getBits (R' c) L.bits = _; rw [this L hL]; exact hg, hd⟩
  | lock => simp only [Value, bit 15 (h2 rfl)]
  | c1Demotion => simp only [Value, bit 26 (h3 rfl)]
  | c1Undemotion => simp only [Value, bit 28 (h4 rfl)]
  | limits => exact Iff.rfl
  | aliases => exact Iff.rfl
  | c1e => exact Iff.rfl
  | prewake => exact Iff.rfl
  | driver => exact Iff.rfl
  | governor => exact Iff.rfl
  | governors => exact Iff.rfl

theorem frame_pctl {H : Host} {s : St} {R' : Reg} {bits : BitRange} {v : Int} {c : Nat}
    (h : R' c = s.pctl c ∨ Upd bits v (s.pctl c) (R' c)) (q : Name)
    (h1 : q = .c1e → ¬ InRange bits 1) (h2 : q = .prewake → ¬ InRange bits 30) (x : PVal) :
    Value H { s with pctl := R' } q c x ↔ Value H s q c x := by
  have bit : ∀ k : Nat, ¬ InRange bits k → (R' c).testBit k = (s.pctl c).testBit k := by
    intro k hk
    rcases h with h | h
    · rw [h]
    · exact h.2 k hk
  cases q with
  | c1e => simp only [Value, bit 1 (h1 rfl)]
  | prewake => simp only [Value, bit 30 (h2 rfl)]
  | limit => exact Iff.rfl
  | lock => exact Iff.rfl
  | c1Demotion => exact Iff.rfl
  | c1Undemotion => exact Iff.rfl
  | limits => exact Iff.rfl
  | aliases => exact Iff.rfl
  | driver => exact Iff.rfl
  | governor => exact Iff.rfl
  | governors => exact Iff.rfl

/-- A value is unique. -/
theorem value_unique {H : Host} (hH : HostWF H) {s : St} {p : Name} {c : Nat} {x y : PVal}
    (hx : Value H s p c x) (hy : Value H s p c y) : x = y := by
  cases p with
  | limit =>
    obtain ⟨_, L, code, n, hL, hg, hd, rfl⟩ := hx
    obtain ⟨_, L', code', n', hL', hg', hd', rfl⟩ := hy
    rw [hL] at hL'
    injection hL' with hL'
    subst hL'
    rw [hg] at hg'
    injection hg' with hg'
    subst hg'
    rw [PCStateConfigCtl.decodes_unique
      (PCStateConfigCtl.C38_tables L (hH.table L hL) fun _ => true).2 hd hd']
  | lock => exact hx.2.2.trans hy.2.2.symm
  | prewake => exact hx.2.2.trans hy.2.2.symm
  | c1Demotion => exact hx.2.trans hy.2.symm
  | c1Undemotion => exact hx.2.trans hy.2.symm
  | c1e => exact hx.2.trans hy.2.symm
  | limits =>
    obtain ⟨_, L, hL, rfl⟩ := hx
    obtain ⟨_, L', hL', rfl⟩ := hy
    rw [hL] at hL'; injection hL' with hL'; rw [hL']
  | aliases =>
    obtain ⟨_, L, hL, rfl⟩ := hx
    obtain ⟨_, L', hL', rfl⟩ := hy
    rw [hL] at hL'; injection hL' with hL'; rw [hL']
  | driver =>
    obtain ⟨t, ht, rfl⟩ := hx
    obtain ⟨t', ht', rfl⟩ := hy
    rw [ht] at ht'; injection ht' with ht'; rw [ht']
  | governor =>
    obtain ⟨_, t, ht, rfl⟩ := hx
    obtain ⟨_, t', ht', rfl⟩ := hy
    rw [ht] at ht'; injection ht' with ht'; rw [ht']
  | governors =>
    obtain ⟨_, t, ht, rfl⟩ := hx
    obtain ⟨_, t', ht', rfl⟩ := hy
    rw [ht] at ht'; injection ht' with ht'; rw [ht']

/-- Whether there is a value does not depend on the CPU. -/
theorem value_any_cpu {H : Host} (hH : HostWF H) {s : St} {p : Name} {c : Nat} {x : PVal}
    (hx : Value H s p c x) (d : Nat) : ∃ y, Value H s p d y := by
  cases p with
  | limit =>
    obtain ⟨hi, L, code, n, hL, _, _, _⟩ := hx
    have hf := limit_field (hH.table L hL)
    obtain ⟨n', hn'⟩ := PCStateConfigCtl.decodes_exists L.codes (HWP.fieldOf (s.pcst d) L.bits)
    exact ⟨_, hi, L, _, n', hL, HWP.getBits_fieldOf hf _, hn', rfl⟩
  | lock => exact ⟨_, hx.1, hx.2.1, rfl⟩
  | prewake => exact ⟨_, hx.1, hx.2.1, rfl⟩
  | c1Demotion => exact ⟨_, hx.1, rfl⟩
  | c1Undemotion => exact ⟨_, hx.1, rfl⟩
  | c1e => exact ⟨_, hx.1, rfl⟩
  | limits => exact ⟨x, hx⟩
  | aliases => exact ⟨x, hx⟩
  | driver => exact ⟨x, hx⟩
  | governor => exact ⟨x, hx⟩
  | governors => exact ⟨x, hx⟩

/-! ### Reading -/

theorem bitName_pos (b : Bool) : PVal.str (bitName 1 b) = onOff b := by cases b <;> rfl
theorem bitName_neg (b : Bool) : PVal.str (bitName 0 b) = onOff (!b) := by cases b <;> rfl

theorem readLimit_ok {H : Host} (hH : HostWF H) {L : Limits} (hL : H.limits = some L) (cpus : List Nat)
    (R : Reg) (f : Nat → PyStr)
    (hf : ∀ c ∈ cpus, ∃ code, getBits (R c) L.bits = .ok code ∧ Decodes L.codes code (f c)) :
    readLimit (limitFeature L fun _ => true) cpus R = .ok (cpus.map fun c => (c, f c)) := by
  have ht := PCStateConfigCtl.C38_tables L (hH.table L hL) fun _ => true
  obtain ⟨g, hg, hd⟩ := PCStateConfigCtl.C38_read (limitFeature L fun _ => true) ht.1.field ht.2 cpus
    (fun _ _ => rfl) R
  rw [hg]
  congr 1
  apply List.map_congr_left
  intro c hc
  obtain ⟨code, h1, h2⟩ := hd c hc
  obtain ⟨code', h1', h2'⟩ := hf c hc
  have : code = code' := by
    have h3 : getBits (R c) L.bits = .ok code := h1
    rw [h3] at h1'; injection h1'
  subst this
  rw [PCStateConfigCtl.decodes_unique ht.2 h2 h2']

/-- `_get_prop_cpus()` yields the values. -/
theorem getCpus_value {H : Host} (hH : HostWF H) {s : St} {p : Name} {cpus : List Nat} (hne : cpus ≠ [])
    {f : Nat → PVal} (hf : ∀ c ∈ cpus, Value H s p c (f c)) :
    getCpus H s p (mech p) cpus = ⟨cpus.map fun c => (c, some (f c)), none⟩ := by
  obtain ⟨c0, hc0⟩ := List.exists_mem_of_ne_nil cpus hne
  have h0 := hf c0 hc0
  have maps : ∀ {α : Type} (g : Nat → α) (k : α → PVal), (∀ c ∈ cpus, k (g c) = f c) →
      gen (.ok (cpus.map fun c => (c, g c))) k = ⟨cpus.map fun c => (c, some (f c)), none⟩ := by
    intro α g k h
    unfold gen
    dsimp only
    rw [List.map_map]
    congr 1
    apply List.map_congr_left
    intro c hc
    show (c, some (k (g c))) = _
    rw [h c hc]
  have idle : ∀ {α : Type} (a : α) (k : α → PVal), (∀ c ∈ cpus, k a = f c) →
      readIdle (.ok a) k cpus = ⟨cpus.map fun c => (c, some (f c)), none⟩ := by
    intro α a k h
    unfold readIdle
    dsimp only
    congr 1
    apply List.map_congr_left
    intro c hc
    rw [h c hc]
  have flags : ∀ (k : Nat) (hk : k ≤ 63) (one : Int) (h1 : one = 0 ∨ one = 1) (w b : Bool),
      H.intel = true →
      (∀ c ∈ cpus, f c = .str (bitName one (((if b then s.pcst else s.pctl) c).testBit k))) →
      readFlag H (flag k one w true) b cpus s = ⟨cpus.map fun c => (c, some (f c)), none⟩ := by
    intro k hk one h1 w b hi h
    unfold readFlag needIntel
    rw [if_pos hi, readFlag_ok hk h1]
    exact maps _ _ fun c hc => (h c hc).symm
  cases p with
  | limit =>
    obtain ⟨hi, L, _, _, hL, _, _, _⟩ := h0
    show needIntel H (readLimits H _ cpus s) = _
    unfold needIntel readLimits
    rw [if_pos hi, hL]
    dsimp only
    have : ∀ c ∈ cpus, ∃ n, f c = .str n ∧ ∃ code, getBits (s.pcst c) L.bits = .ok code ∧ Decodes L.codes code n := by
      intro c hc
      obtain ⟨_, L', code, n, hL', hg, hd, hv⟩ := hf c hc
      rw [hL] at hL'; injection hL' with hL'; subst hL'
      exact ⟨n, hv, code, hg, hd⟩
    let g : Nat → PyStr := fun c => match f c with | .str n => n | _ => []
    have hg : ∀ c ∈ cpus, PVal.str (g c) = f c ∧
        ∃ code, getBits (s.pcst c) L.bits = .ok code ∧ Decodes L.codes code (g c) := by
      intro c hc
      obtain ⟨n, hn, h⟩ := this c hc
      have : g c = n := by show (match f c with | .str n => n | _ => []) = n; rw [hn]
      rw [this, hn]
      exact ⟨rfl, h⟩
    rw [readLimit_ok hH hL cpus s.pcst g fun c hc => (hg c hc).2]
    exact maps _ _ fun c hc => (hg c hc).1
  | limits =>
    obtain ⟨hi, L, hL, _⟩ := h0
    show needIntel H (readLimits H _ cpus s) = _
    unfold needIntel readLimits
    rw [if_pos hi, hL]
    dsimp only
    have ht := PCStateConfigCtl.C38_tables L (hH.table L hL) fun _ => true
    obtain ⟨g, hg, _⟩ := PCStateConfigCtl.C38_read (limitFeature L fun _ => true) ht.1.field ht.2 cpus
      (fun _ _ => rfl) s.pcst
    rw [hg]
    apply maps
    intro c hc
    obtain ⟨_, L', hL', hv⟩ := hf c hc
    rw [hL] at hL'; injection hL' with hL'; subst hL'
    rw [hv]; rfl
  | aliases =>
    obtain ⟨hi, L, hL, _⟩ := h0
    show needIntel H (readLimits H _ cpus s) = _
    unfold needIntel readLimits
    rw [if_pos hi, hL]
    dsimp only
    have ht := PCStateConfigCtl.C38_tables L (hH.table L hL) fun _ => true
    obtain ⟨g, hg, _⟩ := PCStateConfigCtl.C38_read (limitFeature L fun _ => true) ht.1.field ht.2 cpus
      (fun _ _ => rfl) s.pcst
    rw [hg]
    apply maps
    intro c hc
    obtain ⟨_, L', hL', hv⟩ := hf c hc
    rw [hL] at hL'; injection hL' with hL'; subst hL'
    rw [hv]
  | lock =>
    show readFlag H (flag 15 1 false H.limits.isSome) true cpus s = _
    have : H.limits.isSome = true := by
      cases h : H.limits with
      | none => exact absurd h h0.2.1
      | some _ => rfl
    rw [this]
    exact flags 15 (by omega) 1 (.inr rfl) false true h0.1 fun c hc => by
      rw [(hf c hc).2.2, bitName_pos]; rfl
  | c1Demotion =>
    exact flags 26 (by omega) 1 (.inr rfl) true true h0.1 fun c hc => by
      rw [(hf c hc).2, bitName_pos]; rfl
  | c1Undemotion =>
    exact flags 28 (by omega) 1 (.inr rfl) true true h0.1 fun c hc => by
      rw [(hf c hc).2, bitName_pos]; rfl
  | c1e =>
    exact flags 1 (by omega) 1 (.inr rfl) true false h0.1 fun c hc => by
      rw [(hf c hc).2, bitName_pos]; rfl
  | prewake =>
    show readFlag H (flag 30 0 true H.prewake) false cpus s = _
    rw [h0.2.1]
    exact flags 30 (by omega) 0 (.inl rfl) true false h0.1 fun c hc => by
      rw [(hf c hc).2.2, bitName_neg]; rfl
  | driver =>
    obtain ⟨t, ht, _⟩ := h0
    show readIdle (IdleGov.driverPlain s.gov) .str cpus = _
    unfold IdleGov.driverPlain
    rw [ht]
    apply idle
    intro c hc
    obtain ⟨t', ht', hv⟩ := hf c hc
    rw [ht] at ht'; injection ht' with ht'; subst ht'
    exact hv.symm
  | governor =>
    obtain ⟨hd, t, ht, _⟩ := h0
    show readIdle (IdleGov.currentPlain s.gov) .str cpus = _
    unfold IdleGov.currentPlain IdleGov.driverPlain
    cases hd' : s.gov.driver with
    | none => exact absurd hd' hd
    | some d =>
      dsimp only
      rw [ht]
      apply idle
      intro c hc
      obtain ⟨_, t', ht', hv⟩ := hf c hc
      rw [ht] at ht'; injection ht' with ht'; subst ht'
      exact hv.symm
  | governors =>
    obtain ⟨hd, t, ht, _⟩ := h0
    show readIdle (IdleGov.availPlain s.gov) .list cpus = _
    unfold IdleGov.availPlain IdleGov.driverPlain
    cases hd' : s.gov.driver with
    | none => exact absurd hd' hd
    | some d =>
      dsimp only
      rw [ht]
      apply idle
      intro c hc
      obtain ⟨_, t', ht', hv⟩ := hf c hc
      rw [ht] at ht'; injection ht' with ht'; subst ht'
      exact hv.symm

/-- Without a value, the property is reported to be not supported. -/
theorem getCpus_none {H : Host} {s : St} {p : Name} {cpus : List Nat} (hne : cpus ≠ [])
    (hno : ∀ c, ∀ v, ¬ Value H s p c v) (hH : HostWF H) :
    getCpus H s p (mech p) cpus = ⟨[], some .notSupported⟩ := by
  obtain ⟨c0, hc0⟩ := List.exists_mem_of_ne_nil cpus hne
  have lim : ∀ k : Limits → PyStr → PVal, (H.intel = true → ∀ L, H.limits = some L → False) →
      needIntel H (readLimits H k cpus s) = ⟨[], some .notSupported⟩ := by
    intro k h
    unfold needIntel readLimits
    cases hi : H.intel with
    | false => rfl
    | true =>
      cases hL : H.limits with
      | none => rfl
      | some L => exact absurd hL (h hi L)
  have flags : ∀ (k : Nat) (one : Int) (w sup b : Bool), (H.intel = true → sup = false) →
      readFlag H (flag k one w sup) b cpus s = ⟨[], some .notSupported⟩ := by
    intro k one w sup b h
    unfold readFlag needIntel
    cases hi : H.intel with
    | false => rfl
    | true =>
      rw [h hi, if_pos rfl, readFlag_unsupported w cpus hne]
      rfl
  cases p with
  | limit =>
    apply lim
    intro hi L hL
    obtain ⟨n, hn⟩ := PCStateConfigCtl.decodes_exists L.codes (HWP.fieldOf (s.pcst 0) L.bits)
    exact hno 0 _ ⟨hi, L, _, n, hL, HWP.getBits_fieldOf (limit_field (hH.table L hL)) _, hn, rfl⟩
  | limits => exact lim _ fun hi L hL => hno 0 _ ⟨hi, L, hL, rfl⟩
  | aliases => exact lim _ fun hi L hL => hno 0 _ ⟨hi, L, hL, rfl⟩
  | lock =>
    apply flags 15 1 false H.limits.isSome true
    intro hi
    cases hL : H.limits with
    | none => rfl
    | some L => exact absurd ⟨hi, by rw [hL]; simp, rfl⟩ (hno 0 _)
  | c1Demotion => exact flags 26 1 true true true fun hi => absurd ⟨hi, rfl⟩ (hno 0 _)
  | c1Undemotion => exact flags 28 1 true true true fun hi => absurd ⟨hi, rfl⟩ (hno 0 _)
  | c1e => exact flags 1 1 true true false fun hi => absurd ⟨hi, rfl⟩ (hno 0 _)
  | prewake =>
    apply flags 30 0 true H.prewake false
    intro hi
    cases hp : H.prewake with
    | false => rfl
    | true => exact absurd ⟨hi, hp, rfl⟩ (hno 0 _)
  | driver =>
    show readIdle (IdleGov.driverPlain s.gov) .str cpus = _
    unfold IdleGov.driverPlain
    cases hd : s.gov.driver with
    | none => rfl
    | some t => exact absurd ⟨t, hd, rfl⟩ (hno 0 _)
  | governor =>
    show readIdle (IdleGov.currentPlain s.gov) .str cpus = _
    unfold IdleGov.currentPlain IdleGov.driverPlain
    cases hd : s.gov.driver with
    | none => rfl
    | some d =>
      dsimp only
      cases hc : s.gov.current with
      | none => rfl
      | some t => exact absurd ⟨by rw [hd]; simp, t, hc, rfl⟩ (hno 0 _)
  | governors =>
    show readIdle (IdleGov.availPlain s.gov) .list cpus = _
    unfold IdleGov.availPlain IdleGov.driverPlain
    cases hd : s.gov.driver with
    | none => rfl
    | some d =>
      dsimp only
      cases hc : s.gov.avail with
      | none => rfl
      | some t => exact absurd ⟨by rw [hd]; simp, t, hc, rfl⟩ (hno 0 _)

end Verif.CStates
