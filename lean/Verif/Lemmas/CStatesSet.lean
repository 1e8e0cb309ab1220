import Verif.Lemmas.CStates

/-!
Lemmas about setting C-state properties.
-/

namespace Verif.CStates

open Verif.Bits (BitRange getBits InRange width)
open Verif.RegFile (Reg EnvWF Uniform Field Upd Reg64)
open Verif.FeaturedMSR (Feature Val Means Table SameText readFeature writeFeature normalizeValue)
open Verif.PCStateConfigCtl (Limits limitFeature allLimits Decodes readLimit writeLimit Locked)
open Verif.PropsBase
open Verif.CPUInfo (Scope WF Nums normalizeCpus)

/-- The CPUs a change of property `p` on CPUs `l` may reach. -/
def Touch (H : Host) (p : Name) (l : List Nat) (c : Nat) : Prop :=
  match p with
  | .limit | .c1Demotion | .c1Undemotion => ∃ a ∈ l, H.ePcst.same a c = true
  | .c1e | .prewake => ∃ a ∈ l, H.ePctl.same a c = true
  | _ => True

/-- The effect of trying to change property `p` to `w` on CPUs `l`. -/
structure Effect (H : Host) (p : Name) (w : PVal) (l : List Nat) (s s' : St)
    (r : Except Exn Unit) : Prop where
  wf : StWF H s'
  avail : s'.gov.avail = s.gov.avail
  other : ∀ q, q ≠ p → ∀ c x, Value H s' q c x ↔ Value H s q c x
  each : ∀ c, (∀ x, Value H s' p c x ↔ Value H s p c x) ∨ (Touch H p l c ∧ Value H s' p c w)
  all : r = .ok () → ∀ c, (c ∈ l ∨ p = .governor) → Value H s' p c w
  works : NoFail H p w l → r = .ok ()

theorem upd_bit {k : Nat} (hk : k ≤ 63) {v r r' : Int} (h : Upd ((k : Int), (k : Int)) v r r') :
    v = if r'.testBit k then 1 else 0 := by
  have := h.1
  rw [getBits_bit hk] at this
  injection this with this
  exact this.symm

theorem not_inRange {k j : Nat} (h : k ≠ j) : ¬ InRange ((k : Int), (k : Int)) j := by
  unfold InRange
  dsimp only
  omega

/-- The name and the code of a switch. -/
theorem flag_vals {k : Int} {one : Int} {w s : Bool} {n : PyStr} {c : Int}
    (h : (n, c) ∈ (flag k one w s).vals) : (n = "on".toList ∧ c = one) ∨ (n = "off".toList ∧ c = 1 - one) := by
  simp only [flag, List.mem_cons, Prod.mk.injEq, List.not_mem_nil, or_false] at h
  exact h

theorem flag_names (k : Int) (one : Int) (w s : Bool) (b : Bool) :
    FeaturedMSR.Name (flag k one w s) (if b then "on".toList else "off".toList) := by
  cases b
  · exact ⟨1 - one, by simp [flag]⟩
  · exact ⟨one, by simp [flag]⟩

/-- A boolean written to a switch. -/
theorem flag_means {k : Int} {one : Int} {w s : Bool} {b : Bool} {n : PyStr}
    (h : Means (flag k one w s) (.bool b) n) : PVal.str n = onOff b := by
  rw [h.2.2]; cases b <;> rfl

theorem on_ne_off : ("on".toList : PyStr) ≠ "off".toList := by decide

theorem flag_code {k : Int} {one : Int} {w s : Bool} {b : Bool} {n : PyStr} {c : Int}
    (h : Means (flag k one w s) (.bool b) n) (hc : (n, c) ∈ (flag k one w s).vals) :
    c = if b then one else 1 - one := by
  rw [h.2.2] at hc
  rcases flag_vals hc with ⟨h1, h2⟩ | ⟨h1, h2⟩
  · cases b
    · exact absurd h1.symm on_ne_off
    · exact h2
  · cases b
    · exact h2
    · exact absurd h1 on_ne_off

/-- The value a converted value `v` asks for. -/
def NormAsks (H : Host) (s : St) (p : Name) (v : Val) (w : PVal) : Prop :=
  match p with
  | .limit | .governor => Asks H s p v w
  | _ => ∃ b, v = .bool b ∧ w = onOff b

/-- The conditions under which a change is attempted at all. -/
def Good (H : Host) (s : St) (p : Name) (v : Val) (l : List Nat) : Prop :=
  (∃ w, NormAsks H s p v w) ∧ (∃ c x, Value H s p c x) ∧
  (p = .limit → ∀ c ∈ l, ¬ Locked s.pcst c)

theorem flag_means_iff {k : Int} {one : Int} {w s : Bool} {v : Val} {b : Bool} :
    v = .bool b → ∃ n, Means (flag k one w s) v n := by
  rintro rfl
  exact ⟨_, rfl, flag_names k one w s b, rfl⟩

/-- Writing a switch in MSR 0xE2. `p` is one of the two switches. -/
theorem set_pcst {H : Host} (hH : HostWF H) {s : St} (hs : StWF H s) {p : Name} {k : Nat} (hk : k ≤ 63)
    (h3 : 3 < k) (h15 : k ≠ 15) (h26 : p ≠ .c1Demotion → k ≠ 26) (h28 : p ≠ .c1Undemotion → k ≠ 28)
    (hp : p = .c1Demotion ∨ p = .c1Undemotion)
    (hv : ∀ s' : St, ∀ c x, Value H s' p c x ↔ H.intel = true ∧ x = onOff ((s'.pcst c).testBit k))
    (v : Val) (hvb : ∀ t, v ≠ .str t) (l : List Nat) :
    let z := onPcst H (writeFeature H.ePcst (flag k 1 true true) v l) s
    (¬ ((∃ b, v = .bool b) ∧ ∃ c x, Value H s p c x) ∧ ∃ e, z = (s, .error e)) ∨
    (∃ c x, Value H s p c x) ∧ ∃ b, v = .bool b ∧ Effect H p (onOff b) l s z.1 z.2 := by
  intro z
  cases hi : H.intel with
  | false =>
    refine .inl ⟨?_, .notSupported, ?_⟩
    · rintro ⟨_, c, x, hx⟩
      rw [((hv s c x).1 hx).1] at hi
      cases hi
    · show onPcst H _ s = _
      unfold onPcst; rw [hi]; rfl
  | true =>
    have ht := flag_table hk (one := 1) (.inr rfl) true true
    have hz : z = ({ s with pcst := (writeFeature H.ePcst (flag k 1 true true) v l s.pcst).1 },
        (writeFeature H.ePcst (flag k 1 true true) v l s.pcst).2) := by
      show onPcst H _ s = _
      unfold onPcst; rw [hi, if_pos rfl]
    rcases writeFeature_cases hH.pcst ht (fun _ => rfl) (fun _ b => flag_names _ _ _ _ b) v l hs.pcst.1
      hs.pcst.2 with ⟨hno, e, he⟩ | ⟨_, _, n, code, hm, hcode, _, _, hw⟩
    · refine .inl ⟨?_, e, ?_⟩
      · rintro ⟨⟨b, hb⟩, _⟩
        exact hno ⟨rfl, fun _ _ => rfl, flag_means_iff hb⟩
      · rw [hz, he]
    · have hb : ∃ b, v = .bool b := by
        cases v with
        | str t => exact absurd rfl (hvb t)
        | bool b => exact ⟨b, rfl⟩
        | int _ => exact absurd hm (fun h => h)
      obtain ⟨b, rfl⟩ := hb
      have hcd := flag_code hm hcode
      refine .inr ⟨⟨0, _, (hv s 0 _).2 ⟨hi, rfl⟩⟩, b, rfl, ?_⟩
      rw [hz]
      generalize (writeFeature H.ePcst (flag k 1 true true) (.bool b) l s.pcst).1 = R' at *
      generalize (writeFeature H.ePcst (flag k 1 true true) (.bool b) l s.pcst).2 = r at *
      have new : ∀ c, Upd ((k : Int), (k : Int)) code (s.pcst c) (R' c) →
          Value H { s with pcst := R' } p c (onOff b) := by
        intro c hc
        rw [hv]
        refine ⟨hi, ?_⟩
        have := upd_bit hk hc
        show onOff b = onOff ((R' c).testBit k)
        congr 1
        rw [hcd] at this
        revert this
        cases b <;> cases (R' c).testBit k <;> simp
      have fr : ∀ c, R' c = s.pcst c ∨ Upd ((k : Int), (k : Int)) code (s.pcst c) (R' c) := fun c =>
        (hw.each c).imp id fun h => h.2
      refine ⟨⟨⟨hw.wf.1, hw.wf.2⟩, hs.pctl⟩, rfl, ?_, ?_, ?_, ?_⟩
      · intro q hq c x
        apply frame_pcst hH (fr c) q
        · intro _; show (3 : Int) < (k : Int); omega
        · intro _; exact not_inRange h15
        · rintro rfl; exact not_inRange (h26 (Ne.symm hq))
        · rintro rfl; exact not_inRange (h28 (Ne.symm hq))
      · intro c
        rcases hw.each c with h | ⟨h, h'⟩
        · left
          intro x
          rw [hv, hv]
          show _ ∧ x = onOff ((R' c).testBit k) ↔ _
          rw [h]
        · right
          refine ⟨?_, new c h'⟩
          rcases hp with rfl | rfl <;> exact h
      · intro hok c hc
        rcases hc with hc | hc
        · exact new c (hw.all hok c hc)
        · rcases hp with rfl | rfl <;> cases hc
      · intro hf
        apply hw.works
        rcases hp with rfl | rfl <;> exact hf

/-- Writing a switch in MSR 0x1FC. -/
theorem set_pctl {H : Host} (hH : HostWF H) {s : St} (hs : StWF H s) {p : Name} {k : Nat} (hk : k ≤ 63)
    {one : Int} (hone : one = 0 ∨ one = 1) {sup : Bool}
    (h1 : p ≠ .c1e → k ≠ 1) (h30 : p ≠ .prewake → k ≠ 30)
    (hp : p = .c1e ∨ p = .prewake)
    (hv : ∀ s' : St, ∀ c x, Value H s' p c x ↔
      H.intel = true ∧ sup = true ∧ x = onOff ((s'.pctl c).testBit k == decide (one = 1)))
    (v : Val) (hvb : ∀ t, v ≠ .str t) (l : List Nat) (hne : l ≠ []) :
    let z := onPctl H (writeFeature H.ePctl (flag k one true sup) v l) s
    (¬ ((∃ b, v = .bool b) ∧ ∃ c x, Value H s p c x) ∧ ∃ e, z = (s, .error e)) ∨
    (∃ c x, Value H s p c x) ∧ ∃ b, v = .bool b ∧ Effect H p (onOff b) l s z.1 z.2 := by
  intro z
  cases hi : H.intel with
  | false =>
    refine .inl ⟨?_, .notSupported, ?_⟩
    · rintro ⟨_, c, x, hx⟩
      rw [((hv s c x).1 hx).1] at hi
      cases hi
    · show onPctl H _ s = _
      unfold onPctl; rw [hi]; rfl
  | true =>
    have ht := flag_table hk hone true sup
    have hz : z = ({ s with pctl := (writeFeature H.ePctl (flag k one true sup) v l s.pctl).1 },
        (writeFeature H.ePctl (flag k one true sup) v l s.pctl).2) := by
      show onPctl H _ s = _
      unfold onPctl; rw [hi, if_pos rfl]
    rcases writeFeature_cases hH.pctl ht (fun _ => rfl) (fun _ b => flag_names _ _ _ _ b) v l hs.pctl.1
      hs.pctl.2 with ⟨hno, e, he⟩ | ⟨_, hsup, n, code, hm, hcode, _, _, hw⟩
    · refine .inl ⟨?_, e, ?_⟩
      · rintro ⟨⟨b, hb⟩, c, x, hx⟩
        exact hno ⟨rfl, fun _ _ => ((hv s c x).1 hx).2.1, flag_means_iff hb⟩
      · rw [hz, he]
    · have hb : ∃ b, v = .bool b := by
        cases v with
        | str t => exact absurd rfl (hvb t)
        | bool b => exact ⟨b, rfl⟩
        | int _ => exact absurd hm (fun h => h)
      obtain ⟨b, rfl⟩ := hb
      have hcd := flag_code hm hcode
      have hs1 : sup = true := by
        obtain ⟨a, ha⟩ := List.exists_mem_of_ne_nil l hne
        exact hsup a ha
      refine .inr ⟨⟨0, _, (hv s 0 _).2 ⟨hi, hs1, rfl⟩⟩, b, rfl, ?_⟩
      rw [hz]
      generalize (writeFeature H.ePctl (flag k one true sup) (.bool b) l s.pctl).1 = R' at *
      generalize (writeFeature H.ePctl (flag k one true sup) (.bool b) l s.pctl).2 = r at *
      have new : ∀ c, Upd ((k : Int), (k : Int)) code (s.pctl c) (R' c) →
          Value H { s with pctl := R' } p c (onOff b) := by
        intro c hc
        rw [hv]
        refine ⟨hi, hs1, ?_⟩
        have := upd_bit hk hc
        show onOff b = onOff ((R' c).testBit k == decide (one = 1))
        congr 1
        rw [hcd] at this
        revert this
        rcases hone with rfl | rfl <;> cases b <;> cases (R' c).testBit k <;> simp
      have fr : ∀ c, R' c = s.pctl c ∨ Upd ((k : Int), (k : Int)) code (s.pctl c) (R' c) := fun c =>
        (hw.each c).imp id fun h => h.2
      refine ⟨⟨hs.pcst, ⟨hw.wf.1, hw.wf.2⟩⟩, rfl, ?_, ?_, ?_, ?_⟩
      · intro q hq c x
        apply frame_pctl (fr c) q
        · rintro rfl; exact not_inRange (h1 (Ne.symm hq))
        · rintro rfl; exact not_inRange (h30 (Ne.symm hq))
      · intro c
        rcases hw.each c with h | ⟨h, h'⟩
        · left
          intro x
          rw [hv, hv]
          show _ ∧ _ ∧ x = onOff ((R' c).testBit k == decide (one = 1)) ↔ _
          rw [h]
        · right
          refine ⟨?_, new c h'⟩
          rcases hp with rfl | rfl <;> exact h
      · intro hok c hc
        rcases hc with hc | hc
        · exact new c (hw.all hok c hc)
        · rcases hp with rfl | rfl <;> cases hc
      · intro hf
        apply hw.works
        rcases hp with rfl | rfl <;> exact hf

/-- Writing the package C-state limit. -/
theorem set_limit {H : Host} (hH : HostWF H) {s : St} (hs : StWF H s) {L : Limits} (hL : H.limits = some L)
    (v : Val) (l : List Nat) :
    let z := onPcst H (writeLimit H.ePcst (limitFeature L fun _ => true) v l) s
    (¬ ((∃ w, Asks H s .limit v w) ∧ (∃ c x, Value H s .limit c x) ∧ ∀ c ∈ l, ¬ Locked s.pcst c) ∧
      ∃ e, z = (s, .error e)) ∨
    ((∀ c ∈ l, ¬ Locked s.pcst c) ∧ ∃ w, Asks H s .limit v w ∧ Effect H .limit w l s z.1 z.2) := by
  intro z
  cases hi : H.intel with
  | false =>
    refine .inl ⟨?_, .notSupported, ?_⟩
    · rintro ⟨_, ⟨c, x, hx⟩, _⟩
      rw [hx.1] at hi
      cases hi
    · show onPcst H _ s = _
      unfold onPcst; rw [hi]; rfl
  | true =>
    have ht := (PCStateConfigCtl.C38_tables L (hH.table L hL) fun _ => true).1
    have hinj := (PCStateConfigCtl.C38_tables L (hH.table L hL) fun _ => true).2
    have hb := limits_bits (hH.table L hL)
    by_cases hlk : ∃ c ∈ l, Locked s.pcst c
    · obtain ⟨e, he⟩ := PCStateConfigCtl.C39_locked H.ePcst (limitFeature L fun _ => true) v l s.pcst hlk
      refine .inl ⟨?_, e, ?_⟩
      · rintro ⟨_, _, h⟩
        obtain ⟨c, hc, hl⟩ := hlk
        exact h c hc hl
      · show onPcst H _ s = _
        unfold onPcst; rw [hi, if_pos rfl, he]
    · have hun : ∀ c ∈ l, ¬ Locked s.pcst c := fun c hc h => hlk ⟨c, hc, h⟩
      have hz : z = ({ s with pcst := (writeFeature H.ePcst (limitFeature L fun _ => true) v l s.pcst).1 },
          (writeFeature H.ePcst (limitFeature L fun _ => true) v l s.pcst).2) := by
        show onPcst H _ s = _
        unfold onPcst; rw [hi, if_pos rfl, writeLimit_unlocked _ _ _ _ _ hun]
      rcases writeFeature_cases hH.pcst ht (fun h => by cases h) (fun h => by cases h) v l hs.pcst.1
        hs.pcst.2 with ⟨hno, e, he⟩ | ⟨_, _, n, code, hm, hcode, _, _, hw⟩
      · refine .inl ⟨?_, e, ?_⟩
        · rintro ⟨⟨w, L', n, hL', hm, _⟩, _⟩
          rw [hL] at hL'; injection hL' with hL'; subst hL'
          exact hno ⟨rfl, fun _ _ => rfl, n, hm⟩
        · rw [hz, he]
      · refine .inr ⟨hun, .str n, ⟨L, n, hL, hm, rfl⟩, ?_⟩
        rw [hz]
        generalize (writeFeature H.ePcst (limitFeature L fun _ => true) v l s.pcst).1 = R' at *
        generalize (writeFeature H.ePcst (limitFeature L fun _ => true) v l s.pcst).2 = r at *
        have new : ∀ c, Upd L.bits code (s.pcst c) (R' c) → Value H { s with pcst := R' } .limit c (.str n) :=
          fun c hc => ⟨hi, L, code, n, hL, hc.1, .inl hcode, rfl⟩
        have fr : ∀ c, R' c = s.pcst c ∨ Upd L.bits code (s.pcst c) (R' c) := fun c =>
          (hw.each c).imp id fun h => h.2
        have far : ∀ k : Nat, 3 < k → ¬ InRange L.bits k := by
          intro k hk h
          unfold InRange at h
          omega
        refine ⟨⟨⟨hw.wf.1, hw.wf.2⟩, hs.pctl⟩, rfl, ?_, ?_, ?_, ?_⟩
        · intro q hq c x
          apply frame_pcst hH (fr c) q
          · rintro rfl; exact absurd rfl hq
          · intro _; exact far 15 (by omega)
          · intro _; exact far 26 (by omega)
          · intro _; exact far 28 (by omega)
        · intro c
          rcases hw.each c with h | ⟨h, h'⟩
          · left
            intro x
            unfold Value
            dsimp only
            rw [h]
          · exact .inr ⟨h, new c h'⟩
        · intro hok c hc
          rcases hc with hc | hc
          · exact new c (hw.all hok c hc)
          · cases hc
        · exact fun hf => hw.works hf

/-- Changing the governor. -/
theorem set_gov {H : Host} {s : St} (hs : StWF H s) (v : Val) (l : List Nat) :
    let z := setGovernor H v s
    (¬ ((∃ w, Asks H s .governor v w) ∧ ∃ c x, Value H s .governor c x) ∧ ∃ e, z = (s, .error e)) ∨
    (∃ c x, Value H s .governor c x) ∧ ∃ w, Asks H s .governor v w ∧ Effect H .governor w l s z.1 z.2 := by
  intro z
  cases v with
  | bool b =>
    refine .inl ⟨fun ⟨⟨w, g, t, h, _⟩, _⟩ => (by cases h), ?_⟩
    show ∃ e, setGovernor H _ s = _
    unfold setGovernor
    cases IdleGov.availPlain s.gov with
    | error e => exact ⟨e, rfl⟩
    | ok l => exact ⟨_, rfl⟩
  | int b =>
    refine .inl ⟨fun ⟨⟨w, g, t, h, _⟩, _⟩ => (by cases h), ?_⟩
    show ∃ e, setGovernor H _ s = _
    unfold setGovernor
    cases IdleGov.availPlain s.gov with
    | error e => exact ⟨e, rfl⟩
    | ok l => exact ⟨_, rfl⟩
  | str g =>
    have hz : z = ({ s with gov := (IdleGov.setPlain H.wfail g s.gov).1 },
      (IdleGov.setPlain H.wfail g s.gov).2) := rfl
    cases hd : s.gov.driver with
    | none =>
      have ha : IdleGov.availPlain s.gov = .error .notSupported := by
        unfold IdleGov.availPlain IdleGov.driverPlain; rw [hd]
      have hp : IdleGov.setPlain H.wfail g s.gov = (s.gov, .error .notSupported) := by
        unfold IdleGov.setPlain; rw [ha]
      refine .inl ⟨fun ⟨_, c, x, hx⟩ => hx.1 hd, .notSupported, ?_⟩
      rw [hz, hp]
    | some d =>
      cases ht : s.gov.avail with
      | none =>
        have ha : IdleGov.availPlain s.gov = .error .notSupported := by
          unfold IdleGov.availPlain IdleGov.driverPlain; rw [hd, ht]
        have hp : IdleGov.setPlain H.wfail g s.gov = (s.gov, .error .notSupported) := by
          unfold IdleGov.setPlain; rw [ha]
        refine .inl ⟨fun ⟨⟨w, g', t, _, h, _⟩, _⟩ => (by rw [ht] at h; cases h), .notSupported, ?_⟩
        rw [hz, hp]
      | some t =>
        have ha : IdleGov.availPlain s.gov = .ok (FreqInfo.splitWs (PyStr.strip t)) := by
          unfold IdleGov.availPlain IdleGov.driverPlain; rw [hd, ht]
        by_cases hg : g ∈ FreqInfo.splitWs (PyStr.strip t)
        · have hword := IdleGov.strip_word (IdleGov.splitWs_words _ g hg).2
          have hp : IdleGov.setPlain H.wfail g s.gov = IdleGov.writeCurrent H.wfail g s.gov := by
            unfold IdleGov.setPlain
            rw [ha]
            dsimp only
            rw [if_neg (by intro h; rw [List.isEmpty_iff] at h; rw [h] at hg; cases hg),
              if_neg (by simpa using hg)]
          rw [hp] at hz
          unfold IdleGov.writeCurrent at hz
          cases hc : s.gov.current with
          | none =>
            rw [hc] at hz
            refine .inl ⟨fun ⟨_, c, x, _, t', h, _⟩ => (by rw [hc] at h; cases h), .notFound, hz⟩
          | some cur =>
            rw [hc] at hz
            dsimp only at hz
            refine .inr ⟨⟨0, _, by rw [hd]; simp, cur, hc, rfl⟩, .str g, ⟨g, t, rfl, ht, hg, rfl⟩, ?_⟩
            cases hw : H.wfail g with
            | some e =>
              rw [hw] at hz
              rw [hz]
              refine ⟨hs, rfl, fun _ _ _ _ => Iff.rfl, fun _ => .inl fun _ => Iff.rfl, (fun h => by cases h), ?_⟩
              intro hf
              have := hf g rfl
              rw [hw] at this; cases this
            | none =>
              rw [hw] at hz
              rw [hz]
              refine ⟨⟨hs.pcst, hs.pctl⟩, rfl, ?_, ?_, ?_, fun _ => rfl⟩
              · intro q hq c x
                cases q with
                | governor => exact absurd rfl hq
                | _ => exact Iff.rfl
              · intro c
                exact .inr ⟨trivial, by show s.gov.driver ≠ none; rw [hd]; simp, g, rfl, by rw [hword]⟩
              · intro _ c _
                exact ⟨by show s.gov.driver ≠ none; rw [hd]; simp, g, rfl, by rw [hword]⟩
        · have hp : ∃ e, IdleGov.setPlain H.wfail g s.gov = (s.gov, .error e) := by
            unfold IdleGov.setPlain
            rw [ha]
            dsimp only
            by_cases he : (FreqInfo.splitWs (PyStr.strip t)).isEmpty = true
            · exact ⟨_, if_pos he⟩
            · rw [if_neg he]
              exact ⟨_, if_pos (by simpa using hg)⟩
          obtain ⟨e, hp⟩ := hp
          refine .inl ⟨?_, e, by rw [hz, hp]⟩
          rintro ⟨⟨w, g', t', hv, h, hm, _⟩, _⟩
          injection hv with hv
          rw [ht] at h; injection h with h
          subst hv h
          exact hg hm

/-- `_set_prop_cpus()` of a writable property, with a normalized value. -/
theorem setCpus_cases {H : Host} (hH : HostWF H) {s : St} (hs : StWF H s) {p : Name}
    (hp : writable p = true) (v : Val) (hvb : isBool p = true → ∀ t, v ≠ .str t) (l : List Nat)
    (hne : l ≠ []) :
    let z := setCpus H p (mech p) v l s
    (¬ Good H s p v l ∧ ∃ e, z = (s, .error e)) ∨
    (Good H s p v l ∧ ∃ w, NormAsks H s p v w ∧ Effect H p w l s z.1 z.2) := by
  intro z
  cases p with
  | lock => cases hp
  | limits => cases hp
  | aliases => cases hp
  | driver => cases hp
  | governors => cases hp
  | limit =>
    cases hL : H.limits with
    | none =>
      refine .inl ⟨?_, .notSupported, ?_⟩
      · rintro ⟨_, ⟨c, x, _, L, _, _, h, _⟩, _⟩
        rw [hL] at h; cases h
      · show setCpus H .limit .msr v l s = _
        unfold setCpus
        rw [if_pos rfl, hL]
    | some L =>
      have hz : z = onPcst H (writeLimit H.ePcst (limitFeature L fun _ => true) v l) s := by
        show setCpus H .limit .msr v l s = _
        unfold setCpus
        rw [if_pos rfl, hL]
      rw [hz]
      rcases set_limit hH hs hL v l with ⟨h1, h2⟩ | ⟨h1, w, h2, h3⟩
      · exact .inl ⟨fun ⟨a, b, c⟩ => h1 ⟨a, b, c rfl⟩, h2⟩
      · by_cases hi : H.intel = true
        · refine .inr ⟨⟨⟨w, h2⟩, ?_, fun _ => h1⟩, w, h2, h3⟩
          obtain ⟨n, hn⟩ := PCStateConfigCtl.decodes_exists L.codes (HWP.fieldOf (s.pcst 0) L.bits)
          exact ⟨0, _, hi, L, _, n, hL, HWP.getBits_fieldOf (limit_field (hH.table L hL)) _, hn, rfl⟩
        · refine .inl ⟨fun ⟨_, ⟨c, x, hx⟩, _⟩ => hi hx.1, .notSupported, ?_⟩
          unfold onPcst
          rw [if_neg hi]
  | governor =>
    have hz : z = setGovernor H v s := by
      show setCpus H .governor .sysfs v l s = _
      unfold setCpus
      rw [if_pos rfl]
    rw [hz]
    rcases set_gov hs v l with ⟨h1, h2⟩ | ⟨h0, w, h2, h3⟩
    · exact .inl ⟨fun ⟨a, b, _⟩ => h1 ⟨a, b⟩, h2⟩
    · exact .inr ⟨⟨⟨w, h2⟩, h0, fun h => by cases h⟩, w, h2, h3⟩
  | c1Demotion =>
    have hz : z = onPcst H (writeFeature H.ePcst (flag (26 : Nat) 1 true true) v l) s := rfl
    rw [hz]
    rcases set_pcst hH hs (p := .c1Demotion) (k := 26) (by omega) (by omega) (by omega)
      (fun h => absurd rfl h) (by omega) (.inl rfl) (fun _ _ _ => Iff.rfl) v (hvb rfl) l with
      ⟨h1, h2⟩ | ⟨h0, b, h2, h3⟩
    · exact .inl ⟨fun ⟨⟨_, b, hb, _⟩, c, _⟩ => h1 ⟨⟨b, hb⟩, c⟩, h2⟩
    · exact .inr ⟨⟨⟨_, b, h2, rfl⟩, h0, fun h => by cases h⟩, _, ⟨b, h2, rfl⟩, h3⟩
  | c1Undemotion =>
    have hz : z = onPcst H (writeFeature H.ePcst (flag (28 : Nat) 1 true true) v l) s := rfl
    rw [hz]
    rcases set_pcst hH hs (p := .c1Undemotion) (k := 28) (by omega) (by omega) (by omega)
      (by omega) (fun h => absurd rfl h) (.inr rfl) (fun _ _ _ => Iff.rfl) v (hvb rfl) l with
      ⟨h1, h2⟩ | ⟨h0, b, h2, h3⟩
    · exact .inl ⟨fun ⟨⟨_, b, hb, _⟩, c, _⟩ => h1 ⟨⟨b, hb⟩, c⟩, h2⟩
    · exact .inr ⟨⟨⟨_, b, h2, rfl⟩, h0, fun h => by cases h⟩, _, ⟨b, h2, rfl⟩, h3⟩
  | c1e =>
    have hz : z = onPctl H (writeFeature H.ePctl (flag (1 : Nat) 1 true true) v l) s := rfl
    rw [hz]
    rcases set_pctl hH hs (p := .c1e) (k := 1) (by omega) (one := 1) (.inr rfl) (sup := true)
      (fun h => absurd rfl h) (by omega) (.inl rfl) (fun s' c x => by simp [Value]) v (hvb rfl) l hne with
      ⟨h1, h2⟩ | ⟨h0, b, h2, h3⟩
    · exact .inl ⟨fun ⟨⟨_, b, hb, _⟩, c, _⟩ => h1 ⟨⟨b, hb⟩, c⟩, h2⟩
    · exact .inr ⟨⟨⟨_, b, h2, rfl⟩, h0, fun h => by cases h⟩, _, ⟨b, h2, rfl⟩, h3⟩
  | prewake =>
    have hz : z = onPctl H (writeFeature H.ePctl (flag (30 : Nat) 0 true H.prewake) v l) s := rfl
    rw [hz]
    rcases set_pctl hH hs (p := .prewake) (k := 30) (by omega) (one := 0) (.inl rfl) (sup := H.prewake)
      (by omega) (fun h => absurd rfl h) (.inr rfl) (fun s' c x => by simp [Value]) v (hvb rfl) l hne with
      ⟨h1, h2⟩ | ⟨h0, b, h2, h3⟩
    · exact .inl ⟨fun ⟨⟨_, b, hb, _⟩, c, _⟩ => h1 ⟨⟨b, hb⟩, c⟩, h2⟩
    · exact .inr ⟨⟨⟨_, b, h2, rfl⟩, h0, fun h => by cases h⟩, _, ⟨b, h2, rfl⟩, h3⟩

end Verif.CStates
