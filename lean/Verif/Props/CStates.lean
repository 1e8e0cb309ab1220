import Verif.Lemmas.CStatesSet

/-!
C82: reading and changing the C-state properties.
-/

namespace Verif.CStates

open Verif.FeaturedMSR (Val Means SameText lower)
open Verif.PropsBase
open Verif.CPUInfo (Scope WF Nums normalizeCpus SameUnit)

theorem mech_source (p : Name) : mech p = source p := by cases p <;> rfl

theorem list_single {α : Type} [DecidableEq α] {a : α} {l : List α} (hne : l ≠ []) (h : ∀ x ∈ l, x = a) :
    pyDedup l = [a] := by
  have h1 := nodup_pyDedup l
  have h2 : ∀ x ∈ pyDedup l, x = a := fun x hx => h x (mem_pyDedup.1 hx)
  have h3 : pyDedup l ≠ [] := by
    obtain ⟨x, hx⟩ := List.exists_mem_of_ne_nil l hne
    exact List.ne_nil_of_mem (mem_pyDedup.2 hx)
  generalize pyDedup l = m at *
  match m, h1, h2, h3 with
  | [], _, _, h3 => exact absurd rfl h3
  | [x], _, h2, _ => rw [h2 x (by simp)]
  | x :: y :: m, h1, h2, _ =>
    have hx := h2 x (by simp)
    have hy := h2 y (by simp)
    subst hx
    subst hy
    simp at h1

theorem toTry_desc {H : Host} {p : Name} {mn : Option (List Mech)}
    (h : ∀ ml, mn = some ml → ∀ m ∈ ml, m = source p) : toTry (desc H p) mn = [mech p] := by
  match mn, h with
  | none, _ => rfl
  | some [], _ => rfl
  | some (a :: l), h =>
    show pyDedup (a :: l) = _
    rw [mech_source]
    exact list_single (by simp) (h _ rfl)

theorem sname_unit {H : Host} {p : Name} {sn : Scope} (h : (desc H p).sname = some sn) :
    sn = unitOf H p := by
  revert h
  unfold desc scopes unitOf clxScope pcstScope
  cases p <;> cases H.intel <;> simp <;> intro h <;> exact h.symm

theorem sname_has {H : Host} {s : St} {p : Name} {c : Nat} {x : PVal} (h : Value H s p c x) :
    (desc H p).sname = some (unitOf H p) := by
  unfold desc scopes unitOf clxScope pcstScope
  cases p with
  | limits => rfl
  | aliases => rfl
  | driver => rfl
  | governor => rfl
  | governors => rfl
  | _ => rw [h.1]; rfl

/-- C82, reading: for every requested CPU the value which the registers and files stand for is reported,
with the mechanism it comes from; the value is `None` exactly if the property is not supported. -/
theorem C82_get (H : Host) (hH : HostWF H) (s : St) (p : Name) (cpus : Nums) (mnames : Option (List Mech))
    (l : List Nat) (hl : normalizeCpus H.info cpus false = .ok l)
    (hm : ∀ ml, mnames = some ml → ml ≠ [] ∧ ∀ m ∈ ml, m = source p) :
    ∃ f : Nat → Option PVal,
      getProp H s p cpus mnames = ⟨l.map fun c => ⟨c, f c, source p⟩, none⟩ ∧
      ∀ c ∈ l, ∀ x, f c = some x ↔ Value H s p c x := by
  have hmn : normalizeMnames (desc H p) mnames true = .ok [mech p] := by
    unfold normalizeMnames
    cases mnames with
    | none => rfl
    | some ml =>
      have hv : validateMnames (desc H p) true ml = .ok () :=
        validateMnames_ok.2 fun m hml => ⟨by
          rw [(hm ml rfl).2 m hml, ← mech_source]; exact List.mem_singleton.2 rfl, .inl rfl⟩
      simp only [hv]
      rw [list_single (hm ml rfl).1 (hm ml rfl).2, mech_source]
  by_cases hle : l = []
  · subst hle
    refine ⟨fun _ => none, ?_, fun c hc => by cases hc⟩
    unfold getProp getPropCpus
    simp only [hmn, hl]
    rfl
  have hemp : l.isEmpty = false := by
    cases l with
    | nil => exact absurd rfl hle
    | cons => rfl
  by_cases hval : ∃ c x, Value H s p c x
  · obtain ⟨c, x, hx⟩ := hval
    have hall := fun d => value_any_cpu hH hx d
    refine ⟨fun d => some (Classical.choose (hall d)), ?_, ?_⟩
    · have hg := getCpus_value hH hle (f := fun d => Classical.choose (hall d))
        (fun d _ => Classical.choose_spec (hall d))
      unfold getProp getPropCpus
      simp only [hmn, hl, hemp, sname_has hx]
      rw [if_neg Bool.false_ne_true]
      unfold getPvinfo orDefault
      simp only [List.isEmpty_cons]
      rw [if_neg Bool.false_ne_true]
      show getLoop (fun m => getCpus H s p m l) l (mech p) [mech p] = _
      unfold getLoop
      simp only [hg]
      unfold tag
      rw [List.map_map, mech_source]
      rfl
    · intro d _ y
      constructor
      · intro h
        injection h with h
        rw [← h]; exact Classical.choose_spec (hall d)
      · intro h
        rw [value_unique hH h (Classical.choose_spec (hall d))]
  · refine ⟨fun _ => none, ?_, fun c _ x => ⟨fun h => (by cases h), fun h => absurd ⟨c, x, h⟩ hval⟩⟩
    have hg := getCpus_none (H := H) (s := s) (p := p) hle (fun c v h => hval ⟨c, v, h⟩) hH
    unfold getProp getPropCpus
    simp only [hmn, hl, hemp]
    rw [if_neg Bool.false_ne_true]
    cases hsn : (desc H p).sname with
    | none => rw [mech_source]; rfl
    | some sn =>
      dsimp only
      unfold getPvinfo orDefault
      simp only [List.isEmpty_cons]
      rw [if_neg Bool.false_ne_true]
      show getLoop (fun m => getCpus H s p m l) l (mech p) [mech p] = _
      unfold getLoop
      simp only [hg]
      rw [mech_source]
      rfl

/-! ### Changing -/

/-- The value conversion and the meaning of the value. -/
theorem norm_asks {H : Host} {s : St} {p : Name} (hp : writable p = true) {v0 : Val} {w : PVal} :
    Asks H s p v0 w ↔ ∃ v, norm p v0 = .ok v ∧ NormAsks H s p v w := by
  have low : ∀ t : PyStr, lower t = t.map Char.toLower := fun _ => rfl
  have key : ∀ (v0 : Val) (q : Name), isBool q = true →
      ((∃ b, w = onOff b ∧ (v0 = .bool b ∨
        ∃ t, v0 = .str t ∧ ∃ n ∈ (if b then ["on".toList, "enable".toList] else ["off".toList, "disable".toList]),
          SameText t n)) ↔ ∃ v, norm q v0 = .ok v ∧ ∃ b, v = .bool b ∧ w = onOff b) := by
    intro v0 q hq
    unfold norm
    rw [hq]
    cases v0 with
    | bool b =>
      constructor
      · rintro ⟨b', rfl, h | ⟨t, h, _⟩⟩
        · injection h with h; subst h; exact ⟨_, rfl, b, rfl, rfl⟩
        · cases h
      · rintro ⟨v, hv, b', rfl, rfl⟩
        injection hv with hv
        injection hv with hv
        exact ⟨b', rfl, .inl (by rw [hv])⟩
    | int n =>
      constructor
      · rintro ⟨b', rfl, h | ⟨t, h, _⟩⟩ <;> cases h
      · rintro ⟨v, hv, b', rfl, rfl⟩
        exfalso
        revert hv
        show (if n = 0 ∨ n = 1 then Except.ok (Val.int n) else Except.error Exn.pyAttributeError) = _ → False
        split <;> intro h <;> cases h
    | str t =>
      show _ ↔ ∃ v, (if lower t = "on".toList ∨ lower t = "enable".toList then Except.ok (Val.bool true)
        else if lower t = "off".toList ∨ lower t = "disable".toList then .ok (.bool false)
        else Except.error Exn.error) = .ok v ∧ _
      have e1 : "on".toList.map Char.toLower = "on".toList := by decide
      have e2 : "enable".toList.map Char.toLower = "enable".toList := by decide
      have e3 : "off".toList.map Char.toLower = "off".toList := by decide
      have e4 : "disable".toList.map Char.toLower = "disable".toList := by decide
      have d1 : "on".toList ≠ "off".toList := by decide
      have d2 : "on".toList ≠ "disable".toList := by decide
      have d3 : "enable".toList ≠ "off".toList := by decide
      have d4 : "enable".toList ≠ "disable".toList := by decide
      generalize "on".toList = on at *
      generalize "off".toList = off at *
      generalize "enable".toList = en at *
      generalize "disable".toList = dis at *
      constructor
      · rintro ⟨b, rfl, h | ⟨t', h, n, hn, hs⟩⟩
        · cases h
        · injection h with h
          subst h
          unfold SameText at hs
          rw [← low] at hs
          cases b with
          | true =>
            have : lower t = on ∨ lower t = en := by
              have hn : n ∈ [on, en] := hn
              simp only [List.mem_cons, List.not_mem_nil, or_false] at hn
              rcases hn with rfl | rfl
              · exact .inl (hs.trans e1)
              · exact .inr (hs.trans e2)
            exact ⟨_, if_pos this, true, rfl, rfl⟩
          | false =>
            have : lower t = off ∨ lower t = dis := by
              have hn : n ∈ [off, dis] := hn
              simp only [List.mem_cons, List.not_mem_nil, or_false] at hn
              rcases hn with rfl | rfl
              · exact .inl (hs.trans e3)
              · exact .inr (hs.trans e4)
            have hno : ¬ (lower t = on ∨ lower t = en) := by
              rintro (h | h) <;> rcases this with h' | h' <;> rw [h] at h'
              · exact d1 h'
              · exact d2 h'
              · exact d3 h'
              · exact d4 h'
            exact ⟨_, by rw [if_neg hno, if_pos this], false, rfl, rfl⟩
      · rintro ⟨v, hv, b, rfl, rfl⟩
        refine ⟨b, rfl, .inr ⟨t, rfl, ?_⟩⟩
        unfold SameText
        split at hv
        · rename_i h
          injection hv with hv
          injection hv with hv
          subst hv
          rcases h with h | h
          · exact ⟨on, List.mem_cons_self .., h.trans e1.symm⟩
          · exact ⟨en, List.mem_cons_of_mem _ (List.mem_cons_self ..), h.trans e2.symm⟩
        · split at hv
          · rename_i h
            injection hv with hv
            injection hv with hv
            subst hv
            rcases h with h | h
            · exact ⟨off, List.mem_cons_self .., h.trans e3.symm⟩
            · exact ⟨dis, List.mem_cons_of_mem _ (List.mem_cons_self ..), h.trans e4.symm⟩
          · cases hv
  cases p with
  | limit => exact ⟨fun h => ⟨v0, rfl, h⟩, fun ⟨v, hv, h⟩ => by injection hv with hv; rw [hv]; exact h⟩
  | governor => exact ⟨fun h => ⟨v0, rfl, h⟩, fun ⟨v, hv, h⟩ => by injection hv with hv; rw [hv]; exact h⟩
  | c1Demotion => exact key v0 _ rfl
  | c1Undemotion => exact key v0 _ rfl
  | c1e => exact key v0 _ rfl
  | prewake => exact key v0 _ rfl
  | lock => cases hp
  | limits => cases hp
  | aliases => cases hp
  | driver => cases hp
  | governors => cases hp

theorem norm_not_str {p : Name} (hp : isBool p = true) {v0 v : Val} (h : norm p v0 = .ok v) (t : PyStr) :
    v ≠ .str t := by
  rintro rfl
  unfold norm at h
  rw [hp] at h
  cases v0 with
  | bool b => cases h
  | int n =>
    revert h
    show (if n = 0 ∨ n = 1 then Except.ok (Val.int n) else Except.error Exn.pyAttributeError) = _ → False
    split <;> intro h <;> cases h
  | str u =>
    revert h
    show (if lower u = "on".toList ∨ lower u = "enable".toList then Except.ok (Val.bool true)
        else if lower u = "off".toList ∨ lower u = "disable".toList then .ok (.bool false)
        else Except.error Exn.error) = _ → False
    split
    · intro h; cases h
    · split <;> intro h <;> cases h

theorem asks_writable {H : Host} {s : St} {p : Name} {v : Val} {w : PVal} (h : Asks H s p v w) :
    writable p = true := by
  cases p with
  | lock => exact h.elim
  | limits => exact h.elim
  | aliases => exact h.elim
  | driver => exact h.elim
  | governors => exact h.elim
  | _ => rfl

theorem asks_unique {H : Host} (hH : HostWF H) {s : St} {p : Name} {v : Val} {w w' : PVal}
    (h : Asks H s p v w) (h' : Asks H s p v w') : w = w' := by
  have sw : ∀ {b b' : Bool}, (v = .bool b ∨ ∃ t, v = .str t ∧
      ∃ n ∈ (if b then ["on".toList, "enable".toList] else ["off".toList, "disable".toList]), SameText t n) →
      (v = .bool b' ∨ ∃ t, v = .str t ∧
      ∃ n ∈ (if b' then ["on".toList, "enable".toList] else ["off".toList, "disable".toList]), SameText t n) →
      b = b' := by
    intro b b' h h'
    have tab : ∀ b b' : Bool,
        ∀ n ∈ (if b then ["on".toList, "enable".toList] else ["off".toList, "disable".toList]),
        ∀ n' ∈ (if b' then ["on".toList, "enable".toList] else ["off".toList, "disable".toList]),
        n.map Char.toLower = n'.map Char.toLower → b = b' := by decide +kernel
    rcases h with h | ⟨t, h, n, hn, hs⟩ <;> rcases h' with h' | ⟨t', h', n', hn', hs'⟩
    · rw [h] at h'; injection h'
    · rw [h] at h'; cases h'
    · rw [h] at h'; cases h'
    · rw [h] at h'; injection h' with h'
      subst h'
      exact tab b b' n hn n' hn' (hs.symm.trans hs')
  have sw2 : ∀ q, isBool q = true → (∃ b, w = onOff b ∧ (v = .bool b ∨ ∃ t, v = .str t ∧
      ∃ n ∈ (if b then ["on".toList, "enable".toList] else ["off".toList, "disable".toList]), SameText t n)) →
      (∃ b, w' = onOff b ∧ (v = .bool b ∨ ∃ t, v = .str t ∧
      ∃ n ∈ (if b then ["on".toList, "enable".toList] else ["off".toList, "disable".toList]), SameText t n)) →
      w = w' := by
    rintro q - ⟨b, e, k⟩ ⟨b', e', k'⟩
    rw [e, e', sw k k']
  cases p with
  | limit =>
    obtain ⟨L, n, hL, hm, rfl⟩ := h
    obtain ⟨L', n', hL', hm', rfl⟩ := h'
    rw [hL] at hL'; injection hL' with hL'; subst hL'
    have ht := (PCStateConfigCtl.C38_tables L (hH.table L hL) fun _ => true).1
    have hb : ∀ b, v = .bool b → (PCStateConfigCtl.limitFeature L fun _ => true).aliases = none := by
      rintro b rfl
      exact absurd hm.1 (by intro h; cases h)
    obtain ⟨c, h1, h2⟩ := FeaturedMSR.normalize_ok ht hm hb
    obtain ⟨c', h1', h2'⟩ := FeaturedMSR.normalize_ok ht hm' hb
    rw [h2] at h2'
    injection h2' with h2'
    injection h2' with h2'
    subst h2'
    have hn : n = n' := ht.codes _ h1 _ h1' rfl
    rw [hn]
  | governor =>
    obtain ⟨g, _, rfl, _, _, rfl⟩ := h
    obtain ⟨g', _, h, _, _, rfl⟩ := h'
    injection h with h
    rw [h]
  | c1Demotion => exact sw2 .c1Demotion rfl h h'
  | c1Undemotion => exact sw2 .c1Demotion rfl h h'
  | c1e => exact sw2 .c1Demotion rfl h h'
  | prewake => exact sw2 .c1Demotion rfl h h'
  | lock => exact h.elim
  | limits => exact h.elim
  | aliases => exact h.elim
  | driver => exact h.elim
  | governors => exact h.elim

theorem source_writable {p : Name} (h : writable p = true) : (source p).writable = true := by
  cases p with
  | limits => cases h
  | aliases => cases h
  | _ => rfl

theorem unit_node (H : Host) (p : Name) : unitOf H p ≠ .lvl .node := by
  unfold unitOf
  cases p <;> cases H.clxAp <;> cases H.family <;> simp

/-- One "set" call: it is refused and nothing changes, or it is accepted and has an effect. -/
theorem setProp_cases {H : Host} (hH : HostWF H) {s : St} (hs : StWF H s) (p : Name) (v : Option Val)
    (cpus : Nums) (mnames : Option (List Mech)) :
    let z := setProp H p v cpus mnames s
    ((¬ ∃ l w, Accepts H s p v cpus mnames l w) ∧ ∃ e, z = (s, .error e)) ∨
    ∃ l w r, Accepts H s p v cpus mnames l w ∧ Effect H p w l s z.1 r ∧
      (r = .ok () → z.2 = .ok (source p)) ∧ (∀ m, z.2 = .ok m → r = .ok ()) := by
  intro z
  rcases setPropCpus_cases H.info (desc H p) (norm p) (setCpus H p) v cpus mnames s with
    ⟨v1, l, ⟨a1, a2, ⟨v0, a3, a4⟩, a5, a6, sn, a7, a8⟩, he⟩ | ⟨hna, e, he⟩
  · have hsn := sname_unit a7
    subst hsn
    have hmod : unitOf H p ≠ .lvl .module := by
      intro h
      rw [h] at a8
      cases a8
    have hwr : writable p = true := a2
    have hsrc : ∀ ml, mnames = some ml → ∀ m ∈ ml, m = source p := fun ml h m hm => by
      have := (a1 ml h m hm).1
      rw [← mech_source]; exact List.mem_singleton.1 this
    have hon : ∀ c ∈ l, c ∈ H.info.online := by
      have := (CPUInfo.normalizeCpus_ok a5).2.2; simpa using this
    have hwh : Whole H.info (unitOf H p) l := by
      rcases validate_iff H.info hH.info (unitOf H p) l a6 hon ⟨hmod, unit_node H p⟩ with h | h
      · exact h.2
      · rw [h.1] at a8; cases a8
    have hz : z = setLoop (fun m => setCpus H p m v1 l) [mech p] false s := by
      rw [← toTry_desc (H := H) hsrc]; exact he
    unfold setLoop at hz
    rcases setCpus_cases hH hs hwr v1 (fun h => norm_not_str h a4) l a6 with ⟨hng, e, hf⟩ | ⟨hg, w, hw, hf⟩
    · rw [hf] at hz
      refine .inl ⟨?_, ?_⟩
      · rintro ⟨l', w, hA⟩
        obtain ⟨v0', h1, h2⟩ := hA.value
        rw [a3] at h1; injection h1 with h1; subst h1
        obtain ⟨v1', h3, h4⟩ := (norm_asks hwr).1 h2
        rw [a4] at h3; injection h3 with h3; subst h3
        have := hA.cpus.1
        rw [a5] at this; injection this with this; subst this
        exact hng ⟨⟨w, h4⟩, hA.has, hA.unlocked⟩
      · rw [hz]
        dsimp only
        split
        · exact ⟨.notSupported, rfl⟩
        · exact ⟨e, rfl⟩
    · refine .inr ⟨l, w, (setCpus H p (mech p) v1 l s).2, ?_, ?_⟩
      · exact ⟨⟨v0, a3, (norm_asks hwr).2 ⟨v1, a4, hw⟩⟩, ⟨a5, a6⟩, ⟨hmod, hwh⟩, hsrc, hg.2.1, hg.2.2⟩
      · revert hf hz
        cases hq : setCpus H p (mech p) v1 l s with
        | mk s1 r =>
          intro hz hf
          dsimp only at hf hz ⊢
          cases r with
          | ok u =>
            rw [hz]
            exact ⟨hf, fun _ => by rw [mech_source], fun _ _ => rfl⟩
          | error e =>
            have h1 : z.1 = s1 ∧ ∃ e', z.2 = .error e' := by
              rw [hz]
              dsimp only
              split
              · exact ⟨rfl, _, rfl⟩
              · exact ⟨rfl, _, rfl⟩
            obtain ⟨h1, e', h2⟩ := h1
            rw [h1, h2]
            exact ⟨hf, fun h => (by cases h), fun m h => (by cases h)⟩
  · refine .inl ⟨?_, e, he⟩
    rintro ⟨l, w, hA⟩
    obtain ⟨v0, h1, h2⟩ := hA.value
    have hwr := asks_writable h2
    obtain ⟨v1, h3, h4⟩ := (norm_asks hwr).1 h2
    obtain ⟨c, x, hx⟩ := hA.has
    have hon : ∀ c ∈ l, c ∈ H.info.online := by
      have := (CPUInfo.normalizeCpus_ok hA.cpus.1).2.2; simpa using this
    refine hna ⟨v1, l, ?_, hwr, ⟨v0, h1, h3⟩, hA.cpus.1, hA.cpus.2, _, sname_has hx, ?_⟩
    · intro ml h m hm
      rw [hA.mech ml h m hm]
      refine ⟨?_, source_writable hwr⟩
      rw [← mech_source]; exact List.mem_singleton.2 rfl
    · rcases validate_iff H.info hH.info (unitOf H p) l hA.cpus.2 hon ⟨hA.whole.1, unit_node H p⟩ with h | h
      · exact h.1
      · exact absurd hA.whole.2 h.2

theorem touch_mem {H : Host} (hH : HostWF H) {p : Name} (hp : writable p = true) {l : List Nat}
    (hne : l ≠ []) (hon : ∀ c ∈ l, c ∈ H.info.online) (hw : Whole H.info (unitOf H p) l) {c : Nat}
    (hc : c ∈ H.info.online) (ht : Touch H p l c) : c ∈ l := by
  cases p with
  | limit =>
    obtain ⟨a, ha, h⟩ := ht
    exact hw a ha c (hH.sharePcst a c (hon a ha) h).2
  | c1Demotion =>
    obtain ⟨a, ha, h⟩ := ht
    exact hw a ha c (hH.sharePcst a c (hon a ha) h).1
  | c1Undemotion =>
    obtain ⟨a, ha, h⟩ := ht
    exact hw a ha c (hH.sharePcst a c (hon a ha) h).1
  | c1e =>
    obtain ⟨a, ha, h⟩ := ht
    exact hw a ha c (hH.sharePctl a c (hon a ha) h)
  | prewake =>
    obtain ⟨a, ha, h⟩ := ht
    exact hw a ha c (hH.sharePctl a c (hon a ha) h)
  | governor =>
    obtain ⟨a, ha⟩ := List.exists_mem_of_ne_nil l hne
    obtain ⟨n1, t1, h1, e1⟩ := (hH.info.online a).1 (hon a ha)
    obtain ⟨n2, t2, h2, e2⟩ := (hH.info.online c).1 hc
    exact hw a ha c ⟨t1, h1, t2, h2, e1, e2, n1, n2, rfl⟩
  | lock => cases hp
  | limits => cases hp
  | aliases => cases hp
  | driver => cases hp
  | governors => cases hp

/-- C82, changing: whether the call succeeds or fails, it changes nothing but property `p` of the requested
CPUs, each of which keeps its value or gets the requested one; after success all of them have it. -/
theorem C82_set (H : Host) (hH : HostWF H) (s : St) (hs : StWF H s) (p : Name) (v : Option Val) (cpus : Nums)
    (mnames : Option (List Mech)) (s' : St) (r : Except Exn Mech)
    (hr : setProp H p v cpus mnames s = (s', r)) :
    StWF H s' ∧
    (∀ q c x, c ∈ H.info.online → (q ≠ p ∨ ¬ CPUInfo.Requested H.info false cpus c) →
      (Value H s' q c x ↔ Value H s q c x)) ∧
    (∀ c x, Value H s' p c x → Value H s p c x ∨ ∃ v0, v = some v0 ∧ Asks H s p v0 x) ∧
    (∀ m, r = .ok m → m = source p ∧ ∃ v0 w, v = some v0 ∧ Asks H s p v0 w ∧
      (∃ c, CPUInfo.Requested H.info false cpus c) ∧
      ∀ c, CPUInfo.Requested H.info false cpus c → c ∈ H.info.online ∧ Value H s' p c w) := by
  have h := setProp_cases hH hs p v cpus mnames
  rw [hr] at h
  rcases h with ⟨_, e, h⟩ | ⟨l, w, r', hA, hE, h1, h2⟩
  · injection h with ha hb
    subst ha
    refine ⟨hs, fun _ _ _ _ _ => Iff.rfl, fun _ _ hx => .inl hx, fun m hm => ?_⟩
    rw [hb] at hm; cases hm
  · dsimp only at hE h1 h2
    obtain ⟨v0, hv0, hask⟩ := hA.value
    obtain ⟨hl, hne⟩ := hA.cpus
    have hreq := (CPUInfo.normalizeCpus_ok hl).2.1
    have hon : ∀ c ∈ l, c ∈ H.info.online := by
      have := (CPUInfo.normalizeCpus_ok hl).2.2; simpa using this
    refine ⟨hE.wf, ?_, ?_, ?_⟩
    · intro q c x hc hq
      by_cases hqp : q = p
      · subst hqp
        rcases hE.each c with h | ⟨h, _⟩
        · exact h x
        · exact absurd ((hreq c).1 (touch_mem hH (asks_writable hask) hne hon hA.whole.2 hc h))
            (hq.resolve_left fun h => h rfl)
      · exact hE.other q hqp c x
    · intro c x hx
      rcases hE.each c with h | ⟨_, h⟩
      · exact .inl ((h x).1 hx)
      · rw [value_unique hH hx h]
        exact .inr ⟨v0, hv0, hask⟩
    · intro m hm
      have hr' := h2 m hm
      have := h1 hr'
      rw [hm] at this
      injection this with this
      refine ⟨this, v0, w, hv0, hask, ?_, ?_⟩
      · obtain ⟨a, ha⟩ := List.exists_mem_of_ne_nil l hne
        exact ⟨a, (hreq a).1 ha⟩
      · intro c hc
        have hc' := (hreq c).2 hc
        exact ⟨hon c hc', hE.all hr' c (.inl hc')⟩

/-- C82: a call which asks for something impossible is refused and changes nothing. -/
theorem C82_refused (H : Host) (hH : HostWF H) (s : St) (hs : StWF H s) (p : Name) (v : Option Val)
    (cpus : Nums) (mnames : Option (List Mech)) (h : ¬ ∃ l w, Accepts H s p v cpus mnames l w) :
    ∃ e, setProp H p v cpus mnames s = (s, .error e) := by
  rcases setProp_cases hH hs p v cpus mnames with ⟨_, h'⟩ | ⟨l, w, _, hA, _⟩
  · exact h'
  · exact absurd ⟨l, w, hA⟩ h

/-- C82: a call which asks for something possible succeeds, unless the hardware or the kernel refuses. -/
theorem C82_works (H : Host) (hH : HostWF H) (s : St) (hs : StWF H s) (p : Name) (v : Option Val)
    (cpus : Nums) (mnames : Option (List Mech)) (l : List Nat) (w : PVal)
    (h : Accepts H s p v cpus mnames l w) (hf : NoFail H p w l) :
    ∃ s', setProp H p v cpus mnames s = (s', .ok (source p)) ∧ ∀ c ∈ l, Value H s' p c w := by
  rcases setProp_cases hH hs p v cpus mnames with ⟨h', _⟩ | ⟨l', w', r, hA, hE, h1, _⟩
  · exact absurd ⟨l, w, h⟩ h'
  · have hl := hA.cpus.1
    rw [h.cpus.1] at hl
    injection hl with hl
    subst hl
    obtain ⟨v0, e, hv⟩ := h.value
    obtain ⟨v0', e', hv'⟩ := hA.value
    rw [e] at e'; injection e' with e'; subst e'
    have hw := asks_unique hH hv hv'
    subst hw
    have hr := hE.works hf
    exact ⟨_, Prod.ext rfl (h1 hr), fun c hc => hE.all hr c (.inl hc)⟩

/-! ### Histories -/

theorem setProp_avail {H : Host} (hH : HostWF H) {s : St} (hs : StWF H s) (p : Name) (v : Option Val)
    (cpus : Nums) (mnames : Option (List Mech)) :
    (setProp H p v cpus mnames s).1.gov.avail = s.gov.avail := by
  rcases setProp_cases hH hs p v cpus mnames with ⟨_, e, h⟩ | ⟨l, w, r, _, hE, _⟩
  · rw [h]
  · exact hE.avail

theorem asks_congr {H : Host} {s s' : St} (h : s'.gov.avail = s.gov.avail) {p : Name} {v : Val} {w : PVal} :
    Asks H s' p v w ↔ Asks H s p v w := by
  cases p with
  | governor =>
    unfold Asks
    dsimp only
    rw [h]
  | _ => exact Iff.rfl

theorem runSets_cons (H : Host) (o : SetOp) (os : List SetOp) (s : St) :
    runSets H (o :: os) s = ((runSets H os (setProp H o.pname o.val o.cpus o.mnames s).1).1,
      (setProp H o.pname o.val o.cpus o.mnames s).2 ::
        (runSets H os (setProp H o.pname o.val o.cpus o.mnames s).1).2) := rfl

theorem runSets_append (H : Host) (os os' : List SetOp) (s : St) :
    runSets H (os ++ os') s = ((runSets H os' (runSets H os s).1).1,
      (runSets H os s).2 ++ (runSets H os' (runSets H os s).1).2) := by
  induction os generalizing s with
  | nil => rfl
  | cons o os ih =>
    rw [List.cons_append, runSets_cons, ih, runSets_cons]
    rfl

theorem runSets_length (H : Host) (os : List SetOp) (s : St) : (runSets H os s).2.length = os.length := by
  induction os generalizing s with
  | nil => rfl
  | cons o os ih => rw [runSets_cons]; simp [ih]

theorem runSets_wf {H : Host} (hH : HostWF H) (os : List SetOp) {s : St} (hs : StWF H s) :
    StWF H (runSets H os s).1 ∧ (runSets H os s).1.gov.avail = s.gov.avail := by
  induction os generalizing s with
  | nil => exact ⟨hs, rfl⟩
  | cons o os ih =>
    rw [runSets_cons]
    have h1 := (C82_set H hH s hs o.pname o.val o.cpus o.mnames _ _ rfl).1
    have h2 := setProp_avail hH hs o.pname o.val o.cpus o.mnames
    exact ⟨(ih h1).1, (ih h1).2.trans h2⟩

/-- C82: a property of a CPU for which it was never requested to be changed keeps its value, no matter what
else was changed or failed to change. -/
theorem C82_untouched (H : Host) (hH : HostWF H) (s : St) (hs : StWF H s) (os : List SetOp) (q : Name)
    (c : Nat) (hc : c ∈ H.info.online)
    (h : ∀ o ∈ os, o.pname = q → ¬ CPUInfo.Requested H.info false o.cpus c) (x : PVal) :
    Value H (runSets H os s).1 q c x ↔ Value H s q c x := by
  induction os generalizing s with
  | nil => exact Iff.rfl
  | cons o os ih =>
    rw [runSets_cons]
    have h1 := C82_set H hH s hs o.pname o.val o.cpus o.mnames _ _ rfl
    refine (ih _ h1.1 fun o' ho' => h o' (List.mem_cons_of_mem _ ho')).trans ?_
    refine h1.2.1 q c x hc ?_
    by_cases hq : q = o.pname
    · exact .inr (h o (List.mem_cons_self ..) hq.symm)
    · exact .inl hq

/-- C82: after any series of calls a property of a CPU has the value which the last call about it requested,
if that call succeeded. -/
theorem C82_last (H : Host) (hH : HostWF H) (s : St) (hs : StWF H s) (pre post : List SetOp) (o : SetOp)
    (c : Nat) (hc : CPUInfo.Requested H.info false o.cpus c) (m : Mech)
    (hok : (runSets H (pre ++ o :: post) s).2[pre.length]? = some (.ok m))
    (hlast : ∀ o' ∈ post, o'.pname = o.pname → ¬ CPUInfo.Requested H.info false o'.cpus c) :
    ∃ v0 w, o.val = some v0 ∧ Asks H s o.pname v0 w ∧
      Value H (runSets H (pre ++ o :: post) s).1 o.pname c w := by
  rw [runSets_append, runSets_cons] at hok ⊢
  dsimp only at hok ⊢
  obtain ⟨hw, hav⟩ := runSets_wf hH pre hs
  generalize hs1 : (runSets H pre s).1 = s1 at *
  rw [← runSets_length H pre s, List.getElem?_append_right (Nat.le_refl _)] at hok
  simp only [Nat.sub_self, List.getElem?_cons_zero, Option.some.injEq] at hok
  have h1 := C82_set H hH s1 hw o.pname o.val o.cpus o.mnames _ _ rfl
  obtain ⟨_, v0, w, hv, hask, _, hval⟩ := h1.2.2.2 m hok
  obtain ⟨hon, hx⟩ := hval c hc
  exact ⟨v0, w, hv, (asks_congr hav).1 hask,
    (C82_untouched H hH _ h1.1 post o.pname c hon hlast w).2 hx⟩

/-! ### Examples -/

/-- The example machine with an Intel CPU: CPUs of a package share MSR 0x1FC, CPUs of a core share
MSR 0xE2. -/
def exHost : Host where
  info := CPUInfo.exInfo
  intel := true
  limits := PCStateConfigCtl.allLimits.head?
  prewake := true
  family := .other
  clxAp := false
  ePcst := ⟨fun a b => a % 4 == b % 4 && (decide (a < 8) == decide (b < 8)), fun _ => none⟩
  ePctl := ⟨fun a b => decide (a % 4 < 2) == decide (b % 4 < 2) && (decide (a < 8) == decide (b < 8)), fun _ => none⟩
  wfail := fun _ => none

/-- A check that implies `SameUnit`. -/
def unitCheck (u : Scope) (c d : Nat) : Bool :=
  CPUInfo.exInfo.topology.any fun tc => CPUInfo.exInfo.topology.any fun td =>
    decide (tc.cpu = c ∧ td.cpu = d ∧ c ≠ CPUInfo.NA ∧ d ≠ CPUInfo.NA ∧ CPUInfo.ident u tc = CPUInfo.ident u td)

theorem sameUnit_of_check {u : Scope} {c d : Nat} (h : unitCheck u c d = true) :
    SameUnit CPUInfo.exInfo u c d := by
  unfold unitCheck at h
  rw [List.any_eq_true] at h
  obtain ⟨tc, h1, h⟩ := h
  rw [List.any_eq_true] at h
  obtain ⟨td, h2, h⟩ := h
  exact ⟨tc, h1, td, h2, of_decide_eq_true h⟩

theorem exHost_wf : HostWF exHost := by
  have on : ∀ c ∈ CPUInfo.exInfo.online, c < 8 := by decide +kernel
  refine ⟨CPUInfo.exInfo_wf, ?_, ⟨?_, ?_, ?_⟩, ⟨?_, ?_, ?_⟩, ?_, ?_⟩
  · intro L h
    exact List.mem_of_mem_head? h
  · intro c; simp [exHost]
  · intro c d h; simp [exHost] at *; omega
  · intro a b c h h'; simp [exHost] at *; omega
  · intro c; simp [exHost]
  · intro c d h; simp [exHost] at *; omega
  · intro a b c h h'; simp [exHost] at *; omega
  · intro c d hc h
    have h8 := on c hc
    have hd : d < 8 := by simp [exHost] at h; omega
    have : ∀ c < 8, ∀ d < 8, exHost.ePcst.same c d = true →
        unitCheck (.lvl .core) c d = true ∧ unitCheck (.lvl .package) c d = true := by decide +kernel
    exact (this c h8 d hd h).imp sameUnit_of_check sameUnit_of_check
  · intro c d hc h
    have h8 := on c hc
    have hd : d < 8 := by simp [exHost] at h; omega
    have : ∀ c < 8, ∀ d < 8, exHost.ePctl.same c d = true →
        unitCheck (.lvl .package) c d = true := by decide +kernel
    exact sameUnit_of_check (this c h8 d hd h)

/-- All registers zero, the "menu" governor. -/
def exSt : St where
  pcst := fun _ => 0
  pctl := fun _ => 0
  gov := { driver := some "intel_idle\n".toList, current := some "menu\n".toList,
           avail := some "menu teo\n".toList }

theorem exSt_wf : StWF exHost exSt :=
  ⟨⟨fun _ _ _ => rfl, fun _ => by simp [exSt]⟩, ⟨fun _ _ _ => rfl, fun _ => by simp [exSt]⟩⟩

/-- C82 on a concrete case: C1 demotion of the core of CPUs 0 and 4 is turned on, C1E of half of package 0 is
refused, the governor changes, the package C-state limit is set by one of its names; the locked limit is not
changed. -/
example :
    let os : List SetOp := [
      ⟨.c1Demotion, some (.str "ON".toList), .nums [4, 0], none⟩,
      ⟨.c1e, some (.bool true), .nums [0, 1], none⟩,
      ⟨.governor, some (.str "teo".toList), .all, some [.sysfs]⟩,
      ⟨.c1e, some (.str "enable".toList), .nums [0, 1, 4, 5], some [.msr]⟩,
      ⟨.lock, some (.bool true), .all, none⟩,
      ⟨.c1e, some (.int 1), .all, none⟩]
    (runSets exHost os exSt).2 = [.ok .msr, .error .error, .ok .sysfs, .ok .msr, .error .error,
      .error .pyAttributeError] ∧
    (getProp exHost (runSets exHost os exSt).1 .c1Demotion (.nums [0, 1]) none).yields =
      [⟨0, some (onOff true), .msr⟩, ⟨1, some (onOff false), .msr⟩] ∧
    (getProp exHost (runSets exHost os exSt).1 .governor (.nums [3]) none).yields =
      [⟨3, some (.str "teo".toList), .sysfs⟩] ∧
    (getProp exHost (runSets exHost os exSt).1 .c1e (.nums [5, 2]) none).yields =
      [⟨5, some (onOff true), .msr⟩, ⟨2, some (onOff false), .msr⟩] := by
  decide +kernel

/-- The hypotheses of C82_works are met. -/
example : Accepts exHost exSt .c1Demotion (some (.str "Enable".toList)) (.nums [4, 0]) none [4, 0]
    (onOff true) ∧ NoFail exHost .c1Demotion (onOff true) [4, 0] where
  left :=
    { value := ⟨_, rfl, true, rfl, .inr ⟨_, rfl, "enable".toList, by decide, by unfold SameText; decide⟩⟩
      cpus := by decide +kernel
      whole := by
        refine ⟨by decide +kernel, ?_⟩
        rcases validate_iff CPUInfo.exInfo CPUInfo.exInfo_wf (.lvl .core) [4, 0] (by simp) (by decide +kernel)
          (by simp) with h | h
        · exact h.2
        · exact absurd h.1 (by decide +kernel)
      mech := fun _ h => by cases h
      has := ⟨0, _, rfl, rfl⟩
      unlocked := fun h => by cases h }
  right := fun _ _ => rfl

/-- A locked package C-state limit is not changed; an unlocked one is. -/
example :
    let z := setProp exHost .limit (some (.str "pc2".toList)) .all none { exSt with pcst := fun _ => 2 ^ 15 }
    let z' := setProp exHost .limit (some (.str "pc2".toList)) .all none exSt
    z.2 = .error .error ∧ z.1.pcst 0 = 2 ^ 15 ∧ z'.2 = .ok .msr ∧ z'.1.pcst 0 = 1 ∧
    (getProp exHost z'.1 .limit (.nums [3]) none).yields = [⟨3, some (.str "PC2".toList), .msr⟩] := by
  decide +kernel

end Verif.CStates
