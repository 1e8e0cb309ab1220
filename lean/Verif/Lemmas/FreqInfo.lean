import Verif.Props.FreqInfoSpec
import Verif.Props.PropsBase
import Verif.Lemmas.Trivial

/-!
Helper lemmas about the frequency properties.
-/

namespace Verif.FreqInfo

open Verif.Bits (BitRange getBits)
open Verif.PropsBase (Gen Mech)

/-! ### Bits -/

theorem getBits_nat (v lo hi : Nat) (h : lo ≤ hi) (h2 : hi < lo + 64) :
    getBits (v : Int) ((hi : Int), (lo : Int)) = .ok ((field v lo (hi - lo + 1) : Nat) : Int) := by
  have hn : Bits.normalizeBits ((hi : Int), (lo : Int)) = .ok ((hi : Int), (lo : Int)) := by
    unfold Bits.normalizeBits
    rw [if_neg (by dsimp only; omega)]
    dsimp only
    rw [if_neg (by unfold Bits.regbits; omega)]
  unfold getBits
  rw [hn]
  dsimp only
  rw [if_neg (by omega)]
  have e1 : ((hi : Int) - (lo : Int) + 1).toNat = hi - lo + 1 := by omega
  have e2 : ((lo : Int)).toNat = lo := by omega
  rw [e1, e2, onesMask_eq]
  have e3 : shr (v : Int) lo = ((v / 2 ^ lo : Nat) : Int) := by
    unfold shr; push_cast; rfl
  rw [e3]
  unfold field
  show Except.ok (((v / 2 ^ lo) &&& (2 ^ (hi - lo + 1) - 1) : Nat) : Int) = _
  rw [Nat.and_two_pow_sub_one_eq_mod]

/-! ### Loops -/

theorem readLoop_ok {f : Nat → Except Exn Int} {v : Nat → Int} {cpus : List Nat}
    (h : ∀ c ∈ cpus, f c = .ok (v c)) : readLoop f cpus = ⟨cpus.map fun c => (c, v c), none⟩ := by
  induction cpus with
  | nil => rfl
  | cons c cpus ih =>
    rw [readLoop, h c (by simp), ih fun d hd => h d (by simp [hd])]
    rfl

theorem readLoop_prefix (f : Nat → Except Exn Int) (cpus : List Nat) :
    cpusOf (readLoop f cpus) <+: cpus := by
  induction cpus with
  | nil => exact List.prefix_rfl
  | cons c cpus ih =>
    rw [readLoop]
    cases f c with
    | error e => exact List.nil_prefix
    | ok v =>
      dsimp only
      exact (List.cons_prefix_cons.2 ⟨rfl, ih⟩)

theorem readLoop_complete {f : Nat → Except Exn Int} {cpus : List Nat}
    (h : (readLoop f cpus).err = none) : cpusOf (readLoop f cpus) = cpus := by
  induction cpus with
  | nil => rfl
  | cons c cpus ih =>
    revert h
    rw [readLoop]
    cases f c with
    | error e => intro h; simp at h
    | ok v =>
      dsimp only
      intro h
      show c :: cpusOf (readLoop f cpus) = _
      rw [ih h]

/-- The first failing CPU. -/
theorem readLoop_fail {f : Nat → Except Exn Int} {v : Nat → Int} {pre post : List Nat} {c : Nat} {e : Exn}
    (h : ∀ d ∈ pre, f d = .ok (v d)) (hc : f c = .error e) :
    readLoop f (pre ++ c :: post) = ⟨pre.map fun d => (d, v d), some e⟩ := by
  induction pre with
  | nil => rw [List.nil_append, readLoop, hc]; rfl
  | cons d pre ih =>
    rw [List.cons_append, readLoop, h d (by simp), ih fun x hx => h x (by simp [hx])]
    rfl

theorem readLoop_head_fail {f : Nat → Except Exn Int} {c : Nat} {cpus : List Nat} {e : Exn}
    (hc : f c = .error e) : readLoop f (c :: cpus) = ⟨[], some e⟩ := by
  rw [readLoop, hc]

theorem zipLoop_ok (f : Nat → Int → Int → Int) (ea eb : Option Exn) (x y : Nat → Int) (cpus : List Nat) :
    zipLoop f ea eb (cpus.map fun c => (c, x c)) (cpus.map fun c => (c, y c)) =
      ⟨cpus.map fun c => (c, f c (x c) (y c)), ea⟩ := by
  induction cpus with
  | nil => rfl
  | cons c cpus ih =>
    rw [List.map_cons, List.map_cons, zipLoop, if_neg (by simp), ih]
    rfl

theorem zipLoop_complete {f : Nat → Int → Int → Int} {ea eb : Option Exn} {as bs : List (Nat × Int)}
    {l : List Nat} (h : (zipLoop f ea eb as bs).err = none)
    (ha : ea = none → as.map (·.1) = l) (hb : eb = none → bs.map (·.1) = l) :
    cpusOf (zipLoop f ea eb as bs) = l := by
  induction as generalizing bs l with
  | nil => rw [zipLoop] at h ⊢; exact ha h
  | cons a as ih =>
    obtain ⟨c, x⟩ := a
    cases bs with
    | nil => rw [zipLoop] at h ⊢; exact hb h
    | cons b bs =>
      obtain ⟨d, y⟩ := b
      rw [zipLoop] at h ⊢
      by_cases hcd : c ≠ d
      · rw [if_pos hcd] at h; simp at h
      · rw [if_neg hcd] at h ⊢
        dsimp only at h
        have hcd' : c = d := by simpa using hcd
        subst hcd'
        have : ∃ l', l = c :: l' := by
          rcases hea : ea with _ | e
          · exact ⟨_, (ha hea).symm⟩
          · rcases heb : eb with _ | e
            · exact ⟨_, (hb heb).symm⟩
            · exfalso
              have : ∀ as bs, (zipLoop f ea eb as bs).err ≠ none := by
                intro as
                induction as with
                | nil => intro bs; rw [zipLoop, hea]; simp
                | cons a as ih =>
                  intro bs
                  cases bs with
                  | nil => rw [zipLoop, heb]; simp
                  | cons b bs =>
                    rw [zipLoop]
                    split
                    · simp
                    · exact ih bs
              exact this as bs h
        obtain ⟨l', rfl⟩ := this
        show c :: cpusOf (zipLoop f ea eb as bs) = _
        rw [ih h (fun e => by have := ha e; simpa using this) (fun e => by have := hb e; simpa using this)]

theorem zipGen_ok {f : Nat → Int → Int → Int} {a b : Gen (Nat × Int)} {x y : Nat → Int} {cpus : List Nat}
    (ha : a = ⟨cpus.map fun c => (c, x c), none⟩) (hb : b = ⟨cpus.map fun c => (c, y c), none⟩) :
    zipGen f a b = ⟨cpus.map fun c => (c, f c (x c) (y c)), none⟩ := by
  subst ha hb
  exact zipLoop_ok f none none x y cpus

theorem zipGen_unsupported {f : Nat → Int → Int → Int} {a : Gen (Nat × Int)} {x : Nat → Int} {cpus : List Nat}
    (ha : a = ⟨cpus.map fun c => (c, x c), none⟩) (hne : cpus ≠ []) :
    zipGen f a unsupported = unsupported := by
  subst ha
  cases cpus with
  | nil => exact absurd rfl hne
  | cons c cpus => rfl

/-! ### The two iterators -/

theorem collect1_get (l : List (Nat × Int)) (d : Dict Nat Int) (c : Nat) :
    ((collect1 l d).get? c).isSome = (decide (c ∈ l.map (·.1)) || (d.get? c).isSome) := by
  induction l generalizing d with
  | nil => simp [collect1]
  | cons p l ih =>
    obtain ⟨x, f⟩ := p
    rw [collect1, ih]
    rw [Dict.get?_set]
    by_cases h : c = x
    · subst h; simp
    · rw [if_neg (Ne.symm h), List.map_cons]
      simp only [List.mem_cons, h, false_or]

theorem collect2_get {l : List (Nat × Int)} {d r : Dict Nat Int} (h : collect2 l d = .ok r) (c : Nat) :
    (r.get? c).isSome = (decide (c ∈ l.map (·.1)) || (d.get? c).isSome) := by
  induction l generalizing d with
  | nil => rw [collect2] at h; cases h; simp
  | cons p l ih =>
    obtain ⟨x, f⟩ := p
    rw [collect2] at h
    split at h
    · exact absurd h (by simp)
    · rw [ih h, Dict.get?_set]
      by_cases hx : c = x
      · subst hx; simp
      · rw [if_neg (Ne.symm hx), List.map_cons]
        simp only [List.mem_cons, hx, false_or]

theorem collect1_map (l : List Nat) (v : Nat → Int) (d : Dict Nat Int) (c : Nat) :
    (collect1 (l.map fun c => (c, v c)) d).get? c = if c ∈ l then some (v c) else d.get? c := by
  induction l generalizing d with
  | nil => simp [collect1]
  | cons x l ih =>
    rw [List.map_cons, collect1, ih, Dict.get?_set]
    by_cases h : c ∈ l
    · simp [h]
    · by_cases hx : c = x
      · subst hx; simp
      · simp [h, hx, Ne.symm hx]

theorem collect2_map (l : List Nat) (hl : l.Nodup) (v : Nat → Int) (d : Dict Nat Int)
    (hd : ∀ c ∈ l, d.get? c = none) :
    ∃ r, collect2 (l.map fun c => (c, v c)) d = .ok r ∧
      ∀ c, r.get? c = if c ∈ l then some (v c) else d.get? c := by
  induction l generalizing d with
  | nil => exact ⟨d, rfl, by simp⟩
  | cons x l ih =>
    rw [List.nodup_cons] at hl
    rw [List.map_cons, collect2, if_neg (by rw [hd x (by simp)]; simp)]
    obtain ⟨r, h1, h2⟩ := ih hl.2 (d.set x (v x)) (by
      intro c hc
      rw [Dict.get?_set, if_neg (by rintro rfl; exact hl.1 hc)]
      exact hd c (by simp [hc]))
    refine ⟨r, h1, ?_⟩
    intro c
    rw [h2, Dict.get?_set]
    by_cases h : c ∈ l
    · simp [h]
    · by_cases hx : c = x
      · subst hx; simp [h]
      · simp [h, hx, Ne.symm hx]

/-- Nothing is yielded before both iterators are exhausted. -/
theorem from2_all_or_nothing (cpus : List Nat) (p : Nat → Bool) (a b : Gen (Nat × Int))
    (ha : a.err = none → ∀ c ∈ cpus, p c = false → c ∈ cpusOf a)
    (hb : b.err = none → ∀ c ∈ cpus, p c = true → c ∈ cpusOf b) :
    ((from2 cpus a b).err = none ∧ cpusOf (from2 cpus a b) = cpus) ∨
      ((from2 cpus a b).err ≠ none ∧ (from2 cpus a b).yields = []) := by
  unfold from2
  cases hae : a.err with
  | some e => exact .inr ⟨by simp, rfl⟩
  | none =>
    dsimp only
    cases hc : collect2 b.yields (collect1 a.yields []) with
    | error e => exact .inr ⟨by simp, rfl⟩
    | ok d =>
      dsimp only
      cases hbe : b.err with
      | some e => exact .inr ⟨by simp, rfl⟩
      | none =>
        dsimp only
        have hk : ∀ c ∈ cpus, ∃ v, d.get? c = some v := by
          intro c hcm
          have h1 := collect2_get hc c
          rw [collect1_get] at h1
          have h2 : (d.get? c).isSome = true := by
            rw [h1]
            cases hp : p c with
            | false =>
              have := ha hae c hcm hp
              unfold cpusOf at this
              simp only [this, decide_true, Bool.true_or, Bool.or_true]
            | true =>
              have := hb hbe c hcm hp
              unfold cpusOf at this
              simp only [this, decide_true, Bool.true_or]
          exact Option.isSome_iff_exists.1 h2
        left
        have := readLoop_ok (f := lookup d)
          (v := fun c => (d.get? c).getD 0) (cpus := cpus) (by
            intro c hcm
            obtain ⟨v, hv⟩ := hk c hcm
            rw [lookup, hv]; rfl)
        rw [this]
        exact ⟨rfl, by simp [cpusOf, Function.comp_def]⟩

/-- Both iterators deliver. -/
theorem from2_ok {cpus : List Nat} (hnd : cpus.Nodup) (p : Nat → Bool) {a b : Gen (Nat × Int)} {v : Nat → Int}
    (ha : a = ⟨(cpus.filter fun c => !p c).map fun c => (c, v c), none⟩)
    (hb : b = ⟨(cpus.filter p).map fun c => (c, v c), none⟩) :
    from2 cpus a b = ⟨cpus.map fun c => (c, v c), none⟩ := by
  subst ha hb
  unfold from2
  dsimp only
  obtain ⟨r, h1, h2⟩ := collect2_map (cpus.filter p) (hnd.filter _) v
    (collect1 ((cpus.filter fun c => !p c).map fun c => (c, v c)) []) (by
      intro c hc
      rw [collect1_map, if_neg (by
        intro hh
        have h3 := (List.mem_filter.1 hc).2
        have h4 := (List.mem_filter.1 hh).2
        simp [h3] at h4)]
      rfl)
  rw [h1]
  dsimp only
  refine readLoop_ok ?_
  intro c hc
  rw [lookup, h2, collect1_map]
  cases hp : p c <;> simp [hc, hp]

/-! ### Registers -/

theorem regField_ok {H : Host} {R : Regs} (hr : Readable H R) (addr c lo hi : Nat) (h : lo ≤ hi)
    (h2 : hi < lo + 64) :
    regField H addr ((hi : Int), (lo : Int)) c = .ok ((field (R addr c) lo (hi - lo + 1) : Nat) : Int) := by
  rw [regField, hr addr c]
  exact getBits_nat _ _ _ h h2

theorem bclks_ok {H : Host} {R : Regs} (hr : Readable H R) (hi : H.intel = true) (hw : Width H)
    {cpus : List Nat} {b : Nat → Int} (hb : ∀ c ∈ cpus, busClock H R c = some (b c)) :
    bclks H cpus = ⟨cpus.map fun c => (c, b c), none⟩ := by
  unfold bclks
  rw [hi]
  simp only [Bool.not_true, Bool.false_eq_true, if_false]
  cases hf : H.fsb with
  | none =>
    dsimp only
    refine readLoop_ok ?_
    intro c hc
    have := hb c hc
    unfold busClock at this
    rw [hf] at this
    simpa using this
  | some p =>
    obtain ⟨w, codes⟩ := p
    dsimp only
    refine readLoop_ok ?_
    intro c hc
    have h1 := hb c hc
    unfold busClock at h1
    rw [hf] at h1
    dsimp only at h1
    obtain ⟨w1, w2⟩ := hw w codes hf
    have e : ((w : Int) - 1, (0 : Int)) = (((w - 1 : Nat) : Int), ((0 : Nat) : Int)) := by
      congr 1; omega
    rw [fsbClock, e, regField_ok hr 0xCD c 0 (w - 1) (by omega) (by omega)]
    have e2 : w - 1 - 0 + 1 = w := by omega
    rw [e2]
    dsimp only
    rw [decodeFsb, h1]

theorem readFeature_ok {H : Host} {R : Regs} (hr : Readable H R) {sup : Nat → Bool} (addr lo hi : Nat)
    (h : lo ≤ hi) (h2 : hi < lo + 64) {cpus : List Nat} (hs : ∀ c ∈ cpus, sup c = true) :
    readFeature H sup addr ((hi : Int), (lo : Int)) cpus =
      ⟨cpus.map fun c => (c, ((field (R addr c) lo (hi - lo + 1) : Nat) : Int)), none⟩ := by
  unfold readFeature
  rw [if_pos (List.all_eq_true.2 hs)]
  exact readLoop_ok fun c _ => regField_ok hr addr c lo hi h h2

theorem readFeature_unsup {H : Host} {sup : Nat → Bool} {addr : Nat} {bits : BitRange}
    {cpus : List Nat} {c : Nat} (hc : c ∈ cpus) (hs : sup c = false) :
    readFeature H sup addr bits cpus = unsupported := by
  unfold readFeature
  rw [if_neg]
  intro hall
  have := List.all_eq_true.1 hall c hc
  rw [hs] at this
  exact absurd this (by simp)

theorem nil_or {cpus : List Nat} : cpus = [] ∨ cpus.isEmpty = false := by
  cases cpus <;> simp

theorem platFreq_ok {H : Host} {R : Regs} (hr : Readable H R) (hi : H.intel = true) (hw : Width H)
    {k : Kind} (hk : k ≠ .maxTurbo) {cpus : List Nat} {b : Nat → Int}
    (hb : ∀ c ∈ cpus, busClock H R c = some (b c)) (hs : cpus ≠ [] → H.platSup k = true) :
    platFreq H k cpus = ⟨cpus.map fun c => (c, ratio R c k * b c), none⟩ := by
  rcases nil_or (cpus := cpus) with rfl | hne
  · rfl
  have hs : H.platSup k = true := hs (by rintro rfl; simp at hne)
  unfold platFreq
  rw [hne, hi]
  simp only [Bool.not_true, Bool.false_eq_true, if_false]
  refine zipGen_ok (x := b) (y := fun c => (ratio R c k : Int)) (bclks_ok hr hi hw hb) ?_
  cases k with
  | maxTurbo => exact absurd rfl hk
  | base => exact readFeature_ok hr 0xCE 8 15 (by omega) (by omega) fun _ _ => hs
  | maxEff => exact readFeature_ok hr 0xCE 40 47 (by omega) (by omega) fun _ _ => hs
  | minOper => exact readFeature_ok hr 0xCE 48 55 (by omega) (by omega) fun _ _ => hs

theorem platFreq_unsup {H : Host} {R : Regs} (hr : Readable H R) (hi : H.intel = true) (hw : Width H)
    {k : Kind} {cpus : List Nat} {b : Nat → Int} (hne : cpus ≠ [])
    (hb : ∀ c ∈ cpus, busClock H R c = some (b c)) (hs : H.platSup k = false) :
    platFreq H k cpus = unsupported := by
  rcases nil_or (cpus := cpus) with rfl | hne'
  · exact absurd rfl hne
  unfold platFreq
  rw [hne', hi]
  simp only [Bool.not_true, Bool.false_eq_true, if_false]
  obtain ⟨c, cs, rfl⟩ := List.exists_cons_of_ne_nil hne
  rw [readFeature_unsup (c := c) (by simp) hs]
  exact zipGen_unsupported (bclks_ok hr hi hw hb) hne

theorem trlFreq_ok {H : Host} {R : Regs} (hr : Readable H R) (hi : H.intel = true) (hw : Width H)
    {cpus : List Nat} {b : Nat → Int} (hb : ∀ c ∈ cpus, busClock H R c = some (b c))
    (hs : cpus ≠ [] → (H.trl1 || H.trlGrp) = true) :
    trlFreq H cpus = ⟨cpus.map fun c => (c, ratio R c .maxTurbo * b c), none⟩ := by
  rcases nil_or (cpus := cpus) with rfl | hne
  · rfl
  have hne' : cpus ≠ [] := by rintro rfl; simp at hne
  have hs := hs hne'
  unfold trlFreq
  rw [hne, hi, hs]
  simp only [Bool.not_true, Bool.or_false, Bool.false_eq_true, if_false]
  have key : ∀ sup : Bool, sup = true →
      zipGen (fun _ bclk ratio => ratio * bclk) (bclks H cpus) (readFeature H (fun _ => sup) 0x1AD (7, 0) cpus) =
        ⟨cpus.map fun c => (c, ratio R c .maxTurbo * b c), none⟩ := by
    intro sup hsup
    exact zipGen_ok (x := b) (y := fun c => (ratio R c .maxTurbo : Int)) (bclks_ok hr hi hw hb)
      (readFeature_ok hr 0x1AD 0 7 (by omega) (by omega) fun _ _ => hsup)
  cases h1 : H.trl1 with
  | true => rw [key true rfl]
  | false =>
    rw [h1] at hs
    have h2 : H.trlGrp = true := by simpa using hs
    obtain ⟨c, cs, rfl⟩ := List.exists_cons_of_ne_nil hne'
    rw [readFeature_unsup (c := c) (sup := fun _ => false) (by simp) rfl,
      zipGen_unsupported (bclks_ok hr hi hw hb) hne', h2, key true rfl]
    rfl

theorem legFreq_ok {H : Host} {R : Regs} (hr : Readable H R) (hi : H.intel = true) (hw : Width H)
    (k : Kind) {cpus : List Nat} {b : Nat → Int} (hb : ∀ c ∈ cpus, busClock H R c = some (b c))
    (hf : ∀ c ∈ cpus, H.hwpFlag c = false) (hs : ∀ c ∈ cpus, hasMsr H R k c = true) :
    legFreq H k cpus = ⟨cpus.map fun c => (c, msrHz H R k c (b c)), none⟩ := by
  have e : (cpus.map fun c => (c, msrHz H R k c (b c))) = cpus.map fun c => (c, (ratio R c k : Int) * b c) := by
    refine List.map_congr_left ?_
    intro c hc
    unfold msrHz
    rw [hf c hc]
    simp
  rw [e]
  have hsup : cpus ≠ [] → modelHas H k = true := by
    intro hne
    obtain ⟨c, cs, rfl⟩ := List.exists_cons_of_ne_nil hne
    have := hs c (by simp)
    unfold hasMsr at this
    rw [hf c (by simp)] at this
    exact this
  cases k with
  | maxTurbo => exact trlFreq_ok hr hi hw hb hsup
  | base => exact platFreq_ok hr hi hw (by simp) hb hsup
  | maxEff => exact platFreq_ok hr hi hw (by simp) hb hsup
  | minOper => exact platFreq_ok hr hi hw (by simp) hb hsup

theorem legFreq_unsup {H : Host} {R : Regs} (hr : Readable H R) (hi : H.intel = true) (hw : Width H)
    (k : Kind) {cpus : List Nat} {b : Nat → Int} (hb : ∀ c ∈ cpus, busClock H R c = some (b c))
    {c : Nat} (hc : c ∈ cpus) (hf : H.hwpFlag c = false) (hs : hasMsr H R k c = false) :
    legFreq H k cpus = unsupported := by
  have hne : cpus ≠ [] := List.ne_nil_of_mem hc
  unfold hasMsr at hs
  rw [hf] at hs
  cases k with
  | maxTurbo =>
    show trlFreq H cpus = unsupported
    unfold trlFreq
    have hne' : cpus.isEmpty = false := by simpa using hne
    have hs : (H.trl1 || H.trlGrp) = false := by rw [if_neg (by simp)] at hs; exact hs
    rw [hne', hi, hs]
    rfl
  | base => exact platFreq_unsup hr hi hw hne hb (by rw [if_neg (by simp)] at hs; exact hs)
  | maxEff => exact platFreq_unsup hr hi hw hne hb (by rw [if_neg (by simp)] at hs; exact hs)
  | minOper => exact platFreq_unsup hr hi hw hne hb (by rw [if_neg (by simp)] at hs; exact hs)

theorem hwpEnabled_ok {H : Host} {R : Regs} (hr : Readable H R) (c : Nat) :
    hwpEnabled H c = .ok (H.hwpFlag c && R 0x770 c % 2 == 1) := by
  unfold hwpEnabled
  cases hf : H.hwpFlag c with
  | false => rfl
  | true =>
    have e := regField_ok hr 0x770 c 0 0 (by omega) (by omega)
    have e' : regField H 0x770 (0, 0) c = .ok ((field (R 0x770 c) 0 1 : Nat) : Int) := e
    rw [if_pos rfl, e']
    dsimp only
    have : field (R 0x770 c) 0 1 = R 0x770 c % 2 := by unfold field; simp
    rw [this, Bool.true_and]
    congr 1
    have hlt : R 0x770 c % 2 < 2 := Nat.mod_lt _ (by omega)
    by_cases h : R 0x770 c % 2 = 1
    · simp [h]
    · have h0 : R 0x770 c % 2 = 0 := by omega
      simp [h0]

theorem unsupportedCpus_ok {H : Host} {R : Regs} (hr : Readable H R) (pkgs : List (List Nat))
    (hne : ∀ p ∈ pkgs, p ≠ []) :
    ∃ uns, unsupportedCpus H pkgs = .ok uns ∧
      ∀ c, c ∈ uns ↔ ∃ p ∈ pkgs, c ∈ p ∧ ∃ h, p.head? = some h ∧ (H.hwpFlag h && R 0x770 h % 2 == 1) = false := by
  induction pkgs with
  | nil => exact ⟨[], rfl, by simp⟩
  | cons p pkgs ih =>
    obtain ⟨uns, h1, h2⟩ := ih fun q hq => hne q (by simp [hq])
    obtain ⟨c, cs, rfl⟩ := List.exists_cons_of_ne_nil (hne p (by simp))
    rw [unsupportedCpus, hwpEnabled_ok hr]
    cases he : (H.hwpFlag c && R 0x770 c % 2 == 1) with
    | true =>
      dsimp only
      refine ⟨uns, h1, ?_⟩
      intro d
      rw [h2]
      constructor
      · rintro ⟨q, hq, r⟩; exact ⟨q, by simp [hq], r⟩
      · rintro ⟨q, hq, hd, h, hh, hu⟩
        rcases List.mem_cons.1 hq with rfl | hq
        · simp only [List.head?_cons, Option.some.injEq] at hh
          subst hh
          rw [he] at hu
          exact absurd hu (by simp)
        · exact ⟨q, hq, hd, h, hh, hu⟩
    | false =>
      dsimp only
      rw [h1]
      refine ⟨c :: cs ++ uns, rfl, ?_⟩
      intro d
      rw [List.mem_append, h2]
      constructor
      · rintro (hd | ⟨q, hq, r⟩)
        · exact ⟨c :: cs, by simp, hd, c, rfl, he⟩
        · exact ⟨q, by simp [hq], r⟩
      · rintro ⟨q, hq, hd, h, hh, hu⟩
        rcases List.mem_cons.1 hq with rfl | hq
        · exact .inl hd
        · exact .inr ⟨q, hq, hd, h, hh, hu⟩

/-- The CPUs which do not support the capabilities register. -/
theorem uns_iff {H : Host} {R : Regs} (hu : Uniform H R) {uns : List Nat}
    (h : ∀ c, c ∈ uns ↔ ∃ p ∈ H.packages, c ∈ p ∧ ∃ h, p.head? = some h ∧ (H.hwpFlag h && R 0x770 h % 2 == 1) = false)
    {c : Nat} (hc : ∃ p ∈ H.packages, c ∈ p) :
    (H.hwpFlag c && !uns.contains c) = (H.hwpFlag c && R 0x770 c % 2 == 1) := by
  obtain ⟨p, hp, hcp⟩ := hc
  have hm : c ∈ uns ↔ (H.hwpFlag c && R 0x770 c % 2 == 1) = false := by
    rw [h]
    constructor
    · rintro ⟨q, hq, hcq, x, hx, hf⟩
      have hxq : x ∈ q := List.mem_of_mem_head? (by simp [hx])
      rw [hu.flag q hq c hcq x hxq, hu.enabled q hq c hcq x hxq]
      exact hf
    · intro hf
      obtain ⟨x, xs, rfl⟩ := List.exists_cons_of_ne_nil (hu.nonempty p hp)
      refine ⟨x :: xs, hp, hcp, x, rfl, ?_⟩
      rw [← hu.flag _ hp c hcp x (by simp), ← hu.enabled _ hp c hcp x (by simp)]
      exact hf
  cases hf : H.hwpFlag c with
  | false => rfl
  | true =>
    rw [hf] at hm
    simp only [Bool.true_and] at hm ⊢
    cases he : (R 0x770 c % 2 == 1) with
    | true =>
      have : c ∉ uns := by rw [hm, he]; simp
      simp [this]
    | false =>
      have : c ∈ uns := hm.2 he
      simp [this]

theorem capFreq_ok {H : Host} {R : Regs} (hr : Readable H R) (hi : H.intel = true) (hw : Width H)
    (hu : Uniform H R) (k : Kind) {cpus : List Nat} {b : Nat → Int}
    (hb : ∀ c ∈ cpus, busClock H R c = some (b c)) (hp : ∀ c ∈ cpus, ∃ p ∈ H.packages, c ∈ p)
    (hf : ∀ c ∈ cpus, H.hwpFlag c = true) (hs : ∀ c ∈ cpus, hasMsr H R k c = true) :
    capFreq H k cpus = ⟨cpus.map fun c => (c, msrHz H R k c (b c)), none⟩ := by
  rcases nil_or (cpus := cpus) with rfl | hne
  · rfl
  have e : (cpus.map fun c => (c, msrHz H R k c (b c))) =
      cpus.map fun c => (c, perfToFreq H c (capLevel (R 0x771 c) k) (b c)) := by
    refine List.map_congr_left ?_
    intro c hc
    unfold msrHz perfToFreq
    rw [hf c hc, if_pos rfl]
    by_cases hpc : c ∈ H.pcore
    · rw [if_pos hpc, if_pos (by simpa using hpc)]
      dsimp only
      congr 1
      have := Int.mul_ediv_add_emod ((capLevel (R 0x771 c) k : Int) * H.factor) (b c)
      omega
    · rw [if_neg hpc, if_neg (by simpa using hpc)]
  rw [e]
  unfold capFreq
  rw [hne, hi]
  simp only [Bool.not_true, Bool.false_eq_true, if_false]
  obtain ⟨uns, h1, h2⟩ := unsupportedCpus_ok hr H.packages hu.nonempty
  rw [h1]
  dsimp only
  have hsup : ∀ c ∈ cpus, (H.hwpFlag c && !uns.contains c) = true := by
    intro c hc
    rw [uns_iff hu h2 (hp c hc), hf c hc]
    have := hs c hc
    unfold hasMsr at this
    rw [hf c hc] at this
    simpa using this
  refine zipGen_ok (x := b) (y := fun c => (capLevel (R 0x771 c) k : Int)) (bclks_ok hr hi hw hb) ?_
  cases k with
  | maxTurbo => exact readFeature_ok hr 0x771 0 7 (by omega) (by omega) hsup
  | base => exact readFeature_ok hr 0x771 8 15 (by omega) (by omega) hsup
  | maxEff => exact readFeature_ok hr 0x771 16 23 (by omega) (by omega) hsup
  | minOper => exact readFeature_ok hr 0x771 24 31 (by omega) (by omega) hsup

theorem capFreq_unsup {H : Host} {R : Regs} (hr : Readable H R) (hi : H.intel = true) (hw : Width H)
    (hu : Uniform H R) (k : Kind) {cpus : List Nat} {b : Nat → Int}
    (hb : ∀ c ∈ cpus, busClock H R c = some (b c)) (hp : ∀ c ∈ cpus, ∃ p ∈ H.packages, c ∈ p)
    {c : Nat} (hc : c ∈ cpus) (hf : H.hwpFlag c = true) (hs : hasMsr H R k c = false) :
    capFreq H k cpus = unsupported := by
  have hne : cpus ≠ [] := List.ne_nil_of_mem hc
  have hne' : cpus.isEmpty = false := by simpa using hne
  unfold capFreq
  rw [hne', hi]
  simp only [Bool.not_true, Bool.false_eq_true, if_false]
  obtain ⟨uns, h1, h2⟩ := unsupportedCpus_ok hr H.packages hu.nonempty
  rw [h1]
  dsimp only
  have hsup : (H.hwpFlag c && !uns.contains c) = false := by
    rw [uns_iff hu h2 (hp c hc), hf]
    unfold hasMsr at hs
    rw [hf] at hs
    simpa using hs
  rw [readFeature_unsup (sup := fun c => H.hwpFlag c && !uns.contains c) hc hsup]
  exact zipGen_unsupported (bclks_ok hr hi hw hb) hne

/-! ### Completeness of the readers -/

theorem bclks_complete {H : Host} {cpus : List Nat} (h : (bclks H cpus).err = none) :
    cpusOf (bclks H cpus) = cpus := by
  revert h
  unfold bclks
  split
  · intro h; simp [unsupported] at h
  · split <;> exact readLoop_complete

theorem readFeature_complete {H : Host} {sup : Nat → Bool} {addr : Nat} {bits : BitRange} {cpus : List Nat}
    (h : (readFeature H sup addr bits cpus).err = none) : cpusOf (readFeature H sup addr bits cpus) = cpus := by
  revert h
  unfold readFeature
  split
  · exact readLoop_complete
  · intro h; simp [unsupported] at h

theorem zip_complete {H : Host} {f : Nat → Int → Int → Int} {sup : Nat → Bool} {addr : Nat} {bits : BitRange}
    {cpus : List Nat} (h : (zipGen f (bclks H cpus) (readFeature H sup addr bits cpus)).err = none) :
    cpusOf (zipGen f (bclks H cpus) (readFeature H sup addr bits cpus)) = cpus :=
  zipLoop_complete h bclks_complete readFeature_complete

theorem platFreq_complete {H : Host} {k : Kind} {cpus : List Nat} (h : (platFreq H k cpus).err = none) :
    cpusOf (platFreq H k cpus) = cpus := by
  rcases nil_or (cpus := cpus) with rfl | hne
  · rfl
  revert h
  unfold platFreq
  rw [hne]
  simp only [Bool.false_eq_true, if_false]
  split
  · intro h; simp [unsupported] at h
  · exact zip_complete

theorem capFreq_complete {H : Host} {k : Kind} {cpus : List Nat} (h : (capFreq H k cpus).err = none) :
    cpusOf (capFreq H k cpus) = cpus := by
  rcases nil_or (cpus := cpus) with rfl | hne
  · rfl
  revert h
  unfold capFreq
  rw [hne]
  simp only [Bool.false_eq_true, if_false]
  split
  · intro h; simp [unsupported] at h
  · split
    · intro h; simp at h
    · exact zip_complete

theorem trlFreq_covers {H : Host} {cpus : List Nat} (h : (trlFreq H cpus).err = none) :
    ∀ c ∈ cpus, c ∈ cpusOf (trlFreq H cpus) := by
  rcases nil_or (cpus := cpus) with rfl | hne
  · simp
  revert h
  unfold trlFreq
  rw [hne]
  simp only [Bool.false_eq_true, if_false]
  split
  · intro h; simp [unsupported] at h
  · split
    · rename_i hg
      intro _ c hc
      rw [zip_complete hg]
      exact hc
    · split
      · intro h c hc
        have := zip_complete h
        unfold cpusOf at this ⊢
        rw [List.map_append, List.mem_append]
        right
        rw [this]
        exact hc
      · rename_i hg _
        intro h
        rw [hg] at h
        exact absurd h (by simp)

theorem legFreq_covers {H : Host} {k : Kind} {cpus : List Nat} (h : (legFreq H k cpus).err = none) :
    ∀ c ∈ cpus, c ∈ cpusOf (legFreq H k cpus) := by
  cases k with
  | maxTurbo => exact trlFreq_covers h
  | base => intro c hc; rw [show cpusOf (legFreq H .base cpus) = cpus from platFreq_complete h]; exact hc
  | maxEff => intro c hc; rw [show cpusOf (legFreq H .maxEff cpus) = cpus from platFreq_complete h]; exact hc
  | minOper => intro c hc; rw [show cpusOf (legFreq H .minOper cpus) = cpus from platFreq_complete h]; exact hc

theorem msrFreq_all_or_nothing (H : Host) (k : Kind) (cpus : List Nat) :
    ((msrFreq H k cpus).err = none ∧ cpusOf (msrFreq H k cpus) = cpus) ∨
      ((msrFreq H k cpus).err ≠ none ∧ (msrFreq H k cpus).yields = []) := by
  unfold msrFreq
  dsimp only
  refine from2_all_or_nothing cpus H.hwpFlag _ _ ?_ ?_
  · intro h c hc hp
    exact legFreq_covers h c (by simp [hc, hp])
  · intro h c hc hp
    rw [capFreq_complete h]
    simp [hc, hp]

/-! ### The sysfs files -/

theorem fileNum_some {H : Host} {p : Path} {n m : Int} (h : num H p = some n) : fileNum H p m = .ok (n * m) := by
  unfold num at h
  unfold fileNum SysFiles.readInt SysFiles.read
  cases hf : H.files p with
  | none => rw [hf] at h; simp at h
  | some s =>
    rw [hf] at h
    dsimp only at h ⊢
    cases hs : Trivial.strToInt s with
    | error e => rw [hs] at h; simp at h
    | ok k =>
      rw [hs] at h
      simp only [Option.some.injEq] at h
      subst h
      rfl

theorem fileNum_missing {H : Host} {p : Path} {m : Int} (h : H.files p = none) :
    fileNum H p m = .error .notSupported := by
  unfold fileNum SysFiles.readInt SysFiles.read
  rw [h]

theorem cppcRead_eq (H : Host) (fname : String) (c : Nat) :
    cppcRead H fname c = match cppcNum H c fname with | none => .error .notSupported | some n => .ok n := by
  unfold cppcRead cppcNum num SysFiles.readInt SysFiles.read
  cases hf : H.files (.cppc c fname) with
  | none => rfl
  | some s =>
    dsimp only
    cases hs : Trivial.strToInt s with
    | error e => rfl
    | ok k =>
      dsimp only
      by_cases h0 : k = 0
      · rw [if_pos h0, if_pos h0]
      · rw [if_neg h0, if_neg h0]

theorem cppcHz_some {H : Host} {fname : String} {c : Nat} {n : Int} (h : cppcNum H c fname = some n) :
    cppcHz H fname c = .ok (n * 1000000) := by
  unfold cppcHz
  rw [cppcRead_eq, h]
  dsimp only
  rw [Int.mul_assoc]
  rfl

theorem cppcHz_none {H : Host} {fname : String} {c : Nat} (h : cppcNum H c fname = none) :
    cppcHz H fname c = .error .notSupported := by
  unfold cppcHz
  rw [cppcRead_eq, h]

/-- What is left after a prefix was yielded. -/
theorem filter_left {pre post : List Nat} (h : (pre ++ post).Nodup) :
    ((pre ++ post).filter fun c => !pre.contains c) = post := by
  rw [List.filter_append]
  have h1 : (pre.filter fun c => !pre.contains c) = [] := by
    rw [List.filter_eq_nil_iff]
    intro c hc
    simp [hc]
  have h2 : (post.filter fun c => !pre.contains c) = post := by
    rw [List.filter_eq_self]
    intro c hc
    have := (List.nodup_append.1 h).2.2
    have : c ∉ pre := fun hp => this c hp c hc rfl
    simp [this]
  rw [h1, h2, List.nil_append]

theorem baseSysfs_prefix (H : Host) {cpus : List Nat} (hnd : cpus.Nodup) :
    cpusOf (baseSysfs H cpus) <+: cpus ∧ ((baseSysfs H cpus).err = none → cpusOf (baseSysfs H cpus) = cpus) := by
  unfold baseSysfs
  dsimp only
  have hp : cpusOf (basePstate H cpus) <+: cpus := readLoop_prefix _ _
  cases he : (basePstate H cpus).err with
  | none => exact ⟨hp, fun _ => readLoop_complete he⟩
  | some e =>
    dsimp only
    split
    · obtain ⟨post, hpost⟩ := hp
      have hl : (cpus.filter fun c => !((basePstate H cpus).yields.map (·.1)).contains c) = post := by
        have := filter_left (pre := cpusOf (basePstate H cpus)) (post := post) (by rw [hpost]; exact hnd)
        rw [hpost] at this
        exact this
      rw [hl]
      have hp2 : cpusOf (baseBios H post) <+: post := readLoop_prefix _ _
      constructor
      · unfold cpusOf
        rw [List.map_append]
        show cpusOf (basePstate H cpus) ++ cpusOf (baseBios H post) <+: _
        conv => rhs; rw [← hpost]
        exact List.prefix_append_right_inj _ |>.2 hp2
      · intro h2
        have := readLoop_complete (f := fun c => fileNum H (.biosLimit c) 1000) (cpus := post) h2
        unfold cpusOf
        rw [List.map_append]
        show cpusOf (basePstate H cpus) ++ cpusOf (baseBios H post) = _
        rw [show cpusOf (baseBios H post) = post from this, hpost]
    · refine ⟨hp, ?_⟩
      intro h
      rw [he] at h
      exact absurd h (by simp)

/-! ### Available frequencies -/

theorem splitWs_word {w : PyStr} (hne : w ≠ []) (h : ∀ c ∈ w, PyStr.isSpace c = false) : splitWs w = [w] := by
  induction w with
  | nil => exact absurd rfl hne
  | cons c w ih =>
    rw [splitWs, if_neg (by rw [h c (by simp)]; simp)]
    cases w with
    | nil => rfl
    | cons d w =>
      rw [ih (by simp) fun x hx => h x (by simp [hx])]
      unfold pushChar
      rw [List.head?_cons]
      dsimp only
      rw [if_neg (by rw [h d (by simp)]; simp)]

theorem splitWs_append {w t : PyStr} (hne : w ≠ []) (h : ∀ c ∈ w, PyStr.isSpace c = false) :
    splitWs (w ++ ' ' :: t) = w :: splitWs t := by
  induction w with
  | nil => exact absurd rfl hne
  | cons c w ih =>
    rw [List.cons_append, splitWs, if_neg (by rw [h c (by simp)]; simp)]
    cases w with
    | nil =>
      rw [List.nil_append, splitWs, if_pos (by decide)]
      rfl
    | cons d w =>
      rw [ih (by simp) fun x hx => h x (by simp [hx])]
      unfold pushChar
      rw [List.cons_append, List.head?_cons]
      dsimp only
      rw [if_neg (by rw [h d (by simp)]; simp)]

theorem isSpace_ofNat (n : Nat) : ∀ c ∈ PyStr.ofNat n, PyStr.isSpace c = false := by
  intro c hc
  have := PyStr.ofNat_digits n c hc
  unfold PyStr.isSpace
  simp only [Bool.or_eq_false_iff, Bool.and_eq_false_iff, decide_eq_false_iff_not, beq_eq_false_iff_ne]
  omega

theorem splitWs_join (l : List Nat) : splitWs (PyStr.joinC ' ' (l.map PyStr.ofNat)) = l.map PyStr.ofNat := by
  induction l with
  | nil => rfl
  | cons n l ih =>
    cases l with
    | nil => exact splitWs_word (PyStr.ofNat_ne_nil n) (isSpace_ofNat n)
    | cons m l =>
      rw [List.map_cons, List.map_cons, PyStr.joinC]
      rw [splitWs_append (PyStr.ofNat_ne_nil n) (isSpace_ofNat n)]
      rw [List.map_cons] at ih
      rw [ih]

theorem parseFreqs_ok (l : List Nat) :
    parseFreqs (l.map PyStr.ofNat) = .ok (l.map fun n : Nat => (n : Int) * 1000) := by
  induction l with
  | nil => rfl
  | cons n l ih =>
    rw [List.map_cons, parseFreqs, Trivial.strToInt_ofNat, ih]
    rfl

/-! ### The loop over the mechanisms -/

theorem tryMnames_of_getLoop {get : Mech → Gen (Nat × Int)} {nums : List Nat} {last : Mech} {ms : List Mech}
    {l : List (PropsBase.PVInfo Nat Int)} {v : Nat → Int}
    (h : PropsBase.getLoop (fun m => someVals (get m)) nums last ms = ⟨l, none⟩) (hne : nums ≠ [])
    (hl : l.map (fun pv => (pv.num, pv.val)) = nums.map fun c => (c, some (v c))) :
    tryMnames get ms = ⟨nums.map fun c => (c, v c), none⟩ := by
  induction ms with
  | nil =>
    rw [PropsBase.getLoop] at h
    cases h
    obtain ⟨c, cs, rfl⟩ := List.exists_cons_of_ne_nil hne
    simp at hl
  | cons m ms ih =>
    rw [PropsBase.getLoop] at h
    rw [tryMnames]
    dsimp only [someVals] at h ⊢
    cases he : (get m).err with
    | none =>
      rw [he] at h
      dsimp only at h ⊢
      have hly : PropsBase.tag m ((get m).yields.map fun p => (p.1, some p.2)) = l := congrArg Gen.yields h
      subst hly
      have : (get m).yields = nums.map fun c => (c, v c) := by
        unfold PropsBase.tag at hl
        rw [List.map_map, List.map_map] at hl
        have h2 := congrArg (List.map fun p : Nat × Option Int => (p.1, p.2.getD 0)) hl
        rw [List.map_map, List.map_map] at h2
        simpa [Function.comp_def] using h2
      cases hg : get m with
      | mk y e =>
        rw [hg] at this he
        dsimp only at this he
        rw [this, he]
    | some e =>
      rw [he] at h
      dsimp only at h ⊢
      by_cases hn : e.isNotSupported = true
      · rw [if_pos hn] at h ⊢
        by_cases hy : (get m).yields.isEmpty = true
        · have hy' : (someVals (get m)).yields.isEmpty = true := by
            unfold someVals; rw [List.isEmpty_map]; exact hy
          rw [if_pos hy]
          exact ih ((if_pos hy').symm.trans h)
        · have hy' : ¬ (someVals (get m)).yields.isEmpty = true := by
            unfold someVals; rw [List.isEmpty_map]; exact hy
          have h := (if_neg hy').symm.trans h
          exact absurd (congrArg Gen.err h) (by simp)
      · rw [if_neg hn] at h
        exact absurd (congrArg Gen.err h) (by simp)

theorem scaleLoop_ok (e1 e2 e3 : Option Exn) (x y z : Nat → Int) (cpus : List Nat) :
    scaleLoop e1 e2 e3 (cpus.map fun c => (c, x c)) (cpus.map fun c => (c, y c)) (cpus.map fun c => (c, z c)) =
      ⟨cpus.map fun c => (c, Int.fdiv (x c * z c) (y c)), e1⟩ := by
  induction cpus with
  | nil => rfl
  | cons c cpus ih =>
    rw [List.map_cons, List.map_cons, List.map_cons, scaleLoop, ih]
    rfl

theorem scaleLoop_prefix (e1 e2 e3 : Option Exn) (as bs cs : List (Nat × Int)) :
    cpusOf (scaleLoop e1 e2 e3 as bs cs) <+: as.map (·.1) := by
  induction as generalizing bs cs with
  | nil => rw [scaleLoop]; exact List.prefix_rfl
  | cons a as ih =>
    obtain ⟨c, x⟩ := a
    cases bs with
    | nil => rw [scaleLoop]; exact List.nil_prefix
    | cons b bs =>
      cases cs with
      | nil => rw [scaleLoop]; exact List.nil_prefix
      | cons d cs =>
        obtain ⟨_, y⟩ := b
        obtain ⟨_, z⟩ := d
        rw [scaleLoop]
        exact List.cons_prefix_cons.2 ⟨rfl, ih bs cs⟩

theorem tryMnames_prefix {get : Mech → Gen (Nat × Int)} {cpus : List Nat} (ms : List Mech)
    (h : ∀ m, cpusOf (get m) <+: cpus) : cpusOf (tryMnames get ms) <+: cpus := by
  induction ms with
  | nil => exact List.nil_prefix
  | cons m ms ih =>
    rw [tryMnames]
    split
    · exact h m
    · split
      · split
        · exact ih
        · exact h m
      · exact h m

theorem getBase_prefix (H : Host) {cpus : List Nat} (hnd : cpus.Nodup) (m : Mech) :
    cpusOf (getBase H cpus m) <+: cpus ∧ ((getBase H cpus m).err = none → cpusOf (getBase H cpus m) = cpus) := by
  cases m with
  | sysfs => exact baseSysfs_prefix H hnd
  | msr =>
    rcases msrFreq_all_or_nothing H .base cpus with ⟨_, h2⟩ | ⟨h1, h2⟩
    · exact ⟨by show cpusOf (msrFreq H .base cpus) <+: _; rw [h2], fun _ => h2⟩
    · refine ⟨?_, fun h => absurd h h1⟩
      show (msrFreq H .base cpus).yields.map (·.1) <+: _
      rw [h2]; exact List.nil_prefix
  | cppc => exact ⟨readLoop_prefix _ _, readLoop_complete⟩
  | cdev => exact ⟨List.nil_prefix, fun h => by simp [getBase] at h⟩
  | doc => exact ⟨List.nil_prefix, fun h => by simp [getBase] at h⟩

theorem scaleLoop_complete {e1 e2 e3 : Option Exn} {as bs cs : List (Nat × Int)} {l : List Nat}
    (h : (scaleLoop e1 e2 e3 as bs cs).err = none) (ha : as.map (·.1) <+: l)
    (ha' : e1 = none → as.map (·.1) = l) (hb : e2 = none → bs.map (·.1) = l)
    (hc : e3 = none → cs.map (·.1) = l) : cpusOf (scaleLoop e1 e2 e3 as bs cs) = l := by
  induction as generalizing bs cs l with
  | nil => rw [scaleLoop] at h ⊢; exact ha' h
  | cons a as ih =>
    obtain ⟨c, x⟩ := a
    cases bs with
    | nil => rw [scaleLoop] at h ⊢; exact hb h
    | cons b bs =>
      cases cs with
      | nil => rw [scaleLoop] at h ⊢; exact hc h
      | cons d cs =>
        obtain ⟨_, y⟩ := b
        obtain ⟨_, z⟩ := d
        rw [scaleLoop] at h ⊢
        dsimp only at h
        cases l with
        | nil => simp at ha
        | cons c' l =>
          rw [List.map_cons, List.cons_prefix_cons] at ha
          dsimp only at ha
          obtain ⟨rfl, ha⟩ := ha
          show c :: cpusOf (scaleLoop e1 e2 e3 as bs cs) = _
          rw [ih h ha (fun e => by have := ha' e; simpa using this)
            (fun e => by have := hb e; simp only [List.map_cons, List.cons.injEq] at this; exact this.2)
            (fun e => by have := hc e; simp only [List.map_cons, List.cons.injEq] at this; exact this.2)]

theorem baseAny_complete (H : Host) {cpus : List Nat} (hnd : cpus.Nodup) (h : (baseAny H cpus).err = none) :
    cpusOf (baseAny H cpus) = cpus := by
  unfold baseAny at h ⊢
  have key : ∀ ms, (tryMnames (getBase H cpus) ms).err = none → cpusOf (tryMnames (getBase H cpus) ms) = cpus := by
    intro ms
    induction ms with
    | nil => intro h; simp [tryMnames, unsupported] at h
    | cons m ms ih =>
      rw [tryMnames]
      split
      · exact (getBase_prefix H hnd m).2
      · rename_i e he
        split
        · split
          · exact ih
          · intro h; simp at h
        · intro h
          rw [he] at h
          exact absurd h (by simp)
  exact key _ h

theorem cppcScaled_complete (H : Host) (perf : String) {cpus : List Nat} (hnd : cpus.Nodup)
    (h : (cppcScaled H perf cpus).err = none) : cpusOf (cppcScaled H perf cpus) = cpus := by
  unfold cppcScaled at h ⊢
  dsimp only at h ⊢
  exact scaleLoop_complete h (tryMnames_prefix _ fun m => (getBase_prefix H hnd m).1)
    (fun e => baseAny_complete H hnd e) (fun e => readLoop_complete e) (fun e => readLoop_complete e)

theorem cppcLimit_complete (H : Host) (freq perf : String) {cpus : List Nat} (hnd : cpus.Nodup)
    (hu : CppcUniform H freq cpus) (h : (cppcLimit H freq perf cpus).err = none) :
    cpusOf (cppcLimit H freq perf cpus) = cpus := by
  revert h
  unfold cppcLimit
  dsimp only
  cases he : (cppcFreq H freq cpus).err with
  | none => intro _; exact readLoop_complete he
  | some e =>
    have hy : (cppcFreq H freq cpus).yields = [] := by
      rcases hu with hu | hu
      · exfalso
        have := readLoop_ok (f := cppcHz H freq) (v := fun c => (cppcNum H c freq).getD 0 * 1000000) (cpus := cpus) (by
          intro c hc
          obtain ⟨n, hn⟩ := Option.ne_none_iff_exists'.1 (hu c hc)
          rw [cppcHz_some hn, hn]; rfl)
        unfold cppcFreq at he
        rw [this] at he
        exact absurd he (by simp)
      · cases cpus with
        | nil => rfl
        | cons c cs =>
          unfold cppcFreq
          rw [readLoop_head_fail (cppcHz_none (hu c rfl))]
    dsimp only
    split
    · rw [hy, List.nil_append]
      exact fun h => cppcScaled_complete H perf hnd h
    · intro h
      rw [he] at h
      exact absurd h (by simp)

end Verif.FreqInfo
