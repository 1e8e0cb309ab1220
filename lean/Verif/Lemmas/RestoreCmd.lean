import Verif.Props.RestoreCmdSpec
import Verif.Props.PropsCmd
import Verif.Props.PropsYaml

/-!
Lemmas for C99.
-/

namespace Verif.RestoreCmd

open CPUInfo OpTarget
open PropsBase (Mech PropDesc setPropCpus setPropDies setPropPackages normalizeDies normalizeDiesDict)
open PropsTarget (Where Runs Done Within Plain Local)
open PropsYaml (SName TNums Entry File Target SetCall entryCall)
open HumanPrint (Val Sys)
open PropsCmd (Cls Host TellsAbout Reading Contract Ready Later Uniform PlainFor printStep readProp About)
open HotplugCmd (Lists Item)
open CStatesCmd (Step)

variable {σ Q V X : Type}

/-! ### Numbers -/

theorem item_nonneg {it : Item} (h : it.Ok) {L : List Int} (hL : Trivial.parseElt it.text = .ok L) : ∀ x ∈ L, 0 ≤ x := by
  cases it with
  | one m =>
    have : Trivial.parseElt (PyStr.ofNat m) = .ok L := hL
    rw [Trivial.parseElt_ofNat] at this
    cases this
    intro x hx
    rw [List.mem_singleton.1 hx]
    exact Int.natCast_nonneg m
  | range a b =>
    have : Trivial.parseElt (Item.range a b).text = _ := Trivial.parseElt_range a b h
    rw [this] at hL
    cases hL
    intro x hx
    have := (HotplugCmd.mem_intRange.1 hx).1
    omega

theorem items_nonneg (xs : List PyStr) (h : ∀ x ∈ xs, ∃ it : Item, it.Ok ∧ x = it.text) {L : List Int}
    (hL : Trivial.parseElts xs = .ok L) : ∀ x ∈ L, 0 ≤ x := by
  induction xs generalizing L with
  | nil => cases hL; intro x hx; cases hx
  | cons y xs ih =>
    obtain ⟨it, hok, rfl⟩ := h y List.mem_cons_self
    obtain ⟨M, g1, -⟩ := HotplugCmd.parseElt_item hok
    obtain ⟨N, n1, -⟩ := HotplugCmd.parseElts_items xs (fun y hy => h y (List.mem_cons_of_mem _ hy))
    rw [Trivial.parseElts, g1, n1] at hL
    cases hL
    intro x hx
    rcases List.mem_append.1 hx with hx | hx
    · exact item_nonneg hok g1 x hx
    · exact ih (fun y hy => h y (List.mem_cons_of_mem _ hy)) n1 x hx

theorem natNums_ok {L : List Int} (h : ∀ x ∈ L, 0 ≤ x) : natNums L = .ok (L.map Int.toNat) := by
  induction L with
  | nil => rfl
  | cons x L ih =>
    rw [natNums, if_neg (by have := h x List.mem_cons_self; omega), ih (fun y hy => h y (List.mem_cons_of_mem _ hy))]
    rfl

theorem natNums_nats (l : List Nat) : natNums (l.map Int.ofNat) = .ok l := by
  rw [natNums_ok (by
    intro x hx
    obtain ⟨n, -, rfl⟩ := List.mem_map.1 hx
    exact Int.natCast_nonneg n), List.map_map, show Int.toNat ∘ Int.ofNat = id from rfl, List.map_id]

theorem natNums_mem {L : List Int} {l : List Nat} (h : natNums L = .ok l) : L = l.map Int.ofNat := by
  induction L generalizing l with
  | nil => cases h; rfl
  | cons x L ih =>
    rw [natNums] at h
    split at h
    · cases h
    · cases hn : natNums L with
      | error e => rw [hn] at h; cases h
      | ok r =>
        rw [hn] at h
        cases h
        rw [ih hn, List.map_cons]
        congr 1
        simp only [Int.ofNat_eq_natCast]
        omega

/-- A list of numbers is parsed. -/
theorem parse_lists {t : PyStr} {l : List Nat} (h : Lists t l) :
    ∃ L l', Trivial.parseIntList [t] ',' true = .ok L ∧ natNums L = .ok l' ∧ l' ≠ [] ∧ ∀ n, n ∈ l' ↔ n ∈ l := by
  obtain ⟨l1, h1, h2, h3⟩ := HotplugCmd.numsText_lists h
  obtain ⟨its, hne, hok, htext, -⟩ := h
  have hx : ∀ x ∈ pyDedup (its.map Item.text), ∃ it : Item, it.Ok ∧ x = it.text := by
    intro x hx
    obtain ⟨it, hit, rfl⟩ := List.mem_map.1 (mem_pyDedup.1 hx)
    exact ⟨it, hok it hit, rfl⟩
  obtain ⟨L, k1, -⟩ := HotplugCmd.parseElts_items (pyDedup (its.map Item.text)) hx
  have hp : Trivial.parseIntList [t] ',' true = .ok L := by
    unfold Trivial.parseIntList Trivial.splitCsvLineInt
    rw [show PyStr.joinC ',' [t] = t from rfl, htext, Trivial.splitCsvLine_join (by
      intro p hp
      obtain ⟨it, -, rfl⟩ := List.mem_map.1 hp
      exact HotplugCmd.plain_item it) true, if_pos rfl, k1]
  have hnot : t ≠ "all".toList := by
    intro e
    rw [e, HotplugCmd.parse_all] at hp
    cases hp
  rw [HotplugCmd.numsText, if_neg hnot, hp] at h1
  have e1 : L.map Int.toNat = l1 := by cases h1; rfl
  exact ⟨L, l1, hp, by rw [natNums_ok (items_nonneg _ hx k1), e1], h2, h3⟩

theorem parse_dies {d' : Dict Nat PyStr} {d : Dict Nat (List Nat)}
    (h : List.Forall₂ (fun (x : Nat × PyStr) (y : Nat × List Nat) => x.1 = y.1 ∧ Lists x.2 y.2) d' d) :
    ∃ D D', PropsYaml.parseDies d' = .ok D ∧ natDies D = .ok D' ∧ D'.keys = d.keys ∧
      ∀ p u, (∃ pd ∈ D', pd.1 = p ∧ u ∈ pd.2) ↔ ∃ pd ∈ d, pd.1 = p ∧ u ∈ pd.2 := by
  induction h with
  | nil => exact ⟨[], [], rfl, rfl, rfl, fun p u => Iff.rfl⟩
  | cons hxy _ ih =>
    rename_i x y d' d _
    obtain ⟨D, D', h1, h2, h3, h4⟩ := ih
    obtain ⟨p, t⟩ := x
    obtain ⟨q, l⟩ := y
    obtain ⟨rfl, hl⟩ := hxy
    obtain ⟨L, l', g1, g2, -, g4⟩ := parse_lists hl
    refine ⟨(p, L) :: D, (p, l') :: D', by rw [PropsYaml.parseDies, g1, h1], by rw [natDies, g2, h2], ?_, ?_⟩
    · simp only [Dict.keys, List.map_cons] at h3 ⊢
      rw [h3]
    · intro q u
      simp only [List.mem_cons, exists_eq_or_imp]
      rw [h4, g4]

/-- What an entry means is what is done for it. -/
structure Does (x : PyStr × Entry V) (w : Where) : Prop where
  call : ∃ t, entryCall x.1 x.2 = .ok ⟨x.1, x.2.value, t⟩ ∧ toWhere t = .ok w
  keys : ∀ d, w = .dies d → d.keys.Nodup
  sname : (∀ d, w = .dies d → x.2.sname = .die) ∧ ∀ l, w = .packages l → x.2.sname = .package

theorem means_does {x : PyStr × Entry V} {w : Where} (h : Means x.2 w) :
    ∃ w', Does x w' ∧ ∀ i c, OnCpu i c w' ↔ OnCpu i c w := by
  obtain ⟨p, v, sn, nums⟩ := x
  cases w with
  | cpus l =>
    obtain ⟨rfl, t, rfl, hl⟩ := h
    obtain ⟨L, l', g1, g2, -, g4⟩ := parse_lists hl
    refine ⟨.cpus l', ⟨⟨.cpus L, ?_, ?_⟩, nofun, nofun, nofun⟩, fun i c => g4 c⟩
    · simp only [entryCall, g1]
    · simp only [toWhere, g2]; rfl
  | packages l =>
    obtain ⟨rfl, t, rfl, hl⟩ := h
    obtain ⟨L, l', g1, g2, -, g4⟩ := parse_lists hl
    refine ⟨.packages l', ⟨⟨.packages L, ?_, ?_⟩, nofun, nofun, fun _ _ => rfl⟩, fun i c => ?_⟩
    · simp only [entryCall, g1]
    · simp only [toWhere, g2]; rfl
    · simp only [OnCpu, g4]
  | dies d =>
    obtain ⟨rfl, hk, d', rfl, hd⟩ := h
    obtain ⟨D, D', g1, g2, g3, g4⟩ := parse_dies hd
    refine ⟨.dies D', ⟨⟨.dies D, ?_, ?_⟩, fun d0 e => ?_, fun _ _ => rfl, nofun⟩, fun i c => ?_⟩
    · simp only [entryCall, g1]
    · simp only [toWhere, g2]; rfl
    · cases e; rw [g3]; exact hk
    · simp only [OnCpu]
      constructor
      · rintro ⟨pd, h1, u, h2, h3⟩
        obtain ⟨pd', k1, k2, k3⟩ := (g4 pd.1 u).1 ⟨pd, h1, rfl, h2⟩
        exact ⟨pd', k1, u, k3, k2 ▸ h3⟩
      · rintro ⟨pd, h1, u, h2, h3⟩
        obtain ⟨pd', k1, k2, k3⟩ := (g4 pd.1 u).2 ⟨pd, h1, rfl, h2⟩
        exact ⟨pd', k1, u, k3, k2 ▸ h3⟩

/-- What an entry means is unique, as far as CPUs are concerned. -/
theorem does_unique {x : PyStr × Entry V} {w w' : Where} (h : Does x w) (h' : Does x w') : w = w' := by
  obtain ⟨t, h1, h2⟩ := h.call
  obtain ⟨t', h1', h2'⟩ := h'.call
  rw [h1] at h1'
  cases h1'
  rw [h2] at h2'
  cases h2'
  rfl

theorem namesCpu_iff {x : PyStr × Entry V} {w : Where} (h : Does x w) (hm : ∃ w, Means x.2 w) (i : Info) (c : Nat) :
    NamesCpu i x.2 c ↔ OnCpu i c w := by
  constructor
  · rintro ⟨w1, h1, h2⟩
    obtain ⟨w2, h3, h4⟩ := means_does h1
    rw [does_unique h h3, h4]
    exact h2
  · intro hc
    obtain ⟨w1, h1⟩ := hm
    obtain ⟨w2, h3, h4⟩ := means_does h1
    exact ⟨w1, h1, (h4 i c).1 (does_unique h h3 ▸ hc)⟩

/-! ### Setting -/

theorem existing_packages {i : Info} {l r : List Nat} (h : normalizePackages i (.nums l) = .ok r) : ∀ p ∈ l, PkgEx i p := by
  obtain ⟨a, ha, -, hm⟩ := getPackages_ok i
  unfold normalizePackages at h
  simp only [ha] at h
  split at h
  · rename_i hall
    intro p hp
    exact (hm p).1 (List.contains_iff_mem.1 (List.all_eq_true.1 hall p (mem_pyDedup.2 hp)))
  · cases h

theorem existing_dies {i : Info} : ∀ {d : Dict Nat (List Nat)} {r : List (Nat × Nat)}, normalizeDiesDict i d = .ok r →
    ∀ pu ∈ d, ∀ u ∈ pu.2, UnitEx i .die pu.1 u
  | [], _, _ => by intro pu h; cases h
  | (p, l) :: d, r, h => by
    rw [normalizeDiesDict] at h
    cases hd : normalizeDies i l p with
    | error e => rw [hd] at h; cases h
    | ok x =>
      rw [hd] at h
      cases hr : normalizeDiesDict i d with
      | error e => rw [hr] at h; cases h
      | ok r' =>
        intro pu hpu u hu
        rcases List.mem_cons.1 hpu with rfl | hpu
        · unfold normalizeDies at hd
          split at hd
          · cases hd
          · rename_i ds hds
            split at hd
            · rename_i hall
              have hin := List.contains_iff_mem.1 (List.all_eq_true.1 hall u (mem_pyDedup.2 hu))
              obtain ⟨h1, t, h2, h3, h4, h5⟩ := (mem_getLevelNums hds u).1 hin
              have h4 : t.package ∈ [p] := h4
              have h4 := List.mem_singleton.1 h4
              exact ⟨h1, fun e => h3 (h4.trans e), t, h2, h4, h5⟩
            · cases hd
        · exact existing_dies hr pu hpu u hu

/-- The result of the method which sets a property. -/
def setMech (i : Info) (K : Cls σ Q) (P : PropDesc) (p : PyStr) (v : Option (Val Q)) (w : Where) (s : σ) : σ × Except Exn Mech :=
  match w with
  | .cpus l => setPropCpus i P (K.norm p) (K.set p) v (.nums l) none s
  | .dies d => setPropDies i P (K.norm p) (K.set p) v d none s
  | .packages l => setPropPackages i P (K.norm p) (K.set p) v l none s

theorem setWhere_eq {i : Info} {K : Cls σ Q} {p : PyStr} {P : PropDesc} (hP : K.desc p = some P) (v : Option (Val Q)) (w : Where)
    (s : σ) : setWhere i K p v w s = ((setMech i K P p v w s).1, (setMech i K P p v w s).2.map fun _ => ()) := by
  unfold setWhere setMech
  rw [hP]
  cases w <;> rfl

/-- The entry is for CPUs or for units of the scope of the property. -/
structure Suits (P : PropDesc) (w : Where) : Prop where
  keys : ∀ d, w = .dies d → d.keys.Nodup ∧ P.sname = some (.lvl .die)
  packages : ∀ l, w = .packages l → P.sname = some (.lvl .package)

theorem setMech_runs {i : Info} (wf : WF i) {K : Cls σ Q} {P : PropDesc} (p : PyStr)
    (hio : ∀ sn, P.sname = some sn → Within i P.iosname sn) {w : Where} (hw : Suits P w) (v : Option (Val Q)) (s : σ) :
    Runs i P.iosname (fun c => OnCpu i c w) (K.norm p) (K.set p) v s (setMech i K P p v w s) := by
  cases w with
  | cpus l => exact PropsTarget.runs_cpus wf hio (K.norm p) v l none s
  | packages l =>
    have hsn := hw.packages l rfl
    by_cases hp : ∀ p ∈ l, PkgEx i p
    · exact PropsTarget.runs_packages wf (hio _ hsn) hsn (K.norm p) v l hp none s
    · left
      unfold setMech setPropPackages
      dsimp only
      split
      · exact ⟨_, rfl⟩
      · split
        · exact ⟨_, rfl⟩
        · cases hn : normalizePackages i (.nums l) with
          | error e => exact ⟨_, rfl⟩
          | ok r => exact absurd (existing_packages hn) hp
  | dies d =>
    obtain ⟨hk, hsn⟩ := hw.keys d rfl
    by_cases hp : ∀ pu ∈ d, ∀ u ∈ pu.2, UnitEx i .die pu.1 u
    · exact PropsTarget.runs_dies wf (hio _ hsn) hsn (K.norm p) v d hk hp none s
    · left
      unfold setMech setPropDies
      dsimp only
      split
      · exact ⟨_, rfl⟩
      · split
        · exact ⟨_, rfl⟩
        · split
          · exact ⟨_, rfl⟩
          · cases hn : normalizeDiesDict i d with
            | error e => exact ⟨_, rfl⟩
            | ok r => exact absurd (existing_dies hn) hp

/-- There is something to set, and the property can be written. -/
theorem setMech_ok {i : Info} {K : Cls σ Q} {P : PropDesc} {p : PyStr} {v : Option (Val Q)} {w : Where} {s : σ} {m : Mech}
    (h : (setMech i K P p v w s).2 = .ok m) : P.writable = true ∧ (∀ l, w = .cpus l → l ≠ [] ∧ ∀ c ∈ l, c ∈ i.online) ∧
      (∀ l, w = .packages l → l ≠ [] ∧ ∀ p ∈ l, PkgEx i p) ∧
      ∀ d, w = .dies d → d ≠ [] ∧ (∀ pu ∈ d, PkgEx i pu.1) ∧ (∀ pu ∈ d, pu.2 ≠ []) ∧ ∀ pu ∈ d, ∀ u ∈ pu.2, UnitEx i .die pu.1 u := by
  have hwr : ∀ x, PropsBase.normalizeInprop P (K.norm p) v = .ok x → P.writable = true := by
    intro x hx
    unfold PropsBase.normalizeInprop at hx
    split at hx
    · cases hx
    · split at hx
      · cases hx
      · rename_i hw
        simpa using hw
  cases w with
  | cpus l =>
    unfold setMech setPropCpus at h
    dsimp only at h
    split at h
    · cases h
    · split at h
      · cases h
      · rename_i x hx
        split at h
        · cases h
        · rename_i l' hl
          split at h
          · cases h
          · rename_i hne
            refine ⟨hwr x hx, fun l0 e => ?_, nofun, nofun⟩
            cases e
            obtain ⟨-, h2, h3⟩ := normalizeCpus_ok hl
            have h2 : ∀ c, c ∈ l' ↔ c ∈ l := h2
            refine ⟨fun e => ?_, fun c hc => by simpa using h3 c ((h2 c).2 hc)⟩
            subst e
            cases l' with
            | nil => exact hne rfl
            | cons y l' => exact absurd ((h2 y).1 List.mem_cons_self) (by simp)
  | packages l =>
    unfold setMech setPropPackages at h
    dsimp only at h
    split at h
    · cases h
    · split at h
      · cases h
      · rename_i x hx
        split at h
        · cases h
        · rename_i l' hl
          split at h
          · cases h
          · rename_i hne
            refine ⟨hwr x hx, nofun, fun l0 e => ?_, nofun⟩
            cases e
            exact ⟨fun e => hne (by rw [e]; rfl), existing_packages hl⟩
  | dies d =>
    unfold setMech setPropDies at h
    dsimp only at h
    split at h
    · cases h
    · split at h
      · cases h
      · rename_i x hx
        split at h
        · cases h
        · rename_i hp
          split at h
          · cases h
          · rename_i l' hl
            split at h
            · cases h
            · rename_i hne
              refine ⟨hwr x hx, nofun, nofun, fun d0 e => ?_⟩
              cases e
              rw [Bool.or_eq_true, not_or] at hne
              refine ⟨fun e => hne.2 (by rw [e]; rfl), fun pu hpu => existing_packages hp _ (List.mem_map_of_mem hpu),
                fun pu hpu e => hne.1 (List.any_eq_true.2 ⟨pu, hpu, by rw [e]; rfl⟩), existing_dies hl⟩

section

variable {H : Host Q} {S : Sys} {K : Cls σ Q} {Inv : σ → Prop} {R : PyStr → Nat → Val Q → X → Prop}
  {held hw : PyStr → σ → Nat → X} {rd : PyStr → Mech → Nat → X → Except Exn (Option (Val Q))}

/-- What setting a property does. -/
structure SetOk (i : Info) (K : Cls σ Q) (Inv : σ → Prop) (R : PyStr → Nat → Val Q → X → Prop)
    (held hw : PyStr → σ → Nat → X) (T : PyStr → Prop) (p : PyStr) (v : Option (Val Q)) (w : Where) (s : σ)
    (r : σ × Except Exn Unit) : Prop where
  inv : Inv r.1
  frame : ∀ q c, ¬ (T q ∧ OnCpu i c w) → held q r.1 c = held q s c ∧ hw q r.1 c = hw q s c
  done : r.2 = .ok () → ∃ P x y, K.desc p = some P ∧ P.writable = true ∧ v = some x ∧ K.norm p x = .ok y ∧
    (∀ c, OnCpu i c w → R p c y (held p r.1 c)) ∧ ∃ m s0, (setMech i K P p v w s0).2 = .ok m

theorem setWhere_ok {i : Info} (wf : WF i) (hK : Contract i K Inv R held hw rd) (p : PyStr) (v : Option (Val Q)) {w : Where}
    (hsu : ∀ P, K.desc p = some P → Suits P w) {s : σ} (hs : Inv s) :
    SetOk i K Inv R held hw (p = ·) p v w s (setWhere i K p v w s) := by
  cases hP : K.desc p with
  | none =>
    have : setWhere i K p v w s = (s, .error .error) := by unfold setWhere; rw [hP]
    rw [this]
    exact ⟨hs, fun _ _ _ => ⟨rfl, rfl⟩, nofun⟩
  | some P =>
    rw [setWhere_eq hP]
    have hruns := setMech_runs wf (K := K) p (hK.scopes p P hP) (hsu P hP) v s
    have hinv := hruns.keeps Inv (fun _ v m l s _ _ hl hs => (hK.inv s hs).2.2 p m v l fun d hd => (hl d hd).2) hs
    have hoth : ∀ q, p ≠ q → held q (setMech i K P p v w s).1 = held q s ∧ hw q (setMech i K P p v w s).1 = hw q s := fun q hq =>
      hruns.keeps (fun s' => held q s' = held q s ∧ hw q s' = hw q s) (fun _ v m l s _ _ _ hs => by
        obtain ⟨o1, o2⟩ := hK.others p q m v l s hq
        exact ⟨o1.trans hs.1, o2.trans hs.2⟩) ⟨rfl, rfl⟩
    obtain ⟨d1, d2⟩ := hruns.done (hK.loc p P hP)
    refine ⟨hinv, fun q c hqc => ?_, fun hok => ?_⟩
    · dsimp only
      by_cases hpq : p = q
      · subst hpq
        have := d1 c fun hc => hqc ⟨rfl, hc⟩
        exact ⟨congrArg Prod.fst this, congrArg Prod.snd this⟩
      · obtain ⟨o1, o2⟩ := hoth q hpq
        rw [o1, o2]
        exact ⟨rfl, rfl⟩
    · dsimp only at hok
      cases hm : (setMech i K P p v w s).2 with
      | error e => rw [hm] at hok; cases hok
      | ok m =>
        obtain ⟨x, y, e1, e2, e3⟩ := d2 m hm
        exact ⟨P, x, y, hP, (setMech_ok hm).1, e1, e2, e3, m, s, hm⟩

theorem setWhere_keeps {i : Info} (wf : WF i) (hK : Contract i K Inv R held hw rd) (p : PyStr) (v : Option (Val Q)) {w : Where}
    (hsu : ∀ P, K.desc p = some P → Suits P w) (I : σ → Prop)
    (hI : ∀ x y m l s, v = some x → K.norm p x = .ok y → (∀ d ∈ l, OnCpu i d w ∧ d ∈ i.online) → I s → I (K.set p m y l s).1)
    {s : σ} (hs : I s) : I (setWhere i K p v w s).1 := by
  cases hP : K.desc p with
  | none =>
    have : setWhere i K p v w s = (s, .error .error) := by unfold setWhere; rw [hP]
    rw [this]
    exact hs
  | some P =>
    rw [setWhere_eq hP]
    exact (setMech_runs wf (K := K) p (hK.scopes p P hP) (hsu P hP) v s).keeps I hI hs

theorem partner_paired {p o wd : PyStr} (h : partner p = some (o, wd)) : Paired p o := by
  unfold partner at h
  unfold Paired
  split at h
  · rename_i e; cases h; rw [e]; exact .head _
  · split at h
    · rename_i e; cases h; rw [e]; exact .tail _ (.head _)
    · split at h
      · rename_i e; cases h; rw [e]; exact .tail _ (.tail _ (.head _))
      · split at h
        · rename_i e; cases h; rw [e]; exact .tail _ (.tail _ (.tail _ (.head _)))
        · cases h

theorem SetOk.trans {i : Info} {T T' : PyStr → Prop} {p p' : PyStr} {v v' : Option (Val Q)} {w : Where} {s : σ} {r r' : σ × Except Exn Unit}
    (h : SetOk i K Inv R held hw T p v w s r) (h' : SetOk i K Inv R held hw T' p' v' w r.1 r') {T'' : PyStr → Prop}
    (h1 : ∀ q, T q → T'' q) (h2 : ∀ q, T' q → T'' q) : SetOk i K Inv R held hw T'' p' v' w s r' := by
  refine ⟨h'.inv, fun q c hqc => ?_, h'.done⟩
  obtain ⟨a1, a2⟩ := h.frame q c fun hh => hqc ⟨h1 q hh.1, hh.2⟩
  obtain ⟨b1, b2⟩ := h'.frame q c fun hh => hqc ⟨h2 q hh.1, hh.2⟩
  exact ⟨b1.trans a1, b2.trans a2⟩

theorem SetOk.mono {i : Info} {T T' : PyStr → Prop} {p : PyStr} {v : Option (Val Q)} {w : Where} {s : σ} {r : σ × Except Exn Unit}
    (h : SetOk i K Inv R held hw T p v w s r) (h1 : ∀ q, T q → T' q) : SetOk i K Inv R held hw T' p v w s r :=
  ⟨h.inv, fun q c hqc => h.frame q c fun hh => hqc ⟨h1 q hh.1, hh.2⟩, h.done⟩

theorem SetOk.failed {i : Info} {T T' : PyStr → Prop} {p p' : PyStr} {v v' : Option (Val Q)} {w : Where} {s s1 : σ} {e : Exn}
    (h : SetOk i K Inv R held hw T p v w s (s1, .error e)) (h1 : ∀ q, T q → T' q) :
    SetOk i K Inv R held hw T' p' v' w s (s1, .error e) :=
  ⟨h.inv, fun q c hqc => h.frame q c fun hh => hqc ⟨h1 q hh.1, hh.2⟩, nofun⟩

theorem restoreOne_ok {i : Info} (wf : WF i) (hK : Contract i K Inv R held hw rd) (p : PyStr) (v : Option (Val Q)) {w : Where}
    (hsu : ∀ q P, Touches K p q → K.desc q = some P → Suits P w) {s : σ} (hs : Inv s) :
    SetOk i K Inv R held hw (Touches K p) p v w s (restoreOne i K p v w s) := by
  have hself : ∀ q, p = q → Touches K p q := fun q e => .inl e
  unfold restoreOne
  have h1 := setWhere_ok wf hK p v (fun P hP => hsu p P (.inl rfl) hP) hs
  cases hr : setWhere i K p v w s with
  | mk s1 x =>
    rw [hr] at h1
    cases x with
    | ok u => exact h1.mono hself
    | error e =>
      dsimp only
      split
      · exact h1.mono hself
      · rename_i hcond
        have hf : K.freqs = true := by
          cases hk : K.freqs with
          | true => rfl
          | false => rw [hk] at hcond; exact absurd rfl hcond
        cases hpt : partner p with
        | none => exact h1.mono hself
        | some ow =>
          obtain ⟨o, wd⟩ := ow
          dsimp only
          have ht : Touches K p o := .inr ⟨hf, partner_paired hpt⟩
          have ho : ∀ q, o = q → Touches K p q := fun q e => e ▸ ht
          have h2 := setWhere_ok wf hK o (some (.str wd)) (fun P hP => hsu o P ht hP) (w := w) h1.inv
          have h12 := h1.trans h2 hself ho
          dsimp only at h2 h12
          cases hr2 : setWhere i K o (some (.str wd)) w s1 with
          | mk s2 y =>
            rw [hr2] at h2 h12
            cases y with
            | error e => exact h12.failed fun _ h => h
            | ok u =>
              dsimp only
              exact h12.trans (setWhere_ok wf hK p v (fun P hP => hsu p P (.inl rfl) hP) h2.inv) (fun _ h => h) hself

theorem restoreOne_keeps {i : Info} (wf : WF i) (hK : Contract i K Inv R held hw rd) (p : PyStr) (v : Option (Val Q)) {w : Where}
    (hsu : ∀ q P, Touches K p q → K.desc q = some P → Suits P w) (I : σ → Prop)
    (hI : ∀ q x y m l s, Touches K p q → (q = p → v = some x) → K.norm q x = .ok y →
      (∀ d ∈ l, OnCpu i d w ∧ d ∈ i.online) → I s → I (K.set q m y l s).1)
    {s : σ} (hs : I s) : I (restoreOne i K p v w s).1 := by
  have hp : ∀ s, I s → I (setWhere i K p v w s).1 := fun s hs =>
    setWhere_keeps wf hK p v (fun P hP => hsu p P (.inl rfl) hP) I
      (fun x y m l s e n hl hs => hI p x y m l s (.inl rfl) (fun _ => e) n hl hs) hs
  unfold restoreOne
  have h1 := hp s hs
  cases hr : setWhere i K p v w s with
  | mk s1 x =>
    rw [hr] at h1
    cases x with
    | ok u => exact h1
    | error e =>
      dsimp only
      split
      · exact h1
      · rename_i hcond
        have hf : K.freqs = true := by
          cases hk : K.freqs with
          | true => rfl
          | false => rw [hk] at hcond; exact absurd rfl hcond
        cases hpt : partner p with
        | none => exact h1
        | some ow =>
          obtain ⟨o, wd⟩ := ow
          dsimp only
          have ht : Touches K p o := .inr ⟨hf, partner_paired hpt⟩
          have hne : o ≠ p := by
            intro e
            have := partner_paired hpt
            rw [e] at this
            unfold Paired at this
            simp only [List.mem_cons, List.not_mem_nil, or_false, Prod.mk.injEq] at this
            rcases this with ⟨a, b⟩ | ⟨a, b⟩ | ⟨a, b⟩ | ⟨a, b⟩ <;> exact absurd (a.symm.trans b) (by decide +kernel)
          have h2 := setWhere_keeps wf hK o (some (.str wd)) (fun P hP => hsu o P ht hP) (w := w) I
            (fun x y m l s e n hl hs => hI o x y m l s ht (fun e => absurd e hne) n hl hs) h1
          dsimp only at h2
          cases hr2 : setWhere i K o (some (.str wd)) w s1 with
          | mk s2 y =>
            rw [hr2] at h2
            cases y with
            | error e => exact h2
            | ok u => exact hp s2 h2

/-- There is at least one number. -/
def NonEmpty : Where → Prop
  | .cpus l => l ≠ []
  | .packages l => l ≠ []
  | .dies d => d ≠ []

theorem selected_where (i : Info) {w : Where} (hw : NonEmpty w) : Selected i (optarArgs w) = fun c => OnCpu i c w := by
  funext c
  apply propext
  have hsib : Selected i (optarArgs w) c ↔ Union i (optarArgs w) c := by
    unfold Selected
    cases w <;> exact ⟨fun h => h.1, fun h => ⟨h, fun h => absurd rfl h, fun h => absurd rfl h⟩⟩
  rw [hsib]
  cases w with
  | cpus l =>
    constructor
    · rintro (h | ⟨n, h, h'⟩ | ⟨-, t, -, -, h⟩ | ⟨-, t, -, -, h⟩ | ⟨-, t, -, -, h⟩ | ⟨-, -, -, t, -, -, h⟩)
      · exact absurd hw h.1.1
      · cases h; exact h'
      · exact h.elim
      · exact h.elim
      · exact h.elim
      · exact h.elim
    · intro h
      exact .inr (.inl ⟨_, rfl, h⟩)
  | packages l =>
    constructor
    · rintro (h | ⟨n, h, h'⟩ | ⟨-, t, -, -, h⟩ | ⟨-, t, -, -, h⟩ | ⟨-, t, -, -, h⟩ | ⟨-, -, h0, t, h1, h2, h⟩)
      · exact absurd hw h.1.2.2.2.2
      · cases h
      · exact h.elim
      · exact h.elim
      · exact h.elim
      · exact ⟨t.package, h, h0, t, h1, h2, rfl⟩
    · rintro ⟨p, hp, h0, t, h1, h2, h3⟩
      refine .inr (.inr (.inr (.inr (.inr ⟨fun h => h.elim, fun h => h.elim, h0, t, h1, h2, ?_⟩))))
      show t.package ∈ l
      rw [show t.package = p from h3]
      exact hp
  | dies d =>
    constructor
    · rintro (h | ⟨n, h, h'⟩ | ⟨-, t, -, -, h⟩ | ⟨-, t, -, -, h⟩ | ⟨h0, t, h1, h2, us, h3, h4⟩ | ⟨-, -, -, t, -, -, h⟩)
      · exact absurd hw h.1.2.2.2.1
      · cases h
      · exact h.elim
      · exact h.elim
      · exact ⟨_, h3, t.die, h4, h0, t, h1, h2, rfl, rfl⟩
      · exact h.elim
    · rintro ⟨pd, hpd, u, hu, h0, t, h1, h2, h3, h4⟩
      refine .inr (.inr (.inr (.inr (.inl ⟨h0, t, h1, h2, pd.2, ?_, ?_⟩))))
      · rw [h3]; exact hpd
      · rw [show t.die = u from h4]; exact hu

theorem plain_where {i : Info} (wf : WF i) (w : Where) (sc : Scope) : Plain i (optarArgs w) sc := by
  cases w with
  | cpus l => exact PropsTarget.plain_simple i wf (optarArgs (.cpus l)) ⟨rfl, rfl⟩ (fun h : False => h.elim) sc
  | packages l => exact PropsTarget.plain_simple i wf (optarArgs (.packages l)) ⟨rfl, rfl⟩ (fun _ => ⟨fun h : False => h, fun h : False => h⟩) sc
  | dies d => exact PropsTarget.plain_simple i wf (optarArgs (.dies d)) ⟨rfl, rfl⟩ (fun h : False => h.elim) sc

theorem setMech_nonEmpty {i : Info} {P : PropDesc} {p : PyStr} {v : Option (Val Q)} {w : Where} {s : σ} {m : Mech}
    (h : (setMech i K P p v w s).2 = .ok m) : NonEmpty w := by
  obtain ⟨-, h1, h2, h3⟩ := setMech_ok h
  cases w with
  | cpus l => exact (h1 l rfl).1
  | packages l => exact (h2 l rfl).1
  | dies d => exact (h3 d rfl).1

/-- `TellsAbout.imp`, only about CPUs with `T`. -/
theorem tells_imp {group : Bool} {action : Option PyStr} {T : Nat → Prop} {n : List PyStr} {skip : Bool}
    {want want' : PyStr → Nat → Option (Val Q) → PyStr → Prop} {l : List PyStr} {t : List (HumanPrint.Entry Q)}
    (h : TellsAbout S H K group action T n skip want l t) (hi : ∀ p ∈ n, ∀ c, T c → ∀ v m, want p c v m → want' p c v m) :
    TellsAbout S H K group action T n skip want' l t := by
  refine ⟨h.lines, fun t ht => ?_, fun p hp c hc => ?_, h.once, h.source⟩
  · obtain ⟨k1, k2, k3⟩ := h.right t ht
    refine ⟨k1, k2, fun cell hcell c hc => ?_⟩
    obtain ⟨k4, k5⟩ := k3 cell hcell c hc
    exact ⟨k4, hi _ k1 c k4 _ _ k5⟩
  · obtain ⟨v, m, k1, k2⟩ := h.all p hp c hc
    exact ⟨v, m, hi p hp c hc v m k1, k2⟩

/-- What is done for an entry is for CPU `c`. -/
def On (i : Info) (x : PyStr × Entry V) (c : Nat) : Prop := ∃ w, Does x w ∧ OnCpu i c w

theorem on_iff {x : PyStr × Entry V} {w : Where} (h : Does x w) (i : Info) : On i x = fun c => OnCpu i c w := by
  funext c
  exact propext ⟨fun ⟨w', h1, h2⟩ => does_unique h h1 ▸ h2, fun hc => ⟨w, h, hc⟩⟩

/-- The entry can be understood, and is for the scope of the property. -/
def Fine (K : Cls σ Q) (x : PyStr × Entry V) : Prop :=
  ∃ w, Does x w ∧ ∀ q P, Touches K x.1 q → K.desc q = some P → Suits P w

theorem Proper.fine {x : PyStr × Entry V} (h : Proper K x) : Fine K x ∧ ∀ i, On i x = NamesCpu i x.2 := by
  obtain ⟨w, hw⟩ := h.means
  obtain ⟨w', h1, h2⟩ := means_does hw
  refine ⟨⟨w', h1, fun q P ht hP => ⟨fun d e => ⟨h1.keys d e, (h.scope q P ht hP).1 (h1.sname.1 d e)⟩,
    fun l e => (h.scope q P ht hP).2 (h1.sname.2 l e)⟩⟩, fun i => ?_⟩
  rw [on_iff h1]
  funext c
  exact propext (namesCpu_iff h1 h.means i c).symm

variable [DecidableEq Q]

/-- What restoring an entry does. -/
structure EntryOk (S : Sys) (H : Host Q) (K : Cls σ Q) (Inv : σ → Prop) (R : PyStr → Nat → Val Q → X → Prop)
    (held hw : PyStr → σ → Nat → X) (rd : PyStr → Mech → Nat → X → Except Exn (Option (Val Q)))
    (x : PyStr × Entry (Val Q)) (s : σ) (r : σ × (List PyStr × Except Exn Unit)) : Prop where
  inv : Inv r.1
  frame : ∀ q c, ¬ (Touches K x.1 q ∧ On H.i x c) → held q r.1 c = held q s c ∧ hw q r.1 c = hw q s c
  done : r.2.2 = .ok () → ∃ v y, x.2.value = some v ∧ K.norm x.1 v = .ok y ∧ ∀ c, On H.i x c → R x.1 c y (held x.1 r.1 c)
  told : r.2.2 = .ok () → (∀ s, Inv s → Uniform (On H.i x) rd fun p c => held p s c) → ∃ told,
    TellsAbout S H K false (some "restored to".toList) (On H.i x) [x.1] false (Reading K rd (fun p c => held p r.1 c) none)
      r.2.1 told

theorem restoreEntry_ok (hS : S.Of H.i) (hon : H.i.online ≠ []) (hF : ∀ p n, H.F.unitInt p n ≠ []) (hl : Later H)
    (hK : Contract H.i K Inv R held hw rd) {x : PyStr × Entry (Val Q)} (hx : Fine K x) {s : σ} (hs : Inv s) :
    EntryOk S H K Inv R held hw rd x s (restoreEntry H K x s) := by
  obtain ⟨w, hd, hsu⟩ := hx
  obtain ⟨t, h1, h2⟩ := hd.call
  have hone := restoreOne_ok hS.wf hK x.1 x.2.value hsu hs
  have hon' := on_iff hd H.i
  unfold restoreEntry
  rw [h1]
  dsimp only
  rw [h2]
  dsimp only
  unfold Step.andThen
  dsimp only
  cases hr : restoreOne H.i K x.1 x.2.value w s with
  | mk s1 y =>
    rw [hr] at hone
    have hfr : ∀ q c, ¬ (Touches K x.1 q ∧ On H.i x c) → held q s1 c = held q s c ∧ hw q s1 c = hw q s c := by
      rw [hon']; exact hone.frame
    cases y with
    | error e => exact ⟨hone.inv, hfr, nofun, nofun⟩
    | ok u =>
      obtain ⟨P, v, y, d1, d2, d3, d4, d5, m, s0, d6⟩ := hone.done rfl
      have hst : ((printRestored H K x.1 w s1).1) = s1 := by
        unfold printRestored
        cases init H.i (optarArgs w) <;> rfl
      dsimp only
      rw [hst]
      refine ⟨hone.inv, hfr, fun _ => ⟨v, y, d3, d4, by rw [hon']; exact d5⟩, fun hok hu => ?_⟩
      have hsel := selected_where H.i (setMech_nonEmpty d6)
      rw [hon'] at hu ⊢
      unfold printRestored at hok ⊢
      cases hi : init H.i (optarArgs w) with
      | error e => rw [hi] at hok; cases hok
      | ok tc =>
        obtain ⟨t, ca⟩ := tc
        rw [hi] at hok
        dsimp only at hok ⊢
        have r : Ready H S (optarArgs w) t ca := ⟨hS, hon, hl, hi, hF⟩
        obtain ⟨pi, hpi, hpw⟩ : ∃ pi, K.props.get? x.1 = some pi ∧ pi.writable = true := by
          have := hK.table x.1
          rw [d1] at this
          cases hx : K.props.get? x.1 with
          | none => rw [hx] at this; cases this
          | some pi =>
            rw [hx] at this
            exact ⟨pi, rfl, (Option.some.inj this).symm.trans d2⟩
        have hnm : HumanPrint.Named K.props true (some [x.1]) [x.1] := by
          refine ⟨[x.1], fun l' e => ?_, nofun, ?_⟩
          · cases e
            refine ⟨rfl, fun n hn => ?_⟩
            rw [List.mem_singleton.1 hn]
            exact ⟨pi, hpi⟩
          · rw [List.filter_cons_of_pos]
            · rfl
            · rw [hpi]
              simpa using hpw
        have hone' := PropsCmd.printOut_about r hK (by rw [hsel]; exact hu s1 hone.inv) hone.inv none true false false
          (some "restored to".toList) (some [x.1]) hnm (List.nodup_singleton x.1) (fun q hq P hP => plain_where hS.wf w _)
        rw [hsel] at hone'
        unfold printStep at hok ⊢
        rcases hone' with ⟨e, h, -⟩ | ⟨lines, n, told, h, h2, -⟩
        · rw [h] at hok; cases hok
        · rw [h]
          exact ⟨told, h2⟩

/-- What restoring entries does. -/
structure EntriesOk (S : Sys) (H : Host Q) (K : Cls σ Q) (Inv : σ → Prop) (R : PyStr → Nat → Val Q → X → Prop)
    (held hw : PyStr → σ → Nat → X) (rd : PyStr → Mech → Nat → X → Except Exn (Option (Val Q)))
    (l : List (PyStr × Entry (Val Q))) (s : σ) (r : σ × (List PyStr × Except Exn Unit)) : Prop where
  inv : Inv r.1
  frame : ∀ q c, (∀ x ∈ l, Touches K x.1 q → ¬ On H.i x c) → held q r.1 c = held q s c ∧ hw q r.1 c = hw q s c
  done : r.2.2 = .ok () → ∀ pre x post, l = pre ++ x :: post → ∃ v y, x.2.value = some v ∧ K.norm x.1 v = .ok y ∧
    ∀ c, On H.i x c → (∀ z ∈ post, Touches K z.1 x.1 → ¬ On H.i z c) → R x.1 c y (held x.1 r.1 c)
  told : r.2.2 = .ok () → (∀ x ∈ l, ∀ s, Inv s → Uniform (On H.i x) rd fun p c => held p s c) →
    l.Pairwise (fun x y => Touches K y.1 x.1 → ∀ c, On H.i x c → ¬ On H.i y c) →
    ∃ parts : List (List PyStr), r.2.1 = parts.flatten ∧ List.Forall₂ (fun x p => ∃ told,
      TellsAbout S H K false (some "restored to".toList) (On H.i x) [x.1] false
        (Reading K rd (fun p c => held p r.1 c) none) p told) l parts

omit [DecidableEq Q] in
theorem reading_congr {val val' : PyStr → Nat → X} {ml : Option (List Mech)} {p : PyStr} {c : Nat} {v : Option (Val Q)} {m : PyStr}
    (h : val p c = val' p c) (hr : Reading K rd val ml p c v m) : Reading K rd val' ml p c v m := by
  obtain ⟨P, h1, h2, h3⟩ := hr
  refine ⟨P, h1, h2, fun hn => ?_⟩
  obtain ⟨mech, k1, k2⟩ := h3 hn
  refine ⟨mech, k1, ?_⟩
  unfold PropsTarget.Shows at k2 ⊢
  simp only [h] at k2
  exact k2

theorem restoreEntries_ok (hS : S.Of H.i) (hon : H.i.online ≠ []) (hF : ∀ p n, H.F.unitInt p n ≠ []) (hl : Later H)
    (hK : Contract H.i K Inv R held hw rd) {l : List (PyStr × Entry (Val Q))} (hx : ∀ x ∈ l, Fine K x) {s : σ} (hs : Inv s) :
    EntriesOk S H K Inv R held hw rd l s (restoreEntries H K l s) := by
  induction l generalizing s with
  | nil =>
    refine ⟨hs, fun _ _ _ => ⟨rfl, rfl⟩, fun _ pre x post e => ?_, fun _ _ _ => ⟨[], rfl, .nil⟩⟩
    cases pre <;> cases e
  | cons x l ih =>
    have h1 := restoreEntry_ok hS hon hF hl hK (hx x List.mem_cons_self) hs
    rw [restoreEntries]
    unfold Step.andThen
    cases hr : restoreEntry H K x s with
    | mk s1 y =>
      obtain ⟨ls, z⟩ := y
      rw [hr] at h1
      cases z with
      | error e =>
        exact ⟨h1.inv, fun q c hq => h1.frame q c fun hh => hq x List.mem_cons_self hh.1 hh.2, nofun, nofun⟩
      | ok u =>
        have h2 := ih (fun y hy => hx y (List.mem_cons_of_mem _ hy)) h1.inv
        dsimp only at h2 ⊢
        refine ⟨h2.inv, fun q c hq => ?_, fun hok pre y post e => ?_, fun hok hu hp => ?_⟩
        · obtain ⟨a1, a2⟩ := h1.frame q c fun hh => hq x List.mem_cons_self hh.1 hh.2
          obtain ⟨b1, b2⟩ := h2.frame q c fun y hy => hq y (List.mem_cons_of_mem _ hy)
          exact ⟨b1.trans a1, b2.trans a2⟩
        · cases pre with
          | nil =>
            cases e
            obtain ⟨v, y, d1, d2, d3⟩ := h1.done rfl
            refine ⟨v, y, d1, d2, fun c hc hpost => ?_⟩
            rw [(h2.frame x.1 c hpost).1]
            exact d3 c hc
          | cons x' pre =>
            cases e
            exact h2.done hok pre y post rfl
        · obtain ⟨p1, p2⟩ := List.pairwise_cons.1 hp
          obtain ⟨parts, k1, k2⟩ := h2.told hok (fun y hy => hu y (List.mem_cons_of_mem _ hy)) p2
          obtain ⟨told, k3⟩ := h1.told rfl (hu x List.mem_cons_self)
          refine ⟨ls :: parts, by rw [k1, List.flatten_cons], .cons ⟨told, tells_imp k3 fun p hp c hc v m hw => ?_⟩ k2⟩
          rw [List.mem_singleton.1 hp] at hw ⊢
          exact reading_congr (h2.frame x.1 c fun y hy ht hy' => p1 y hy ht c hc hy').1.symm hw

theorem restoreEntries_keeps (wf : WF H.i) (hK : Contract H.i K Inv R held hw rd) {l : List (PyStr × Entry (Val Q))}
    (hx : ∀ x ∈ l, Fine K x) (I : σ → Prop)
    (hI : ∀ x ∈ l, ∀ q v y m cs s, Touches K x.1 q → (q = x.1 → x.2.value = some v) → K.norm q v = .ok y →
      (∀ d ∈ cs, On H.i x d ∧ d ∈ H.i.online) → I s → I (K.set q m y cs s).1)
    {s : σ} (hs : I s) : I (restoreEntries H K l s).1 := by
  induction l generalizing s with
  | nil => exact hs
  | cons x l ih =>
    have h1 : I (restoreEntry H K x s).1 := by
      obtain ⟨w, hd, hsu⟩ := hx x List.mem_cons_self
      obtain ⟨t, h1, h2⟩ := hd.call
      unfold restoreEntry
      rw [h1]
      dsimp only
      rw [h2]
      dsimp only
      have hone : I (restoreOne H.i K x.1 x.2.value w s).1 := restoreOne_keeps wf hK x.1 x.2.value hsu I
        (fun q v y m cs s k1 k2 k3 k4 k5 => hI x List.mem_cons_self q v y m cs s k1 k2 k3
          (by rw [on_iff hd]; exact k4) k5) hs
      refine CStatesCmd.andThen_inv I hone ?_
      unfold printRestored
      cases init H.i (optarArgs w) <;> exact hone
    rw [restoreEntries]
    exact CStatesCmd.andThen_inv I h1 (ih (fun y hy => hx y (List.mem_cons_of_mem _ hy))
      (fun y hy => hI y (List.mem_cons_of_mem _ hy)) h1)

end

end Verif.RestoreCmd
