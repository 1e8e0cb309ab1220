import Verif.Lemmas.RestoreSave

/-!
Lemmas for C99: restoring the frequencies of a pair.
-/

namespace Verif.RestoreCmd

open CPUInfo OpTarget
open PropsBase (Mech PropDesc setLoop oneMech setPropCpus setPropDies setPropPackages normalizeMnames normalizeInprop)
open PropsTarget (Where Within)
open PropsYaml (SName Entry File)
open HumanPrint (Val Sys)
open PropsCmd (Cls Host Reading Contract Later)
open CStatesCmd (Step)

variable {σ Q X V : Type}

theorem pairs_ok : ∀ x ∈ [("min_freq".toList, "max_freq".toList), ("max_freq".toList, "min_freq".toList),
      ("min_uncore_freq".toList, "max_uncore_freq".toList), ("max_uncore_freq".toList, "min_uncore_freq".toList)],
    x.1 ≠ x.2 ∧ (x.2, x.1) ∈ [("min_freq".toList, "max_freq".toList), ("max_freq".toList, "min_freq".toList),
      ("min_uncore_freq".toList, "max_uncore_freq".toList), ("max_uncore_freq".toList, "min_uncore_freq".toList)] ∧
    ∀ y ∈ [("min_freq".toList, "max_freq".toList), ("max_freq".toList, "min_freq".toList),
      ("min_uncore_freq".toList, "max_uncore_freq".toList), ("max_uncore_freq".toList, "min_uncore_freq".toList)],
      y.1 = x.1 → y.2 = x.2 := by decide +kernel

theorem paired_ne {p q : PyStr} (h : Paired p q) : p ≠ q := (pairs_ok (p, q) h).1

theorem paired_symm {p q : PyStr} (h : Paired p q) : Paired q p := (pairs_ok (p, q) h).2.1

theorem paired_unique {p q q' : PyStr} (h : Paired p q) (h' : Paired p q') : q' = q := (pairs_ok (p, q) h).2.2 (p, q') h' rfl

/-! ### Errors -/

theorem setLoop_order (I : σ → Prop) (f : Mech → σ → σ × Except Exn Unit)
    (hf : ∀ m s, I s → I (f m s).1 ∧ (f m s).2 ≠ .error .freqOrder) (ms : List Mech) (b : Bool) {s : σ} (hs : I s) :
    (setLoop f ms b s).2 ≠ .error .freqOrder := by
  induction ms generalizing b s with
  | nil => rw [setLoop]; cases b <;> nofun
  | cons m ms ih =>
    rw [setLoop]
    obtain ⟨h1, h2⟩ := hf m s hs
    cases hr : f m s with
    | mk s1 x =>
      rw [hr] at h1 h2
      cases x with
      | ok u => nofun
      | error e =>
        dsimp only at h1 h2 ⊢
        split
        · exact ih true h1
        · intro h
          cases h
          exact h2 rfl

theorem oneMech_order {set : List Nat → σ → σ × Except Exn Unit} {r : List Nat} {s : σ}
    (h : (set r s).2 ≠ .error .freqOrder) : (oneMech set r s).2 ≠ .error .freqOrder := by
  unfold oneMech
  cases hr : set r s with
  | mk s1 x =>
    rw [hr] at h
    cases x with
    | ok u => nofun
    | error e =>
      dsimp only
      split
      · split <;> nofun
      · exact h

theorem getPackages_err {i : Info} {e : Exn} (h : getPackages i = .error e) : e = .error := by
  unfold getPackages getLevelNums at h
  split at h
  · cases h; rfl
  · cases h

theorem normalizePackages_err {i : Info} {n : Nums} {e : Exn} (h : normalizePackages i n = .error e) : e = .error := by
  unfold normalizePackages at h
  split at h
  · rename_i he; cases h; exact getPackages_err he
  · cases n with
    | all => cases h
    | nums l =>
      dsimp only at h
      split at h
      · cases h
      · cases h; rfl

theorem normalizeDiesDict_err {i : Info} {d : List (Nat × List Nat)} {e : Exn} (h : PropsBase.normalizeDiesDict i d = .error e) :
    e = .error := by
  induction d generalizing e with
  | nil => cases h
  | cons x d ih =>
    rw [PropsBase.normalizeDiesDict] at h
    split at h
    · rename_i he
      cases h
      unfold PropsBase.normalizeDies at he
      split at he
      · rename_i he'
        cases he
        unfold packageToDies getLevelNums at he'
        split at he'
        · cases he'; rfl
        · dsimp only at he'
          split at he'
          · cases he'
          · cases he'; rfl
      · split at he
        · cases he
        · cases he; rfl
    · split at h
      · rename_i he; cases h; exact ih he
      · cases h

theorem setMech_order {i : Info} (wf : WF i) {K : Cls σ Q} {P : PropDesc} {p : PyStr}
    (hio : ∀ sn, P.sname = some sn → Within i P.iosname sn) {w : Where} (hw : Suits P w) (v : Option (Val Q))
    (hnorm : ∀ x, K.norm p x ≠ .error .freqOrder) (I : σ → Prop)
    (hI : ∀ x y m l s, v = some x → K.norm p x = .ok y → (∀ d ∈ l, OnCpu i d w ∧ d ∈ i.online) → I s →
      I (K.set p m y l s).1 ∧ (K.set p m y l s).2 ≠ .error .freqOrder) {s : σ} (hs : I s) :
    (setMech i K P p v w s).2 ≠ .error .freqOrder := by
  cases v with
  | none => cases w <;> (unfold setMech; dsimp only [setPropCpus, setPropDies, setPropPackages, normalizeMnames, normalizeInprop]; nofun)
  | some x =>
    by_cases hwr : P.writable = true
    · cases hn : K.norm p x with
      | error e =>
        have : e ≠ .freqOrder := fun h => hnorm x (h ▸ hn)
        cases w <;>
        · simp only [setMech, setPropCpus, setPropDies, setPropPackages, normalizeMnames, normalizeInprop, hwr, hn]
          intro h
          exact this (Except.error.inj h)
      | ok y =>
        cases w with
        | cpus l =>
          show (setPropCpus i P (K.norm p) (K.set p) (some x) (.nums l) none s).2 ≠ .error .freqOrder
          simp only [setPropCpus, normalizeMnames, normalizeInprop, hwr, hn, Bool.not_true, Bool.false_eq_true, if_false]
          cases hc : normalizeCpus i (.nums l) false with
          | error e =>
            have : e = .error := by
              unfold normalizeCpus at hc
              simp only [Bool.false_eq_true, if_false] at hc
              split at hc
              · cases hc
              · cases hc; rfl
            subst this
            nofun
          | ok l' =>
            dsimp only
            obtain ⟨-, h2, h3⟩ := normalizeCpus_ok hc
            have h2 : ∀ c, c ∈ l' ↔ c ∈ l := h2
            have h3 : ∀ c ∈ l', c ∈ i.online := fun c hc => by simpa using h3 c hc
            split
            · nofun
            · rename_i hne
              split
              · nofun
              · rename_i sn hsn
                split
                · rename_i e he
                  have : e = .error := by
                    by_cases hm : sn ≠ .lvl .module ∧ sn ≠ .lvl .node
                    · rcases PropsBase.validate_iff i wf sn l' (by simpa using hne) h3 hm with ⟨h, -⟩ | ⟨h, -⟩
                      · rw [h] at he; cases he
                      · rw [h] at he; cases he; rfl
                    · have hm : sn = .lvl .module ∨ sn = .lvl .node := by
                        by_cases h : sn = .lvl .module
                        · exact .inl h
                        · exact .inr (Classical.byContradiction fun h' => hm ⟨h, h'⟩)
                      rcases hm with rfl | rfl <;> (cases he; rfl)
                  subst this
                  nofun
                · exact setLoop_order I _ (fun m s hs => hI x y m l' s rfl hn (fun d hd => ⟨(h2 d).1 hd, h3 d hd⟩) hs) _ _ hs
        | packages l =>
          have hsn := hw.packages l rfl
          show (setPropPackages i P (K.norm p) (K.set p) (some x) l none s).2 ≠ .error .freqOrder
          by_cases hp : ∀ p ∈ l, PkgEx i p
          · by_cases hne : l = []
            · subst hne
              simp only [setPropPackages, normalizeMnames, normalizeInprop, hwr, hn, Bool.not_true, Bool.false_eq_true, if_false]
              cases hnp : normalizePackages i (.nums []) with
              | error e => cases normalizePackages_err hnp; nofun
              | ok r => nofun
            · obtain ⟨r, hr, he⟩ := PropsBase.C28_set_prop_packages_partial i wf P (K.norm p) (K.set p) x y l none s
                nofun hwr hn hp hne (.inl hsn) (hio _ hsn)
              rw [he]
              refine setLoop_order I _ (fun m s hs => ?_) _ _ hs
              have h := hI x y m r s rfl hn (fun d hd => ⟨hr.2.1 d hd, by
                obtain ⟨q, -, hq⟩ := hr.2.1 d hd
                simpa using cpuWith_avail (off := false) wf hq⟩) hs
              exact ⟨by rw [(PropsTarget.oneMech_fst _ _ _).1]; exact h.1, oneMech_order h.2⟩
          · simp only [setPropPackages, normalizeMnames, normalizeInprop, hwr, hn, Bool.not_true, Bool.false_eq_true, if_false]
            cases hnp : normalizePackages i (.nums l) with
            | error e => cases normalizePackages_err hnp; nofun
            | ok r => exact absurd (existing_packages hnp) hp
        | dies d =>
          obtain ⟨hk, hsn⟩ := hw.keys d rfl
          show (setPropDies i P (K.norm p) (K.set p) (some x) d none s).2 ≠ .error .freqOrder
          have hearly : (∃ pd ∈ d, pd.2 = []) ∨ d = [] ∨ ¬ (∀ pu ∈ d, ∀ u ∈ pu.2, UnitEx i .die pu.1 u) →
              (setPropDies i P (K.norm p) (K.set p) (some x) d none s).2 ≠ .error .freqOrder := by
            intro h
            simp only [setPropDies, normalizeMnames, normalizeInprop, hwr, hn, Bool.not_true, Bool.false_eq_true, if_false]
            cases hnp : normalizePackages i (.nums (d.map Prod.fst)) with
            | error e => cases normalizePackages_err hnp; nofun
            | ok r =>
              dsimp only
              cases hnd : PropsBase.normalizeDiesDict i d with
              | error e => cases normalizeDiesDict_err hnd; nofun
              | ok r =>
                dsimp only
                rw [if_pos]
                · nofun
                · rw [Bool.or_eq_true]
                  rcases h with ⟨pd, hpd, he⟩ | rfl | h
                  · exact .inl (List.any_eq_true.2 ⟨pd, hpd, by rw [he]; rfl⟩)
                  · exact .inr rfl
                  · exact absurd (existing_dies hnd) h
          by_cases h1 : ∃ pd ∈ d, pd.2 = []
          · exact hearly (.inl h1)
          by_cases h2 : d = []
          · exact hearly (.inr (.inl h2))
          by_cases h3 : ∀ pu ∈ d, ∀ u ∈ pu.2, UnitEx i .die pu.1 u
          · obtain ⟨r, hr, he⟩ := PropsBase.C28_set_prop_dies_partial i wf P (K.norm p) (K.set p) x y d none s
              nofun hwr hn hk (fun pd hpd => ⟨fun h => h1 ⟨pd, hpd, h⟩, fun u hu => by
                obtain ⟨a1, a2, a3⟩ := h3 pd hpd u hu; exact ⟨a1, a2, a3⟩⟩) h2 (.inl hsn) (hio _ hsn)
            rw [he]
            refine setLoop_order I _ (fun m s hs => ?_) _ _ hs
            have h := hI x y m r s rfl hn (fun d hd => ⟨hr.2.1 d hd, by
              obtain ⟨q, -, u, -, hq⟩ := hr.2.1 d hd
              simpa using cpuWith_avail (off := false) wf hq⟩) hs
            exact ⟨by rw [(PropsTarget.oneMech_fst _ _ _).1]; exact h.1, oneMech_order h.2⟩
          · exact hearly (.inr (.inr h3))
    · have hwr : P.writable = false := by simpa using hwr
      cases w <;>
      · simp only [setMech, setPropCpus, setPropDies, setPropPackages, normalizeMnames, normalizeInprop, hwr]
        nofun

theorem setWhere_order {i : Info} (wf : WF i) {K : Cls σ Q} {Inv : σ → Prop} {R : PyStr → Nat → Val Q → X → Prop}
    {held hw : PyStr → σ → Nat → X} {rd : PyStr → Mech → Nat → X → Except Exn (Option (Val Q))}
    (hK : Contract i K Inv R held hw rd) {Conflict : PyStr → Val Q → X → Prop} (ho : Ordered i K Inv held Conflict)
    {p q : PyStr} (hpq : Paired p q) {v : Option (Val Q)} {w : Where} (hsu : ∀ P, K.desc p = some P → Suits P w) {s : σ}
    (hs : Inv s) (hc : ∀ x y d, v = some x → K.norm p x = .ok y → OnCpu i d w → ¬ Conflict p y (held q s d)) :
    (setWhere i K p v w s).2 ≠ .error .freqOrder := by
  cases hP : K.desc p with
  | none =>
    have : setWhere i K p v w s = (s, .error .error) := by unfold setWhere; rw [hP]
    rw [this]
    nofun
  | some P =>
    rw [setWhere_eq hP]
    have hne : p ≠ q := paired_ne hpq
    have := setMech_order wf (K := K) (P := P) (p := p) (hK.scopes p P hP) (hsu P hP) v (ho.norm p)
      (fun s' => Inv s' ∧ held q s' = held q s) (fun x y m l s' e1 e2 hl h => by
        refine ⟨⟨(hK.inv s' h.1).2.2 p m y l fun d hd => (hl d hd).2, (hK.others p q m y l s' hne).1.trans h.2⟩, fun he => ?_⟩
        obtain ⟨d, hd, hcf⟩ := ho.set p q m y l s' hpq h.1 (fun d hd => (hl d hd).2) he
        rw [h.2] at hcf
        exact hc x y d e1 e2 (hl d hd).1 hcf) ⟨hs, rfl⟩
    dsimp only
    intro h
    cases hm : (setMech i K P p v w s).2 with
    | ok m => rw [hm] at h; cases h
    | error e =>
      rw [hm] at h this
      cases h
      exact this rfl

theorem restoreOne_plain {i : Info} {K : Cls σ Q} {p : PyStr} {v : Option (Val Q)} {w : Where} {s : σ}
    (h : (setWhere i K p v w s).2 ≠ .error .freqOrder) : restoreOne i K p v w s = setWhere i K p v w s := by
  unfold restoreOne
  cases hr : setWhere i K p v w s with
  | mk s1 x =>
    rw [hr] at h
    cases x with
    | ok u => rfl
    | error e =>
      have he : e ≠ .freqOrder := fun h' => h (by rw [h'])
      dsimp only
      rw [if_pos (by simp [he])]

/-! ### Entries -/

section

variable [DecidableEq Q] {H : Host Q} {S : Sys} {K : Cls σ Q} {Inv : σ → Prop}
  {R : PyStr → Nat → Val Q → X → Prop} {held hw : PyStr → σ → Nat → X}
  {rd : PyStr → Mech → Nat → X → Except Exn (Option (Val Q))} {Conflict : PyStr → Val Q → X → Prop}

theorem restoreEntries_append (l l' : List (PyStr × Entry (Val Q))) (s : σ) :
    restoreEntries H K (l ++ l') s = Step.andThen (restoreEntries H K l) (restoreEntries H K l') s := by
  induction l generalizing s with
  | nil =>
    show restoreEntries H K l' s = _
    unfold Step.andThen
    rw [restoreEntries]
    unfold CStatesCmd.Step.skip
    dsimp only
    rw [List.nil_append]
  | cons x l ih =>
    rw [List.cons_append, restoreEntries, restoreEntries]
    unfold Step.andThen
    cases hr : restoreEntry H K x s with
    | mk s1 y =>
      obtain ⟨ls, z⟩ := y
      cases z with
      | error e => rfl
      | ok u =>
        dsimp only
        rw [ih]
        unfold Step.andThen
        cases restoreEntries H K l s1 with
        | mk s2 y2 =>
          obtain ⟨ls2, z2⟩ := y2
          cases z2 with
          | error e => rfl
          | ok u => dsimp only; rw [List.append_assoc]

/-- Restoring the other frequency does not change the first one, if the values fit together. -/
theorem restoreEntry_other (wf : WF H.i) (hK : Contract H.i K Inv R held hw rd) (ho : Ordered H.i K Inv held Conflict)
    {p q : PyStr} (hpq : Paired q p) {x : PyStr × Entry (Val Q)} (hx : Fine K x) (hxq : x.1 = q) {s : σ} (hs : Inv s)
    (hc : ∀ v y d, x.2.value = some v → K.norm q v = .ok y → On H.i x d → ¬ Conflict q y (held p s d)) :
    held p (restoreEntry H K x s).1 = held p s := by
  obtain ⟨w, hd, hsu⟩ := hx
  obtain ⟨t, h1, h2⟩ := hd.call
  have hon' := on_iff hd H.i
  unfold restoreEntry
  rw [h1]
  dsimp only
  rw [h2]
  dsimp only
  have hsu' : ∀ P, K.desc x.1 = some P → Suits P w := fun P hP => hsu x.1 P (.inl rfl) hP
  have hone : held p (restoreOne H.i K x.1 x.2.value w s).1 = held p s := by
    subst hxq
    rw [restoreOne_plain (setWhere_order wf hK ho hpq hsu' hs fun v y d e1 e2 hd =>
      hc v y d e1 e2 (by rw [hon']; exact hd))]
    funext c
    exact ((setWhere_ok wf hK x.1 x.2.value hsu' hs).frame p c fun h => paired_ne hpq h.1).1
  refine CStatesCmd.andThen_inv (fun s' : σ => held p s' = held p s) hone ?_
  unfold printRestored
  cases init H.i (optarArgs w) <;> exact hone

theorem restoreEntries_other (hS : S.Of H.i) (hon : H.i.online ≠ []) (hF : ∀ p n, H.F.unitInt p n ≠ []) (hl : Later H)
    (hK : Contract H.i K Inv R held hw rd) (ho : Ordered H.i K Inv held Conflict)
    {p q : PyStr} (hpq : Paired q p) {l : List (PyStr × Entry (Val Q))} (hx : ∀ x ∈ l, Fine K x) (hp : ∀ x ∈ l, x.1 ≠ p) {s : σ}
    (hs : Inv s) (hc : ∀ x ∈ l, x.1 = q → ∀ v y d, x.2.value = some v → K.norm q v = .ok y → On H.i x d →
      ¬ Conflict q y (held p s d)) :
    held p (restoreEntries H K l s).1 = held p s := by
  induction l generalizing s with
  | nil => rfl
  | cons x l ih =>
    rw [restoreEntries]
    have h1 := restoreEntry_ok hS hon hF hl hK (hx x List.mem_cons_self) hs
    have h2 : held p (restoreEntry H K x s).1 = held p s := by
      by_cases hxq : x.1 = q
      · exact restoreEntry_other hS.wf hK ho hpq (hx x List.mem_cons_self) hxq hs (hc x List.mem_cons_self hxq)
      · funext c
        refine (h1.frame p c fun h => ?_).1
        rcases h.1 with h | ⟨-, h⟩
        · exact hp x List.mem_cons_self h
        · exact hxq (paired_unique (paired_symm hpq) (paired_symm h))
    refine CStatesCmd.andThen_inv (fun s' : σ => held p s' = held p s) h2 ?_
    refine (ih (fun y hy => hx y (List.mem_cons_of_mem _ hy)) (fun y hy => hp y (List.mem_cons_of_mem _ hy)) h1.inv ?_).trans h2
    rw [h2]
    exact fun y hy => hc y (List.mem_cons_of_mem _ hy)

theorem items_append {V : Type} (f g : File V) : items (f ++ g) = items f ++ items g := by
  unfold items
  rw [List.flatMap_append]

theorem items_name {V : Type} {f : File V} {x : PyStr × Entry V} (h : x ∈ items f) : x.1 ∈ f.map (·.1) := by
  obtain ⟨y, hy, hx⟩ := List.mem_flatMap.1 h
  obtain ⟨e, -, rfl⟩ := List.mem_map.1 hx
  exact List.mem_map_of_mem hy

/-- Restoring a saved file brings back the frequencies of a pair. -/
theorem saved_pair (hS : S.Of H.i) (hon : H.i.online ≠ []) (hF : ∀ p n, H.F.unitInt p n ≠ []) (hl : Later H)
    (hK : Contract H.i K Inv R held hw rd) (ho : Ordered H.i K Inv held Conflict) {val : PyStr → Nat → X} {T : Nat → Prop}
    {f : File (Val Q)} (hsf : SavedFile H K rd val T f) (hfine : ∀ x ∈ items f, Fine K x) {p q : PyStr} (hpq : Paired q p)
    {pi : HumanPrint.PropInfo} (hpi : K.props.get? p = some pi) (hpw : pi.writable = true)
    (hall : ∀ c, T c → ∃ v m, Reading K rd val none p c (some v) m)
    (hcon : ∀ c v m u m' y z x, T c → Reading K rd val none p c (some v) m → Reading K rd val none q c (some u) m' →
      K.norm p v = .ok y → K.norm q u = .ok z → R p c y x → ¬ Conflict q z x)
    {s : σ} (hs : Inv s) (hok : (restoreEntries H K (items f) s).2.2 = .ok ()) {c : Nat} (hc : T c) {v : Val Q} {m : PyStr}
    (hv : Reading K rd val none p c (some v) m) :
    ∃ y, K.norm p v = .ok y ∧ R p c y (held p (restoreEntries H K (items f) s).1 c) := by
  -- The last entry for the property and the CPU in a part of the file which has all the entries for the property.
  have key : ∀ pre l post s, items f = pre ++ l ++ post → (∀ x ∈ pre ++ post, x.1 ≠ p) → (∀ x ∈ l, x.1 ≠ q) → Inv s →
      (restoreEntries H K l s).2.2 = .ok () → ∀ c v m, T c → Reading K rd val none p c (some v) m →
      ∃ y, K.norm p v = .ok y ∧ R p c y (held p (restoreEntries H K l s).1 c) := by
    intro pre l post s e h1 h2 hs hok c v m hc hv
    obtain ⟨x0, k1, k2, k3⟩ := hsf.all p pi c v m hpi hpw hc hv
    have k1' : x0 ∈ l := by
      rw [e, List.mem_append, List.mem_append] at k1
      rcases k1 with (k1 | k1) | k1
      · exact absurd k2 (h1 x0 (List.mem_append_left _ k1))
      · exact k1
      · exact absurd k2 (h1 x0 (List.mem_append_right _ k1))
    obtain ⟨l1, x, l2, e', ⟨rfl, hx⟩, hpost⟩ := exists_last (fun x => x.1 = p ∧ On H.i x c) ⟨x0, k1', k2, k3⟩
    have hmem : ∀ y ∈ l, y ∈ items f := fun y hy => by rw [e]; simp [hy]
    have hr := restoreEntries_ok hS hon hF hl hK (fun y hy => hfine y (hmem y hy)) hs
    obtain ⟨v', y, d1, d2, d3⟩ := hr.done hok l1 x l2 e'
    obtain ⟨-, -, m', hm'⟩ := hsf.right x (hmem x (by rw [e']; simp)) c hx
    rw [reading_unique hm' hv] at d1
    cases d1
    refine ⟨y, d2, d3 c hx fun z hz ht hzc => ?_⟩
    rcases ht with ht | ⟨-, ht⟩
    · exact hpost z hz ⟨ht, hzc⟩
    · exact h2 z (by rw [e']; simp [hz]) (paired_unique (paired_symm hpq) (paired_symm ht))
  by_cases hq : q ∈ f.map (·.1)
  · obtain ⟨⟨q', es⟩, hmem, rfl⟩ := List.mem_map.1 hq
    obtain ⟨f1, f2, e⟩ := List.append_of_mem hmem
    have hk := hsf.keys
    rw [e, List.map_append, List.map_cons, List.nodup_append, List.nodup_cons] at hk
    obtain ⟨-, ⟨hk2, -⟩, hk3⟩ := hk
    have hk1 : q' ∉ f1.map (·.1) := fun h => hk3 q' h q' List.mem_cons_self rfl
    have hne := paired_ne hpq
    have hes : ∀ x ∈ items [((q', es) : PyStr × List (Entry (Val Q)))], x.1 = q' := fun x hx => by
      simpa using items_name hx
    have eit : items f = items f1 ++ (items [(q', es)] ++ items f2) := by
      rw [e, show (q', es) :: f2 = [(q', es)] ++ f2 from rfl, items_append, items_append]
    by_cases hp2 : p ∈ f2.map (·.1)
    · -- The other property comes first.
      have hp1 : p ∉ f1.map (·.1) := fun h => hk3 p h p (List.mem_cons_of_mem _ hp2) rfl
      have eit' : items f = (items f1 ++ items [(q', es)]) ++ items f2 := by rw [eit, List.append_assoc]
      have hpre := restoreEntries_ok hS hon hF hl hK (l := items f1 ++ items [(q', es)])
        (fun x hx => hfine x (by rw [eit']; exact List.mem_append_left _ hx)) hs
      rw [eit', restoreEntries_append] at hok ⊢
      unfold Step.andThen at hok ⊢
      cases hr : restoreEntries H K (items f1 ++ items [(q', es)]) s with
      | mk s1 y1 =>
        obtain ⟨ls, z1⟩ := y1
        rw [hr] at hok hpre
        cases z1 with
        | error e => cases hok
        | ok u =>
          dsimp only at hok ⊢
          refine key _ (items f2) [] s1 (by rw [List.append_nil]; exact eit') (fun x hx => ?_) (fun x hx h => ?_) hpre.inv hok
            c v m hc hv
          · rw [List.append_nil] at hx
            rcases List.mem_append.1 hx with hx | hx
            · exact fun h => hp1 (h ▸ items_name hx)
            · rw [hes x hx]; exact hne
          · exact hk2 (h ▸ items_name hx)
    · -- The other property comes last, or in between.
      have hpre := restoreEntries_ok hS hon hF hl hK (l := items f1)
        (fun x hx => hfine x (by rw [eit]; exact List.mem_append_left _ hx)) hs
      rw [eit, restoreEntries_append] at hok ⊢
      unfold Step.andThen at hok ⊢
      cases hr : restoreEntries H K (items f1) s with
      | mk s1 y1 =>
        obtain ⟨ls, z1⟩ := y1
        rw [hr] at hok hpre
        cases z1 with
        | error e => cases hok
        | ok u =>
          dsimp only at hok ⊢
          have hgood : ∀ c v m, T c → Reading K rd val none p c (some v) m → ∃ y, K.norm p v = .ok y ∧ R p c y (held p s1 c) := by
            have := key [] (items f1) (items [(q', es)] ++ items f2) s (by rw [List.nil_append]; exact eit) (fun x hx => ?_)
              (fun x hx h => hk1 (by have := items_name hx; rw [h] at this; exact this)) hs (by rw [hr])
            · rw [hr] at this; exact this
            · rw [List.nil_append] at hx
              rcases List.mem_append.1 hx with hx | hx
              · rw [hes x hx]; exact hne
              · exact fun h => hp2 (h ▸ items_name hx)
          have hkeep := restoreEntries_other hS hon hF hl hK ho hpq (l := items [(q', es)] ++ items f2)
            (fun x hx => hfine x (by rw [eit]; exact List.mem_append_right _ hx)) (fun x hx => by
              rcases List.mem_append.1 hx with hx | hx
              · rw [hes x hx]; exact hne
              · exact fun h => hp2 (h ▸ items_name hx)) hpre.inv (fun x hx hxq u z d e1 e2 hd => by
              obtain ⟨r1, -, m', r3⟩ := hsf.right x (by rw [eit]; exact List.mem_append_right _ hx) d hd
              obtain ⟨v', m'', hv'⟩ := hall d r1
              obtain ⟨y, g1, g2⟩ := hgood d v' m'' r1 hv'
              rw [e1, hxq] at r3
              exact hcon d v' m'' u m' y z _ r1 hv' r3 g1 e2 g2)
          rw [hkeep]
          exact hgood c v m hc hv
  · exact key [] (items f) [] s (by simp) (by simp) (fun x hx h => hq (h ▸ items_name hx)) hs hok c v m hc hv

end

end Verif.RestoreCmd
