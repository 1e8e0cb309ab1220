import Verif.Lemmas.RestoreCmd

/-!
Lemmas for C99: files written by the 'save' command.
-/

namespace Verif.RestoreCmd

open CPUInfo OpTarget
open PropsBase (Mech PropDesc toTry)
open PropsTarget (Where Plain Strict Right getPropSname snameAndNums scopeOf)
open PropsYaml (SName TNums Entry File Target SetCall entryCall PV Loc Cell Aggr PInfo Readings finalRead GoodW rangifyWhere
  rangifyN addVals addPinfos toYaml fileItems)
open HumanPrint (Val Sys)
open PropsCmd (TellsAbout Cls Host Reading Contract Ready Later Uniform PlainFor readProp About ReadOk toPV)

variable {σ Q V X : Type}

/-! ### What is loaded -/

theorem checkItem_iff {x : YItem V} {e : Entry V} : checkItem x = .ok e ↔ x.Is e := by
  cases x with
  | notDict => exact ⟨nofun, False.elim⟩
  | dict v sc =>
    obtain ⟨ev, es, en⟩ := e
    cases v with
    | none => exact ⟨nofun, fun h => nomatch h.1⟩
    | some v =>
      cases sc with
      | nil => exact ⟨nofun, fun h => nomatch h.2⟩
      | cons y sc =>
        cases sc with
        | nil =>
          obtain ⟨a, b⟩ := y
          constructor
          · intro h; cases h; exact ⟨rfl, rfl⟩
          · rintro ⟨h1, h2⟩; cases h1; cases h2; rfl
        | cons z sc => exact ⟨nofun, fun h => nomatch h.2⟩

theorem checkItems_iff {l : List (YItem V)} {es : List (Entry V)} : checkItems l = .ok es ↔ List.Forall₂ YItem.Is l es := by
  induction l generalizing es with
  | nil =>
    constructor
    · intro h; cases h; exact .nil
    · intro h; cases h; rfl
  | cons x l ih =>
    rw [checkItems]
    constructor
    · intro h
      split at h
      · cases h
      · rename_i y hy
        split at h
        · cases h
        · rename_i r hr
          cases h
          exact .cons (checkItem_iff.1 hy) (ih.1 hr)
    · intro h
      cases h with
      | cons h1 h2 => rw [checkItem_iff.2 h1, ih.2 h2]

theorem checkKeys_iff {known : List PyStr} {d : Dict PyStr (YVals V)} {f : File V} :
    checkKeys known d = .ok f ↔ (Loaded.dict d).Is f ∧ ∀ x ∈ f, x.1 ∈ known := by
  induction d generalizing f with
  | nil =>
    constructor
    · intro h; cases h; exact ⟨.nil, nofun⟩
    · rintro ⟨h, -⟩; cases h; rfl
  | cons x d ih =>
    obtain ⟨p, ys⟩ := x
    cases ys with
    | notList =>
      constructor
      · intro h; cases h
      · rintro ⟨h, -⟩
        cases h with
        | cons h _ => obtain ⟨-, l, h, -⟩ := h; cases h
    | list l =>
      rw [checkKeys]
      constructor
      · intro h
        split at h
        · cases h
        · rename_i hk
          split at h
          · cases h
          · rename_i es hes
            split at h
            · cases h
            · rename_i r hr
              cases h
              obtain ⟨i1, i2⟩ := ih.1 hr
              refine ⟨.cons ⟨rfl, l, rfl, checkItems_iff.1 hes⟩ i1, fun x hx => ?_⟩
              rcases List.mem_cons.1 hx with rfl | hx
              · simpa using hk
              · exact i2 x hx
      · rintro ⟨h, hk⟩
        cases h with
        | cons h1 h2 =>
          rename_i y f
          obtain ⟨q, es⟩ := y
          obtain ⟨e, l', e', h3⟩ := h1
          dsimp only at e
          subst e
          cases e'
          have : known.contains p = true := by simpa using hk _ List.mem_cons_self
          rw [this, checkItems_iff.2 h3, ih.2 ⟨h2, fun x hx => hk x (List.mem_cons_of_mem _ hx)⟩]
          rfl

theorem validate_iff {known : List PyStr} {l : Loaded V} {f : File V} :
    validate known l = .ok f ↔ l.Is f ∧ ∀ x ∈ f, x.1 ∈ known := by
  cases l with
  | notDict => exact ⟨nofun, fun h => h.1.elim⟩
  | dict d => exact checkKeys_iff

theorem dumped_is (f : File V) : (dumped f).Is f := by
  unfold dumped Loaded.Is
  induction f with
  | nil => exact .nil
  | cons x f ih =>
    refine .cons ⟨rfl, _, rfl, ?_⟩ ih
    obtain ⟨p, es⟩ := x
    dsimp only
    induction es with
    | nil => exact .nil
    | cons e es ih => exact .cons ⟨rfl, rfl⟩ ih

/-! ### Entries -/

/-- Entries are written for what was read. -/
def Made (e : Entry V) : Prop := ∃ w, (GoodW e.sname w ∧ PropsYaml.NW w) ∧ e.nums = rangifyWhere w

section

variable [DecidableEq V]

theorem addVals_made (p : PyStr) (s : SName) (vals : Dict (Option V) PropsYaml.Where) (hv : ∀ x ∈ vals, GoodW s x.2 ∧ PropsYaml.NW x.2) (f : File V)
    (hf : ∀ x ∈ f, ∀ e ∈ x.2, Made e) : ∀ x ∈ addVals p s vals f, ∀ e ∈ x.2, Made e := by
  induction vals generalizing f with
  | nil => exact hf
  | cons y vals ih =>
    obtain ⟨v, w⟩ := y
    rw [addVals]
    refine ih (fun x hx => hv x (List.mem_cons_of_mem _ hx)) _ fun x hx e he => ?_
    rcases PropsYaml.mem_set hx with rfl | hx
    · rcases List.mem_append.1 he with he | he
      · cases hg : f.get? p with
        | none => rw [hg] at he; cases he
        | some l =>
          rw [hg] at he
          exact hf _ (Dict.mem_of_get? hg) e he
      · rw [List.mem_singleton.1 he]
        exact ⟨w, hv _ List.mem_cons_self, rfl⟩
    · exact hf x hx e he

theorem addPinfos_made (ps : Dict PyStr (PInfo V)) (hv : ∀ y ∈ ps, ∀ x ∈ y.2.vals, GoodW y.2.sname x.2 ∧ PropsYaml.NW x.2) (f : File V)
    (hf : ∀ x ∈ f, ∀ e ∈ x.2, Made e) : ∀ x ∈ addPinfos ps f, ∀ e ∈ x.2, Made e := by
  induction ps generalizing f with
  | nil => exact hf
  | cons y ps ih =>
    obtain ⟨p, info⟩ := y
    rw [addPinfos]
    exact ih (fun x hx => hv x (List.mem_cons_of_mem _ hx)) _ (addVals_made p _ _ (hv (p, info) List.mem_cons_self) f hf)

theorem toYaml_made (aggr : Aggr V) (hv : ∀ x ∈ aggr, ∀ y ∈ x.2, ∀ z ∈ y.2.vals, GoodW y.2.sname z.2 ∧ PropsYaml.NW z.2) (f : File V)
    (hf : ∀ x ∈ f, ∀ e ∈ x.2, Made e) : ∀ x ∈ toYaml aggr f, ∀ e ∈ x.2, Made e := by
  induction aggr generalizing f with
  | nil => exact hf
  | cons y aggr ih =>
    obtain ⟨m, ps⟩ := y
    rw [toYaml]
    exact ih (fun x hx => hv x (List.mem_cons_of_mem _ hx)) _ (addPinfos_made ps (hv (m, ps) List.mem_cons_self) f hf)

theorem addVals_keys (p : PyStr) (s : SName) (vals : Dict (Option V) PropsYaml.Where) (f : File V) (hf : (Dict.keys f).Nodup) :
    (Dict.keys (addVals p s vals f)).Nodup := by
  induction vals generalizing f with
  | nil => exact hf
  | cons y vals ih =>
    obtain ⟨v, w⟩ := y
    rw [addVals]
    exact ih _ (Dict.nodup_keys_set hf _ _)

theorem addPinfos_keys (ps : Dict PyStr (PInfo V)) (f : File V) (hf : (Dict.keys f).Nodup) : (Dict.keys (addPinfos ps f)).Nodup := by
  induction ps generalizing f with
  | nil => exact hf
  | cons y ps ih =>
    obtain ⟨p, info⟩ := y
    rw [addPinfos]
    exact ih _ (addVals_keys _ _ _ _ hf)

theorem toYaml_keys (aggr : Aggr V) (f : File V) (hf : (Dict.keys f).Nodup) : (Dict.keys (toYaml aggr f)).Nodup := by
  induction aggr generalizing f with
  | nil => exact hf
  | cons y aggr ih =>
    obtain ⟨m, ps⟩ := y
    rw [toYaml]
    exact ih _ (addPinfos_keys _ _ hf)

end

theorem parseDies_keys {d : Dict Nat PyStr} {r : Dict Nat (List Int)} (h : PropsYaml.parseDies d = .ok r) : r.keys = d.keys := by
  induction d generalizing r with
  | nil => cases h; rfl
  | cons x d ih =>
    obtain ⟨p, t⟩ := x
    rw [PropsYaml.parseDies] at h
    split at h
    · cases h
    · split at h
      · cases h
      · rename_i r' hr
        cases h
        have := ih hr
        simp only [Dict.keys, List.map_cons] at this ⊢
        rw [this]

theorem natDies_keys {d : Dict Nat (List Int)} {r : Dict Nat (List Nat)} (h : natDies d = .ok r) : r.keys = d.keys := by
  induction d generalizing r with
  | nil => cases h; rfl
  | cons x d ih =>
    obtain ⟨p, t⟩ := x
    rw [natDies] at h
    split at h
    · cases h
    · split at h
      · cases h
      · rename_i r' hr
        cases h
        have := ih hr
        simp only [Dict.keys, List.map_cons] at this ⊢
        rw [this]

theorem natDies_ok {d : Dict Nat (List Int)} (h : ∀ x ∈ d, ∀ n ∈ x.2, 0 ≤ n) : ∃ r, natDies d = .ok r := by
  induction d with
  | nil => exact ⟨[], rfl⟩
  | cons x d ih =>
    obtain ⟨p, l⟩ := x
    obtain ⟨r, hr⟩ := ih fun x hx => h x (List.mem_cons_of_mem _ hx)
    exact ⟨_, by rw [natDies, natNums_ok (h (p, l) List.mem_cons_self), hr]⟩

/-- What a call is for, in terms of what it sets. -/
theorem where_about {t : Target} {w : Where} (h : toWhere t = .ok w) (i : Info) (c : Nat) :
    OnCpu i c w ↔ ∃ cell ∈ t.cells, About i c cell := by
  cases t with
  | cpus L =>
    unfold toWhere at h
    dsimp only at h
    cases hn : natNums L with
    | error e => rw [hn] at h; cases h
    | ok l =>
      rw [hn] at h
      cases h
      rw [natNums_mem hn]
      constructor
      · intro hc
        exact ⟨(.CPU, 0, (c : Int)), List.mem_map.2 ⟨_, List.mem_map_of_mem hc, rfl⟩, rfl⟩
      · rintro ⟨cell, hcell, hc⟩
        obtain ⟨n, hn, rfl⟩ := List.mem_map.1 hcell
        obtain ⟨k, hk, rfl⟩ := List.mem_map.1 hn
        have : (k : Int) = (c : Int) := hc
        have : k = c := by omega
        exact this ▸ hk
  | packages L =>
    unfold toWhere at h
    dsimp only at h
    cases hn : natNums L with
    | error e => rw [hn] at h; cases h
    | ok l =>
      rw [hn] at h
      cases h
      rw [natNums_mem hn]
      constructor
      · rintro ⟨p, hp, hc⟩
        exact ⟨(.package, 0, (p : Int)), List.mem_map.2 ⟨_, List.mem_map_of_mem hp, rfl⟩, p, rfl, hc⟩
      · rintro ⟨cell, hcell, hc⟩
        obtain ⟨n, hn, rfl⟩ := List.mem_map.1 hcell
        obtain ⟨k, hk, rfl⟩ := List.mem_map.1 hn
        obtain ⟨q, hq, hc⟩ := hc
        have : k = q := Int.ofNat.inj hq
        exact ⟨q, this ▸ hk, hc⟩
  | dies D =>
    unfold toWhere at h
    dsimp only at h
    cases hn : natDies D with
    | error e => rw [hn] at h; cases h
    | ok d =>
      rw [hn] at h
      cases h
      have key : ∀ {D : Dict Nat (List Int)} {d}, natDies D = .ok d → ∀ p (n : Int),
          (∃ x ∈ D, x.1 = p ∧ n ∈ x.2) ↔ ∃ x ∈ d, x.1 = p ∧ ∃ u ∈ x.2, n = ((u : Nat) : Int) := by
        intro D
        induction D with
        | nil =>
          intro d hd p n
          cases hd
          exact ⟨fun ⟨x, h, _⟩ => (nomatch h), fun ⟨x, h, _⟩ => (nomatch h)⟩
        | cons x D ih =>
          obtain ⟨q, L⟩ := x
          intro d hd p n
          rw [natDies] at hd
          split at hd
          · cases hd
          · rename_i l hl
            split at hd
            · cases hd
            · rename_i r hr
              cases hd
              simp only [List.mem_cons, exists_eq_or_imp]
              rw [ih hr, natNums_mem hl, List.mem_map]
              refine or_congr (and_congr Iff.rfl ⟨?_, ?_⟩) Iff.rfl
              · rintro ⟨u, hu, e⟩; exact ⟨u, hu, e.symm⟩
              · rintro ⟨u, hu, e⟩; exact ⟨u, hu, e.symm⟩
      constructor
      · rintro ⟨pd, h1, u, h2, hc⟩
        obtain ⟨x, k1, k2, k3⟩ := (key hn pd.1 (u : Int)).2 ⟨pd, h1, rfl, u, h2, rfl⟩
        refine ⟨(.die, (pd.1 : Int), (u : Int)), List.mem_flatMap.2 ⟨x, k1, List.mem_map.2 ⟨_, k3, by rw [k2]⟩⟩, pd.1, u, rfl, rfl, hc⟩
      · rintro ⟨cell, hcell, hc⟩
        obtain ⟨x, hx, hcell⟩ := List.mem_flatMap.1 hcell
        obtain ⟨n, hn', rfl⟩ := List.mem_map.1 hcell
        obtain ⟨q, u, e1, e2, hc⟩ := hc
        obtain ⟨y, k1, k2, u', k3, k4⟩ := (key hn x.1 n).1 ⟨x, hx, rfl, hn'⟩
        have : u = u' := by omega
        subst this
        have : x.1 = q := by omega
        exact ⟨y, k1, u, k3, by rw [k2, this]; exact hc⟩

theorem entryCall_form {p : PyStr} {e : Entry V} {c : SetCall V} (h : entryCall p e = .ok c) :
    c = ⟨p, e.value, c.target⟩ ∧ (∀ d, c.target = .dies d → e.sname = .die ∧ ∃ d', e.nums = .dies d' ∧ PropsYaml.parseDies d' = .ok d) ∧
      (∀ l, c.target = .packages l → e.sname = .package) ∧ ∀ l, c.target = .cpus l → e.sname = .CPU := by
  unfold entryCall at h
  split at h
  · split at h
    · cases h
    · split at h
      · cases h; exact ⟨rfl, nofun, nofun, fun _ _ => by assumption⟩
      · cases h; exact ⟨rfl, nofun, fun _ _ => by assumption, nofun⟩
      · cases h
  · rename_i d hd
    split at h
    · cases h
    · rename_i r hr
      split at h
      · cases h
        exact ⟨rfl, fun d' e => ⟨by assumption, d, hd, by cases e; exact hr⟩, nofun, nofun⟩
      · cases h

theorem toWhere_form {t : Target} {w : Where} (h : toWhere t = .ok w) :
    (∀ d, w = .dies d → ∃ D, t = .dies D ∧ natDies D = .ok d) ∧ ∀ l, w = .packages l → ∃ L, t = .packages L := by
  cases t with
  | cpus L =>
    unfold toWhere at h
    dsimp only at h
    cases hn : natNums L with
    | error e => rw [hn] at h; cases h
    | ok l => rw [hn] at h; cases h; exact ⟨nofun, nofun⟩
  | packages L =>
    unfold toWhere at h
    dsimp only at h
    cases hn : natNums L with
    | error e => rw [hn] at h; cases h
    | ok l => rw [hn] at h; cases h; exact ⟨nofun, fun _ _ => ⟨L, rfl⟩⟩
  | dies D =>
    unfold toWhere at h
    dsimp only at h
    cases hn : natDies D with
    | error e => rw [hn] at h; cases h
    | ok l => rw [hn] at h; cases h; exact ⟨fun d e => ⟨D, rfl, by cases e; exact hn⟩, nofun⟩

theorem toWhere_nonEmpty {t : Target} {w : Where} (h : toWhere t = .ok w) (hc : t.cells ≠ []) : NonEmpty w := by
  cases t with
  | cpus L =>
    unfold toWhere at h
    dsimp only at h
    cases hn : natNums L with
    | error e => rw [hn] at h; cases h
    | ok l =>
      rw [hn] at h
      cases h
      rintro rfl
      rw [natNums_mem hn] at hc
      exact hc rfl
  | packages L =>
    unfold toWhere at h
    dsimp only at h
    cases hn : natNums L with
    | error e => rw [hn] at h; cases h
    | ok l =>
      rw [hn] at h
      cases h
      rintro rfl
      rw [natNums_mem hn] at hc
      exact hc rfl
  | dies D =>
    unfold toWhere at h
    dsimp only at h
    cases hn : natDies D with
    | error e => rw [hn] at h; cases h
    | ok d =>
      rw [hn] at h
      cases h
      rintro rfl
      cases D with
      | nil => exact hc rfl
      | cons x D =>
        have := natDies_keys hn
        cases this

/-- What a saved file is like. -/
structure Saved (pnames : List PyStr) (R : PyStr → List (PV V)) (f : File V) : Prop where
  keys : (f.map (·.1)).Nodup
  names : ∀ x ∈ f, x.1 ∈ pnames
  does : ∀ x ∈ items f, ∃ w, Does x w ∧ NonEmpty w ∧ x.1 ∈ pnames ∧ ∀ i c, OnCpu i c w → ∃ pv ∈ R x.1, pv.val = x.2.value ∧ pv.val ≠ none ∧
    About i c pv.loc.cell
  scope : ∀ x ∈ items f, ∃ pv ∈ R x.1, pv.val = x.2.value ∧ pv.val ≠ none ∧ pv.loc.sname = x.2.sname
  has : ∀ p ∈ pnames, ∀ pv ∈ R p, pv.val ≠ none → ∃ x ∈ items f, x.1 = p ∧ x.2.value = pv.val ∧ x.2.sname = pv.loc.sname ∧
    ∀ i c, About i c pv.loc.cell → On i x c

theorem cell_sname (l : Loc) : l.cell.1 = l.sname := by cases l <;> rfl

theorem target_sname {p : PyStr} {e : Entry V} {c : SetCall V} (h : entryCall p e = .ok c) : ∀ cell ∈ c.target.cells, cell.1 = e.sname := by
  obtain ⟨-, h1, h2, h3⟩ := entryCall_form h
  intro cell hc
  cases ht : c.target with
  | cpus l =>
    rw [ht] at hc
    obtain ⟨n, -, rfl⟩ := List.mem_map.1 hc
    exact (h3 l ht).symm
  | packages l =>
    rw [ht] at hc
    obtain ⟨n, -, rfl⟩ := List.mem_map.1 hc
    exact (h2 l ht).symm
  | dies d =>
    rw [ht] at hc
    obtain ⟨x, -, hc⟩ := List.mem_flatMap.1 hc
    obtain ⟨n, -, rfl⟩ := List.mem_map.1 hc
    exact (h1 d ht).1.symm

theorem target_where {t : Target} (h : ∀ cell ∈ t.cells, 0 ≤ cell.2.2) : ∃ w, toWhere t = .ok w := by
  cases t with
  | cpus L =>
    refine ⟨.cpus (L.map Int.toNat), ?_⟩
    rw [toWhere, natNums_ok fun n hn => h (.CPU, 0, n) (List.mem_map_of_mem hn)]
    rfl
  | packages L =>
    refine ⟨.packages (L.map Int.toNat), ?_⟩
    rw [toWhere, natNums_ok fun n hn => h (.package, 0, n) (List.mem_map_of_mem hn)]
    rfl
  | dies D =>
    obtain ⟨r, hr⟩ := natDies_ok fun x hx n hn =>
      h (.die, (x.1 : Int), n) (List.mem_flatMap.2 ⟨x, hx, List.mem_map_of_mem hn⟩)
    exact ⟨.dies r, by rw [toWhere, hr]; rfl⟩

theorem cell_nonneg (l : Loc) : 0 ≤ l.cell.2.2 := by
  cases l <;> exact Int.natCast_nonneg _

theorem save_saved [DecidableEq V] {props : List PyStr} {wr : PyStr → Bool} {read : PyStr → Bool → Except Exn (List (PV V))}
    {R : PyStr → List (PV V)} (hn : props.Nodup) (hR : Readings (props.filter wr) read R) {f : File V}
    (hf : PropsYaml.save props wr read = .ok f) : Saved (props.filter wr) R f := by
  have hn' : (props.filter wr).Nodup := hn.filter _
  obtain ⟨aggr, a1, a2, a3⟩ := PropsYaml.buildAggr_spec read R (props.filter wr) hR.read hR.scope hn' [] []
    (fun x hx => by cases hx) (fun _ _ h => by cases h)
  obtain ⟨aggr', b1, b2, -⟩ := PropsYaml.buildAggr_spec4 true read R (props.filter wr) hR.read hR.scope hn' [] []
    (fun x hx => by cases hx) (fun _ _ h => by cases h)
  rw [a1] at b1
  cases b1
  have a3' : (PropsYaml.aggrItems aggr).Perm ((props.filter wr).flatMap fun p => (R p).filterMap (PV.item p)) := by
    simpa [PropsYaml.aggrItems] using a3
  have hnod := (a3'.map fun i => (i.1, i.2.1)).nodup_iff.2 (PropsYaml.nodup_readings hn' hR.once)
  obtain ⟨t1, t2⟩ := PropsYaml.toYaml_spec aggr _ a2 (PropsYaml.nw_of_nodup hnod) [] (fun x hx => by cases hx)
  have hmade := toYaml_made aggr (fun x hx y hy z hz => ⟨(b2 x hx y hy).2 z hz,
    PropsYaml.nw_of_nodup hnod x hx y hy z hz⟩) [] (fun x hx => by cases hx)
  have hff : f = toYaml aggr [] := by
    unfold PropsYaml.save at hf
    rw [a1] at hf
    cases hf
    rfl
  subst hff
  have t3 : (fileItems (toYaml aggr [])).Perm ((props.filter wr).flatMap fun p => (R p).filterMap (PV.item p)) :=
    t2.trans (by simpa [fileItems] using a3')
  have hnames : ∀ x ∈ toYaml aggr [], x.1 ∈ props.filter wr := fun x hx => by simpa using (t1 x hx).1
  -- What an entry has was read.
  have hback : ∀ x ∈ items (toYaml aggr []), ∃ cl, entryCall x.1 x.2 = .ok cl ∧ cl.target.cells ≠ [] ∧ x.1 ∈ props.filter wr ∧
      (∀ d', x.2.nums = .dies d' → d'.keys.Nodup) ∧
      ∀ cell ∈ cl.target.cells, ∃ pv ∈ R x.1, pv.val = x.2.value ∧ pv.val ≠ none ∧ pv.loc.cell = cell := by
    rintro ⟨p, e⟩ hx
    obtain ⟨y, hy, hx⟩ := List.mem_flatMap.1 hx
    obtain ⟨e', he, hx⟩ := List.mem_map.1 hx
    cases hx
    obtain ⟨cl, hcl⟩ := (t1 y hy).2 e he
    obtain ⟨hform, -⟩ := entryCall_form hcl
    obtain ⟨w, ⟨hw, hnw⟩, hnums⟩ := hmade y hy e he
    have hin : ∀ it ∈ Entry.items y.1 e, it ∈ fileItems (toYaml aggr []) := fun it hit =>
      List.mem_flatMap.2 ⟨y, hy, List.mem_flatMap.2 ⟨e, he, hit⟩⟩
    have hits : Entry.items y.1 e = cl.target.cells.map fun c => (y.1, c, e.value) := by
      unfold Entry.items
      rw [hcl]
      dsimp only
      unfold SetCall.items
      rw [hform]
    refine ⟨cl, hcl, ?_, hnames y hy, ?_, fun cell hcell => ?_⟩
    · -- There are numbers.
      intro hnil
      obtain ⟨ev, es, en⟩ := e
      dsimp only at hnums hw
      subst hnums
      obtain ⟨-, hp⟩ := PropsYaml.entry_spec y.1 ev es w hw.okw hnw
      rw [hits, hnil] at hp
      exact hw.cells_ne (List.map_eq_nil_iff.1 (List.nil_perm.1 hp))
    · intro d' hd'
      rw [hd'] at hnums
      cases w with
      | nums l => cases hnums
      | dies d =>
        cases hnums
        have : Dict.keys (d.map fun p => (p.1, rangifyN p.2)) = d.keys := by
          simp [Dict.keys, Function.comp_def]
        rw [this]
        exact hw.2.2.1
    · have : (y.1, cell, e.value) ∈ fileItems (toYaml aggr []) := hin _ (by rw [hits]; exact List.mem_map_of_mem hcell)
      obtain ⟨p, hp, hit⟩ := List.mem_flatMap.1 (t3.subset this)
      obtain ⟨pv, hpv, hit⟩ := List.mem_filterMap.1 hit
      unfold PV.item at hit
      cases hv : pv.val with
      | none => rw [hv] at hit; cases hit
      | some v =>
        rw [hv] at hit
        have := Option.some.inj hit
        simp only [Prod.mk.injEq] at this
        obtain ⟨rfl, h1, h2⟩ := this
        exact ⟨pv, hpv, hv.trans h2, by rw [hv]; nofun, h1⟩
  have hdoes : ∀ x ∈ items (toYaml aggr []), ∀ cl, entryCall x.1 x.2 = .ok cl → ∃ w, toWhere cl.target = .ok w ∧ Does x w := by
    intro x hx cl hcl
    obtain ⟨cl', e1, e2, e3, e4, e5⟩ := hback x hx
    rw [hcl] at e1
    cases e1
    obtain ⟨hform, f1, f2, -⟩ := entryCall_form hcl
    obtain ⟨w, hw⟩ := target_where (t := cl.target) fun cell hcell => by
      obtain ⟨pv, -, -, -, rfl⟩ := e5 cell hcell
      exact cell_nonneg _
    obtain ⟨g1, g2⟩ := toWhere_form hw
    refine ⟨w, hw, ⟨cl.target, by rw [hcl]; exact congrArg _ hform, hw⟩, fun d e => ?_, fun d e => ?_, fun l e => ?_⟩
    · obtain ⟨D, k1, k2⟩ := g1 d e
      obtain ⟨-, d', k3, k4⟩ := f1 D k1
      rw [natDies_keys k2, parseDies_keys k4]
      exact e4 d' k3
    · obtain ⟨D, k1, -⟩ := g1 d e
      exact (f1 D k1).1
    · obtain ⟨L, k1⟩ := g2 l e
      exact f2 L k1
  refine ⟨toYaml_keys aggr [] (by exact List.nodup_nil), hnames, fun x hx => ?_, fun x hx => ?_, fun p hp pv hpv hne => ?_⟩
  · obtain ⟨cl, e1, e2, e3, e4, e5⟩ := hback x hx
    obtain ⟨w, hw, hd⟩ := hdoes x hx cl e1
    refine ⟨w, hd, toWhere_nonEmpty hw e2, e3, fun i c hc => ?_⟩
    obtain ⟨cell, hcell, hc⟩ := (where_about hw i c).1 hc
    obtain ⟨pv, k1, k2, k3, rfl⟩ := e5 cell hcell
    exact ⟨pv, k1, k2, k3, hc⟩
  · obtain ⟨cl, e1, e2, e3, e4, e5⟩ := hback x hx
    obtain ⟨cell, hcell⟩ := List.exists_mem_of_ne_nil _ e2
    obtain ⟨pv, k1, k2, k3, rfl⟩ := e5 cell hcell
    exact ⟨pv, k1, k2, k3, by rw [← cell_sname]; exact target_sname e1 _ hcell⟩
  · cases hv : pv.val with
    | none => exact absurd hv hne
    | some v =>
      have hit : (p, pv.loc.cell, some v) ∈ fileItems (toYaml aggr []) :=
        t3.mem_iff.2 (List.mem_flatMap.2 ⟨p, hp, List.mem_filterMap.2 ⟨pv, hpv, by unfold PV.item; rw [hv]; rfl⟩⟩)
      obtain ⟨y, hy, hit⟩ := List.mem_flatMap.1 hit
      obtain ⟨e, he, hit⟩ := List.mem_flatMap.1 hit
      have hx : (y.1, e) ∈ items (toYaml aggr []) := List.mem_flatMap.2 ⟨y, hy, List.mem_map_of_mem he⟩
      obtain ⟨cl, e1, -⟩ := hback _ hx
      obtain ⟨w, hw, hd⟩ := hdoes _ hx cl e1
      obtain ⟨hform, -⟩ := entryCall_form e1
      unfold Entry.items at hit
      dsimp only at e1
      rw [e1] at hit
      obtain ⟨cell, hcell, hit⟩ := List.mem_map.1 hit
      rw [hform] at hit
      simp only [Prod.mk.injEq] at hit
      obtain ⟨h1, rfl, h3⟩ := hit
      refine ⟨_, hx, h1, h3, ?_, fun i c hc => ⟨w, hd, (where_about hw i c).2 ⟨_, hcell, hc⟩⟩⟩
      rw [← cell_sname]
      exact (target_sname e1 _ hcell).symm

/-! ### What is read -/

section

variable {K : Cls σ Q} {rd : PyStr → Mech → Nat → X → Except Exn (Option (Val Q))} {val : PyStr → Nat → X}

theorem shows_unique {read : Mech → Nat → Except Exn (Option V)} {ms : List Mech} {c : Nat} {v v' : Option V} {m m' : Mech}
    (h : PropsTarget.Shows read ms c v m) (h' : PropsTarget.Shows read ms c v' m') : v = v' := by
  rcases h with ⟨pre, post, rfl, h2, h3⟩ | ⟨h1, h2, h3⟩ <;> rcases h' with ⟨pre', post', e, h2', h3'⟩ | ⟨h1', h2', h3'⟩
  · rcases List.append_eq_append_iff.1 e with ⟨l, rfl, e'⟩ | ⟨l, rfl, e'⟩
    · cases l with
      | nil =>
        cases e'
        rw [h3] at h3'
        cases h3'; rfl
      | cons y l =>
        cases e'
        rw [h2' m (by simp)] at h3
        cases h3
    · cases l with
      | nil =>
        cases e'
        rw [h3] at h3'
        cases h3'; rfl
      | cons y l =>
        cases e'
        rw [h2 m' (by simp)] at h3'
        cases h3'
  · rw [h1' m (by simp)] at h3
    cases h3
  · rw [h1 m' (by rw [e]; simp)] at h3'
    cases h3'
  · rw [h2, h2']

theorem reading_unique {ml : Option (List Mech)} {p : PyStr} {c : Nat} {v v' : Option (Val Q)} {m m' : PyStr}
    (h : Reading K rd val ml p c v m) (h' : Reading K rd val ml p c v' m') : v = v' := by
  obtain ⟨P, h1, h2, h3⟩ := h
  obtain ⟨P', h1', h2', h3'⟩ := h'
  rw [h1] at h1'
  cases h1'
  by_cases hn : P.sname = none
  · rw [h2 hn, h2' hn]
  · obtain ⟨x, -, k⟩ := h3 hn
    obtain ⟨x', -, k'⟩ := h3' hn
    exact shows_unique k k'

end

theorem exists_last {α : Type} (P : α → Prop) {l : List α} (h : ∃ x ∈ l, P x) :
    ∃ pre x post, l = pre ++ x :: post ∧ P x ∧ ∀ y ∈ post, ¬ P y := by
  induction l with
  | nil => obtain ⟨x, h, -⟩ := h; cases h
  | cons a l ih =>
    by_cases hl : ∃ x ∈ l, P x
    · obtain ⟨pre, x, post, rfl, h1, h2⟩ := ih hl
      exact ⟨a :: pre, x, post, rfl, h1, h2⟩
    · obtain ⟨x, hx, hp⟩ := h
      rcases List.mem_cons.1 hx with rfl | hx
      · exact ⟨[], x, l, rfl, hp, fun y hy hpy => hl ⟨y, hy, hpy⟩⟩
      · exact absurd ⟨x, hx, hp⟩ hl

section

variable [DecidableEq Q] {H : Host Q} {S : Sys} {a : OpTarget.Args} {t : Tgt} {ca : Cache} {K : Cls σ Q} {Inv : σ → Prop}
  {R : PyStr → Nat → Val Q → X → Prop} {held hw : PyStr → σ → Nat → X}
  {rd : PyStr → Mech → Nat → X → Except Exn (Option (Val Q))}

/-- Values for dies or packages are read only if that is the scope of the property. -/
theorem readProp_sname (r : Ready H S a t ca) {s : σ} {p : PyStr} {P : PropDesc} (hP : K.desc p = some P)
    (hp : Plain H.i a (scopeOf P.sname none)) {perCpu : Bool} {pvs : List (PV (Val Q))}
    (h : readProp (H.env (t, ca)) K none s p perCpu = .ok pvs) :
    ∀ pv ∈ pvs, (pv.loc.sname = .die → P.sname = some (.lvl .die)) ∧ (pv.loc.sname = .package → P.sname = some (.lvl .package)) := by
  unfold readProp at h
  rw [hP] at h
  dsimp only [Host.env] at h
  obtain ⟨hist, hh, hl⟩ := r.later t ca (.get p perCpu)
  rw [hl] at h
  have hov : (if perCpu then some (Scope.lvl .CPU) else none) = none ∨
      (if perCpu then some (Scope.lvl .CPU) else none) = some (Scope.lvl .CPU) := by
    cases perCpu
    · exact .inl rfl
    · exact .inr rfl
  generalize (if perCpu then some (Scope.lvl .CPU) else none) = ov at h hov
  have hp' : Plain H.i a (scopeOf P.sname ov) := by
    rcases hov with rfl | rfl
    · exact hp
    · exact ⟨hp.modules, nofun, nofun⟩
  have hsc : ∀ lv, lv ≠ Level.CPU → scopeOf P.sname ov = .lvl lv → P.sname = some (.lvl lv) := by
    intro lv hlv e
    rcases hov with rfl | rfl
    · cases hs : P.sname with
      | none => rw [hs] at e; cases e; exact absurd rfl hlv
      | some sn => rw [hs] at e; cases e; rfl
    · cases e; exact absurd rfl hlv
  unfold PropsCmd.results at h
  split at h
  · cases h
  · cases h
    have hR := fun w => PropsTarget.right (w := w) r.sys.wf r.on hp' r.init hist hh
    intro pv hpv
    obtain ⟨it, hit, rfl⟩ := List.mem_map.1 hpv
    unfold getPropSname at hit
    cases hg : snameAndNums H.i t P.sname ov (calls H.i t ca hist) with
    | mk x ca' =>
      rw [hg] at hit
      cases x with
      | error e => cases hit
      | ok w =>
        have hw := hR w (by rw [hg])
        cases w with
        | cpus l =>
          obtain ⟨pv, -, rfl⟩ := List.mem_map.1 hit
          exact ⟨nofun, nofun⟩
        | packages l =>
          obtain ⟨pv, -, rfl⟩ := List.mem_map.1 hit
          exact ⟨nofun, fun _ => hsc _ nofun hw.1⟩
        | dies d =>
          obtain ⟨pv, -, rfl⟩ := List.mem_map.1 hit
          exact ⟨fun _ => hsc _ nofun hw.1, nofun⟩

/-- What is known about a file saved by the command. -/
structure SavedFile (H : Host Q) (K : Cls σ Q) (rd : PyStr → Mech → Nat → X → Except Exn (Option (Val Q)))
    (val : PyStr → Nat → X) (T : Nat → Prop) (f : File (Val Q)) : Prop where
  keys : (f.map (·.1)).Nodup
  names : ∀ x ∈ f, x.1 ∈ K.props.keys
  writable : ∀ x ∈ items f, ∃ pi, K.props.get? x.1 = some pi ∧ pi.writable = true
  does : ∀ x ∈ items f, ∃ w, Does x w ∧ NonEmpty w ∧ ∀ P, K.desc x.1 = some P → Suits P w
  right : ∀ x ∈ items f, ∀ c, On H.i x c → T c ∧ x.2.value ≠ none ∧ ∃ m, Reading K rd val none x.1 c x.2.value m
  all : ∀ p pi c v m, K.props.get? p = some pi → pi.writable = true → T c → Reading K rd val none p c (some v) m →
    ∃ x ∈ items f, x.1 = p ∧ On H.i x c

theorem saveCmd_file (hS : S.Of H.i) (hon : H.i.online ≠ []) (hF : ∀ p n, H.F.unitInt p n ≠ []) (hl : Later H)
    (hK : Contract H.i K Inv R held hw rd) {o : HotplugCmd.Opts} {a : OpTarget.Args} (hw' : HotplugCmd.Written o a)
    (hp : PlainFor H.i a K K.props.keys) (hn : K.props.keys.Nodup) {s : σ}
    (hu : Uniform (Selected H.i a) rd fun p c => held p s c) (hs : Inv s) {f : File (Val Q)} (h : saveCmd H K o s = .ok f) :
    SavedFile H K rd (fun p c => held p s c) (Selected H.i a) f := by
  obtain ⟨t1, t2⟩ := PropsCmd.target_same hS.wf hw'
  unfold saveCmd at h
  by_cases hV : Valid H.i a
  · obtain ⟨a', t, ca, e1, e2, hsame⟩ := t2 hV
    rw [e1] at h
    dsimp only at h
    have hsel : Selected H.i a' = Selected H.i a := funext fun c => propext (hsame.selected H.i c)
    have r : Ready H S a' t ca := ⟨hS, hon, hl, e2, hF⟩
    rw [← hsel] at hu ⊢
    have hp : PlainFor H.i a' K K.props.keys := fun q hq P hP => PropsCmd.same_plain hsame (hp q hq P hP)
    -- Everything can be read.
    have hall : ∀ p ∈ K.props.keys.filter (writable K), ∃ pvs, finalRead (readProp (H.env (t, ca)) K none s) p = .ok pvs := by
      intro p hpm
      cases hr : finalRead (readProp (H.env (t, ca)) K none s) p with
      | ok pvs => exact ⟨pvs, rfl⟩
      | error e =>
        obtain ⟨e', he⟩ := PropsYaml.C76_failure K.props.keys (writable K) (readProp (H.env (t, ca)) K none s) p
          (List.mem_filter.1 hpm).1 (List.mem_filter.1 hpm).2 e hr
        rw [he] at h
        cases h
    obtain ⟨RR, hRR⟩ : ∃ RR : PyStr → List (PV (Val Q)), ∀ p ∈ K.props.keys.filter (writable K),
        finalRead (readProp (H.env (t, ca)) K none s) p = .ok (RR p) := by
      refine ⟨fun p => match finalRead (readProp (H.env (t, ca)) K none s) p with
        | .ok pvs => pvs
        | .error _ => [], fun p hpm => ?_⟩
      obtain ⟨pvs, hpvs⟩ := hall p hpm
      dsimp only
      rw [hpvs]
    have hdesc : ∀ p ∈ K.props.keys.filter (writable K), ∃ P pi, K.desc p = some P ∧ K.props.get? p = some pi ∧ pi.writable = true := by
      intro p hpm
      obtain ⟨hm, hwr⟩ := List.mem_filter.1 hpm
      unfold writable at hwr
      cases hg : K.props.get? p with
      | none => rw [hg] at hwr; cases hwr
      | some pi =>
        rw [hg] at hwr
        have := hK.table p
        rw [hg] at this
        cases hd : K.desc p with
        | none => rw [hd] at this; cases this
        | some P => exact ⟨P, pi, rfl, rfl, hwr⟩
    have hread : ∀ p ∈ K.props.keys.filter (writable K), ∃ perCpu, readProp (H.env (t, ca)) K none s p perCpu = .ok (RR p) := by
      intro p hpm
      have := hRR p hpm
      unfold finalRead at this
      split at this
      · exact ⟨true, this⟩
      · exact ⟨false, this⟩
    have hok : ∀ p ∈ K.props.keys.filter (writable K), ∃ ty, ReadOk H.i S (Selected H.i a') ty
        (Reading K rd (fun p c => held p s c) none p) (RR p) := by
      intro p hpm
      obtain ⟨P, pi, hP, hpi, -⟩ := hdesc p hpm
      obtain ⟨b, hb⟩ := hread p hpm
      exact ⟨_, PropsCmd.readProp_ok r hK hu hs hP (hp p (List.mem_filter.1 hpm).1 P hP) hpi none b hb⟩
    have hsn : ∀ p ∈ K.props.keys.filter (writable K), ∀ P, K.desc p = some P → ∀ pv ∈ RR p,
        (pv.loc.sname = .die → P.sname = some (.lvl .die)) ∧ (pv.loc.sname = .package → P.sname = some (.lvl .package)) := by
      intro p hpm P hP
      obtain ⟨b, hb⟩ := hread p hpm
      exact readProp_sname r hP (hp p (List.mem_filter.1 hpm).1 P hP) hb
    have hsv := save_saved hn (⟨hRR, fun p hpm => (hok p hpm).choose_spec.nodup, fun p hpm => (hok p hpm).choose_spec.scope⟩ :
      Readings (K.props.keys.filter (writable K)) _ RR) h
    have hnm : ∀ x ∈ items f, x.1 ∈ K.props.keys.filter (writable K) := fun x hx => by
      obtain ⟨w, -, -, h, -⟩ := hsv.does x hx
      exact h
    refine ⟨hsv.keys, fun x hx => (List.mem_filter.1 (hsv.names x hx)).1, fun x hx => ?_, fun x hx => ?_, fun x hx c hc => ?_, ?_⟩
    · obtain ⟨-, pi, -, h1, h2⟩ := hdesc x.1 (hnm x hx)
      exact ⟨pi, h1, h2⟩
    · obtain ⟨w, h1, h0, h2, -⟩ := hsv.does x hx
      obtain ⟨pv, k1, -, -, k4⟩ := hsv.scope x hx
      refine ⟨w, h1, h0, fun P hP => ⟨fun d e => ⟨h1.keys d e, ?_⟩, fun l e => ?_⟩⟩
      · exact (hsn x.1 (hnm x hx) P hP pv k1).1 (k4.trans (h1.sname.1 d e))
      · exact (hsn x.1 (hnm x hx) P hP pv k1).2 (k4.trans (h1.sname.2 l e))
    · obtain ⟨w, h1, -, h2, h3⟩ := hsv.does x hx
      rw [on_iff h1] at hc
      obtain ⟨pv, k1, k2, k3, k4⟩ := h3 H.i c hc
      obtain ⟨ty, hr⟩ := hok x.1 (hnm x hx)
      obtain ⟨q1, q2⟩ := hr.right pv k1 c k4
      exact ⟨q1, by rw [← k2]; exact k3, pv.mname, by rw [← k2]; exact q2⟩
    · intro p pi c v m hpi hpw hc hrd
      have hpm : p ∈ K.props.keys.filter (writable K) :=
        List.mem_filter.2 ⟨Decidable.byContradiction fun hx => (nomatch ((Dict.get?_eq_none_iff _ _).2 hx).symm.trans hpi), by unfold writable; rw [hpi]; exact hpw⟩
      obtain ⟨ty, hr⟩ := hok p hpm
      obtain ⟨pv, k1, k2⟩ := hr.all c hc
      have hv : pv.val = some v := reading_unique (hr.right pv k1 c k2).2 hrd
      obtain ⟨x, x1, x2, -, -, x5⟩ := hsv.has p hpm pv k1 (by rw [hv]; nofun)
      exact ⟨x, x1, x2, x5 H.i c k2⟩
  · obtain ⟨e, he⟩ := t1 hV
    rw [he] at h
    cases h

theorem items_entries {V : Type} (f : File V) : items f = entries f := by
  unfold items entries
  rw [List.flatMap_def]

theorem is_unique {V : Type} {l : Loaded V} {f f' : File V} (h : l.Is f) (h' : l.Is f') : f = f' := by
  have h1 := (validate_iff (known := f.map (·.1) ++ f'.map (·.1))).2
    ⟨h, fun x hx => List.mem_append_left _ (List.mem_map_of_mem hx)⟩
  have h2 := (validate_iff (known := f.map (·.1) ++ f'.map (·.1))).2
    ⟨h', fun x hx => List.mem_append_right _ (List.mem_map_of_mem hx)⟩
  exact Except.ok.inj (h1.symm.trans h2)

theorem forall₂_imp_mem {α β : Type} {r r' : α → β → Prop} {l : List α} {l' : List β} (h : ∀ x y, x ∈ l → r x y → r' x y)
    (hr : List.Forall₂ r l l') : List.Forall₂ r' l l' := by
  induction hr with
  | nil => exact .nil
  | cons h1 _ ih => exact .cons (h _ _ List.mem_cons_self h1) (ih fun x y hx => h x y (List.mem_cons_of_mem _ hx))

theorem restore_saved {val : PyStr → Nat → X} {T : Nat → Prop} {f : File (Val Q)} (h : SavedFile H K rd val T f) :
    restoreCmd H K (some (.ok (dumped f))) = restoreProps H K f := by
  unfold restoreCmd
  dsimp only
  rw [(validate_iff).2 ⟨dumped_is f, h.names⟩]

theorem saved_fine (hK : Contract H.i K Inv R held hw rd)
    (hpair : ∀ p q P P', K.freqs = true → Paired p q → K.desc p = some P → K.desc q = some P' → P'.sname = P.sname)
    {val : PyStr → Nat → X} {T : Nat → Prop} {f : File (Val Q)} (h : SavedFile H K rd val T f) : ∀ x ∈ items f, Fine K x := by
  intro x hx
  obtain ⟨w, h1, -, h2⟩ := h.does x hx
  obtain ⟨pi, h3, -⟩ := h.writable x hx
  obtain ⟨P, hP⟩ : ∃ P, K.desc x.1 = some P := by
    have := hK.table x.1
    rw [h3] at this
    cases hd : K.desc x.1 with
    | none => rw [hd] at this; cases this
    | some P => exact ⟨P, rfl⟩
  refine ⟨w, h1, fun q P' ht hq => ?_⟩
  rcases ht with rfl | ⟨hf, hpq⟩
  · exact h2 P' hq
  · have e := hpair x.1 q P P' hf hpq hP hq
    have := h2 P hP
    exact ⟨fun d hd => ⟨(this.keys d hd).1, e.trans (this.keys d hd).2⟩, fun l hl => e.trans (this.packages l hl)⟩

/-! ### The entire transaction -/

/-- The entries took effect, each for the CPUs no later entry is about. -/
def Effect (H : Host Q) (K : Cls σ Q) (R : PyStr → Nat → Val Q → X → Prop) (val : PyStr → Nat → X)
    (l : List (PyStr × Entry (Val Q))) : Prop :=
  ∀ pre x post, l = pre ++ x :: post → ∃ v y, x.2.value = some v ∧ K.norm x.1 v = .ok y ∧
    ∀ c, On H.i x c → (∀ z ∈ post, Touches K z.1 x.1 → ¬ On H.i z c) → R x.1 c y (val x.1 c)

/-- What restoring a file does. -/
structure RestoreOk (S : Sys) (H : Host Q) (K : Cls σ Q) (Inv : σ → Prop) (R : PyStr → Nat → Val Q → X → Prop)
    (held hw : PyStr → σ → Nat → X) (rd : PyStr → Mech → Nat → X → Except Exn (Option (Val Q)))
    (l : List (PyStr × Entry (Val Q))) (s : σ) (r : σ × (List PyStr × Except Exn Unit)) : Prop where
  frame : ∀ q c, (∀ x ∈ l, Touches K x.1 q → ¬ On H.i x c) → hw q r.1 c = hw q s c
  done : r.2.2 = .ok () → Effect H K R (fun p c => hw p r.1 c) l
  told : r.2.2 = .ok () → (∀ x ∈ l, ∀ s, Inv s → Uniform (On H.i x) rd fun p c => held p s c) →
    l.Pairwise (fun x y => Touches K y.1 x.1 → ∀ c, On H.i x c → ¬ On H.i y c) →
    ∃ parts : List (List PyStr), r.2.1 = parts.flatten ∧ List.Forall₂ (fun x p => ∃ told,
      TellsAbout S H K false (some "restored to".toList) (On H.i x) [x.1] false
        (Reading K rd (fun p c => hw p r.1 c) none) p told) l parts
  once : (∀ p m v l s q, hw q (K.set p m v l s).1 = hw q s) → (∀ p, hw p r.1 = hw p s) ∨
    Effect H K R (fun p c => hw p r.1 c) l ∨
    ((∃ s1 e, K.commit s1 = (r.1, .error e)) ∧ ∀ x ∈ l, ∃ v y, x.2.value = some v ∧ K.norm x.1 v = .ok y)

theorem restoreProps_ok (hS : S.Of H.i) (hon : H.i.online ≠ []) (hF : ∀ p n, H.F.unitInt p n ≠ []) (hl : Later H)
    (hK : Contract H.i K Inv R held hw rd) {f : File (Val Q)} (hx : ∀ x ∈ items f, Fine K x) {s : σ} (hs : Inv s)
    (hc : ∀ p, held p s = hw p s) : RestoreOk S H K Inv R held hw rd (items f) s (restoreProps H K f s) := by
  generalize hitems : items f = l at hx
  unfold restoreProps CStatesCmd.Step.andThen
  rw [hitems]
  dsimp only
  cases h0 : K.start s with
  | mk s0 y0 =>
    have e0 : ∀ p, held p s0 = held p s ∧ hw p s0 = hw p s := fun p => by
      have := hK.start s p
      rwa [h0] at this
    have i0 : Inv s0 := by
      have := (hK.inv s hs).1
      rwa [h0] at this
    cases y0 with
    | error e => exact ⟨fun q c _ => by rw [(e0 q).2], nofun, nofun, fun _ => .inl fun p => (e0 p).2⟩
    | ok u0 =>
      dsimp only
      have h1 := restoreEntries_ok hS hon hF hl hK hx i0
      have hkeep : (∀ p m v l s q, hw q (K.set p m v l s).1 = hw q s) → ∀ q, hw q (restoreEntries H K l s0).1 = hw q s := by
        intro hb q
        exact restoreEntries_keeps hS.wf hK hx (fun s' => hw q s' = hw q s)
          (fun _ _ q' v y m cs s' _ _ _ _ h => (hb q' m y cs s' q).trans h) (e0 q).2
      cases hr : restoreEntries H K l s0 with
      | mk s1 y1 =>
        obtain ⟨ls, z1⟩ := y1
        rw [hr] at h1 hkeep
        cases z1 with
        | error e =>
          exact ⟨fun q c hq => ((h1.frame q c hq).2).trans (by rw [(e0 q).2]), nofun, nofun, fun hb => .inl (hkeep hb)⟩
        | ok u1 =>
          dsimp only at h1 hkeep ⊢
          have hfr : ∀ q c, (∀ x ∈ l, Touches K x.1 q → ¬ On H.i x c) → hw q (K.commit s1).1 c = hw q s c := by
            intro q c hq
            obtain ⟨a1, a2⟩ := h1.frame q c hq
            have hh : held q s1 c = hw q s1 c := by rw [a1, a2, (e0 q).1, (e0 q).2, hc]
            rw [(hK.keeps s1 h1.inv q c hh).2, a2, (e0 q).2]
          have hdone : (K.commit s1).2 = .ok () → Effect H K R (fun p c => hw p (K.commit s1).1 c) l := by
            intro hok pre x post e
            obtain ⟨v, y, d1, d2, d3⟩ := h1.done rfl pre x post e
            refine ⟨v, y, d1, d2, fun c k1 k2 => ?_⟩
            dsimp only
            rw [(hK.commit s1 h1.inv hok x.1).2]
            exact d3 c k1 k2
          refine ⟨hfr, hdone, fun hok hu hp => ?_, fun hb => ?_⟩
          · have heq : (fun p c => hw p (K.commit s1).1 c) = fun p c => held p s1 c := by
              funext p c
              rw [(hK.commit s1 h1.inv hok p).2]
            dsimp only at hok ⊢
            rw [heq]
            obtain ⟨parts, k1, k2⟩ := h1.told rfl hu hp
            exact ⟨parts, by rw [List.append_nil]; exact k1, k2⟩
          · cases hcm : K.commit s1 with
            | mk s2 y2 =>
              cases y2 with
              | ok u =>
                refine .inr (.inl ?_)
                have := hdone (by rw [hcm])
                rwa [hcm] at this
              | error e =>
                refine .inr (.inr ⟨⟨s1, e, hcm⟩, fun x hxm => ?_⟩)
                obtain ⟨pre, post, e⟩ := List.append_of_mem hxm
                obtain ⟨v, y, d1, d2, -⟩ := h1.done rfl pre x post e
                exact ⟨v, y, d1, d2⟩

theorem restoreProps_keeps (wf : WF H.i) (hK : Contract H.i K Inv R held hw rd) {f : File (Val Q)}
    (hx : ∀ x ∈ items f, Fine K x) (I : σ → Prop)
    (hI : ∀ x ∈ items f, ∀ q v y m cs s, Touches K x.1 q → (q = x.1 → x.2.value = some v) → K.norm q v = .ok y →
      (∀ d ∈ cs, On H.i x d ∧ d ∈ H.i.online) → I s → I (K.set q m y cs s).1)
    (hst : ∀ s, I s → I (K.start s).1) (hcm : ∀ s, I s → I (K.commit s).1) {s : σ} (hs : I s) : I (restoreProps H K f s).1 := by
  unfold restoreProps
  refine CStatesCmd.andThen_inv I (hst s hs) ?_
  have h1 := restoreEntries_keeps wf hK hx I hI (hst s hs)
  exact CStatesCmd.andThen_inv I h1 (hcm _ h1)

end

end Verif.RestoreCmd
