import Verif.Lemmas.HumanCStates
import Verif.Props.CPUIdle
import Verif.Props.HumanPrint

/-!
C94: the lines about requestable C-states tell exactly what the kernel says about them.
-/

namespace Verif.HumanCStates

open CPUInfo (Info)
open CPUIdle (Value CState CsInfo Names St Env getInfo File Has NameOf NameAt Good Uniform Shows Reads fnames)
open CStatesYaml (dictKey truthy)
open HumanPrint (Sys)

theorem exact_build (skipRo : Bool) (keys : List PyStr)
    (hkeys : keys = if skipRo then ["disable".toList] else "disable".toList :: noteKeys) (l : List (Nat × CsInfo))
    (hn : ∀ x ∈ l, x.2.keys.Nodup ∧ ∀ y ∈ x.2, y.2.attrs.keys.Nodup) : Exact l skipRo (blocksOf (build keys l [])) := by
  obtain ⟨g1, g2, g3⟩ := build_spec keys l hn [] (goodAggr_nil keys)
  have hcell : ∀ n k v c, c ∈ cell (build keys l []) n k v ↔ k ∈ keys ∧ ∃ w, Read l c n k w ∧ dictKey w = v := by
    intro n k v c
    have e : cell [] n k v = [] := rfl
    rw [g3, e, List.nil_append, mem_cells]
  have hinfo : ∀ n info, (n, info) ∈ build keys l [] → ∀ k v, kcell info k v = cell (build keys l []) n k v := by
    intro n info h k v
    unfold cell
    rw [Dict.get?_of_mem g1.nodup h]
    rfl
  have hdis : "disable".toList ∈ keys := by
    rw [hkeys]
    split <;> exact List.mem_cons_self
  have hkn : ∀ k ∈ noteKeys, (k ∈ keys ↔ skipRo = false) := by
    intro k hk
    rw [hkeys]
    cases skipRo with
    | false => simp [hk]
    | true =>
      have : k ≠ "disable".toList := by
        intro e
        rw [e] at hk
        revert hk
        decide +kernel
      rw [if_pos rfl, List.mem_singleton]
      exact ⟨fun h => absurd h this, fun h => nomatch h⟩
  have hb : ∀ b ∈ blocksOf (build keys l []), ∃ info d, (b.name, info) ∈ build keys l [] ∧
      ("disable".toList, d) ∈ info ∧ GoodInfo keys info ∧ b.status = d.map (fun y => (!truthy y.1, y.2)) ∧
      b.notes = notesOf info := by
    intro b hb
    obtain ⟨info, d, h1, h2, h3, h4⟩ := mem_blocksOf.1 hb
    exact ⟨info, d, h1, Dict.mem_of_get? h2, g1.info _ h1, h3, h4⟩
  refine ⟨(blocksOf_names _).nodup g1.nodup, ?_, ?_, ?_, ?_, ?_⟩
  · intro n
    constructor
    · intro h
      obtain ⟨b, hbm, rfl⟩ := List.mem_map.1 h
      obtain ⟨info, d, h1, h2, h3, _⟩ := hb b hbm
      obtain ⟨k1, _, k3⟩ := h3.kinfo _ h2
      obtain ⟨y, hy⟩ := List.exists_mem_of_ne_nil _ k1
      obtain ⟨c, hc⟩ := List.exists_mem_of_ne_nil _ (k3 y hy)
      obtain ⟨_, m2⟩ := h3.mem.1 ⟨d, h2, hy⟩
      rw [← m2, hinfo _ _ h1, hcell] at hc
      obtain ⟨_, w, hw, _⟩ := hc
      exact ⟨c, w, hw⟩
    · rintro ⟨c, v, h⟩
      have hc := (hcell n "disable".toList (dictKey v) c).2 ⟨hdis, v, h, rfl⟩
      obtain ⟨cs, st, r1, r2, r3⟩ := h
      have hn' : n ∈ (build keys l []).keys := (g2 n).2 (Or.inr ⟨_, r1, by
        by_contra hcon
        rw [(Dict.get?_eq_none_iff _ _).2 hcon] at r2
        cases r2⟩)
      obtain ⟨⟨_, info⟩, hm, rfl⟩ := List.mem_map.1 hn'
      dsimp only at hc
      rw [← hinfo _ _ hm] at hc
      obtain ⟨ki, m1, m2⟩ := (g1.info _ hm).mem.2 ⟨List.ne_nil_of_mem hc, rfl⟩
      exact List.mem_map.2 ⟨⟨_, ki.map (fun y => (!truthy y.1, y.2)), notesOf info⟩,
        mem_blocksOf.2 ⟨info, ki, hm, Dict.get?_of_mem (g1.info _ hm).nodup m1, rfl, rfl⟩, rfl⟩
  · intro b h on c
    obtain ⟨info, d, h1, h2, h3, h4, _⟩ := hb b h
    unfold Block.Says
    rw [h4]
    constructor
    · rintro ⟨x, hx, rfl, hc⟩
      obtain ⟨y, hy, rfl⟩ := List.mem_map.1 hx
      obtain ⟨_, m2⟩ := h3.mem.1 ⟨d, h2, hy⟩
      dsimp only at hc ⊢
      rw [← m2, hinfo _ _ h1, hcell] at hc
      obtain ⟨_, w, hw, e⟩ := hc
      refine ⟨w, hw, ?_⟩
      rw [← e, truthy_dictKey, Bool.not_not]
    · rintro ⟨v, hr, rfl⟩
      have hc := (hcell b.name "disable".toList (dictKey v) c).2 ⟨hdis, v, hr, rfl⟩
      rw [← hinfo _ _ h1] at hc
      obtain ⟨ki, m1, m2⟩ := h3.mem.2 ⟨List.ne_nil_of_mem hc, rfl⟩
      have e : ki = d := by
        have e1 := Dict.get?_of_mem h3.nodup m1
        rw [Dict.get?_of_mem h3.nodup h2] at e1
        exact (Option.some.inj e1).symm
      subst e
      refine ⟨_, List.mem_map.2 ⟨_, m2, rfl⟩, ?_, hc⟩
      dsimp only
      rw [truthy_dictKey, Bool.not_not]
  · intro hl b h
    obtain ⟨info, d, h1, h2, h3, h4, _⟩ := hb b h
    obtain ⟨_, k2, _⟩ := h3.kinfo _ h2
    rw [h4, List.flatMap_map]
    refine nodup_flatMap (nodup_of_keys k2) ?_ ?_
    · intro y hy
      obtain ⟨_, m2⟩ := h3.mem.1 ⟨d, h2, hy⟩
      have e : cell [] b.name "disable".toList y.1 = [] := rfl
      dsimp only
      rw [← m2, hinfo _ _ h1, g3, e, List.nil_append]
      refine List.Sublist.nodup ?_ hl
      clear h1 h2 h3 hl g1 g2 g3 hn hcell hinfo m2 hb h
      induction l with
      | nil => exact List.Sublist.refl _
      | cons x l ih =>
        rw [List.flatMap_cons, List.map_cons]
        split
        · exact List.Sublist.cons_cons _ ih
        · exact List.Sublist.cons _ ih
    · intro y hy z hz c hc hc'
      obtain ⟨_, m2⟩ := h3.mem.1 ⟨d, h2, hy⟩
      obtain ⟨_, m3⟩ := h3.mem.1 ⟨d, h2, hz⟩
      dsimp only at hc hc'
      rw [← m2, hinfo _ _ h1, hcell] at hc
      rw [← m3, hinfo _ _ h1, hcell] at hc'
      obtain ⟨_, v, v1, v2⟩ := hc
      obtain ⟨_, w, w1, w2⟩ := hc'
      have := read_unique hl v1 w1
      subst this
      have e : y.1 = z.1 := v2.symm.trans w2
      refine Prod.ext e ?_
      rw [← m2, ← m3, e]
  · intro b h k t
    obtain ⟨info, d, h1, h2, h3, _, h5⟩ := hb b h
    rw [h5, mem_notesOf h3]
    constructor
    · rintro ⟨hk, v, hv, rfl⟩
      obtain ⟨c, hc⟩ := List.exists_mem_of_ne_nil _ hv
      rw [hinfo _ _ h1, hcell] at hc
      obtain ⟨hk', w, hw, rfl⟩ := hc
      exact ⟨(hkn k hk).1 hk', hk, c, w, hw, (valText_dictKey w).symm⟩
    · rintro ⟨hs, hk, c, v, hr, rfl⟩
      refine ⟨hk, dictKey v, ?_, valText_dictKey v⟩
      have := (hcell b.name k (dictKey v) c).2 ⟨(hkn k hk).2 hs, v, hr, rfl⟩
      rw [← hinfo _ _ h1] at this
      exact List.ne_nil_of_mem this
  · intro hinj b h
    obtain ⟨info, d, h1, h2, h3, _, h5⟩ := hb b h
    rw [h5]
    refine nodup_notesOf h3 ?_
    intro k v w hv hw e
    obtain ⟨c, hc⟩ := List.exists_mem_of_ne_nil _ hv
    obtain ⟨c', hc'⟩ := List.exists_mem_of_ne_nil _ hw
    rw [hinfo _ _ h1, hcell] at hc hc'
    obtain ⟨_, v', r1, rfl⟩ := hc
    obtain ⟨_, w', r2, rfl⟩ := hc'
    rw [valText_dictKey, valText_dictKey] at e
    exact hinj _ _ _ _ _ _ r1 r2 e

/-- C94 (what was read): the lines come in blocks, one for every C-state with a known status, and the blocks tell exactly
what was read. The number of C-states is returned. If no CPU has C-states, a message is printed instead. -/
theorem C94_told {i : Info} {S : Sys} (hS : S.Of i) (descr : PyStr) {E : Env} {names : Names} {cpus : List Nat}
    (skipRo group : Bool) (action : Option PyStr) {s s' : St} {l : List (Nat × CsInfo)}
    (hget : getInfo E names cpus s = (s', .ok l)) (hon : ∀ x ∈ l, x.1 ∈ S.online)
    (hattrs : ∀ x ∈ l, ∀ y ∈ x.2, y.2.attrs.keys.Nodup) :
    ∃ blocks lines, Exact l skipRo blocks ∧
      printCStates i descr E names cpus skipRo group action s = (s', lines, .ok blocks.length) ∧
      ((∀ x ∈ l, x.2 = []) → blocks = [] ∧ lines = ["This system does not support C-states".toList]) ∧
      ((∃ x ∈ l, x.2 ≠ []) → TellsAll S descr group action blocks lines) := by
  have hnd : ∀ x ∈ l, x.2.keys.Nodup ∧ ∀ y ∈ x.2, y.2.attrs.keys.Nodup := fun x hx =>
    ⟨CStatesYaml.nodup_getInfo (by rw [hget]) x hx, hattrs x hx⟩
  have hkeys : (if skipRo then ["disable".toList]
      else ["disable".toList, "latency".toList, "residency".toList, "desc".toList]) =
      if skipRo then ["disable".toList] else "disable".toList :: noteKeys := rfl
  have hex := exact_build skipRo _ hkeys l hnd
  obtain ⟨g1, g2, g3⟩ := build_spec (if skipRo then ["disable".toList]
    else ["disable".toList, "latency".toList, "residency".toList, "desc".toList]) l hnd [] (goodAggr_nil _)
  unfold printCStates
  rw [hget]
  dsimp only
  generalize (if skipRo then ["disable".toList]
    else ["disable".toList, "latency".toList, "residency".toList, "desc".toList]) = keys at hex g1 g2 g3 ⊢
  by_cases hall : ∀ x ∈ l, x.2 = []
  · have hnil : build keys l [] = [] := by
      cases h : build keys l [] with
      | nil => rfl
      | cons x r =>
        have hm : x.1 ∈ (build keys l []).keys := by
          rw [h]
          exact List.mem_cons_self
        rcases (g2 _).1 hm with h' | ⟨y, hy, h'⟩
        · cases h'
        · rw [hall y hy] at h'
          cases h'
    rw [hnil] at hex ⊢
    refine ⟨[], _, hex, rfl, fun _ => ⟨rfl, rfl⟩, ?_⟩
    rintro ⟨x, hx, hne⟩
    exact absurd (hall x hx) hne
  · obtain ⟨x, hx⟩ := Classical.not_forall.1 hall
    obtain ⟨hx, hne⟩ := Classical.not_imp.1 hx
    have hne' : (build keys l []).isEmpty = false := by
      cases h : build keys l [] with
      | cons _ _ => rfl
      | nil =>
        obtain ⟨y, hy⟩ := List.exists_mem_of_ne_nil _ hne
        have := (g2 y.1).2 (Or.inr ⟨x, hx, List.mem_map.2 ⟨y, hy, rfl⟩⟩)
        rw [h] at this
        cases this
    obtain ⟨ls, e1, e2⟩ := printStates_spec hS group action (build keys l []) (by
      intro x hx d hd y hy
      have hgi := g1.info x hx
      have hm := Dict.mem_of_get? hd
      obtain ⟨_, _, k3⟩ := hgi.kinfo _ hm
      refine ⟨k3 y hy, ?_⟩
      intro c hc
      obtain ⟨_, m2⟩ := hgi.mem.1 ⟨d, hm, hy⟩
      have e : cell [] x.1 "disable".toList y.1 = [] := rfl
      have e' : kcell x.2 "disable".toList y.1 = cell (build keys l []) x.1 "disable".toList y.1 := by
        unfold cell
        rw [Dict.get?_of_mem g1.nodup (k := x.1) (v := x.2) hx]
        rfl
      rw [← m2, e', g3, e, List.nil_append, mem_cells] at hc
      obtain ⟨_, w, ⟨cs, st, r1, _⟩, _⟩ := hc
      rw [← hS.online]
      exact hon _ r1)
    refine ⟨_, _, hex, ?_, fun h => absurd h hall, fun _ => ⟨ls, e2, rfl⟩⟩
    unfold printAggr
    rw [hne', e1]
    rfl

/-- C94 (failures): if C-states are not supported, then this is told and it is not an error. If the information cannot be
read for any other reason, nothing is printed. -/
theorem C94_failure (i : Info) (descr : PyStr) {E : Env} {names : Names} {cpus : List Nat} (skipRo group : Bool)
    (action : Option PyStr) {s s' : St} {e : Exn} (hget : getInfo E names cpus s = (s', .error e)) :
    printCStates i descr E names cpus skipRo group action s =
      (s', if e = .notSupported then (["C-states are not supported".toList], .ok 0) else ([], .error e)) := by
  unfold printCStates
  rw [hget]
  cases e <;> rfl

/-! ### From the files -/

theorem isOn_shows {t : PyStr} {v : Value} (h : Shows t v) : IsOn v = (t == "0".toList || t == []) := by
  have e0 : "0".toList = PyStr.ofNat 0 := by decide +kernel
  rcases h with (⟨n, rfl, rfl⟩ | ⟨h, rfl⟩) | ⟨b, rfl, rfl⟩
  · show ((n : Int) == 0) = _
    rw [e0]
    cases n with
    | zero => decide +kernel
    | succ n =>
      have h1 : PyStr.ofNat (n + 1) ≠ PyStr.ofNat 0 := by
        intro h
        have h2 := EP.parse10_ofNat (n + 1)
        rw [h, EP.parse10_ofNat 0] at h2
        injection h2 with h2
        omega
      have h3 : PyStr.ofNat (n + 1) ≠ [] := by
        intro h
        have h2 := EP.parse10_ofNat (n + 1)
        rw [h] at h2
        exact absurd h2 (fun h => nomatch h)
      have h4 : (((n + 1 : Nat) : Int) == 0) = false := by
        rw [beq_eq_false_iff_ne]
        omega
      rw [h4, beq_eq_false_iff_ne.2 h1, beq_eq_false_iff_ne.2 h3]
      rfl
  · show (t == []) = _
    have : t ≠ "0".toList := by
      intro e
      rw [e] at h
      revert h
      decide +kernel
    rw [beq_eq_false_iff_ne.2 this, Bool.false_or]
  · cases b <;> decide +kernel

theorem textOf_shows {t : PyStr} {v : Value} (h : Shows t v) : TextOf v = t := by
  rcases h with (⟨n, rfl, rfl⟩ | ⟨h, rfl⟩) | ⟨b, rfl, rfl⟩
  · rfl
  · rfl
  · cases b <;> rfl

theorem dictKey_shows {t : PyStr} {v w : Value} (h : Shows t v) (h' : Shows t w) : dictKey v = dictKey w := by
  have e0 : (['0'] : PyStr) = PyStr.ofNat 0 := by decide +kernel
  have e1 : (['1'] : PyStr) = PyStr.ofNat 1 := by decide +kernel
  have key : ∀ (t : PyStr) (b : Bool) (v : Value), t = (if b then ['1'] else ['0']) → Reads t v →
      dictKey v = dictKey (.bool b) := by
    intro t b v ht hr
    cases b with
    | true =>
      have : Reads t (.num ((1 : Nat) : Int)) := Or.inl ⟨1, by rw [ht, ← e1]; rfl, rfl⟩
      rw [CPUIdle.reads_unique hr this]
      rfl
    | false =>
      have : Reads t (.num ((0 : Nat) : Int)) := Or.inl ⟨0, by rw [ht, ← e0]; rfl, rfl⟩
      rw [CPUIdle.reads_unique hr this]
      rfl
  rcases h with h | ⟨b, rfl, hb⟩
  · rcases h' with h' | ⟨b, rfl, hb⟩
    · rw [CPUIdle.reads_unique h h']
    · exact key t b v hb h
  · rcases h' with h' | ⟨b', rfl, hb'⟩
    · exact (key t b w hb h').symm
    · rw [hb] at hb'
      cases b <;> cases b' <;> first | rfl | (exact absurd hb' (by decide))

/-- What is read, when every CPU has the C-states asked for. -/
theorem getInfo_asked {E : Env} (hd : E.driver = true) (hE : E.cacheOn = true) {s : St} (G : Good s) {cpus : List Nat}
    (hU : Uniform s.files cpus) (names : Names)
    (hall : ∀ c ∈ cpus, ∀ n, Asked s.files cpus names n → NameOf s.files c n) :
    ∃ s' l, getInfo E names cpus s = (s', .ok l) ∧ s'.files = s.files ∧ Good s' ∧ l.map Prod.fst = cpus ∧
      ∀ x ∈ l, CPUIdle.Selected s.files x.1 (Asked s.files cpus names) x.2 := by
  cases names with
  | list ns =>
    have h := CPUIdle.C43_get_names_partial (E := E) hd hE G hU ns
    cases hg : getInfo E (.list ns) cpus s with
    | mk s' r =>
    rw [hg] at h
    dsimp only at h
    obtain ⟨h1, h2, h3, h4⟩ := h
    obtain ⟨l, rfl⟩ := h3.2 (fun c hc n hn => hall c hc _ ⟨n, hn, rfl⟩)
    obtain ⟨h5, h6⟩ := h4 l rfl
    exact ⟨s', l, rfl, h1, h2, h5, h6⟩
  | all =>
    have h := CPUIdle.C43_get_all_partial (E := E) hd hE G hU (fun c hc c' hc' n hn => hall c' hc' n ⟨c, hc, hn⟩)
    cases hg : getInfo E .all cpus s with
    | mk s' r =>
    rw [hg] at h
    dsimp only at h
    obtain ⟨h1, h2, l, rfl, h3, h4⟩ := h
    refine ⟨s', l, rfl, h1, h2, h3, fun x hx => ?_⟩
    have hc : x.1 ∈ cpus := by
      rw [← h3]
      exact List.mem_map.2 ⟨x, hx, rfl⟩
    refine ⟨fun n st hst => ?_, fun n hn => ((h4 x hx).isSome n).2 (hall _ hc n hn)⟩
    obtain ⟨j, nm, _, a1, a2, a3⟩ := (h4 x hx).1 n st hst
    exact ⟨⟨x.1, hc, j, nm, a1, a2⟩, j, nm, a1, a2, a3⟩

/-- C94 (from the files to the lines): when every CPU has the C-states asked for, there is a block for every one of them.
It tells "on" for exactly the CPUs with "0" in the "disable" file of the C-state (or nothing in it), "off" for exactly the
other CPUs, no CPU twice, and the contents of the "latency", "residency" and "desc" files of all the CPUs, every one once.
The files do not change. Missing: CPUs with different C-states, or only one C-state, see C43; and which CPUs the notes are
for, see `C94_notes_counterexample`. -/
theorem C94_exact_partial {i : Info} {S : Sys} (hS : S.Of i) (descr : PyStr) {E : Env} (hd : E.driver = true)
    (hE : E.cacheOn = true) {s : St} (G : Good s) {cpus : List Nat} (hn : cpus.Nodup) (hon : ∀ c ∈ cpus, c ∈ S.online)
    (hU : Uniform s.files cpus) (names : Names)
    (hall : ∀ c ∈ cpus, ∀ n, Asked s.files cpus names n → NameOf s.files c n) (skipRo group : Bool)
    (action : Option PyStr) :
    ∃ s' blocks lines, printCStates i descr E names cpus skipRo group action s = (s', lines, .ok blocks.length) ∧
      s'.files = s.files ∧ Good s' ∧
      (blocks = [] → lines = ["This system does not support C-states".toList]) ∧
      (blocks ≠ [] → TellsAll S descr group action blocks lines) ∧
      (blocks.map (·.name)).Nodup ∧ (∀ n, n ∈ blocks.map (·.name) ↔ cpus ≠ [] ∧ Asked s.files cpus names n) ∧
      ∀ b ∈ blocks,
        (∀ on c, b.Says on c ↔ c ∈ cpus ∧ ∃ j t, NameAt s.files c j b.name ∧ Has s.files c j "disable".toList t ∧
          on = (t == "0".toList || t == [])) ∧
        (b.status.flatMap (·.2)).Nodup ∧ b.notes.Nodup ∧
        ∀ k t, (k, t) ∈ b.notes ↔ skipRo = false ∧ k ∈ ["latency".toList, "residency".toList, "desc".toList] ∧
          ∃ c ∈ cpus, ∃ j, NameAt s.files c j b.name ∧ Has s.files c j k t := by
  obtain ⟨s', l, h1, h2, h3, h4, h5⟩ := getInfo_asked hd hE G hU names hall
  have hcpu : ∀ x ∈ l, x.1 ∈ cpus := fun x hx => by
    rw [← h4]
    exact List.mem_map.2 ⟨x, hx, rfl⟩
  have hnk : ∀ x ∈ l, x.2.keys.Nodup := CStatesYaml.nodup_getInfo (by rw [h1])
  have hdesc : ∀ x ∈ l, ∀ y ∈ x.2, ∃ j nm, Has s.files x.1 j "name".toList nm ∧ y.1 = CPUIdle.upper nm ∧
      CPUIdle.Describes s.files x.1 j y.2 := by
    intro x hx y hy
    obtain ⟨_, j, nm, a1, a2, a3⟩ := (h5 x hx).1 y.1 y.2 (Dict.get?_of_mem (hnk x hx) hy)
    exact ⟨j, nm, a1, a2, a3⟩
  have hfn : fnames.Nodup := by decide +kernel
  have hread : ∀ c n k v, k ∈ fnames → Read l c n k v →
      c ∈ cpus ∧ Asked s.files cpus names n ∧ ∃ j t, NameAt s.files c j n ∧ Has s.files c j k t ∧ Shows t v := by
    rintro c n k v hk ⟨cs, st, r1, r2, r3⟩
    obtain ⟨ha, j, nm, a1, a2, _, a4, a5⟩ := (h5 _ r1).1 n st r2
    obtain ⟨t, w, b1, b2, b3⟩ := a5 k hk
    rw [r3] at b3
    cases b3
    exact ⟨hcpu _ r1, ha, j, t, ⟨nm, a1, a2⟩, b1, b2⟩
  have hread' : ∀ c n j k t, k ∈ fnames → c ∈ cpus → Asked s.files cpus names n → NameAt s.files c j n →
      Has s.files c j k t → ∃ v, Read l c n k v ∧ Shows t v := by
    intro c n j k t hk hc ha hna hh
    have hc' : c ∈ l.map Prod.fst := by rw [h4]; exact hc
    obtain ⟨⟨_, cs⟩, hx, rfl⟩ := List.mem_map.1 hc'
    obtain ⟨st, hst⟩ := Option.isSome_iff_exists.1 ((h5 _ hx).2 n ha)
    obtain ⟨_, j', nm, a1, a2, _, a4, a5⟩ := (h5 _ hx).1 n st hst
    obtain ⟨nm', b1, b2⟩ := hna
    have e : j = j' := G.wf.distinct _ _ _ _ _ b1 a1 (b2.symm.trans a2)
    subst e
    obtain ⟨t', v, d1, d2, d3⟩ := a5 k hk
    cases G.wf.uniq _ _ _ _ _ hh d1
    exact ⟨v, ⟨cs, st, hx, hst, d3⟩, d2⟩
  have hkd : "disable".toList ∈ fnames := by decide +kernel
  have hkn : ∀ k ∈ noteKeys, k ∈ fnames := by decide +kernel
  obtain ⟨blocks, lines, hex, e1, e2, e3⟩ := C94_told hS descr skipRo group action h1 (fun x hx => hon _ (hcpu x hx))
    (fun x hx y hy => by
      obtain ⟨j, nm, _, _, _, h, _⟩ := hdesc x hx y hy
      rw [h]
      exact hfn)
  have hnames : ∀ n, n ∈ blocks.map (·.name) ↔ cpus ≠ [] ∧ Asked s.files cpus names n := by
    intro n
    rw [hex.names]
    constructor
    · rintro ⟨c, v, hr⟩
      obtain ⟨hc, ha, _⟩ := hread c n _ v hkd hr
      exact ⟨List.ne_nil_of_mem hc, ha⟩
    · rintro ⟨hne, ha⟩
      obtain ⟨c, hc⟩ := List.exists_mem_of_ne_nil _ hne
      obtain ⟨j, nm, hnm, hn⟩ := hall c hc n ha
      obtain ⟨t, ht⟩ := G.wf.complete _ hnm _ hkd
      obtain ⟨v, hr, _⟩ := hread' c n j _ t hkd hc ha ⟨nm, hnm, hn⟩ ht
      exact ⟨c, v, hr⟩
  refine ⟨s', blocks, lines, e1, h2, h3, ?_, ?_, hex.nodup, hnames, ?_⟩
  · intro hb
    refine (e2 ?_).2
    intro x hx
    cases hx2 : x.2 with
    | nil => rfl
    | cons y r =>
      obtain ⟨ha, _⟩ := (h5 x hx).1 y.1 y.2 (Dict.get?_of_mem (hnk x hx) (by rw [hx2]; exact List.mem_cons_self))
      have := (hnames y.1).2 ⟨List.ne_nil_of_mem (hcpu x hx), ha⟩
      rw [hb] at this
      cases this
  · intro hb
    refine e3 ?_
    obtain ⟨b, hb⟩ := List.exists_mem_of_ne_nil _ hb
    obtain ⟨c, v, cs, st, r1, r2, _⟩ := (hex.names b.name).1 (List.mem_map.2 ⟨b, hb, rfl⟩)
    refine ⟨_, r1, ?_⟩
    intro e
    dsimp only at e
    rw [e] at r2
    cases r2
  · intro b hb
    have ha : Asked s.files cpus names b.name := ((hnames b.name).1 (List.mem_map.2 ⟨b, hb, rfl⟩)).2
    refine ⟨?_, hex.once (by rw [h4]; exact hn) b hb, ?_, ?_⟩
    · intro on c
      rw [hex.status b hb]
      constructor
      · rintro ⟨v, hr, rfl⟩
        obtain ⟨hc, _, j, t, a1, a2, a3⟩ := hread c _ _ v hkd hr
        exact ⟨hc, j, t, a1, a2, isOn_shows a3⟩
      · rintro ⟨hc, j, t, a1, a2, rfl⟩
        obtain ⟨v, hr, hv⟩ := hread' c _ j _ t hkd hc ha a1 a2
        exact ⟨v, hr, (isOn_shows hv).symm⟩
    · by_cases hsk : skipRo = true
      · have : b.notes = [] := by
          cases hbn : b.notes with
          | nil => rfl
          | cons y r =>
            have := (hex.notes b hb y.1 y.2).1 (by rw [hbn]; exact List.mem_cons_self)
            rw [hsk] at this
            cases this.1
        rw [this]
        exact List.nodup_nil
      · refine hex.noteOnce ?_ b hb
        intro c n k v c' w r1 r2 e
        have hk : k ∈ fnames := by
          obtain ⟨cs, st, q1, q2, q3⟩ := r1
          obtain ⟨j, nm, _, _, _, hk, _⟩ := hdesc _ q1 (n, st) (Dict.mem_of_get? q2)
          rw [← hk]
          exact List.mem_map.2 ⟨_, Dict.mem_of_get? q3, rfl⟩
        obtain ⟨_, _, j, t, _, _, a3⟩ := hread c n k v hk r1
        obtain ⟨_, _, j', t', _, _, b3⟩ := hread c' n k w hk r2
        rw [textOf_shows a3, textOf_shows b3] at e
        subst e
        exact dictKey_shows a3 b3
    · intro k t
      rw [hex.notes b hb]
      refine and_congr_right fun _ => and_congr_right fun hk => ?_
      constructor
      · rintro ⟨c, v, hr, rfl⟩
        obtain ⟨hc, _, j, t, a1, a2, a3⟩ := hread c _ k v (hkn k hk) hr
        exact ⟨c, hc, j, a1, by rw [textOf_shows a3]; exact a2⟩
      · rintro ⟨c, hc, j, a1, a2⟩
        obtain ⟨v, hr, hv⟩ := hread' c _ j k t (hkn k hk) hc ha a1 a2
        exact ⟨c, v, hr, textOf_shows hv⟩

/-- The hypotheses hold for CPUs 0 and 1: "C1E" is off for CPU 0, "C6" is off for CPU 1 and its latency differs. -/
example : HumanPrint.exSys.Of CPUInfo.exInfo ∧ Good CPUIdle.exSt ∧ [0, 1].Nodup ∧ (∀ c ∈ [0, 1], c ∈ HumanPrint.exSys.online) ∧
    Uniform CPUIdle.exSt.files [0, 1] ∧
    (printCStates CPUInfo.exInfo "Linux sysfs".toList CPUIdle.exEnv .all [0, 1] false true none CPUIdle.exSt).2 =
      (["Source: Linux sysfs".toList, " - POLL: 'on' for CPUs 0,1".toList, "    - description: MWAIT".toList,
        "    - expected latency: 0 us".toList, "    - target residency: 0 us".toList,
        " - C1E: 'off' for CPU 0".toList, " - C1E: 'on' for CPU 1".toList, "    - description: MWAIT".toList,
        "    - expected latency: 4 us".toList, "    - target residency: 12 us".toList,
        " - C6: 'on' for CPU 0".toList, " - C6: 'off' for CPU 1".toList, "    - description: MWAIT".toList,
        "    - expected latency: 170 us".toList, "    - expected latency: 190 us".toList,
        "    - target residency: 510 us".toList, "    - target residency: 570 us".toList], .ok 3) :=
  ⟨HumanPrint.exSys_of, CPUIdle.exSt_good, by decide, by decide +kernel, Or.inl (by decide +kernel), by decide +kernel⟩

/-- The hypotheses hold for C-states given by name. The names do not have to be in upper case; with `skipRo` there are no
notes. -/
example : (∀ c ∈ [0, 1], ∀ n, Asked CPUIdle.exSt.files [0, 1] (.list ["c6".toList]) n → NameOf CPUIdle.exSt.files c n) ∧
    (printCStates CPUInfo.exInfo "Linux sysfs".toList CPUIdle.exEnv (.list ["c6".toList]) [0, 1] true false
      (some "set to".toList) CPUIdle.exSt).2 =
    (["C6: set to 'on' for CPU 0".toList, "C6: set to 'off' for CPU 1".toList], .ok 1) := by
  refine ⟨?_, by decide +kernel⟩
  rintro c hc n ⟨m, hm, rfl⟩
  cases List.mem_singleton.1 hm
  refine ⟨2, "C6".toList, ?_, by decide +kernel⟩
  revert c
  decide +kernel

/-- CPUs 0, 1 and 3 with these latencies of "C6". -/
def exLat (a b c : Nat) : List File :=
  CPUIdle.exState 0 0 "POLL" "0" 0 ++ CPUIdle.exState 0 1 "C6" "0" a ++
  CPUIdle.exState 1 0 "POLL" "0" 0 ++ CPUIdle.exState 1 1 "C6" "0" b ++
  CPUIdle.exState 3 0 "POLL" "0" 0 ++ CPUIdle.exState 3 1 "C6" "0" c

/-- The lines do not tell everything: the notes do not tell which CPUs they are for. The latency of "C6" on CPU 3 is 170 or
190, and the lines are the same. -/
theorem C94_notes_counterexample :
    CPUIdle.WF (exLat 170 190 170) ∧ CPUIdle.WF (exLat 170 190 190) ∧
    Has (exLat 170 190 170) 3 1 "latency".toList "170".toList ∧
    Has (exLat 170 190 190) 3 1 "latency".toList "190".toList ∧
    ∀ c ∈ [170, 190],
      (printCStates CPUInfo.exInfo [] CPUIdle.exEnv (.list ["C6".toList]) [0, 1, 3] false false none
        ⟨exLat 170 190 c, fun _ => none⟩).2 =
        (["C6: 'on' for CPUs 0,1,3".toList, " - description: MWAIT".toList, " - expected latency: 170 us".toList,
          " - expected latency: 190 us".toList, " - target residency: 510 us".toList,
          " - target residency: 570 us".toList], .ok 1) :=
  ⟨CPUIdle.wf_of_check (by decide +kernel), CPUIdle.wf_of_check (by decide +kernel), by decide +kernel,
    by decide +kernel, by decide +kernel⟩

end Verif.HumanCStates
