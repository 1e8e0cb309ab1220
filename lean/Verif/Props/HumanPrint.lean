import Verif.Lemmas.HumanPrint
import Verif.Props.PropsYaml

/-!
C93: the lines printed for people tell exactly what was read. The specification is in `Verif.Props.HumanPrintSpec`.
-/

namespace Verif.HumanPrint

open PropsYaml
open PrinterText
open CPUInfo (Info)

variable {Q : Type} [DecidableEq Q]

omit [DecidableEq Q] in
theorem normalize_named {props : Dict PyStr PropInfo} {skipRo : Bool} {pnames : Option (List PyStr)} {names : List PyStr}
    (h : Named props skipRo pnames names) :
    normalizePnames props skipRo pnames = .ok names ∧ ∀ n ∈ names, ∃ p, props.get? n = some p := by
  obtain ⟨l, h1, h2, rfl⟩ := h
  have hkey : ∀ n, n ∈ props.keys ↔ ∃ p, props.get? n = some p := by
    intro n
    have := Dict.get?_eq_none_iff props n
    cases hg : props.get? n with
    | none => rw [hg] at this; simp [this.1 rfl]
    | some p =>
      rw [hg] at this
      simp only [reduceCtorEq, false_iff, Classical.not_not] at this
      simp [this]
  have hf : (if !skipRo then Except.ok l else .ok (l.filter fun n => match props.get? n with
      | none => false
      | some p => p.writable) : Except Exn (List PyStr)) =
      .ok (l.filter fun n => !skipRo || (props.get? n).any (·.writable)) := by
    cases skipRo with
    | false => simp
    | true =>
      rw [if_neg (by decide)]
      congr 2
      funext n
      cases props.get? n <;> rfl
  have hl : ∀ n ∈ l, ∃ p, props.get? n = some p := by
    cases hp : pnames with
    | none =>
      intro n hn
      rw [h2 hp] at hn
      exact (hkey n).1 hn
    | some l' =>
      obtain ⟨e, h3⟩ := h1 l' hp
      rw [e]
      exact h3
  refine ⟨?_, fun n hn => hl n (List.mem_filter.1 hn).1⟩
  unfold normalizePnames
  cases hp : pnames with
  | none =>
    dsimp only
    rw [show props.keys = l from (h2 hp).symm]
    exact hf
  | some l' =>
    obtain ⟨e, h3⟩ := h1 l' hp
    dsimp only
    rw [if_pos]
    · rw [← e]
      exact hf
    · rw [List.all_eq_true]
      intro n hn
      simpa using (hkey n).2 (h3 n hn)

theorem nodup_readings4 {skip : Bool} {pnames : List PyStr} {R : PyStr → List (PV (Val Q))} (hn : pnames.Nodup)
    (h : ∀ p ∈ pnames, ((R p).map (·.loc)).Nodup) :
    ((pnames.flatMap fun p => (R p).filterMap (PV.item4 skip p)).map fun i => (i.2.1, i.2.2.1)).Nodup := by
  have e0 : ∀ (p : PyStr) (pv : PV (Val Q)) (i : Item4 (Val Q)), PV.item4 skip p pv = some i →
      i = (pv.mname, p, pv.loc.cell, pv.val) := by
    intro p pv i hi
    unfold PV.item4 at hi
    split at hi
    · cases hi
    · exact (Option.some.inj hi).symm
  have h1 : ∀ (p : PyStr) (l : List (PV (Val Q))), (l.map (·.loc)).Nodup →
      ((l.filterMap (PV.item4 skip p)).map fun i => (i.2.1, i.2.2.1)).Nodup := by
    intro p l hl
    induction l with
    | nil => exact List.nodup_nil
    | cons pv l ih =>
      obtain ⟨h1, h2⟩ := List.nodup_cons.1 hl
      cases hv : PV.item4 skip p pv with
      | none =>
        rw [List.filterMap_cons_none hv]
        exact ih h2
      | some i0 =>
        rw [List.filterMap_cons_some hv, List.map_cons, e0 p pv i0 hv]
        refine List.nodup_cons.2 ⟨fun hm => h1 ?_, ih h2⟩
        obtain ⟨i, hi, he⟩ := List.mem_map.1 hm
        obtain ⟨q, hq, hqe⟩ := List.mem_filterMap.1 hi
        rw [e0 p q i hqe] at he
        exact List.mem_map.2 ⟨q, hq, Loc.cell_inj (Prod.mk.inj he).2⟩
  induction pnames with
  | nil => exact List.nodup_nil
  | cons p pnames ih =>
    obtain ⟨n1, n2⟩ := List.nodup_cons.1 hn
    rw [List.flatMap_cons, List.map_append]
    refine List.nodup_append.2 ⟨h1 p _ (h p List.mem_cons_self), ih n2 (fun q hq => h q (List.mem_cons_of_mem _ hq)), ?_⟩
    intro a ha b hb hab
    obtain ⟨i, hi, hia⟩ := List.mem_map.1 ha
    obtain ⟨j, hj, hjb⟩ := List.mem_map.1 hb
    obtain ⟨pv, _, hpv⟩ := List.mem_filterMap.1 hi
    obtain ⟨q, hq, hj2⟩ := List.mem_flatMap.1 hj
    obtain ⟨qv, _, hqv⟩ := List.mem_filterMap.1 hj2
    rw [e0 p pv i hpv] at hia
    rw [e0 q qv j hqv] at hjb
    rw [← hia, ← hjb] at hab
    have hpq : p = q := (Prod.mk.inj hab).1
    exact n1 (hpq ▸ hq)

/-- C93 (printing succeeds, and the lines tell exactly what was read): each line is about a value and what it is for, and all
lines together tell the value for everything that was read, once, and nothing else. With `group`, values come after a line
naming the source they were read from. Nothing was read that counts if the number returned is 0. -/
theorem C93_exact (i : Info) (S : Sys) (hS : S.Of i) (F : Fmt Q) (hF : ∀ p n, F.unitInt p n ≠ [])
    (props : Dict PyStr PropInfo) (descr : PyStr → PyStr) (read : PyStr → Bool → Except Exn (List (PV (Val Q))))
    (R : PyStr → List (PV (Val Q))) (skipRo skipUnsupported group : Bool) (action : Option PyStr)
    (pnames : Option (List PyStr)) (names : List PyStr) (hnames : Named props skipRo pnames names) (hn : names.Nodup)
    (hR : Readings names read R) (hin : ∀ p ∈ names, ∀ pv ∈ R p, S.Has pv.loc)
    (hty : ∀ p ∈ names, ∀ pi, props.get? p = some pi → ∀ pv ∈ R p, Fits pi.type pv.val) :
    ∃ lines n told, printProps i F props descr read skipRo skipUnsupported group action pnames = (lines, .ok n) ∧
      List.Forall₂ (Tells S F props descr group action) lines told ∧
      (told.flatMap Entry.items).Perm (names.flatMap fun p => (R p).filterMap (shown skipUnsupported p)) ∧
      (∀ t, Entry.value t ∈ told → t.cells ≠ []) ∧
      (group = true → Follows none told) ∧ (group = false → ∀ m, Entry.source m ∉ told) ∧
      (n = 0 ↔ ∀ p ∈ names, ∀ pv ∈ R p, skipUnsupported = true ∧ pv.val = none) := by
  obtain ⟨hnorm, hprops⟩ := normalize_named hnames
  obtain ⟨aggr, a1, a2, a3⟩ := buildAggr_spec4 skipUnsupported read R names hR.read hR.scope hn [] []
    (fun x hx => by cases hx) (fun _ _ h => by cases h)
  have a3' : (aggrItems4 aggr).Perm (names.flatMap fun p => (R p).filterMap (PV.item4 skipUnsupported p)) := by
    simpa [aggrItems4] using a3
  have hnod := nodup_of_map ((a3'.map fun i => (i.2.1, i.2.2.1)).nodup_iff.2 (nodup_readings4 hn hR.once))
  have hmem : ∀ x ∈ aggrItems4 aggr, x.2.1 ∈ names ∧ ∃ pv ∈ R x.2.1, pv.loc.cell = x.2.2.1 ∧ pv.val = x.2.2.2 := by
    intro x hx
    obtain ⟨p, hp, hx2⟩ := List.mem_flatMap.1 (a3'.mem_iff.1 hx)
    obtain ⟨pv, hpv, he⟩ := List.mem_filterMap.1 hx2
    unfold PV.item4 at he
    split at he
    · cases he
    · rw [← Option.some.inj he]
      exact ⟨hp, pv, hpv, rfl, rfl⟩
  have ho : ∀ z ∈ aggr, ∀ y ∈ z.2, ∃ p, props.get? y.1 = some p ∧ ∀ x ∈ y.2.vals, OkVal S y.2.sname p x.1 x.2 := by
    intro z hz y hy
    obtain ⟨d1, d2⟩ := a2 z hz y hy
    have hyn : y.1 ∈ names := by simpa using d1
    obtain ⟨p, hp⟩ := hprops y.1 hyn
    refine ⟨p, hp, fun x hx => ?_⟩
    have hitem : ∀ c ∈ x.2.cells y.2.sname, (z.1, y.1, c, x.1) ∈ aggrItems4 aggr := fun c hc =>
      List.mem_flatMap.2 ⟨z, hz, List.mem_flatMap.2 ⟨y, hy, List.mem_flatMap.2 ⟨x, hx, List.mem_map.2 ⟨c, hc, rfl⟩⟩⟩⟩
    refine ⟨d2 x hx, ?_, ?_, ?_⟩
    · exact nodup_of_map (nodup_flatMap_mem (nodup_flatMap_mem (nodup_flatMap_mem hnod hz) hy) hx)
    · intro c hc
      obtain ⟨_, pv, hpv, e1, _⟩ := hmem _ (hitem c hc)
      exact ⟨pv.loc, e1, hin _ hyn pv hpv⟩
    · obtain ⟨c, hc⟩ := List.exists_mem_of_ne_nil _ (d2 x hx).cells_ne
      obtain ⟨_, pv, hpv, _, e2⟩ := hmem _ (hitem c hc)
      have := hty _ hyn p hp pv hpv
      rw [e2] at this
      exact this
  obtain ⟨lines, l1, l2⟩ := printAggr_spec hS F hF props descr group action aggr ho
  refine ⟨lines, countAggr aggr, toldAggr group aggr, ?_, l2, ?_, ?_, ?_, ?_, ?_⟩
  · unfold printProps
    rw [hnorm]
    dsimp only
    rw [a1]
    exact l1
  · rw [toldAggr_items]
    refine (a3'.filter _).trans (List.Perm.of_eq ?_)
    rw [filter_flatMap]
    refine flatMap_congr fun p _ => ?_
    rw [List.filter_filterMap]
    congr 1
    funext pv
    unfold PV.item4 shown
    cases h1 : (skipUnsupported && pv.val.isNone) with
    | true => rfl
    | false => cases h2 : Blank pv.val <;> simp [Option.filter, h2]
  · intro t ht
    obtain ⟨z, hz, h⟩ := List.mem_flatMap.1 ht
    rcases List.mem_append.1 h with h | h
    · cases group with
      | false => cases h
      | true => rcases List.mem_cons.1 h with h | h <;> cases h
    · obtain ⟨y, hy, h⟩ := List.mem_flatMap.1 h
      obtain ⟨x, hx, h⟩ := List.mem_filterMap.1 h
      split at h
      · cases h
      · cases h
        exact ((a2 z hz y hy).2 x hx).cells_ne
  · rintro rfl
    exact toldAggr_follows aggr none
  · rintro rfl
    exact toldAggr_no_source aggr
  · rw [count_zero fun z hz y hy => (a2 z hz y hy).2]
    have e : aggrItems4 aggr = [] ↔ (names.flatMap fun p => (R p).filterMap (PV.item4 skipUnsupported p)) = [] :=
      ⟨fun h => (h ▸ a3').nil_eq.symm, fun h => (h ▸ a3').eq_nil⟩
    rw [e, List.flatMap_eq_nil_iff]
    refine forall_congr' fun p => forall_congr' fun _ => ?_
    rw [List.filterMap_eq_nil_iff]
    refine forall_congr' fun pv => forall_congr' fun _ => ?_
    unfold PV.item4
    cases pv.val <;> cases skipUnsupported <;> simp

/-- C93 (each value is told, and all that is told is true): everything read, unless it is an empty list or unsupported
properties are not to be printed, is told by a line with its value. Every line about a property is about something, and
everything it is about was read with this value and from this source. -/
theorem C93_told (i : Info) (S : Sys) (hS : S.Of i) (F : Fmt Q) (hF : ∀ p n, F.unitInt p n ≠ [])
    (props : Dict PyStr PropInfo) (descr : PyStr → PyStr) (read : PyStr → Bool → Except Exn (List (PV (Val Q))))
    (R : PyStr → List (PV (Val Q))) (skipRo skipUnsupported group : Bool) (action : Option PyStr)
    (pnames : Option (List PyStr)) (names : List PyStr) (hnames : Named props skipRo pnames names) (hn : names.Nodup)
    (hR : Readings names read R) (hin : ∀ p ∈ names, ∀ pv ∈ R p, S.Has pv.loc)
    (hty : ∀ p ∈ names, ∀ pi, props.get? p = some pi → ∀ pv ∈ R p, Fits pi.type pv.val) :
    let lines := (printProps i F props descr read skipRo skipUnsupported group action pnames).1
    (∀ p ∈ names, ∀ pv ∈ R p, (pv.val = none → skipUnsupported = false) → Blank pv.val = false →
      ∃ line ∈ lines, ∃ t : Told Q, Tells S F props descr group action line (.value t) ∧ t.mname = pv.mname ∧ t.pname = p ∧
        t.val = pv.val ∧ pv.loc.cell ∈ t.cells) ∧
    (∀ line ∈ lines, ∃ e, Tells S F props descr group action line e ∧ ∀ t, e = Entry.value t →
      t.pname ∈ names ∧ ∀ c ∈ t.cells, ∃ pv ∈ R t.pname, pv.loc.cell = c ∧ pv.val = t.val ∧ pv.mname = t.mname) := by
  obtain ⟨lines, n, told, h1, h2, h3, h4, _⟩ := C93_exact i S hS F hF props descr read R skipRo skipUnsupported group action
    pnames names hnames hn hR hin hty
  dsimp only
  rw [h1]
  dsimp only
  constructor
  · intro p hp pv hpv hv hb
    have hm : (pv.mname, p, pv.loc.cell, pv.val) ∈ told.flatMap Entry.items := by
      refine h3.mem_iff.2 (List.mem_flatMap.2 ⟨p, hp, List.mem_filterMap.2 ⟨pv, hpv, ?_⟩⟩)
      unfold shown
      rw [hb, Bool.or_false, if_neg]
      intro hc
      rw [Bool.and_eq_true, Option.isNone_iff_eq_none] at hc
      rw [hv hc.2] at hc
      cases hc.1
    obtain ⟨e, he, hi⟩ := List.mem_flatMap.1 hm
    obtain ⟨line, hl, ht⟩ := forall2_mem_right h2 he
    cases e with
    | source m => cases hi
    | value t =>
      obtain ⟨c, hc, hce⟩ := List.mem_map.1 hi
      obtain ⟨e1, e2⟩ := Prod.mk.inj hce
      obtain ⟨e2, e3⟩ := Prod.mk.inj e2
      obtain ⟨e3, e4⟩ := Prod.mk.inj e3
      exact ⟨line, hl, t, ht, e1, e2, e4, e3 ▸ hc⟩
  · intro line hl
    obtain ⟨e, he, ht⟩ := forall2_mem_left h2 hl
    refine ⟨e, ht, ?_⟩
    rintro t rfl
    have hall : ∀ c ∈ t.cells, t.pname ∈ names ∧ ∃ pv ∈ R t.pname, pv.loc.cell = c ∧ pv.val = t.val ∧ pv.mname = t.mname := by
      intro c hc
      have hm : (t.mname, t.pname, c, t.val) ∈ told.flatMap Entry.items :=
        List.mem_flatMap.2 ⟨_, he, List.mem_map.2 ⟨c, hc, rfl⟩⟩
      obtain ⟨p, hp, hx⟩ := List.mem_flatMap.1 (h3.mem_iff.1 hm)
      obtain ⟨pv, hpv, hs⟩ := List.mem_filterMap.1 hx
      unfold shown at hs
      split at hs
      · cases hs
      · obtain ⟨e1, e2⟩ := Prod.mk.inj (Option.some.inj hs)
        obtain ⟨e2, e3⟩ := Prod.mk.inj e2
        obtain ⟨e3, e4⟩ := Prod.mk.inj e3
        subst e2
        exact ⟨hp, pv, hpv, e3, e4, e1⟩
    obtain ⟨c, hc⟩ := List.exists_mem_of_ne_nil _ (h4 t he)
    exact ⟨(hall c hc).1, fun c hc => (hall c hc).2⟩

/-- The example system: two packages, package 0 with the dies 0 and 1 and the I/O die 3. -/
def exSys : Sys := ⟨CPUInfo.exInfo.online, [0, 1], exDies⟩

theorem exSys_of : exSys.Of CPUInfo.exInfo :=
  ⟨CPUInfo.exInfo_wf, rfl, by decide +kernel, by decide +kernel, by decide +kernel, by decide +kernel⟩

/-- Some properties of the `PStates` class. -/
def exProps : Dict PyStr PropInfo :=
  [("min_freq".toList, ⟨"Min. CPU frequency".toList, .int, false, true⟩),
   ("epp".toList, ⟨"EPP".toList, .str, false, true⟩),
   ("driver".toList, ⟨"CPU frequency driver".toList, .str, true, false⟩),
   ("governors".toList, ⟨"Available CPU frequency governors".toList, .listStr, false, false⟩),
   ("frequencies".toList, ⟨"Acceptable CPU frequencies".toList, .listInt, false, false⟩)]

/-- Values: the frequency is read per die, "epp" is not supported by CPU 3, and there are no governors. -/
def exRead (p : PyStr) (_ : Bool) : Except Exn (List (PV (Val Int))) :=
  if p = "min_freq".toList then
    .ok [⟨.die 0 0, some (.num 8), "sysfs".toList⟩, ⟨.die 1 0, some (.num 9), "sysfs".toList⟩,
      ⟨.die 0 1, some (.num 8), "sysfs".toList⟩, ⟨.die 0 3, some (.num 8), "sysfs".toList⟩]
  else if p = "epp".toList then
    .ok [⟨.cpu 0, some (.str "12".toList), "msr".toList⟩, ⟨.cpu 3, none, "msr".toList⟩,
      ⟨.cpu 1, some (.str "12".toList), "msr".toList⟩]
  else if p = "driver".toList then .ok [⟨.cpu 0, some (.str "acpi".toList), "sysfs".toList⟩]
  else if p = "governors".toList then .ok [⟨.cpu 0, some (.strs []), "sysfs".toList⟩]
  else .ok [⟨.package 1, some (.nums [1, 3, 5, 7]), "msr".toList⟩]

/-- How the example prints numbers. -/
def exFmt : Fmt Int := ⟨fun _ n => PyStr.ofInt n, fun _ n => PyStr.ofInt n, (· == 0), false⟩

instance (S : Sys) (l : Loc) : Decidable (S.Has l) := by
  cases l <;> unfold Sys.Has <;> infer_instance

omit [DecidableEq Q] in
instance (t : PType) (v : Option (Val Q)) : Decidable (Fits t v) := by
  cases v with
  | none => exact isTrue trivial
  | some v => cases t <;> cases v <;> first | exact isTrue trivial | exact isFalse fun h => h

/-- What is read in the example. -/
def exR (p : PyStr) : List (PV (Val Int)) :=
  match exRead p false with
  | .ok l => l
  | .error _ => []

theorem ofInt_ne_nil (n : Int) : PyStr.ofInt n ≠ [] := by
  intro h
  have := strToInt_ofInt n
  rw [h] at this
  cases this

example : (∀ p n, exFmt.unitInt p n ≠ []) ∧ exSys.Of CPUInfo.exInfo ∧ Named exProps false none (exProps.map (·.1)) ∧
    (exProps.map (·.1)).Nodup ∧
    Readings (exProps.map (·.1)) exRead exR ∧
    (∀ p ∈ exProps.map (·.1), ∀ pv ∈ exR p, exSys.Has pv.loc) ∧
    (∀ x ∈ exProps, ∀ pv ∈ exR x.1, Fits x.2.type pv.val) ∧
    printProps CPUInfo.exInfo exFmt exProps id exRead false false true none none =
      (["Source: sysfs".toList, " - Min. CPU frequency: 8 for all dies in package 0".toList,
        " - Min. CPU frequency: 9 for die 0 in package 1".toList, " - CPU frequency driver: acpi".toList,
        "Source: msr".toList, " - EPP: '12' for CPUs 0,1".toList, " - EPP: not supported for CPU 3".toList,
        " - Acceptable CPU frequencies: 1 - 7 with step 2 for package 1".toList], .ok 7) :=
  ⟨fun _ n => ofInt_ne_nil n, exSys_of,
    ⟨exProps.map (·.1), (fun _ h => nomatch h), fun _ => rfl, by decide +kernel⟩, by decide +kernel,
    ⟨by decide +kernel, by decide +kernel, fun p hp => ⟨(((exR p).head?).map (·.loc.sname)).getD .CPU, by
      revert p
      decide +kernel⟩⟩, by decide +kernel, by decide +kernel, by decide +kernel⟩

/-- C93 (failures): if a property cannot be read, then nothing is printed, not even the properties before it. -/
theorem C93_read_failure (i : Info) (F : Fmt Q) (props : Dict PyStr PropInfo) (descr : PyStr → PyStr)
    (read : PyStr → Bool → Except Exn (List (PV (Val Q)))) (R : PyStr → List (PV (Val Q)))
    (skipRo skipUnsupported group : Bool) (action : Option PyStr) (pnames : Option (List PyStr)) (pre post : List PyStr)
    (p : PyStr) (e : Exn) (hnames : Named props skipRo pnames (pre ++ p :: post))
    (hpre : ∀ q ∈ pre, finalRead read q = .ok (R q)) (hs : ∀ q ∈ pre, ∃ s, ∀ pv ∈ R q, pv.loc.sname = s)
    (hp : finalRead read p = .error e) :
    printProps i F props descr read skipRo skipUnsupported group action pnames = ([], .error e) := by
  obtain ⟨hnorm, _⟩ := normalize_named hnames
  unfold printProps
  rw [hnorm]
  dsimp only
  rw [buildAggr_error skipUnsupported read R pre post p e hpre hs hp []]

example : Named exProps true (some ["epp".toList, "driver".toList, "min_freq".toList])
      (["epp".toList] ++ "min_freq".toList :: []) ∧
    finalRead exRead "epp".toList = exRead "epp".toList false ∧
    printProps CPUInfo.exInfo exFmt exProps id
      (fun p o => if p = "min_freq".toList then .error .permissionDenied else exRead p o) true true false none
      (some ["epp".toList, "driver".toList, "min_freq".toList]) = ([], .error .permissionDenied) :=
  ⟨⟨["epp".toList, "driver".toList, "min_freq".toList], fun l h => ⟨(Option.some.inj h), by
      rw [← Option.some.inj h]
      have : ∀ n ∈ ["epp".toList, "driver".toList, "min_freq".toList], (exProps.get? n).isSome := by decide +kernel
      exact fun n hn => Option.isSome_iff_exists.1 (this n hn)⟩, (fun h => nomatch h), by decide +kernel⟩, by decide +kernel, by decide +kernel⟩

/-- C93 (names): an unknown name is refused before anything is read. -/
theorem C93_unknown (i : Info) (F : Fmt Q) (props : Dict PyStr PropInfo) (descr : PyStr → PyStr)
    (read : PyStr → Bool → Except Exn (List (PV (Val Q)))) (skipRo skipUnsupported group : Bool) (action : Option PyStr)
    (l : List PyStr) (n : PyStr) (hn : n ∈ l) (hu : props.get? n = none) :
    printProps i F props descr read skipRo skipUnsupported group action (some l) = ([], .error .error) := by
  unfold printProps normalizePnames
  dsimp only
  rw [if_neg]
  intro h
  rw [List.all_eq_true] at h
  exact (Dict.get?_eq_none_iff props n).1 hu (by simpa using h n hn)

example : exProps.get? "min_freqs".toList = none := by decide +kernel

/-- C93 (no two readings): a line about a property that is not global is for one set of CPUs, dies or packages only, and the
value is the one in it. -/
theorem C93_unambiguous (S : Sys) (F : Fmt Q) (props : Dict PyStr PropInfo) (descr : PyStr → PyStr) (group : Bool)
    (action : Option PyStr) (line : PyStr) (t t' : Told Q) (p : PropInfo) (hp : props.get? t.pname = some p)
    (hg : p.isGlobal = false) (hpn : t'.pname = t.pname) (hsc : t'.scope = t.scope)
    (h : Tells S F props descr group action line (.value t)) (h' : Tells S F props descr group action line (.value t')) :
    (∀ c, c ∈ t.cells ↔ c ∈ t'.cells) ∧ ∃ text, Quoted F t.pname p t.val text ∧ Quoted F t.pname p t'.val text := by
  obtain ⟨q, body, h1, h2, h3⟩ := h
  obtain ⟨q', body', h1', h2', h3'⟩ := h'
  rw [hp] at h1
  cases h1
  rw [hpn, hp] at h1'
  cases h1'
  rw [hg] at h3 h3'
  have hb : body' = body := by
    rw [h2] at h2'
    exact (List.append_cancel_left h2').symm
  subst hb
  obtain ⟨v, w, l, c1, c2, c3, c4⟩ := h3
  obtain ⟨v', w', l', c1', c2', c3', c4'⟩ := h3'
  rw [c1] at c1'
  obtain ⟨rfl, rfl⟩ := Prod.mk.inj (Option.some.inj c1')
  rw [hsc, c3] at c3'
  obtain rfl := Option.some.inj c3'
  rw [hpn] at c2'
  exact ⟨fun c => (c4 c).symm.trans (c4' c), v, c2, c2'⟩

/-- The properties "ppl1" and "ppl1_enable" of the `Power` class. -/
def powerProps : Dict PyStr PropInfo :=
  [("ppl1".toList, ⟨"RAPL PPL1".toList, .int, false, true⟩),
   ("ppl1_enable".toList, ⟨"RAPL PPL1".toList, .bool, false, true⟩)]

/-- A line does not always tell which property it is about: the names printed for "ppl1" and "ppl1_enable" are the same
(pepclibs/Power.py:34-48). -/
theorem C93_name_counterexample :
    (printProps CPUInfo.exInfo exFmt powerProps id (fun _ _ => .ok [⟨.package 0, none, "msr".toList⟩]) false false false none
      (some ["ppl1".toList])) =
    (printProps CPUInfo.exInfo exFmt powerProps id (fun _ _ => .ok [⟨.package 0, none, "msr".toList⟩]) false false false none
      (some ["ppl1_enable".toList])) ∧
    (printProps CPUInfo.exInfo exFmt powerProps id (fun _ _ => .ok [⟨.package 0, none, "msr".toList⟩]) false false false none
      (some ["ppl1".toList])).1 = ["RAPL PPL1: not supported for package 0".toList] :=
  ⟨by decide +kernel, by decide +kernel⟩

end Verif.HumanPrint
