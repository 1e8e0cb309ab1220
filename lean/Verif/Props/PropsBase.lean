import Verif.Model.PropsBase
import Verif.Props.Topology

/-!
C26 - C29: property "get" and "set" logic.
-/

namespace Verif.PropsBase

open CPUInfo

variable {V σ κ : Type}

/-! ### Specification -/

/-- The mechanisms the caller asked for. -/
def asked (P : PropDesc) : Option (List Mech) → List Mech
  | none => P.mnames
  | some [] => P.mnames
  | some l => l

/-- The mechanism reports "not supported" before any result. -/
def Refuses (g : Gen (κ × Option V)) : Prop := g.yields = [] ∧ g.err = some .notSupported

/-- The contract of the sub-class methods: a generator which ends normally yields every requested CPU
once and in order. -/
def Complete (get : Mech → List Nat → Gen (Nat × Option V)) : Prop :=
  ∀ m l, (get m l).err = none → (get m l).yields.map Prod.fst = l

/-- The mechanisms to try when setting: a repeated one counts once. -/
def toTry (P : PropDesc) : Option (List Mech) → List Mech
  | none => P.mnames
  | some [] => P.mnames
  | some l => pyDedup l

/-- `set` refuses mechanisms `ms` in turn, leading from state `s` to `s'`. -/
inductive Refused (set : Mech → σ → σ × Except Exn Unit) : List Mech → σ → σ → Prop
  | nil (s : σ) : Refused set [] s s
  | cons {m ms s s1 s2 e} (h : set m s = (s1, .error e))
      (he : e = .notSupported ∨ e = .tryAnother ∨ e = .freqRange)
      (hr : Refused set ms s1 s2) : Refused set (m :: ms) s s2

/-- The CPUs are a union of entire units of the scope. -/
def Whole (i : Info) (s : Scope) (cpus : List Nat) : Prop :=
  ∀ c ∈ cpus, ∀ d, SameUnit i s c d → d ∈ cpus

/-! ### C26 -/

theorem exn_ns {e : Exn} : e.isNotSupported = true ↔ e = .notSupported := by
  cases e <;> simp [Exn.isNotSupported]

theorem exn_skip {e : Exn} : (e.isNotSupported || e.isTryAnother) = true ↔
    e = .notSupported ∨ e = .tryAnother ∨ e = .freqRange := by
  cases e <;> simp [Exn.isNotSupported, Exn.isTryAnother]

/-- What the mechanism loop does. -/
theorem getLoop_spec (get : Mech → Gen (κ × Option V)) (nums : List κ) (last : Mech) (ms : List Mech) :
    ((∀ m ∈ ms, Refuses (get m)) ∧ getLoop get nums last ms = ⟨nums.map (fun n => ⟨n, none, last⟩), none⟩) ∨
    ∃ pre m post, ms = pre ++ m :: post ∧ (∀ p ∈ pre, Refuses (get p)) ∧ ¬ Refuses (get m) ∧
      (getLoop get nums last ms).yields = (get m).yields.map (fun p => ⟨p.1, p.2, m⟩) ∧
      (getLoop get nums last ms).err =
        (get m).err.map (fun e => if e = .notSupported then .error else e) := by
  induction ms with
  | nil => exact .inl ⟨by simp, rfl⟩
  | cons m ms ih =>
    by_cases hr : Refuses (get m)
    · have heq : getLoop get nums last (m :: ms) = getLoop get nums last ms := by
        rw [getLoop]; simp only [hr.2, hr.1]; rfl
      rw [heq]
      rcases ih with ⟨h1, h2⟩ | ⟨pre, m', post, h1, h2, h3, h4, h5⟩
      · refine .inl ⟨?_, h2⟩
        intro x hx
        rcases List.mem_cons.1 hx with rfl | hx
        · exact hr
        · exact h1 x hx
      · refine .inr ⟨m :: pre, m', post, by rw [h1]; rfl, ?_, h3, h4, h5⟩
        intro x hx
        rcases List.mem_cons.1 hx with rfl | hx
        · exact hr
        · exact h2 x hx
    · refine .inr ⟨[], m, ms, rfl, by simp, hr, ?_⟩
      rw [getLoop]
      cases he : (get m).err with
      | none => exact ⟨rfl, rfl⟩
      | some e =>
        dsimp only
        by_cases hn : e = .notSupported
        · subst hn
          have hy : (get m).yields.isEmpty = false := by
            cases hy : (get m).yields with
            | nil => exact absurd ⟨hy, he⟩ hr
            | cons => rfl
          simp only [Exn.isNotSupported, hy]
          exact ⟨rfl, rfl⟩
        · have : e.isNotSupported = false := by
            cases h : e.isNotSupported with
            | false => rfl
            | true => exact absurd (exn_ns.1 h) hn
          simp only [this, Option.map_some, if_neg hn]
          exact ⟨rfl, rfl⟩

theorem validateMnames_ok {P : PropDesc} {ro : Bool} {l : List Mech} :
    validateMnames P ro l = .ok () ↔ ∀ m ∈ l, m ∈ P.mnames ∧ (ro = true ∨ m.writable = true) := by
  induction l with
  | nil => simp [validateMnames]
  | cons m ms ih =>
    rw [validateMnames]
    by_cases h1 : m ∈ P.mnames
    · by_cases h2 : ro = true ∨ m.writable = true
      · have : (!ro && !m.writable) = false := by
          rcases h2 with h | h <;> simp [h]
        simp [h1, this, ih, h2]
      · have : (!ro && !m.writable) = true := by simpa [not_or] using h2
        simp [h1, this, h2]
    · simp [h1]

theorem normalizeMnames_ok {P : PropDesc} {ro : Bool} {mn : Option (List Mech)} {ms : List Mech}
    (h : normalizeMnames P mn ro = .ok ms) : orDefault P ms = pyDedup (asked P mn) ∨
      (orDefault P ms = P.mnames ∧ asked P mn = P.mnames) := by
  unfold normalizeMnames at h
  cases mn with
  | none =>
    cases h
    refine .inr ⟨?_, rfl⟩
    unfold orDefault; split <;> rfl
  | some l =>
    cases hv : validateMnames P ro l with
    | error e => simp only [hv] at h; cases h
    | ok u =>
      simp only [hv] at h; cases h
      cases l with
      | nil => exact .inr ⟨rfl, rfl⟩
      | cons a l => exact .inl (by unfold orDefault; rw [if_neg]; rfl; simp [pyDedup, dedupAux])

/-- The first element of a list satisfying a predicate is the same after de-duplication. -/
theorem first_of_dedup {α : Type} [DecidableEq α] {Q : α → Prop} {pre post : List α} {m : α} :
    ∀ {seen l : List α}, dedupAux seen l = pre ++ m :: post → (∀ p ∈ pre, Q p) → ¬ Q m →
      (∀ x ∈ seen, Q x) → ∃ pre' post', l = pre' ++ m :: post' ∧ ∀ p ∈ pre', Q p := by
  induction pre with
  | nil =>
    intro seen l
    induction l generalizing seen with
    | nil => intro h; simp [dedupAux] at h
    | cons x xs ih =>
      intro h _ hm hs
      rw [dedupAux] at h
      split at h
      · rename_i hx
        obtain ⟨pre', post', e, hp⟩ := ih h (by simp) hm hs
        refine ⟨x :: pre', post', by rw [e]; rfl, ?_⟩
        intro y hy
        rcases List.mem_cons.1 hy with rfl | hy
        · exact hs _ (hx)
        · exact hp y hy
      · cases h; exact ⟨[], xs, rfl, by simp⟩
  | cons a pre ihp =>
    intro seen l
    induction l generalizing seen with
    | nil => intro h; simp [dedupAux] at h
    | cons x xs ih =>
      intro h hp hm hs
      rw [dedupAux] at h
      split at h
      · rename_i hx
        obtain ⟨pre', post', e, hp⟩ := ih h hp hm hs
        refine ⟨x :: pre', post', by rw [e]; rfl, ?_⟩
        intro y hy
        rcases List.mem_cons.1 hy with rfl | hy
        · exact hs _ (hx)
        · exact hp y hy
      · simp only [List.cons_append, List.cons.injEq] at h
        obtain ⟨rfl, h⟩ := h
        have hx := hp x (by simp)
        obtain ⟨pre', post', e, hp'⟩ := ihp h (fun p hp2 => hp p (by simp [hp2])) hm (by
          intro y hy
          rcases List.mem_cons.1 hy with rfl | hy
          · exact hx
          · exact hs y hy)
        refine ⟨x :: pre', post', by rw [e]; rfl, ?_⟩
        intro y hy
        rcases List.mem_cons.1 hy with rfl | hy
        · exact hx
        · exact hp' y hy

/-- **C26.** If `get_prop_cpus()` completes, it has yielded one result per requested CPU, in order, and
all of them come from the first of the asked mechanisms which did not report "not supported"; if every
mechanism (or the scope of the property) is not supported, all the values are `None`. -/
theorem C26_get_prop_cpus (i : Info) (P : PropDesc) (get : Mech → List Nat → Gen (Nat × Option V))
    (cpus : Nums) (mnames : Option (List Mech)) (hget : Complete get)
    (h : (getPropCpus i P get cpus mnames).err = none) :
    ∃ norm, normalizeCpus i cpus false = .ok norm ∧
      (getPropCpus i P get cpus mnames).yields.map (·.num) = norm ∧
      ((norm = [] ∨ P.sname = none ∨ ∀ m ∈ asked P mnames, Refuses (get m norm)) ∧
          (∀ pv ∈ (getPropCpus i P get cpus mnames).yields, pv.val = none) ∨
        ∃ pre m post, asked P mnames = pre ++ m :: post ∧ (∀ p ∈ pre, Refuses (get p norm)) ∧
          (get m norm).err = none ∧ (∀ pv ∈ (getPropCpus i P get cpus mnames).yields, pv.mname = m) ∧
          (getPropCpus i P get cpus mnames).yields.map (fun pv => (pv.num, pv.val)) =
            (get m norm).yields) := by
  revert h
  unfold getPropCpus
  cases hm : normalizeMnames P mnames true with
  | error e => intro h; simp at h
  | ok ms =>
    cases hn : normalizeCpus i cpus false with
    | error e => intro h; simp at h
    | ok norm =>
      dsimp only
      by_cases he : norm.isEmpty = true
      · rw [if_pos he]
        have : norm = [] := by simpa using he
        subst this
        intro _
        exact ⟨[], rfl, rfl, .inl ⟨.inl rfl, by simp⟩⟩
      rw [if_neg he]
      cases hs : P.sname with
      | none =>
        dsimp only
        cases hl : ms.getLast? with
        | none => intro h; simp at h
        | some last =>
          intro _
          refine ⟨norm, rfl, ?_, .inl ⟨.inr (.inl rfl), ?_⟩⟩
          · simp [Function.comp_def]
          · simp
      | some sn =>
        dsimp only
        unfold getPvinfo
        cases hl : (orDefault P ms).getLast? with
        | none => intro h; simp at h
        | some last =>
          dsimp only
          intro h
          rcases getLoop_spec (fun m => get m norm) norm last (orDefault P ms) with
            ⟨h1, h2⟩ | ⟨pre, m, post, h1, h2, h3, h4, h5⟩
          · refine ⟨norm, rfl, ?_, .inl ⟨.inr (.inr ?_), ?_⟩⟩
            · rw [h2]; simp [Function.comp_def]
            · intro m hma
              refine h1 m ?_
              rcases normalizeMnames_ok hm with e | ⟨e, e2⟩
              · rw [e]; exact mem_pyDedup.2 hma
              · rw [e, ← e2]; exact hma
            · rw [h2]; simp
          · rw [h5] at h
            have herr : (get m norm).err = none := by simpa using h
            refine ⟨norm, rfl, ?_, .inr ?_⟩
            · rw [h4, List.map_map]
              exact hget m norm herr
            · have : ∃ pre' post', asked P mnames = pre' ++ m :: post' ∧
                  ∀ p ∈ pre', Refuses (get p norm) := by
                rcases normalizeMnames_ok hm with e | ⟨e, e2⟩
                · exact first_of_dedup (Q := fun p => Refuses (get p norm)) (e.symm.trans h1) h2 h3
                    (by simp)
                · exact ⟨pre, post, by rw [e2, ← e, h1], h2⟩
              obtain ⟨pre', post', e, hp⟩ := this
              refine ⟨pre', m, post', e, hp, herr, ?_, ?_⟩
              · rw [h4]; simp only [List.mem_map]; rintro pv ⟨p, _, rfl⟩; rfl
              · rw [h4, List.map_map]; simp [Function.comp_def]

/-- **C26** (failures). `get_prop_cpus()` fails only if the CPUs or the mechanisms are bad, or if the
first mechanism which did not report "not supported" right away failed; then the results yielded before
the failure are the ones of that mechanism. (An empty list of mechanisms together with an unsupported
scope is an `IndexError`.) -/
theorem C26_get_prop_cpus_fails (i : Info) (P : PropDesc) (get : Mech → List Nat → Gen (Nat × Option V))
    (cpus : Nums) (mnames : Option (List Mech)) (hP : P.mnames ≠ []) (e : Exn)
    (h : (getPropCpus i P get cpus mnames).err = some e) :
    (getPropCpus i P get cpus mnames).yields = [] ∧
        ((∃ c, Requested i false cpus c ∧ c ∉ i.online) ∨ (∃ m ∈ asked P mnames, m ∉ P.mnames) ∨
          mnames = some [] ∧ P.sname = none) ∨
      P.sname ≠ none ∧ ∃ norm pre m post, normalizeCpus i cpus false = .ok norm ∧
        asked P mnames = pre ++ m :: post ∧
        (∀ p ∈ pre, Refuses (get p norm)) ∧ (get m norm).err ≠ none ∧ ¬ Refuses (get m norm) ∧
        e = (if (get m norm).err = some .notSupported then .error else ((get m norm).err.getD .error)) ∧
        (getPropCpus i P get cpus mnames).yields = (get m norm).yields.map (fun p => ⟨p.1, p.2, m⟩) := by
  revert h
  unfold getPropCpus
  cases hm : normalizeMnames P mnames true with
  | error e =>
    intro _
    refine .inl ⟨rfl, .inr (.inl ?_)⟩
    unfold normalizeMnames at hm
    cases mnames with
    | none => cases hm
    | some l =>
      have hv : ¬ validateMnames P true l = .ok () := by
        intro hv; simp only [hv] at hm; cases hm
      rw [validateMnames_ok] at hv
      have : ∃ m ∈ l, m ∉ P.mnames := by
        refine Classical.byContradiction fun hc => hv fun m hml => ⟨?_, .inl rfl⟩
        exact Classical.byContradiction fun h => hc ⟨m, hml, h⟩
      cases l with
      | nil => obtain ⟨m, hm, _⟩ := this; cases hm
      | cons => exact this
  | ok ms =>
    have hne : orDefault P ms ≠ [] := by
      rcases normalizeMnames_ok hm with e | ⟨e, _⟩
      · rw [e]
        intro h0
        have : ∀ x, x ∉ asked P mnames := fun x hx => by
          have := (mem_pyDedup (l := asked P mnames)).2 hx; rw [h0] at this; cases this
        cases mnames with
        | none => exact hP (List.eq_nil_iff_forall_not_mem.2 this)
        | some l => cases l with
          | nil => exact hP (List.eq_nil_iff_forall_not_mem.2 this)
          | cons a l => exact this a (List.mem_cons_self ..)
      · rw [e]; exact hP
    cases hn : normalizeCpus i cpus false with
    | error e =>
      intro _
      refine .inl ⟨rfl, .inl ?_⟩
      rcases C21_normalize_cpus i false cpus with ⟨_, r, hr, _⟩ | ⟨hc, _⟩
      · rw [hn] at hr; cases hr
      · simpa using hc
    | ok norm =>
      dsimp only
      by_cases he : norm.isEmpty = true
      · rw [if_pos he]; intro h; cases h
      rw [if_neg he]
      cases hs : P.sname with
      | none =>
        dsimp only
        cases hl : ms.getLast? with
        | none =>
          intro _
          have hms : ms = [] := List.getLast?_eq_none_iff.1 hl
          subst hms
          unfold normalizeMnames at hm
          cases mnames with
          | none => injection hm with hm; exact absurd hm hP
          | some l =>
            cases l with
            | nil => exact .inl ⟨rfl, .inr (.inr ⟨rfl, rfl⟩)⟩
            | cons a l =>
              cases hv : validateMnames P true (a :: l) with
              | error e => simp only [hv] at hm; cases hm
              | ok u => simp only [hv] at hm; injection hm with hm; simp [pyDedup, dedupAux] at hm
        | some last => intro h; cases h
      | some sn =>
        dsimp only
        unfold getPvinfo
        cases hl : (orDefault P ms).getLast? with
        | none => exact absurd (List.getLast?_eq_none_iff.1 hl) hne
        | some last =>
          dsimp only
          intro h
          rcases getLoop_spec (fun m => get m norm) norm last (orDefault P ms) with
            ⟨h1, h2⟩ | ⟨pre, m, post, h1, h2, h3, h4, h5⟩
          · rw [h2] at h; cases h
          · have : ∃ pre' post', asked P mnames = pre' ++ m :: post' ∧
                  ∀ p ∈ pre', Refuses (get p norm) := by
              rcases normalizeMnames_ok hm with e | ⟨e, e2⟩
              · exact first_of_dedup (Q := fun p => Refuses (get p norm)) (e.symm.trans h1) h2 h3
                  (by simp)
              · exact ⟨pre, post, by rw [e2, ← e, h1], h2⟩
            obtain ⟨pre', post', e1, hp⟩ := this
            rw [h5] at h
            cases herr : (get m norm).err with
            | none => simp [herr] at h
            | some e' =>
              simp only [herr, Option.map_some, Option.some.injEq] at h
              refine .inr ⟨by simp, norm, pre', m, post', rfl, e1, hp, by simp [herr], h3, ?_, h4⟩
              simp [herr, ← h]

/-- A machine with a working and a broken mechanism. -/
def exGet (m : Mech) (cpus : List Nat) : Gen (Nat × Option Nat) :=
  match m with
  | .sysfs => ⟨[], some .notSupported⟩
  | .msr => ⟨cpus.map (fun c => (c, some (c * 10))), none⟩
  | _ => ⟨(cpus.take 1).map (fun c => (c, some 1)), some .notSupported⟩

example : (∀ m l, m ≠ .cppc → m ≠ .doc → m ≠ .cdev → (exGet m l).err = none →
      (exGet m l).yields.map Prod.fst = l) ∧
    getPropCpus exInfo ⟨[.sysfs, .msr], some (.lvl .CPU), .lvl .CPU, true⟩ exGet (.nums [3, 0, 3]) none =
      ⟨[⟨3, some 30, .msr⟩, ⟨0, some 0, .msr⟩], none⟩ ∧
    getPropCpus exInfo ⟨[.sysfs, .msr], some (.lvl .CPU), .lvl .CPU, true⟩ exGet (.nums [3, 0])
      (some [.sysfs]) = ⟨[⟨3, none, .sysfs⟩, ⟨0, none, .sysfs⟩], none⟩ ∧
    getPropCpus exInfo ⟨[.cppc, .msr], some (.lvl .CPU), .lvl .CPU, true⟩ exGet (.nums [3, 0]) none =
      ⟨[⟨3, some 1, .cppc⟩], some .error⟩ :=
  ⟨by intro m l h1 h2 h3; cases m <;> simp_all [exGet, Function.comp_def], by decide +kernel,
    by decide +kernel, by decide +kernel⟩

example : Complete exGet := by
  intro m l
  cases m <;> simp [exGet, Function.comp_def]

/-! ### C27 -/

theorem setLoop_spec (set : Mech → σ → σ × Except Exn Unit) (ms : List Mech) (tried : Bool)
    (hne : tried = true ∨ ms ≠ []) (s : σ) :
    (∃ pre m post s1 s2, ms = pre ++ m :: post ∧ Refused set pre s s1 ∧ set m s1 = (s2, .ok ()) ∧
      setLoop set ms tried s = (s2, .ok m)) ∨
    (∃ pre m post s1 s2 e, ms = pre ++ m :: post ∧ Refused set pre s s1 ∧ set m s1 = (s2, .error e) ∧
      ¬ (e = .notSupported ∨ e = .tryAnother ∨ e = .freqRange) ∧
      setLoop set ms tried s = (s2, .error e)) ∨
    (∃ s2, Refused set ms s s2 ∧ setLoop set ms tried s = (s2, .error .notSupported)) := by
  induction ms generalizing tried s with
  | nil =>
    have : tried = true := hne.resolve_right (by simp)
    exact .inr (.inr ⟨s, .nil s, by rw [setLoop, this]; rfl⟩)
  | cons m ms ih =>
    rw [setLoop]
    cases hr : set m s with
    | mk s1 r =>
      cases r with
      | ok u => exact .inl ⟨[], m, ms, s, s1, rfl, .nil s, hr, rfl⟩
      | error e =>
        dsimp only
        by_cases he : e = .notSupported ∨ e = .tryAnother ∨ e = .freqRange
        · rw [if_pos (exn_skip.2 he)]
          rcases ih true (.inl rfl) s1 with ⟨pre, m', post, t1, t2, h1, h2, h3, h4⟩ |
            ⟨pre, m', post, t1, t2, e', h1, h2, h3, h4, h5⟩ | ⟨t2, h1, h2⟩
          · exact .inl ⟨m :: pre, m', post, t1, t2, by rw [h1]; rfl, .cons hr he h2, h3, h4⟩
          · exact .inr (.inl ⟨m :: pre, m', post, t1, t2, e', by rw [h1]; rfl, .cons hr he h2, h3, h4, h5⟩)
          · exact .inr (.inr ⟨t2, .cons hr he h1, h2⟩)
        · rw [if_neg (fun h => he (exn_skip.1 h))]
          exact .inr (.inl ⟨[], m, ms, s, s1, e, rfl, .nil s, hr, he, rfl⟩)

theorem normalizeMnames_toTry {P : PropDesc} {ro : Bool} {mn : Option (List Mech)} {ms : List Mech}
    (h : normalizeMnames P mn ro = .ok ms) : orDefault P ms = toTry P mn := by
  unfold normalizeMnames at h
  cases mn with
  | none =>
    cases h
    unfold orDefault toTry; split <;> rfl
  | some l =>
    cases hv : validateMnames P ro l with
    | error e => simp only [hv] at h; cases h
    | ok u =>
      simp only [hv] at h; cases h
      cases l with
      | nil => rfl
      | cons a l => unfold orDefault; rw [if_neg]; rfl; simp [pyDedup, dedupAux]

theorem toTry_ne {P : PropDesc} (hP : P.mnames ≠ []) (mn : Option (List Mech)) : toTry P mn ≠ [] := by
  cases mn with
  | none => exact hP
  | some l => cases l with
    | nil => exact hP
    | cons => simp [toTry, pyDedup, dedupAux]

/-- What has to hold before any mechanism is tried: valid mechanisms, a writable property, a good value,
available CPUs, a supported scope which the CPUs match. -/
def Admissible (i : Info) (P : PropDesc) (norm : V → Except Exn V) (val : Option V) (cpus : Nums)
    (mnames : Option (List Mech)) (v : V) (l : List Nat) : Prop :=
  (∀ ml, mnames = some ml → ∀ m ∈ ml, m ∈ P.mnames ∧ m.writable = true) ∧
  P.writable = true ∧ (∃ v0, val = some v0 ∧ norm v0 = .ok v) ∧
  normalizeCpus i cpus false = .ok l ∧ l ≠ [] ∧
  ∃ sn, P.sname = some sn ∧ validateCpusVsScope i sn l = .ok ()

theorem setPropCpus_cases (i : Info) (P : PropDesc) (norm : V → Except Exn V)
    (set : Mech → V → List Nat → σ → σ × Except Exn Unit) (val : Option V) (cpus : Nums)
    (mnames : Option (List Mech)) (s : σ) :
    (∃ v l, Admissible i P norm val cpus mnames v l ∧ setPropCpus i P norm set val cpus mnames s =
      setLoop (fun m => set m v l) (toTry P mnames) false s) ∨
    ((¬ ∃ v l, Admissible i P norm val cpus mnames v l) ∧
      ∃ e, setPropCpus i P norm set val cpus mnames s = (s, .error e)) := by
  unfold setPropCpus
  cases hm : normalizeMnames P mnames false with
  | error e =>
    refine .inr ⟨?_, e, rfl⟩
    rintro ⟨v, l, ⟨h, _⟩⟩
    cases mnames with
    | none => simp [normalizeMnames] at hm
    | some ml =>
      have : validateMnames P false ml = .ok () :=
        validateMnames_ok.2 (fun m hml => ⟨(h ml rfl m hml).1, .inr (h ml rfl m hml).2⟩)
      simp [normalizeMnames, this] at hm
  | ok ms =>
    have hmn : ∀ ml, mnames = some ml → ∀ m ∈ ml, m ∈ P.mnames ∧ m.writable = true := by
      rintro ml rfl m hml
      cases hv : validateMnames P false ml with
      | error e => simp [normalizeMnames, hv] at hm
      | ok u =>
        have := validateMnames_ok.1 hv m hml
        exact ⟨this.1, this.2.resolve_left (by simp)⟩
    cases hv : normalizeInprop P norm val with
    | error e =>
      refine .inr ⟨?_, e, rfl⟩
      rintro ⟨v, l, -, h1, ⟨v0, rfl, h2⟩, _⟩
      simp [normalizeInprop, h1, h2] at hv
    | ok v =>
      have hval : P.writable = true ∧ ∃ v0, val = some v0 ∧ norm v0 = .ok v := by
        cases val with
        | none => cases hv
        | some v0 =>
          unfold normalizeInprop at hv
          dsimp only at hv
          split at hv
          · cases hv
          · rename_i hw
            exact ⟨by simpa using hw, v0, rfl, hv⟩
      cases hc : normalizeCpus i cpus false with
      | error e =>
        refine .inr ⟨?_, e, rfl⟩
        rintro ⟨v, l, -, -, -, h, _⟩
        cases h.symm.trans hc
      | ok l =>
        dsimp only
        by_cases hl : l.isEmpty = true
        · rw [if_pos hl]
          refine .inr ⟨?_, _, rfl⟩
          rintro ⟨v, l', -, -, -, h, hne, _⟩
          cases h.symm.trans hc
          exact hne (by simpa using hl)
        · rw [if_neg hl]
          cases hs : P.sname with
          | none =>
            refine .inr ⟨?_, _, rfl⟩
            rintro ⟨v, l', -, -, -, -, -, sn, h, _⟩
            rw [hs] at h; cases h
          | some sn =>
            dsimp only
            cases hvs : validateCpusVsScope i sn l with
            | error e =>
              refine .inr ⟨?_, e, rfl⟩
              rintro ⟨v, l', -, -, -, h, -, sn', h1, h2⟩
              cases h.symm.trans hc
              rw [hs] at h1; cases h1
              cases h2.symm.trans hvs
            | ok u =>
              refine .inl ⟨v, l, ⟨hmn, hval.1, hval.2, hc, ?_, sn, hs, hvs⟩, ?_⟩
              · intro h0; subst h0; exact hl rfl
              · dsimp only [setMnames]
                rw [normalizeMnames_toTry hm]

/-- **C27.** `set_prop_cpus()` returns `m` exactly when `m` is the first mechanism that accepted the
request, all the mechanisms before it having refused it; nothing happens after that. A mechanism failing
for another reason stops it with that error; if all refuse, the result is "not supported"; bad arguments
are refused before any mechanism is tried. -/
theorem C27_set_prop_cpus (i : Info) (P : PropDesc) (norm : V → Except Exn V)
    (set : Mech → V → List Nat → σ → σ × Except Exn Unit) (val : Option V) (cpus : Nums)
    (mnames : Option (List Mech)) (s s' : σ) (r : Except Exn Mech) (hP : P.mnames ≠ [])
    (h : setPropCpus i P norm set val cpus mnames s = (s', r)) :
    (∃ v l, Admissible i P norm val cpus mnames v l ∧
      ((∃ pre m post s1, toTry P mnames = pre ++ m :: post ∧ Refused (fun m => set m v l) pre s s1 ∧
          set m v l s1 = (s', .ok ()) ∧ r = .ok m) ∨
        (∃ pre m post s1 e, toTry P mnames = pre ++ m :: post ∧
          Refused (fun m => set m v l) pre s s1 ∧ set m v l s1 = (s', .error e) ∧
          ¬ (e = .notSupported ∨ e = .tryAnother ∨ e = .freqRange) ∧ r = .error e) ∨
        (Refused (fun m => set m v l) (toTry P mnames) s s' ∧ r = .error .notSupported))) ∨
    ((¬ ∃ v l, Admissible i P norm val cpus mnames v l) ∧ s' = s ∧ ∃ e, r = .error e) := by
  rcases setPropCpus_cases i P norm set val cpus mnames s with ⟨v, l, ha, he⟩ | ⟨hna, e, he⟩
  · refine .inl ⟨v, l, ha, ?_⟩
    rw [he] at h
    rcases setLoop_spec (fun m => set m v l) (toTry P mnames) false (.inr (toTry_ne hP mnames)) s with
      ⟨pre, m, post, s1, s2, h1, h2, h3, h4⟩ | ⟨pre, m, post, s1, s2, e, h1, h2, h3, h4, h5⟩ | ⟨s2, h1, h2⟩
    · rw [h4] at h; cases h
      exact .inl ⟨pre, m, post, s1, h1, h2, h3, rfl⟩
    · rw [h5] at h; cases h
      exact .inr (.inl ⟨pre, m, post, s1, e, h1, h2, h3, h4, rfl⟩)
    · rw [h2] at h; cases h
      exact .inr (.inr ⟨h1, rfl⟩)
  · rw [he] at h; cases h
    exact .inr ⟨hna, rfl, e, rfl⟩

/-- A backend recording the calls; "sysfs" wants another mechanism to be used. -/
def exSet (m : Mech) (v : Nat) (cpus : List Nat) (log : List (Mech × Nat × List Nat)) :
    List (Mech × Nat × List Nat) × Except Exn Unit :=
  (log ++ [(m, v, cpus)], if m = .sysfs then .error .tryAnother else .ok ())

example : setPropCpus exInfo ⟨[.sysfs, .msr], some (.lvl .core), .lvl .core, true⟩ .ok exSet (some 7)
      (.nums [4, 0]) none [] = ([(.sysfs, 7, [4, 0]), (.msr, 7, [4, 0])], .ok .msr) ∧
    setPropCpus exInfo ⟨[.sysfs, .msr], some (.lvl .core), .lvl .core, true⟩ .ok exSet (some 7)
      (.nums [4, 0]) (some [.sysfs]) [] = ([(.sysfs, 7, [4, 0])], .error .notSupported) ∧
    setPropCpus exInfo ⟨[.sysfs, .cppc], some (.lvl .core), .lvl .core, true⟩ .ok exSet (some 7)
      (.nums [4, 0]) (some [.cppc]) [] = ([], .error .error) ∧
    setPropCpus exInfo ⟨[.sysfs, .msr], some (.lvl .core), .lvl .core, true⟩ .ok exSet (some 7)
      (.nums [4]) none [] = ([], .error .error) :=
  ⟨by decide +kernel, by decide +kernel, by decide +kernel, by decide +kernel⟩

/-! ### C29 -/

/-- The "divide" functions leave nothing exactly when the CPUs are entire units. -/
theorem rem_nil_iff {β : Type} (i : Info) (wf : WF i) (sn : Scope) (cpus : List Nat)
    (hon : ∀ c ∈ cpus, c ∈ i.online) (key : TLine → β) (In : β → TLine → Prop)
    (hIn : ∀ b t, In b t ↔ key t = b) (hid : ∀ t t', ident sn t = ident sn t' ↔ key t = key t')
    (units : List β) (rem : List Nat)
    (hu1 : ∀ b ∈ units, ∀ c, CpuWith i (In b) c → c ∈ cpus)
    (hu2 : ∀ b, (∃ c, CpuWith i (In b) c) → (∀ c, CpuWith i (In b) c → c ∈ cpus) → b ∈ units)
    (hr : ∀ c, c ∈ rem ↔ c ∈ cpus ∧ ∀ b ∈ units, ¬ CpuWith i (In b) c) :
    rem = [] ↔ Whole i sn cpus := by
  rw [List.eq_nil_iff_forall_not_mem]
  constructor
  · intro h c hc d ⟨tc, htc, td, htd, h1, h2, h3, h4, h5⟩
    have := h c
    rw [hr] at this
    have : ∃ b ∈ units, CpuWith i (In b) c := Classical.byContradiction fun hn =>
      this ⟨hc, fun b hb hw => hn ⟨b, hb, hw⟩⟩
    obtain ⟨b, hb, -, t, ht, htcpu, hin⟩ := this
    have e : t = tc := wf.unique t ht tc htc (by rw [htcpu, h1]) (by rw [htcpu]; exact h3)
    subst e
    refine hu1 b hb d ⟨h4, td, htd, h2, ?_⟩
    rw [hIn] at hin ⊢
    rw [← hin]
    exact ((hid _ _).1 h5).symm
  · intro hw c hc
    rw [hr] at hc
    obtain ⟨hcn, t, ht, rfl⟩ := (wf.online c).1 (hon c hc.1)
    refine hc.2 (key t) (hu2 _ ⟨t.cpu, hcn, t, ht, rfl, (hIn _ _).2 rfl⟩ ?_)
      ⟨hcn, t, ht, rfl, (hIn _ _).2 rfl⟩
    rintro d ⟨hdn, td, htd, rfl, hin⟩
    refine hw _ hc.1 _ ⟨t, ht, td, htd, rfl, rfl, hcn, hdn, ?_⟩
    rw [hid]
    exact ((hIn _ _).1 hin).symm

/-- A property of a scope the code supports: the CPU list is accepted exactly when it consists of entire
units. -/
theorem validate_iff (i : Info) (wf : WF i) (sn : Scope) (cpus : List Nat) (hne : cpus ≠ [])
    (hon : ∀ c ∈ cpus, c ∈ i.online) (hsn : sn ≠ .lvl .module ∧ sn ≠ .lvl .node) :
    (validateCpusVsScope i sn cpus = .ok () ∧ Whole i sn cpus) ∨
    (validateCpusVsScope i sn cpus = .error .error ∧ ¬ Whole i sn cpus) := by
  have hpres : ∀ c, Requested i true (.nums cpus) c → c ∈ i.present := fun c hc =>
    wf.present c (hon c hc)
  have fin : ∀ (rem : List Nat) (r : Except Exn Unit), (rem = [] ↔ Whole i sn cpus) →
      r = (if rem.isEmpty then .ok () else .error .error) →
      (r = .ok () ∧ Whole i sn cpus) ∨ (r = .error .error ∧ ¬ Whole i sn cpus) := by
    intro rem r h hr
    cases rem with
    | nil => exact .inl ⟨hr, h.1 rfl⟩
    | cons a l => exact .inr ⟨hr, fun hw => by cases h.2 hw⟩
  match sn, hsn, fin with
  | .lvl .CPU, _, _ =>
    refine .inl ⟨rfl, ?_⟩
    rintro c hc d ⟨tc, htc, td, htd, rfl, rfl, -, -, h⟩
    simp only [ident, List.cons.injEq, and_true] at h
    rw [← h]; exact hc
  | .global, _, _ =>
    unfold validateCpusVsScope getCpus
    dsimp only
    by_cases h : ∀ c ∈ i.online, c ∈ cpus
    · refine .inl ⟨?_, ?_⟩
      · rw [if_pos]
        rw [List.all_eq_true]
        intro c hc
        rw [mem_sortNat, mem_pyDedup] at hc
        exact List.contains_iff_mem.2 (h c hc)
      · rintro c hc d ⟨tc, htc, td, htd, -, h2, -, h4, -⟩
        exact h d ((wf.online d).2 ⟨h4, td, htd, h2⟩)
    · refine .inr ⟨?_, ?_⟩
      · rw [if_neg]
        intro ha
        rw [List.all_eq_true] at ha
        exact h fun c hc => List.contains_iff_mem.1 (ha c (by rw [mem_sortNat, mem_pyDedup]; exact hc))
      · intro hw
        obtain ⟨c, hc⟩ := List.exists_mem_of_ne_nil cpus hne
        obtain ⟨hcn, t, ht, rfl⟩ := (wf.online c).1 (hon c hc)
        refine h fun d hd => ?_
        obtain ⟨hdn, t', ht', rfl⟩ := (wf.online d).1 hd
        exact hw _ hc _ ⟨t, ht, t', ht', rfl, rfl, hcn, hdn, rfl⟩
  | .lvl .package, _, fin =>
    obtain ⟨pkgs, rem, norm, h1, -, -, -, -, h2, h3⟩ := C16_cpus_div_packages i wf (.nums cpus) .all hpres
      (by rintro l ⟨⟩)
    refine fin rem _ ?_ (by unfold validateCpusVsScope; rw [h1])
    refine rem_nil_iff i wf _ cpus hon (·.package) InPackage (fun _ _ => Iff.rfl)
      (by intro t t'; simp [ident]) pkgs rem (fun p hp => ((h2 p).1 hp).2) ?_ h3
    rintro p ⟨c, hcn, t, ht, rfl, hin⟩ h
    rw [h2]
    refine ⟨⟨?_, ⟨t, ht, hin⟩, trivial⟩, h⟩
    rw [← (hin : t.package = p)]
    exact (wf.cpuLine t ht hcn).2.2.2.2
  | .lvl .die, _, fin =>
    obtain ⟨units, rem, norm, h1, -, -, -, -, h2, h3⟩ := C17_cpus_div_dies i wf (.nums cpus) hpres
    refine fin rem _ ?_ (by unfold validateCpusVsScope; rw [h1])
    exact rem_nil_iff i wf _ cpus hon (fun t => (t.package, t.die)) (fun b => InUnit .die b.1 b.2)
      (by rintro ⟨p, d⟩ t; simp [InUnit, TLine.get]) (by intro t t'; simp [ident]) units rem
      (fun b hb => ((h2 b.1 b.2).1 hb).2) (fun b h1 h4 => (h2 b.1 b.2).2 ⟨h1, h4⟩) h3
  | .lvl .core, _, fin =>
    obtain ⟨units, rem, norm, h1, -, -, -, -, h2, h3⟩ := C18_cpus_div_cores i wf (.nums cpus) hpres
    refine fin rem _ ?_ (by unfold validateCpusVsScope; rw [h1])
    exact rem_nil_iff i wf _ cpus hon (fun t => (t.package, t.core)) (fun b => InUnit .core b.1 b.2)
      (by rintro ⟨p, d⟩ t; simp [InUnit, TLine.get]) (by intro t t'; simp [ident]) units rem
      (fun b hb => ((h2 b.1 b.2).1 hb).2) (fun b h1 h4 => (h2 b.1 b.2).2 ⟨h1, h4⟩) h3
  | .lvl .module, h, _ => exact absurd rfl h.1
  | .lvl .node, h, _ => exact absurd rfl h.2

/-- **C29.** A request whose CPUs are not a union of entire units of the scope of the property is refused
and nothing is written; otherwise (the other arguments being good) the mechanisms are tried. For the
global scope "a union of entire units" means all online CPUs. -/
theorem C29_scope (i : Info) (wf : WF i) (P : PropDesc) (norm : V → Except Exn V)
    (set : Mech → V → List Nat → σ → σ × Except Exn Unit) (val : Option V) (cpus : Nums)
    (mnames : Option (List Mech)) (s : σ) (sn : Scope) (l : List Nat) (hs : P.sname = some sn)
    (hsn : sn ≠ .lvl .module ∧ sn ≠ .lvl .node) (hl : normalizeCpus i cpus false = .ok l)
    (hne : l ≠ []) :
    (¬ Whole i sn l → ∃ e, setPropCpus i P norm set val cpus mnames s = (s, .error e)) ∧
    (∀ v0 v, val = some v0 → norm v0 = .ok v → P.writable = true →
      (∀ ml, mnames = some ml → ∀ m ∈ ml, m ∈ P.mnames ∧ m.writable = true) →
      (Whole i sn l → setPropCpus i P norm set val cpus mnames s =
        setLoop (fun m => set m v l) (toTry P mnames) false s) ∧
      (¬ Whole i sn l → setPropCpus i P norm set val cpus mnames s = (s, .error .error))) := by
  have hon : ∀ c ∈ l, c ∈ i.online := by
    have := (normalizeCpus_ok hl).2.2; simpa using this
  refine ⟨fun hw => ?_, fun v0 v hv hn hwr hm => ⟨fun hw => ?_, fun hw => ?_⟩⟩
  · rcases setPropCpus_cases i P norm set val cpus mnames s with ⟨v, l', ha, he⟩ | ⟨hna, e, he⟩
    · exfalso
      obtain ⟨-, -, -, h1, h2, sn', h3, h4⟩ := ha
      rw [hl] at h1; cases h1
      rw [hs] at h3; cases h3
      rcases validate_iff i wf sn l hne hon hsn with ⟨-, h⟩ | ⟨h, -⟩
      · exact hw h
      · rw [h] at h4; cases h4
    · exact ⟨e, he⟩
  · have ha : Admissible i P norm val cpus mnames v l := by
      refine ⟨hm, hwr, ⟨v0, hv, hn⟩, hl, hne, sn, hs, ?_⟩
      rcases validate_iff i wf sn l hne hon hsn with ⟨h, -⟩ | ⟨-, h⟩
      · exact h
      · exact absurd hw h
    rcases setPropCpus_cases i P norm set val cpus mnames s with ⟨v', l', ha', he⟩ | ⟨hna, -⟩
    · obtain ⟨-, -, ⟨v1, h1, h2⟩, h3, -⟩ := ha'
      rw [hl] at h3; cases h3
      rw [hv] at h1; cases h1
      rw [hn] at h2; cases h2
      exact he
    · exact absurd ⟨v, l, ha⟩ hna
  · rcases validate_iff i wf sn l hne hon hsn with ⟨-, h⟩ | ⟨h, -⟩
    · exact absurd h hw
    have h1 : normalizeMnames P mnames false = .ok (match mnames with | none => P.mnames | some l => pyDedup l) := by
      cases mnames with
      | none => rfl
      | some ml =>
        have : validateMnames P false ml = .ok () :=
          validateMnames_ok.2 (fun m hml => ⟨(hm ml rfl m hml).1, .inr (hm ml rfl m hml).2⟩)
        simp [normalizeMnames, this]
    have h2 : normalizeInprop P norm val = .ok v := by simp [normalizeInprop, hv, hn, hwr]
    have h3 : l.isEmpty = false := by cases l with | nil => exact absurd rfl hne | cons => rfl
    unfold setPropCpus
    rw [h1]; dsimp only
    rw [h2]; dsimp only
    rw [hl]; dsimp only
    rw [h3, hs]; simp only [h]
    rfl

/-- **C29** (other scopes): no property with module or node scope can be set per CPU. -/
theorem C29_scope_unsupported (i : Info) (P : PropDesc) (norm : V → Except Exn V)
    (set : Mech → V → List Nat → σ → σ × Except Exn Unit) (val : Option V) (cpus : Nums)
    (mnames : Option (List Mech)) (s : σ)
    (hs : P.sname = some (.lvl .module) ∨ P.sname = some (.lvl .node)) :
    ∃ e, setPropCpus i P norm set val cpus mnames s = (s, .error e) := by
  rcases setPropCpus_cases i P norm set val cpus mnames s with ⟨v, l', ha, he⟩ | ⟨hna, e, he⟩
  · obtain ⟨-, -, -, -, -, sn, h3, h4⟩ := ha
    rcases hs with hs | hs <;> rw [hs] at h3 <;> cases h3 <;> cases h4
  · exact ⟨e, he⟩

example : Whole exInfo (.lvl .core) [4, 0] ∧ ¬ Whole exInfo (.lvl .package) [4, 0] := by
  constructor
  · rcases validate_iff exInfo exInfo_wf (.lvl .core) [4, 0] (by simp) (by decide) (by simp) with h | h
    · exact h.2
    · exact absurd h.1 (by decide +kernel)
  · rcases validate_iff exInfo exInfo_wf (.lvl .package) [4, 0] (by simp) (by decide) (by simp) with h | h
    · exact absurd h.1 (by decide +kernel)
    · exact h.2

/-! ### C28 -/

theorem sameUnit_refl {i : Info} (wf : WF i) {c : Nat} (hc : c ∈ i.online) (s : Scope) : SameUnit i s c c := by
  obtain ⟨hcn, t, ht, rfl⟩ := (wf.online c).1 hc
  exact ⟨t, ht, t, ht, rfl, rfl, hcn, hcn, rfl⟩

theorem sameUnit_symm {i : Info} {s : Scope} {c d : Nat} (h : SameUnit i s c d) : SameUnit i s d c := by
  obtain ⟨tc, htc, td, htd, h1, h2, h3, h4, h5⟩ := h
  exact ⟨td, htd, tc, htc, h2, h1, h4, h3, h5.symm⟩

theorem sameUnit_trans {i : Info} (wf : WF i) {s : Scope} {c d e : Nat} (h : SameUnit i s c d)
    (h' : SameUnit i s d e) : SameUnit i s c e := by
  obtain ⟨tc, htc, td, htd, h1, h2, h3, h4, h5⟩ := h
  obtain ⟨td', htd', te, hte, h1', h2', h3', h4', h5'⟩ := h'
  have : td = td' := wf.unique td htd td' htd' (by rw [h2, h1']) (by rw [h2]; exact h4)
  subst this
  exact ⟨tc, htc, te, hte, h1, h2', h3, h4', h5.trans h5'⟩

theorem sameUnit_online {i : Info} (wf : WF i) {s : Scope} {c d : Nat} (h : SameUnit i s c d) : d ∈ i.online := by
  obtain ⟨tc, htc, td, htd, h1, h2, h3, h4, h5⟩ := h
  exact (wf.online d).2 ⟨h4, td, htd, h2⟩

/-- `c` is the lowest CPU of its unit. -/
def First (i : Info) (s : Scope) (c : Nat) : Prop := ∀ d, SameUnit i s c d → c ≤ d

theorem siblings_first {i : Info} (wf : WF i) {c : Nat} (hc : c ∈ i.online) (s : Scope) :
    ∃ f rest, getCpuSiblings i c s = .ok (f :: rest) ∧ SameUnit i s c f ∧ First i s f ∧
      ∀ x ∈ rest, SameUnit i s c x := by
  obtain ⟨l, h1, h2, h3⟩ := C15_siblings_exact i wf c hc s
  cases l with
  | nil => exact absurd ((h3 c).2 (sameUnit_refl wf hc s)) (by simp)
  | cons f rest =>
    have hf : SameUnit i s c f := (h3 f).1 (by simp)
    refine ⟨f, rest, h1, hf, ?_, fun x hx => (h3 x).1 (by simp [hx])⟩
    intro d hd
    have := (h3 d).2 (sameUnit_trans wf hf hd)
    rcases List.mem_cons.1 this with rfl | hm
    · exact Nat.le_refl _
    · exact Nat.le_of_lt ((List.pairwise_cons.1 h2).1 d hm)

theorem first_unique {i : Info} {s : Scope} {c d : Nat} (hc : First i s c) (hd : First i s d)
    (h : SameUnit i s c d) : c = d := Nat.le_antisymm (hc d h) (hd c (sameUnit_symm h))

theorem reduceLoop_spec {i : Info} (wf : WF i) (s : Scope) (cpus : List Nat)
    (hon : ∀ c ∈ cpus, c ∈ i.online) (handled reduced : List Nat)
    (hh : ∀ x ∈ handled, ∃ f ∈ reduced, SameUnit i s x f) (hr : ∀ f ∈ reduced, First i s f) :
    ∃ r, reduceLoop i s cpus handled reduced = .ok r ∧ (∀ f ∈ r, First i s f) ∧
      (∀ f ∈ reduced, f ∈ r) ∧ ∀ c ∈ cpus, ∃ f ∈ r, SameUnit i s c f := by
  induction cpus generalizing handled reduced with
  | nil => exact ⟨reduced, rfl, hr, fun _ h => h, by simp⟩
  | cons c cpus ih =>
    rw [reduceLoop]
    by_cases hc : handled.contains c = true
    · rw [if_pos hc]
      obtain ⟨r, h1, h2, h3, h4⟩ := ih (fun x hx => hon x (by simp [hx])) handled reduced hh hr
      refine ⟨r, h1, h2, h3, ?_⟩
      intro x hx
      rcases List.mem_cons.1 hx with rfl | hx
      · obtain ⟨f, hf, hs⟩ := hh _ (List.contains_iff_mem.1 hc)
        exact ⟨f, h3 f hf, hs⟩
      · exact h4 x hx
    · rw [if_neg hc]
      obtain ⟨f, rest, hs, hcf, hf, hrest⟩ := siblings_first wf (hon c (by simp)) s
      rw [hs]; dsimp only
      obtain ⟨r, h1, h2, h3, h4⟩ := ih (fun x hx => hon x (by simp [hx])) (handled ++ rest)
        (reduced ++ [f]) (by
          intro x hx
          rcases List.mem_append.1 hx with hx | hx
          · obtain ⟨f', h1, h2⟩ := hh x hx
            exact ⟨f', List.mem_append_left _ h1, h2⟩
          · exact ⟨f, by simp, sameUnit_trans wf (sameUnit_symm (hrest x hx)) hcf⟩) (by
          intro x hx
          rcases List.mem_append.1 hx with hx | hx
          · exact hr x hx
          · rw [List.mem_singleton] at hx; rw [hx]; exact hf)
      refine ⟨r, h1, h2, fun x hx => h3 x (List.mem_append_left _ hx), ?_⟩
      intro x hx
      rcases List.mem_cons.1 hx with rfl | hx
      · exact ⟨f, h3 f (by simp), hcf⟩
      · exact h4 x hx

/-- What the reduction really does: it keeps the CPUs of the target which are the lowest ones in their
I/O scope unit. -/
theorem reduce_exact (i : Info) (wf : WF i) (cpus : List Nat) (s : Scope)
    (hon : ∀ c ∈ cpus, c ∈ i.online) :
    ∃ r, reduceCpusIoscope i cpus s = .ok r ∧ r.Sublist cpus ∧
      ∀ c, c ∈ r ↔ c ∈ cpus ∧ First i s c := by
  unfold reduceCpusIoscope
  by_cases hs : s = .lvl .CPU
  · rw [if_pos hs]
    refine ⟨cpus, rfl, List.Sublist.refl _, fun c => ⟨fun hc => ⟨hc, ?_⟩, fun h => h.1⟩⟩
    subst hs
    rintro d ⟨tc, htc, td, htd, rfl, rfl, -, -, h⟩
    simp only [ident, List.cons.injEq, and_true] at h
    exact Nat.le_of_eq h
  · rw [if_neg hs]
    obtain ⟨r, h1, h2, -, h4⟩ := reduceLoop_spec wf s cpus hon [] [] (by simp) (by simp)
    rw [h1]
    refine ⟨_, rfl, List.filter_sublist, fun c => ?_⟩
    rw [List.mem_filter, List.contains_iff_mem]
    refine and_congr_right fun hc => ⟨fun h => h2 c h, fun h => ?_⟩
    obtain ⟨f, hf, hsu⟩ := h4 c hc
    rw [first_unique h (h2 f hf) hsu]; exact hf

/-- **C28** (partial: targets made of entire I/O scope units). The reduced CPU list contains exactly one
CPU of every I/O scope unit of the target, and only CPUs of the target. For a target with a part of a unit
this is false, see `C28_part_of_unit_counterexample`. -/
theorem C28_reduce_partial (i : Info) (wf : WF i) (cpus : List Nat) (s : Scope)
    (hon : ∀ c ∈ cpus, c ∈ i.online) (hnd : cpus.Nodup) (hw : Whole i s cpus) :
    ∃ r, reduceCpusIoscope i cpus s = .ok r ∧ r.Sublist cpus ∧ r.Nodup ∧
      ∀ c ∈ cpus, ∃ d ∈ r, SameUnit i s c d ∧ ∀ e ∈ r, SameUnit i s c e → e = d := by
  obtain ⟨r, h1, h2, h3⟩ := reduce_exact i wf cpus s hon
  refine ⟨r, h1, h2, h2.nodup hnd, fun c hc => ?_⟩
  obtain ⟨f, -, -, hcf, hf, -⟩ := siblings_first wf (hon c hc) s
  refine ⟨f, (h3 f).2 ⟨hw c hc f hcf, hf⟩, hcf, fun e he hce => ?_⟩
  exact first_unique ((h3 e).1 he).2 hf (sameUnit_trans wf (sameUnit_symm hce) hcf)

/-- The reduction loses the units which have only a part in the target: writing on package 1 (CPUs 2, 3,
6, 7) a property with global I/O scope, and on die 1 of package 0 (CPUs 1 and 5) a property with package
I/O scope. Nothing is written, and the caller is told that the mechanism was used. -/
theorem C28_part_of_unit_counterexample :
    reduceCpusIoscope exInfo [2, 3, 6, 7] .global = .ok [] ∧
    setPropPackages exInfo ⟨[.msr], some .global, .global, true⟩ .ok exSet (some 7) [1] none [] =
      ([(.msr, 7, [])], .ok .msr) ∧
    setPropDies exInfo ⟨[.msr], some (.lvl .package), .lvl .package, true⟩ .ok exSet (some 7) [(0, [1])]
      none [] = ([(.msr, 7, [])], .ok .msr) :=
  ⟨by decide +kernel, by decide +kernel, by decide +kernel⟩

/-- Concatenating the CPUs of distinct units. -/
theorem collect_spec {β : Type} {i : Info} (wf : WF i) (In : β → TLine → Prop)
    (hIn : ∀ b b' t, In b t → In b' t → b = b') (coll : List β → Except Exn (List Nat))
    (one : β → Except Exn (List Nat)) (hnil : coll [] = .ok [])
    (hcons : ∀ b bs l r, one b = .ok l → coll bs = .ok r → coll (b :: bs) = .ok (l ++ r))
    (bs : List β) (hnd : bs.Nodup)
    (hone : ∀ b ∈ bs, ∃ l, one b = .ok l ∧ l.Nodup ∧ ∀ c, c ∈ l ↔ CpuWith i (In b) c) :
    ∃ t, coll bs = .ok t ∧ t.Nodup ∧ ∀ c, c ∈ t ↔ ∃ b ∈ bs, CpuWith i (In b) c := by
  induction bs with
  | nil => exact ⟨[], hnil, List.nodup_nil, by simp⟩
  | cons b bs ih =>
    obtain ⟨hb, hbs⟩ := List.nodup_cons.1 hnd
    obtain ⟨l, h1, h2, h3⟩ := hone b (by simp)
    obtain ⟨t, h4, h5, h6⟩ := ih hbs (fun x hx => hone x (by simp [hx]))
    refine ⟨l ++ t, hcons b bs l t h1 h4, ?_, ?_⟩
    · refine List.nodup_append.2 ⟨h2, h5, ?_⟩
      rintro c hc d hd rfl
      obtain ⟨hcn, t1, ht1, e1, hi1⟩ := (h3 c).1 hc
      obtain ⟨b', hb', -, t2, ht2, e2, hi2⟩ := (h6 c).1 hd
      have : t1 = t2 := wf.unique t1 ht1 t2 ht2 (by rw [e1, e2]) (by rw [e1]; exact hcn)
      subst this
      exact hb (hIn _ _ _ hi1 hi2 ▸ hb')
    · intro c
      simp only [List.mem_append, h3, h6, List.mem_cons, exists_eq_or_imp]

/-- One mechanism, called for the CPUs `r`: any refusal becomes "not supported". -/
def oneMech (set : List Nat → σ → σ × Except Exn Unit) (r : List Nat) (s : σ) : σ × Except Exn Unit :=
  match set r s with
  | (s, .ok ()) => (s, .ok ())
  | (s, .error e) =>
    (s, .error (if e = .notSupported ∨ e = .tryAnother ∨ e = .freqRange then
      (if r = [] then .pyIndexError else .notSupported) else e))

theorem setReduced_eq {i : Info} {P : PropDesc} (set : Mech → List Nat → σ → σ × Except Exn Unit)
    {t r : List Nat} (hr : reduceCpusIoscope i t P.iosname = .ok r) (m : Mech) (s : σ) :
    setReduced i P set (.ok t) m s = oneMech (set m) r s := by
  unfold setReduced oneMech
  simp only [hr, setMnames, orDefault, List.isEmpty_cons, Bool.false_eq_true, if_false]
  rw [setLoop]
  cases hset : set m r s with
  | mk s1 res =>
    cases res with
    | ok u => rfl
    | error e =>
      dsimp only
      by_cases he : e = .notSupported ∨ e = .tryAnother ∨ e = .freqRange
      · rw [if_pos (exn_skip.2 he), if_pos he, setLoop]
        cases r <;> rfl
      · rw [if_neg (fun h => he (exn_skip.1 h)), if_neg he]
        have : e.isNotSupported = false := by
          cases h : e.isNotSupported with
          | false => rfl
          | true => exact absurd (.inl (exn_ns.1 h)) he
        simp [this]

/-- The CPUs of a target `T` are reached: `r` has only CPUs of the target, exactly one for every unit of
the scope. -/
def Reaches (i : Info) (s : Scope) (T : Nat → Prop) (r : List Nat) : Prop :=
  r.Nodup ∧ (∀ c ∈ r, T c) ∧
    ∀ c, T c → ∃ d ∈ r, SameUnit i s c d ∧ ∀ e ∈ r, SameUnit i s c e → e = d

theorem normalizeMnames_isOk {P : PropDesc} {mnames : Option (List Mech)}
    (hm : ∀ ml, mnames = some ml → ∀ m ∈ ml, m ∈ P.mnames ∧ m.writable = true) :
    ∃ ms, normalizeMnames P mnames false = .ok ms := by
  cases mnames with
  | none => exact ⟨_, rfl⟩
  | some ml =>
    have : validateMnames P false ml = .ok () :=
      validateMnames_ok.2 (fun m hml => ⟨(hm ml rfl m hml).1, .inr (hm ml rfl m hml).2⟩)
    simp [normalizeMnames, this]

theorem normalizePackages_isOk {i : Info} {l : List Nat}
    (h : ∀ p ∈ l, p ≠ NA ∧ ∃ t ∈ i.topology, t.package = p) :
    normalizePackages i (.nums l) = .ok (pyDedup l) := by
  obtain ⟨a, ha, -, hm⟩ := getPackages_ok i
  unfold normalizePackages
  simp only [ha]
  rw [if_pos]
  rw [List.all_eq_true]
  intro p hp
  exact List.contains_iff_mem.2 ((hm p).2 (h p (mem_pyDedup.1 hp)))

/-- The units of these scopes are within packages. -/
theorem within_package {i : Info} (wf : WF i) {s : Scope}
    (hs : s ∈ [Scope.lvl .CPU, .lvl .core, .lvl .die, .lvl .package]) (c d : Nat)
    (h : SameUnit i s c d) : SameUnit i (.lvl .package) c d := by
  obtain ⟨tc, htc, td, htd, h1, h2, h3, h4, h5⟩ := h
  refine ⟨tc, htc, td, htd, h1, h2, h3, h4, ?_⟩
  simp only [List.mem_cons, List.not_mem_nil, or_false] at hs
  rcases hs with h | h | h | h <;> rw [h] at h5 <;>
    simp only [ident, List.cons.injEq, and_true] at h5 ⊢
  · rw [wf.unique tc htc td htd h5 (by rw [h1]; exact h3)]
  · exact h5.1
  · exact h5.1
  · exact h5

/-- The units of these scopes are within dies. -/
theorem within_die {i : Info} (wf : WF i) {s : Scope} (hs : s ∈ [Scope.lvl .CPU, .lvl .die]) (c d : Nat)
    (h : SameUnit i s c d) : SameUnit i (.lvl .die) c d := by
  obtain ⟨tc, htc, td, htd, h1, h2, h3, h4, h5⟩ := h
  refine ⟨tc, htc, td, htd, h1, h2, h3, h4, ?_⟩
  simp only [List.mem_cons, List.not_mem_nil, or_false] at hs
  rcases hs with h | h <;> rw [h] at h5 <;> simp only [ident, List.cons.injEq, and_true] at h5 ⊢
  · rw [wf.unique tc htc td htd h5 (by rw [h1]; exact h3)]; exact ⟨rfl, rfl⟩
  · exact h5

/-- **C28** (packages; partial: the I/O scope is not wider than the package). Setting a property for
packages makes the mechanisms write, for exactly one CPU of every I/O scope unit of these packages. -/
theorem C28_set_prop_packages_partial (i : Info) (wf : WF i) (P : PropDesc) (norm : V → Except Exn V)
    (set : Mech → V → List Nat → σ → σ × Except Exn Unit) (v0 v : V) (packages : List Nat)
    (mnames : Option (List Mech)) (s : σ)
    (hm : ∀ ml, mnames = some ml → ∀ m ∈ ml, m ∈ P.mnames ∧ m.writable = true)
    (hw : P.writable = true) (hv : norm v0 = .ok v)
    (hp : ∀ p ∈ packages, p ≠ NA ∧ ∃ t ∈ i.topology, t.package = p) (hne : packages ≠ [])
    (hs : P.sname = some (.lvl .package) ∨ P.sname = some .global)
    (hio : ∀ c d, SameUnit i P.iosname c d → SameUnit i (.lvl .package) c d) :
    ∃ r, Reaches i P.iosname (fun c => ∃ p ∈ packages, CpuWith i (InPackage p) c) r ∧
      setPropPackages i P norm set (some v0) packages mnames s =
        setLoop (fun m => oneMech (set m v) r) (toTry P mnames) false s := by
  obtain ⟨ms, hms⟩ := normalizeMnames_isOk hm
  have hnp := normalizePackages_isOk hp
  obtain ⟨t, ht1, ht2, ht3⟩ := collect_spec wf InPackage (fun b b' t h h' => h.symm.trans h')
    (packagesCpus i) (fun p => packagesToCpus i (.nums [p])) rfl (fun b bs l r h1 h2 => by rw [packagesCpus, h1, h2])
    (pyDedup packages) (nodup_pyDedup _) (by
      intro p hpm
      have hpp := hp p (mem_pyDedup.1 hpm)
      obtain ⟨l, hl⟩ := packageToCpus_isOk hpp.1 hpp.2
      exact ⟨l, hl, nodup_getLevelNums hl, mem_packageToCpus hpp.1 hl⟩)
  have hon : ∀ c ∈ t, c ∈ i.online := by
    intro c hc
    obtain ⟨p, -, hcn, tl, htl, e, -⟩ := (ht3 c).1 hc
    exact (wf.online c).2 ⟨hcn, tl, htl, e⟩
  have hwh : Whole i P.iosname t := by
    intro c hc d hcd
    obtain ⟨p, hpm, -, tl, htl, e, hin⟩ := (ht3 c).1 hc
    obtain ⟨tc, htc, td, htd, h1, h2, h3, h4, h5⟩ := hio c d hcd
    have : tl = tc := wf.unique tl htl tc htc (by rw [e, h1]) (by rw [e]; exact h3)
    subst this
    refine (ht3 d).2 ⟨p, hpm, h4, td, htd, h2, ?_⟩
    simp only [ident, List.cons.injEq, and_true] at h5
    rw [InPackage, ← h5]; exact hin
  obtain ⟨r, hr1, hr2, hr3, hr4⟩ := C28_reduce_partial i wf t P.iosname hon ht2 hwh
  have hT : ∀ c, c ∈ t ↔ ∃ p ∈ packages, CpuWith i (InPackage p) c := by
    intro c; rw [ht3]; simp only [mem_pyDedup]
  refine ⟨r, ⟨hr3, fun c hc => (hT c).1 (hr2.subset hc), fun c hc => hr4 c ((hT c).2 hc)⟩, ?_⟩
  have hpe : packages.isEmpty = false := by cases packages with | nil => exact absurd rfl hne | cons => rfl
  have key : setPropPackages i P norm set (some v0) packages mnames s =
      setMnames P (setReduced i P (fun m => set m v) (.ok t)) ms s := by
    unfold setPropPackages
    simp only [hms, normalizeInprop, hw, hv, hnp, hpe, ht1]
    rcases hs with hs | hs <;> simp [hs, scopeOkFor]
  rw [key, setMnames, normalizeMnames_toTry hms]
  congr 1
  funext m s
  exact setReduced_eq _ hr1 m s

/-- **C28** (dies; partial: the I/O scope is not wider than the die). The same for dies. -/
theorem C28_set_prop_dies_partial (i : Info) (wf : WF i) (P : PropDesc) (norm : V → Except Exn V)
    (set : Mech → V → List Nat → σ → σ × Except Exn Unit) (v0 v : V) (dies : List (Nat × List Nat))
    (mnames : Option (List Mech)) (s : σ)
    (hm : ∀ ml, mnames = some ml → ∀ m ∈ ml, m ∈ P.mnames ∧ m.writable = true)
    (hw : P.writable = true) (hv : norm v0 = .ok v)
    (hkeys : (dies.map Prod.fst).Nodup)
    (hd : ∀ pd ∈ dies, pd.2 ≠ [] ∧ ∀ d ∈ pd.2, d ≠ NA ∧ pd.1 ≠ NA ∧
      ∃ t ∈ i.topology, t.package = pd.1 ∧ t.die = d) (hne : dies ≠ [])
    (hs : P.sname = some (.lvl .die) ∨ P.sname = some (.lvl .package) ∨ P.sname = some .global)
    (hio : ∀ c d, SameUnit i P.iosname c d → SameUnit i (.lvl .die) c d) :
    ∃ r, Reaches i P.iosname (fun c => ∃ pd ∈ dies, ∃ d ∈ pd.2, CpuWith i (InUnit .die pd.1 d) c) r ∧
      setPropDies i P norm set (some v0) dies mnames s =
        setLoop (fun m => oneMech (set m v) r) (toTry P mnames) false s := by
  obtain ⟨ms, hms⟩ := normalizeMnames_isOk hm
  have hpk : ∀ pd ∈ dies, pd.1 ≠ NA ∧ ∃ t ∈ i.topology, t.package = pd.1 := by
    intro pd hpd
    obtain ⟨h1, h2⟩ := hd pd hpd
    obtain ⟨d, hdm⟩ := List.exists_mem_of_ne_nil _ h1
    obtain ⟨-, h3, t, ht, h4, -⟩ := h2 d hdm
    exact ⟨h3, t, ht, h4⟩
  have hnp := normalizePackages_isOk (i := i) (l := dies.map Prod.fst) (by
    intro p hp
    obtain ⟨pd, hpd, rfl⟩ := List.mem_map.1 hp
    exact hpk pd hpd)
  -- The flattened dictionary.
  have hflat : ∀ ds : List (Nat × List Nat), (∀ pd ∈ ds, pd ∈ dies) → (ds.map Prod.fst).Nodup →
      ∃ l, normalizeDiesDict i ds = .ok l ∧ l.Nodup ∧ ∀ p d, (p, d) ∈ l ↔ ∃ pd ∈ ds, p = pd.1 ∧ d ∈ pd.2 := by
    intro ds
    induction ds with
    | nil => intro _ _; exact ⟨[], rfl, List.nodup_nil, by simp⟩
    | cons pd ds ih =>
      intro hsub hnd
      obtain ⟨p, l0⟩ := pd
      simp only [List.map_cons] at hnd
      obtain ⟨hn1, hn2⟩ := List.nodup_cons.1 hnd
      obtain ⟨l, h1, h2, h3⟩ := ih (fun x hx => hsub x (by simp [hx])) hn2
      have hmem := hsub (p, l0) (by simp)
      have hdies : normalizeDies i l0 p = .ok (pyDedup l0) := by
        unfold normalizeDies
        have hok : ∃ r, packageToDies i p = .ok r := by
          unfold packageToDies
          rw [getLevelNums_isOk]
          refine ⟨by simp [Level.idx], ?_⟩
          rintro l hl n hn
          cases hl
          rw [List.mem_singleton] at hn
          subst hn
          exact hpk _ hmem
        obtain ⟨r, hr⟩ := hok
        simp only [hr]
        rw [if_pos]
        rw [List.all_eq_true]
        intro d hdm
        rw [List.contains_iff_mem]
        obtain ⟨h4, h5, t, ht, h6, h7⟩ := (hd _ hmem).2 d (mem_pyDedup.1 hdm)
        unfold packageToDies at hr
        rw [mem_getLevelNums hr]
        exact ⟨h4, t, ht, by simp only [TLine.get, h6]; exact h5, by simp [Selects, TLine.get, h6], h7⟩
      refine ⟨(pyDedup l0).map (fun d => (p, d)) ++ l, by rw [normalizeDiesDict, hdies, h1], ?_, ?_⟩
      · refine List.nodup_append.2 ⟨?_, h2, ?_⟩
        · exact List.Pairwise.map _ (fun a b hab h => hab (by cases h; rfl)) (nodup_pyDedup l0)
        · rintro ⟨a, b⟩ hab c hc rfl
          obtain ⟨d, -, e⟩ := List.mem_map.1 hab
          cases e
          obtain ⟨pd, hpd, e, -⟩ := (h3 _ _).1 hc
          exact hn1 (e ▸ List.mem_map_of_mem hpd)
      · intro a b
        rw [List.mem_append, h3]
        simp only [List.mem_map, mem_pyDedup, Prod.mk.injEq, List.mem_cons, exists_eq_or_imp]
        constructor
        · rintro (⟨d, hdm, rfl, rfl⟩ | h)
          · exact .inl ⟨rfl, hdm⟩
          · exact .inr h
        · rintro (⟨rfl, hdm⟩ | h)
          · exact .inl ⟨b, hdm, rfl, rfl⟩
          · exact .inr h
  obtain ⟨ds, hds1, hds2, hds3⟩ := hflat dies (fun _ h => h) hkeys
  obtain ⟨t, ht1, ht2, ht3⟩ := collect_spec wf (fun b : Nat × Nat => InUnit .die b.1 b.2)
    (by
      rintro ⟨a, b⟩ ⟨a', b'⟩ t ⟨h1, h2⟩ ⟨h3, h4⟩
      exact Prod.ext (h1.symm.trans h3) (h2.symm.trans h4))
    (diesCpus i) (fun b => diesToCpus i (.nums [b.2]) (.nums [b.1])) rfl
    (fun b bs l r h1 h2 => by rw [diesCpus, h1, h2]) ds hds2 (by
      rintro ⟨p, d⟩ hpd
      obtain ⟨pd, hpdm, rfl, hdm⟩ := (hds3 p d).1 hpd
      obtain ⟨h4, h5, tl, htl, h6, h7⟩ := (hd _ hpdm).2 d hdm
      obtain ⟨l, hl⟩ := inPackageToCpus_isOk (lvl := .die) tl htl h7 h6 h4 h5
      refine ⟨l, hl, (sorted_inPackageToCpus hl).imp (fun h => Nat.ne_of_lt h), fun c => ?_⟩
      rw [mem_inPackageToCpus wf hl]
      simp only [Selects, List.mem_singleton, CpuWith, InUnit]
      constructor
      · rintro ⟨hcn, t, ht, e, -, e1, e2⟩; exact ⟨hcn, t, ht, e, e2, e1⟩
      · rintro ⟨hcn, t, ht, e, e2, e1⟩; exact ⟨hcn, t, ht, e, by rw [e1]; exact h4, e1, e2⟩)
  have hon : ∀ c ∈ t, c ∈ i.online := by
    intro c hc
    obtain ⟨p, -, hcn, tl, htl, e, -⟩ := (ht3 c).1 hc
    exact (wf.online c).2 ⟨hcn, tl, htl, e⟩
  have hwh : Whole i P.iosname t := by
    intro c hc d hcd
    obtain ⟨p, hpm, -, tl, htl, e, hin⟩ := (ht3 c).1 hc
    obtain ⟨tc, htc, td, htd, h1, h2, h3, h4, h5⟩ := hio c d hcd
    have : tl = tc := wf.unique tl htl tc htc (by rw [e, h1]) (by rw [e]; exact h3)
    subst this
    refine (ht3 d).2 ⟨p, hpm, h4, td, htd, h2, ?_⟩
    simp only [ident, List.cons.injEq, and_true] at h5
    exact ⟨h5.1.symm.trans hin.1, h5.2.symm.trans hin.2⟩
  obtain ⟨r, hr1, hr2, hr3, hr4⟩ := C28_reduce_partial i wf t P.iosname hon ht2 hwh
  have hT : ∀ c, c ∈ t ↔ ∃ pd ∈ dies, ∃ d ∈ pd.2, CpuWith i (InUnit .die pd.1 d) c := by
    intro c; rw [ht3]
    constructor
    · rintro ⟨⟨p, d⟩, hb, hc⟩
      obtain ⟨pd, hpd, rfl, hdm⟩ := (hds3 p d).1 hb
      exact ⟨pd, hpd, d, hdm, hc⟩
    · rintro ⟨pd, hpd, d, hdm, hc⟩
      exact ⟨(pd.1, d), (hds3 _ _).2 ⟨pd, hpd, rfl, hdm⟩, hc⟩
  refine ⟨r, ⟨hr3, fun c hc => (hT c).1 (hr2.subset hc), fun c hc => hr4 c ((hT c).2 hc)⟩, ?_⟩
  have hcond : (dies.any (fun p => p.2.isEmpty) || dies.isEmpty) = false := by
    rw [Bool.or_eq_false_iff]
    refine ⟨?_, by cases dies with | nil => exact absurd rfl hne | cons => rfl⟩
    rw [List.any_eq_false]
    intro pd hpd h
    exact (hd pd hpd).1 (by simpa using h)
  have key : setPropDies i P norm set (some v0) dies mnames s =
      setMnames P (setReduced i P (fun m => set m v) (.ok t)) ms s := by
    unfold setPropDies
    simp only [hms, normalizeInprop, hw, hv, hnp, hcond, hds1, ht1]
    rcases hs with hs | hs | hs <;> simp [hs, scopeOkFor]
  rw [key, setMnames, normalizeMnames_toTry hms]
  congr 1
  funext m s
  exact setReduced_eq _ hr1 m s

example : setPropPackages exInfo ⟨[.sysfs, .msr], some (.lvl .package), .lvl .core, true⟩ .ok exSet
      (some 7) [1] none [] = ([(.sysfs, 7, [2, 3]), (.msr, 7, [2, 3])], .ok .msr) ∧
    setPropDies exInfo ⟨[.msr], some (.lvl .die), .lvl .die, true⟩ .ok exSet (some 7)
      [(0, [1]), (1, [0, 1, 0])] none [] = ([(.msr, 7, [1, 2, 3])], .ok .msr) :=
  ⟨by decide +kernel, by decide +kernel⟩

end Verif.PropsBase
