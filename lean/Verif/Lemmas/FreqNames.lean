import Verif.Lemmas.FreqInfo
import Verif.Lemmas.PStates
import Verif.Props.FreqNamesSpec

/-!
Lemmas about setting the CPU frequency limits to frequencies given by name.
-/

namespace Verif.FreqNames

open Verif.CPUInfo (Info)
open Verif.PropsBase (Gen Mech)
open Verif.FreqInfo
open Verif.PStates (FVal Plat)

variable {σ : Type}

/-! ### The values -/

theorem propGen_shown {i : Info} {H : Host} {k : Kind} {cpus : List Nat} {f : Nat → Int} (hne : cpus ≠ [])
    (hn : CPUInfo.normalizeCpus i (.nums cpus) false = .ok cpus) (h : Shown i H k cpus f) :
    propGen H k cpus = ⟨cpus.map fun c => (c, f c), none⟩ := by
  obtain ⟨m, h⟩ := h
  unfold getProp PropsBase.getPropCpus at h
  have e1 : PropsBase.normalizeMnames (freqProp k) none true = .ok (freqProp k).mnames := rfl
  have hne' : cpus.isEmpty = false := by cases cpus <;> simp_all
  rw [e1, hn] at h
  dsimp only at h
  rw [hne', if_neg (by simp)] at h
  have e2 : (freqProp k).sname = some (.lvl .CPU) := rfl
  rw [e2] at h
  dsimp only at h
  obtain ⟨last, hl⟩ : ∃ last, (freqProp k).mnames.getLast? = some last ∧
      PropsBase.orDefault (freqProp k) (freqProp k).mnames = (freqProp k).mnames := by
    cases k <;> exact ⟨_, rfl, rfl⟩
  unfold PropsBase.getPvinfo at h
  rw [hl.2, hl.1] at h
  unfold propGen
  refine tryMnames_of_getLoop h hne ?_
  rw [List.map_map]
  rfl

theorem propGen_notShown {i : Info} {H : Host} {cpus : List Nat} (hne : cpus ≠ [])
    (hn : CPUInfo.normalizeCpus i (.nums cpus) false = .ok cpus) (h : NotShown i H .maxEff cpus) :
    propGen H .maxEff cpus = unsupported := by
  obtain ⟨m, h⟩ := h
  unfold getProp PropsBase.getPropCpus at h
  have e1 : PropsBase.normalizeMnames (freqProp .maxEff) none true = .ok [.msr] := rfl
  have hne' : cpus.isEmpty = false := by cases cpus <;> simp_all
  rw [e1, hn] at h
  dsimp only at h
  rw [hne', if_neg (by simp)] at h
  have e2 : (freqProp .maxEff).sname = some (.lvl .CPU) := rfl
  rw [e2] at h
  dsimp only at h
  unfold PropsBase.getPvinfo PropsBase.orDefault at h
  simp only [List.isEmpty_cons, Bool.false_eq_true, if_false, List.getLast?_singleton] at h
  rw [PropsBase.getLoop] at h
  unfold propGen
  show tryMnames _ [.msr] = _
  rw [tryMnames]
  dsimp only [someVals] at h ⊢
  cases he : (getFreq H .maxEff .msr cpus).err with
  | none =>
    rw [he] at h
    exfalso
    have hy := congrArg Gen.yields h
    obtain ⟨c, cs, rfl⟩ := List.exists_cons_of_ne_nil hne
    unfold PropsBase.tag at hy
    cases hg : (getFreq H .maxEff .msr (c :: cs)).yields with
    | nil => simp [hg] at hy
    | cons p l => simp [hg] at hy
  | some e =>
    rw [he] at h
    dsimp only at h ⊢
    by_cases hs : e.isNotSupported = true
    · rw [if_pos hs] at h ⊢
      by_cases hy : (getFreq H .maxEff .msr cpus).yields.isEmpty = true
      · rw [if_pos hy]; rfl
      · exfalso
        have hy' : ¬ ((getFreq H .maxEff .msr cpus).yields.map fun p => (p.1, some p.2)).isEmpty = true := by
          rw [List.isEmpty_map]; exact hy
        have h := (if_neg hy').symm.trans h
        exact absurd (congrArg Gen.err h) (by simp)
    · rw [if_neg hs] at h
      exact absurd (congrArg Gen.err h) (by simp)

theorem limitGen_ok {E : Env σ} {isMin : Bool} {cpus : List Nat} {m : Mech} {khz : Nat → Int}
    (h : ∀ c ∈ cpus, E.limit isMin c = .ok (khz c)) :
    limitGen E isMin cpus m = ⟨cpus.map fun c => (c, khz c * 1000), none⟩ := by
  unfold limitGen
  rw [tryMnames]
  rw [readLoop_ok (v := fun c => khz c * 1000) fun c hc => by unfold limitHz; rw [h c hc]]

theorem limitGen_ok' {E : Env σ} {isMin : Bool} {cpus : List Nat} {m : Mech} {f : Nat → Int}
    (h : ∀ c ∈ cpus, ∃ khz, E.limit isMin c = .ok khz ∧ f c = khz * 1000) :
    limitGen E isMin cpus m = ⟨cpus.map fun c => (c, f c), none⟩ := by
  unfold limitGen
  rw [tryMnames]
  rw [readLoop_ok (v := f) fun c hc => by
    obtain ⟨k, h1, h2⟩ := h c hc
    unfold limitHz; rw [h1, h2]]

theorem numericGen_means {i : Info} {E : Env σ} {v : FVal} {cpus : List Nat} {f : Nat → Int} (hne : cpus ≠ [])
    (hn : CPUInfo.normalizeCpus i (.nums cpus) false = .ok cpus) (h : Means i E cpus f v) :
    numericGen E v cpus = ⟨cpus.map fun c => (c, f c), none⟩ := by
  cases v with
  | num g =>
    show (⟨cpus.map fun c => (c, g), none⟩ : Gen (Nat × Int)) = _
    congr 1
    exact List.map_congr_left fun c hc => by rw [h c hc]
  | min => exact limitGen_ok' h
  | max => exact limitGen_ok' h
  | other n =>
    unfold numericGen
    dsimp only
    rcases h with ⟨h1, h2⟩ | ⟨h1, h2⟩ | ⟨h1, h2, h3⟩ | ⟨rfl, h2⟩
    · rw [if_pos (by simpa using h1)]
      exact propGen_shown hne hn h2
    · have : ¬ (n = "base" ∨ n = "hfm" ∨ n = "P1") := by
        have : n = "eff" ∨ n = "lfm" ∨ n = "Pn" := by simpa using h1
        rcases this with rfl | rfl | rfl <;> decide
      rw [if_neg this, if_pos (by simpa using h1), propGen_shown hne hn h2]
      rfl
    · have : ¬ (n = "base" ∨ n = "hfm" ∨ n = "P1") := by
        have : n = "eff" ∨ n = "lfm" ∨ n = "Pn" := by simpa using h1
        rcases this with rfl | rfl | rfl <;> decide
      rw [if_neg this, if_pos (by simpa using h1), propGen_notShown hne hn h2, limitGen_ok' h3]
      rfl
    · rw [if_neg (by decide), if_neg (by decide), if_pos rfl]
      exact propGen_shown hne hn h2

/-! ### Order of the CPUs -/

/-- The CPUs are reported in order, and all of them unless there is a failure. -/
def Aligned (g : Gen (Nat × Int)) (cpus : List Nat) : Prop :=
  cpusOf g <+: cpus ∧ (g.err = none → cpusOf g = cpus)

theorem tryMnames_aligned {get : Mech → Gen (Nat × Int)} {cpus : List Nat} (ms : List Mech)
    (h : ∀ m, Aligned (get m) cpus) : Aligned (tryMnames get ms) cpus := by
  refine ⟨tryMnames_prefix ms fun m => (h m).1, ?_⟩
  induction ms with
  | nil => intro h; cases h
  | cons m ms ih =>
    rw [tryMnames]
    cases he : (get m).err with
    | none => exact fun _ => (h m).2 he
    | some e =>
      dsimp only
      split
      · split
        · exact ih
        · intro h; cases h
      · intro h'; rw [he] at h'; cases h'

theorem readLoop_aligned (f : Nat → Except Exn Int) (cpus : List Nat) : Aligned (readLoop f cpus) cpus :=
  ⟨readLoop_prefix f cpus, readLoop_complete⟩

theorem limitGen_aligned (E : Env σ) (isMin : Bool) (cpus : List Nat) (m : Mech) :
    Aligned (limitGen E isMin cpus m) cpus := tryMnames_aligned _ fun _ => readLoop_aligned _ _

theorem base_aligned (H : Host) {cpus : List Nat} (hnd : cpus.Nodup) : Aligned (propGen H .base cpus) cpus :=
  tryMnames_aligned _ fun m => getBase_prefix H hnd m

theorem effGen_aligned {E : Env σ} {cpus : List Nat} :
    Aligned (effGen (propGen E.H .maxEff cpus) (limitGen E true cpus .sysfs)) cpus := by
  have hm : propGen E.H .maxEff cpus = tryMnames (fun _ => msrFreq E.H .maxEff cpus) [.msr] := rfl
  rw [hm, tryMnames]
  rcases msrFreq_all_or_nothing E.H .maxEff cpus with ⟨h1, h2⟩ | ⟨h1, h2⟩
  · rw [h1]
    dsimp only
    unfold effGen
    rw [h1]
    exact ⟨by rw [h2], fun _ => h2⟩
  · cases he : (msrFreq E.H .maxEff cpus).err with
    | none => exact absurd he h1
    | some e =>
      dsimp only
      by_cases hs : e.isNotSupported = true
      · rw [if_pos hs, h2]
        exact limitGen_aligned E true cpus .sysfs
      · rw [if_neg hs]
        unfold effGen
        rw [he]
        dsimp only
        rw [if_neg hs]
        refine ⟨by unfold cpusOf; rw [h2]; exact List.nil_prefix, fun h => ?_⟩
        rw [he] at h; cases h

theorem numericGen_aligned {E : Env σ} {v : FVal} {cpus : List Nat} (hnd : cpus.Nodup) (hv : v ≠ .other "Pm") :
    Aligned (numericGen E v cpus) cpus := by
  cases v with
  | min => exact limitGen_aligned ..
  | max => exact limitGen_aligned ..
  | num f =>
    have : cpusOf (numericGen E (.num f) cpus) = cpus := by
      unfold cpusOf numericGen
      rw [List.map_map]
      exact List.map_id cpus
    exact ⟨by rw [this], fun _ => this⟩
  | other n =>
    unfold numericGen
    dsimp only
    split
    · exact base_aligned E.H hnd
    · split
      · exact effGen_aligned
      · split
        · rename_i h; exact absurd (by rw [h]) hv
        · exact ⟨List.nil_prefix, fun h => by cases h⟩

theorem cppcLimit_aligned (H : Host) (freq perf : String) {cpus : List Nat} (hnd : cpus.Nodup)
    (hu : CppcUniform H freq cpus) : Aligned (cppcLimit H freq perf cpus) cpus := by
  refine ⟨?_, cppcLimit_complete H freq perf hnd hu⟩
  unfold cppcLimit
  dsimp only
  have hp : cpusOf (cppcFreq H freq cpus) <+: cpus := readLoop_prefix _ _
  cases he : (cppcFreq H freq cpus).err with
  | none => exact hp
  | some e =>
    dsimp only
    split
    · rcases hu with hu | hu
      · exfalso
        have := readLoop_ok (f := cppcHz H freq) (v := fun c => (cppcNum H c freq).getD 0 * 1000000) (cpus := cpus) (by
          intro c hc
          obtain ⟨n, hn⟩ := Option.ne_none_iff_exists'.1 (hu c hc)
          rw [cppcHz_some hn, hn]; rfl)
        unfold cppcFreq at he
        rw [this] at he
        exact absurd he (by simp)
      · have hy : (cppcFreq H freq cpus).yields = [] := by
          cases cpus with
          | nil => rfl
          | cons c cs =>
            unfold cppcFreq
            rw [readLoop_head_fail (cppcHz_none (hu c rfl))]
        rw [hy, List.nil_append]
        exact (scaleLoop_prefix _ _ _ _ _ _).trans (tryMnames_prefix _ fun m => (getBase_prefix H hnd m).1)
    · exact hp

theorem minOper_aligned {H : Host} {cpus : List Nat} (hnd : cpus.Nodup) (hu : CppcUniform H "lowest_freq" cpus) :
    Aligned (propGen H .minOper cpus) cpus := by
  refine tryMnames_aligned _ fun m => ?_
  have hmsr : Aligned (msrFreq H .minOper cpus) cpus := by
    rcases msrFreq_all_or_nothing H .minOper cpus with ⟨_, h2⟩ | ⟨h1, h2⟩
    · exact ⟨by rw [h2], fun _ => h2⟩
    · exact ⟨by unfold cpusOf; rw [h2]; exact List.nil_prefix, fun h => absurd h h1⟩
  have hbad : Aligned (⟨[], some .error⟩ : Gen (Nat × Int)) cpus := ⟨List.nil_prefix, fun h => by cases h⟩
  cases m with
  | msr => exact hmsr
  | cppc => exact cppcLimit_aligned H _ _ hnd hu
  | _ => exact hbad

theorem numericGen_aligned' {E : Env σ} {v : FVal} {cpus : List Nat} (hnd : cpus.Nodup)
    (hv : v = .other "Pm" → CppcUniform E.H "lowest_freq" cpus) : Aligned (numericGen E v cpus) cpus := by
  by_cases h : v = .other "Pm"
  · subst h
    unfold numericGen
    dsimp only
    rw [if_neg (by decide), if_neg (by decide), if_pos rfl]
    exact minOper_aligned hnd (hv rfl)
  · exact numericGen_aligned hnd h

/-! ### The zipped iterators -/

theorem zipLoop_map (e1 e2 e3 e4 : Option Exn) (x y z w : Nat → Int) (cpus : List Nat) :
    zipLoop e1 e2 e3 e4 (cpus.map fun c => (c, x c)) (cpus.map fun c => (c, y c)) (cpus.map fun c => (c, z c))
      (cpus.map fun c => (c, w c)) = ⟨cpus.map fun c => ((c, x c), (c, y c), (c, z c), (c, w c)), e1⟩ := by
  induction cpus with
  | nil => rfl
  | cons c cpus ih =>
    simp only [List.map_cons]
    rw [zipLoop, ih]

theorem zipLoop_end {e1 e2 e3 e4 : Option Exn} {as bs cs ds : List (Nat × Int)} {n : Nat}
    (ha : as.length ≤ n) (hb : bs.length ≤ n) (hc : cs.length ≤ n) (hd : ds.length ≤ n)
    (ha' : e1 = none → as.length = n) (hb' : e2 = none → bs.length = n) (hc' : e3 = none → cs.length = n)
    (hd' : e4 = none → ds.length = n) (h : (zipLoop e1 e2 e3 e4 as bs cs ds).err = none) :
    e1 = none ∧ bs.length = n ∧ cs.length = n ∧ ds.length = n := by
  induction as generalizing bs cs ds n with
  | nil =>
    rw [zipLoop] at h
    have := ha' h
    simp only [List.length_nil] at this
    exact ⟨h, by omega, by omega, by omega⟩
  | cons a as ih =>
    simp only [List.length_cons] at ha ha'
    cases bs with
    | nil =>
      rw [zipLoop] at h
      have := hb' h
      simp only [List.length_nil] at this; omega
    | cons b bs =>
      cases cs with
      | nil =>
        rw [zipLoop] at h
        have := hc' h
        simp only [List.length_nil] at this; omega
      | cons c cs =>
        cases ds with
        | nil =>
          rw [zipLoop] at h
          have := hd' h
          simp only [List.length_nil] at this; omega
        | cons d ds =>
          rw [zipLoop] at h
          simp only [List.length_cons] at hb hc hd hb' hc' hd' ⊢
          obtain ⟨n, rfl⟩ : ∃ k, n = k + 1 := ⟨n - 1, by omega⟩
          have := ih (n := n) (by omega) (by omega) (by omega) (by omega)
            (fun e => by have := ha' e; omega) (fun e => by have := hb' e; omega)
            (fun e => by have := hc' e; omega) (fun e => by have := hd' e; omega) h
          exact ⟨this.1, by omega, by omega, by omega⟩

theorem exists_fun {l : List (Nat × Int)} {cpus : List Nat} (hnd : cpus.Nodup) (h : l.map (·.1) = cpus) :
    ∃ f : Nat → Int, l = cpus.map fun c => (c, f c) := by
  subst h
  induction l with
  | nil => exact ⟨fun _ => 0, rfl⟩
  | cons p l ih =>
    rw [List.map_cons, List.nodup_cons] at hnd
    obtain ⟨f, hf⟩ := ih hnd.2
    refine ⟨fun c => if c = p.1 then p.2 else f c, ?_⟩
    rw [List.map_cons, List.map_cons]
    dsimp only
    rw [if_pos rfl]
    congr 1
    have : (l.map (·.1)).map (fun c => (c, if c = p.1 then p.2 else f c)) = (l.map (·.1)).map fun c => (c, f c) := by
      refine List.map_congr_left fun c hc => ?_
      have hne : c ≠ p.1 := fun e => hnd.1 (e ▸ hc)
      rw [if_neg hne]
    rw [this]
    exact hf

theorem Aligned.length {g : Gen (Nat × Int)} {cpus : List Nat} (h : Aligned g cpus) :
    g.yields.length ≤ cpus.length ∧ (g.err = none → g.yields.length = cpus.length) := by
  have e : (cpusOf g).length = g.yields.length := List.length_map _
  exact ⟨by rw [← e]; exact h.1.length_le, fun he => by rw [← e, h.2 he]⟩

theorem Aligned.full {g : Gen (Nat × Int)} {cpus : List Nat} (h : Aligned g cpus)
    (hl : g.yields.length = cpus.length) : g.yields.map (·.1) = cpus :=
  h.1.eq_of_length (by show (g.yields.map _).length = _; rw [List.length_map, hl])

/-! ### The plan -/

/-- The limits as a platform. -/
def plat (lo hi : Nat → Int) : Plat Nat := ⟨lo, hi, fun _ _ => .error .error⟩

theorem allowed_iff (isMin : Bool) (lo hi cur : Nat → Int) (c : Nat) (f : Int) :
    Allowed isMin (lo c) (hi c) (cur c) f ↔ ¬ PStates.Bad (plat lo hi) isMin cur c f := by
  unfold Allowed PStates.Bad plat Plat.lo Plat.hi
  cases isMin <;> simp

theorem check_map (isMin : Bool) (lo hi cur f : Nat → Int) (cpus : List Nat) :
    ((∀ c ∈ cpus, Allowed isMin (lo c) (hi c) (cur c) (f c)) ∧
      ∃ d, PStates.checkLoop isMin (cpus.map fun c => ((c, f c), (c, lo c * 1000), (c, hi c * 1000), (c, cur c))) []
        = .ok d ∧ Assigns d cpus f) ∨
    ((∃ c ∈ cpus, ¬ Allowed isMin (lo c) (hi c) (cur c) (f c)) ∧
      ∃ e, (e = .freqRange ∨ e = .freqOrder) ∧
        PStates.checkLoop isMin (cpus.map fun c => ((c, f c), (c, lo c * 1000), (c, hi c * 1000), (c, cur c))) []
          = .error e) := by
  have hz : (cpus.map fun c => ((c, f c), (c, lo c * 1000), (c, hi c * 1000), (c, cur c))) =
      PStates.zipped (plat lo hi) cur (cpus.map fun c => (c, f c)) := by
    unfold PStates.zipped
    rw [List.map_map]
    rfl
  have hmem : ∀ c g, (c, g) ∈ (cpus.map fun c => (c, f c)) ↔ c ∈ cpus ∧ g = f c := by
    intro c g
    simp only [List.mem_map, Prod.mk.injEq]
    constructor
    · rintro ⟨a, ha, rfl, rfl⟩; exact ⟨ha, rfl⟩
    · rintro ⟨h, rfl⟩; exact ⟨c, h, rfl, rfl⟩
  rw [hz]
  rcases PStates.checkLoop_spec (plat lo hi) isMin cur (cpus.map fun c => (c, f c)) [] with
    ⟨⟨p, hp, hb⟩, h⟩ | ⟨hall, d, hd, hg⟩
  · right
    obtain ⟨hc, hf⟩ := (hmem p.1 p.2).1 hp
    refine ⟨⟨p.1, hc, fun ha => (allowed_iff ..).1 ha (by rw [← hf]; exact hb)⟩, ?_⟩
    rcases h with ⟨h, _⟩ | ⟨h, _⟩
    · exact ⟨_, .inl rfl, h⟩
    · exact ⟨_, .inr rfl, h⟩
  · left
    refine ⟨fun c hc => (allowed_iff ..).2 (hall (c, f c) ((hmem c _).2 ⟨hc, rfl⟩)), d, hd, ?_⟩
    intro c g
    rw [show (∃ cs, (g, cs) ∈ d ∧ c ∈ cs) ↔ InGroups d g c from Iff.rfl, hg, hmem]
    simp [InGroups]

theorem zip4_map {a b c d : Gen (Nat × Int)} {cpus : List Nat} {x y z w : Nat → Int} {ea eb ec ed : Option Exn}
    (ha : a = ⟨cpus.map fun c => (c, x c), ea⟩) (hb : b = ⟨cpus.map fun c => (c, y c), eb⟩)
    (hc : c = ⟨cpus.map fun c => (c, z c), ec⟩) (hd : d = ⟨cpus.map fun c => (c, w c), ed⟩) :
    zip4 a b c d = ⟨cpus.map fun c => ((c, x c), (c, y c), (c, z c), (c, w c)), ea⟩ := by
  subst ha hb hc hd
  exact zipLoop_map ..

theorem limit_of_gen {E : Env σ} {isMin : Bool} {cpus : List Nat} {m : Mech}
    (h : (limitGen E isMin cpus m).yields.length = cpus.length) :
    ∃ khz : Nat → Int, ∀ c ∈ cpus, E.limit isMin c = .ok (khz c) := by
  refine ⟨fun c => match E.limit isMin c with | .ok v => v | .error _ => 0, fun c hc => ?_⟩
  cases hl : E.limit isMin c with
  | ok v => dsimp only; rw [hl]
  | error e =>
    exfalso
    have hlen : (readLoop (limitHz E isMin) cpus).yields.length < cpus.length := by
      clear h
      induction cpus with
      | nil => cases hc
      | cons d cpus ih =>
        rw [readLoop]
        cases hd : limitHz E isMin d with
        | error e => simp
        | ok v =>
          rcases List.mem_cons.1 hc with rfl | hc
          · unfold limitHz at hd; rw [hl] at hd; cases hd
          · have := ih hc
            simpa using this
    have : (limitGen E isMin cpus m).yields = (readLoop (limitHz E isMin) cpus).yields ∨
        (limitGen E isMin cpus m).yields = [] := by
      unfold limitGen
      rw [tryMnames]
      split
      · exact .inl rfl
      · split
        · split
          · exact .inr rfl
          · exact .inl rfl
        · exact .inl rfl
    rcases this with e | e
    · rw [e] at h; omega
    · rw [e] at h
      simp only [List.length_nil] at h
      omega

/-- An accepted request. -/
theorem plan_ok {E : Env σ} {isMin : Bool} {v : FVal} {cpus : List Nat} {m : Mech} {s : σ}
    (hnd : cpus.Nodup) (hv : Aligned (numericGen E v cpus) cpus) (ho : InOrder E cpus) {d : Dict Int (List Nat)}
    (h : plan E isMin v cpus m s = .ok d) :
    ∃ f lo hi cur : Nat → Int, numericGen E v cpus = ⟨cpus.map fun c => (c, f c), none⟩ ∧
      (∀ c ∈ cpus, E.limit true c = .ok (lo c) ∧ E.limit false c = .ok (hi c)) ∧
      (∀ c ∈ cpus, Allowed isMin (lo c) (hi c) (cur c) (f c)) ∧ Assigns d cpus f := by
  unfold plan at h
  dsimp only at h
  have hcur : Aligned (tryMnames (fun m => E.get m (!isMin) cpus s) [m]) cpus :=
    tryMnames_aligned _ fun m => ho m (!isMin) s
  have hlo := limitGen_aligned E true cpus m
  have hhi := limitGen_aligned E false cpus m
  have herr : (zip4 (numericGen E v cpus) (limitGen E true cpus m) (limitGen E false cpus m)
      (tryMnames (fun m => E.get m (!isMin) cpus s) [m])).err = none := by
    revert h
    split
    · intro h; cases h
    · split
      · intro h; cases h
      · intro _; assumption
  obtain ⟨k1, k2, k3, k4⟩ := zipLoop_end hv.length.1 hlo.length.1 hhi.length.1 hcur.length.1
    hv.length.2 hlo.length.2 hhi.length.2 hcur.length.2 herr
  obtain ⟨f, hf⟩ := exists_fun hnd (hv.2 k1)
  obtain ⟨w, hw⟩ := exists_fun hnd (hcur.full k4)
  obtain ⟨lo, hlo'⟩ := limit_of_gen k2
  obtain ⟨hi, hhi'⟩ := limit_of_gen k3
  have hnum : numericGen E v cpus = ⟨cpus.map fun c => (c, f c), none⟩ := by
    cases hg : numericGen E v cpus with
    | mk y e =>
      rw [hg] at hf k1
      dsimp only at hf k1
      rw [hf, k1]
  refine ⟨f, lo, hi, w, hnum, fun c hc => ⟨hlo' c hc, hhi' c hc⟩, ?_⟩
  have hcur' : tryMnames (fun m => E.get m (!isMin) cpus s) [m] = ⟨cpus.map fun c => (c, w c),
      (tryMnames (fun m => E.get m (!isMin) cpus s) [m]).err⟩ := by rw [← hw]
  rw [zip4_map hnum (limitGen_ok hlo') (limitGen_ok hhi') hcur'] at h
  dsimp only at h
  rcases check_map isMin lo hi w f cpus with ⟨a, d', e, hA⟩ | ⟨_, e, _, he⟩
  · rw [e] at h
    cases h
    exact ⟨a, hA⟩
  · rw [he] at h; cases h

/-- A request which means `f`, with readable limits. -/
theorem plan_means {i : Info} {E : Env σ} {isMin : Bool} {v : FVal} {cpus : List Nat} {m : Mech} {s : σ}
    {f lo hi cur : Nat → Int} (hne : cpus ≠ []) (hn : CPUInfo.normalizeCpus i (.nums cpus) false = .ok cpus)
    (hf : Means i E cpus f v) (hlo : ∀ c ∈ cpus, E.limit true c = .ok (lo c)) (hhi : ∀ c ∈ cpus, E.limit false c = .ok (hi c))
    (hcur : E.get m (!isMin) cpus s = ⟨cpus.map fun c => (c, cur c), none⟩) :
    ((∀ c ∈ cpus, Allowed isMin (lo c) (hi c) (cur c) (f c)) ∧
      ∃ d, plan E isMin v cpus m s = .ok d ∧ Assigns d cpus f) ∨
    ((∃ c ∈ cpus, ¬ Allowed isMin (lo c) (hi c) (cur c) (f c)) ∧
      ∃ e, (e = .freqRange ∨ e = .freqOrder) ∧ plan E isMin v cpus m s = .error e) := by
  have hcur' : tryMnames (fun m => E.get m (!isMin) cpus s) [m] = ⟨cpus.map fun c => (c, cur c), none⟩ := by
    rw [tryMnames]
    rw [hcur]
  have hz := zip4_map (numericGen_means hne hn hf) (limitGen_ok (m := m) hlo) (limitGen_ok (m := m) hhi) hcur'
  unfold plan
  dsimp only
  rw [hz]
  dsimp only
  rcases check_map isMin lo hi cur f cpus with ⟨a, d, e, hA⟩ | ⟨a, e, h1, h2⟩
  · left
    refine ⟨a, d, ?_, hA⟩
    rw [e]
  · right
    refine ⟨a, e, h1, ?_⟩
    rw [h2]

theorem setLoop_fail {set : Mech → σ → σ × Except Exn Unit} {s : σ} (h : ∀ m, ∃ e, set m s = (s, .error e))
    (ms : List Mech) (b : Bool) : ∃ e, PropsBase.setLoop set ms b s = (s, .error e) := by
  induction ms generalizing b with
  | nil => rw [PropsBase.setLoop]; cases b <;> exact ⟨_, rfl⟩
  | cons m ms ih =>
    obtain ⟨e, he⟩ := h m
    rw [PropsBase.setLoop, he]
    dsimp only
    split
    · exact ih true
    · exact ⟨e, rfl⟩

theorem setGroups_get_irrel (B B' : PStates.Backend Nat σ) (h : B.set = B'.set) (isMin : Bool) (d : Dict Int (List Nat))
    (s : σ) : PStates.setGroups B isMin d s = PStates.setGroups B' isMin d s := by
  induction d generalizing s with
  | nil => rfl
  | cons p d ih =>
    obtain ⟨f, cpus⟩ := p
    rw [PStates.setGroups, PStates.setGroups, h]
    split
    · rfl
    · exact ih _

end Verif.FreqNames
