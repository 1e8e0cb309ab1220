import Verif.Model.MSRRemote
import Verif.Lemmas.MSRRefine
import Verif.Lemmas.Trivial

/-!
Helper lemmas about MSR access on remote hosts.
-/

namespace Verif.MSR

open CPUInfo (Scope Nums)
open Verif.Bits (BitRange FieldVal setBits getBits)

/-! ### Text -/

theorem strToInt_ofInt (x : Int) : Trivial.strToInt (PyStr.ofInt x) = .ok x := by
  cases x with
  | ofNat n => exact Trivial.strToInt_ofNat n
  | negSucc n =>
    unfold Trivial.strToInt
    have hs : PyStr.strip (PyStr.ofInt (.negSucc n)) = '-' :: PyStr.ofNat (n + 1) := by
      refine PyStr.stripBy_of_stripped (PyStr.stripped_of_all fun c hc => ?_)
      rcases List.mem_cons.1 hc with rfl | hc
      · decide
      · exact Trivial.ofNat_not_space _ c hc
    rw [hs]
    simp only [Trivial.parseAuto_ofNat, Option.map_some]
    rfl

theorem plain_ofInt (x : Int) : Trivial.Plain (PyStr.ofInt x) := by
  cases x with
  | ofNat n => exact ⟨PyStr.ofNat_ne_nil _, fun c hc => Or.inl (PyStr.ofNat_digits _ c hc)⟩
  | negSucc n =>
    refine ⟨by simp [PyStr.ofInt], fun c hc => ?_⟩
    rcases List.mem_cons.1 hc with rfl | hc
    · exact .inr rfl
    · exact .inl (PyStr.ofNat_digits _ c hc)

/-- The line without the new line character. -/
def lineBody (p : Nat × Int) : PyStr := PyStr.joinC ',' [PyStr.ofNat p.1, PyStr.ofInt p.2]

theorem scriptLine_eq (p : Nat × Int) : scriptLine p = lineBody p ++ ['\n'] := by
  simp [scriptLine, lineBody, PyStr.joinC]

theorem lineBody_char (p : Nat × Int) : ∀ c ∈ lineBody p, (48 ≤ c.toNat ∧ c.toNat ≤ 57) ∨ c = '-' ∨ c = ',' := by
  intro c hc
  simp only [lineBody, PyStr.joinC, List.mem_append, List.mem_cons] at hc
  rcases hc with hc | rfl | hc
  · exact .inl (PyStr.ofNat_digits _ c hc)
  · exact .inr (.inr rfl)
  · rcases (plain_ofInt p.2).2 c hc with h | h
    · exact .inl h
    · exact .inr (.inl h)

theorem lineBody_notEnd (p : Nat × Int) : ∀ c ∈ lineBody p, isLineEnd c = false := by
  intro c hc
  rcases lineBody_char p c hc with h | rfl | rfl
  · unfold isLineEnd
    simp only [Bool.or_eq_false_iff, Bool.and_eq_false_iff, decide_eq_false_iff_not, beq_eq_false_iff_ne]
    omega
  · decide
  · decide

theorem strip_lineBody (p : Nat × Int) : PyStr.strip (lineBody p) = lineBody p := by
  refine PyStr.stripBy_of_stripped (PyStr.stripped_of_all fun c hc => ?_)
  rcases lineBody_char p c hc with h | rfl | rfl
  · unfold PyStr.isSpace
    simp only [Bool.or_eq_false_iff, Bool.and_eq_false_iff, decide_eq_false_iff_not, beq_eq_false_iff_ne]
    omega
  · decide
  · decide

theorem splitLinesAux_line (s t cur : PyStr) (h : ∀ c ∈ s, isLineEnd c = false) :
    splitLinesAux cur (s ++ '\n' :: t) = (cur.reverse ++ s) :: splitLinesAux [] t := by
  induction s generalizing cur with
  | nil =>
    rw [List.nil_append, splitLinesAux.eq_3 _ _ _ (by simp)]
    simp [isLineEnd]
  | cons c s ih =>
    have hc := h c (by simp)
    have hr : c ≠ '\r' := by rintro rfl; revert hc; decide
    rw [List.cons_append, splitLinesAux.eq_3 _ _ _ (by intro _ h _; exact hr h), hc]
    simp only [Bool.false_eq_true, if_false]
    rw [ih _ (fun x hx => h x (by simp [hx]))]
    simp

theorem splitLines_script (ps : List (Nat × Int)) : splitLines (ps.flatMap scriptLine) = ps.map lineBody := by
  unfold splitLines
  induction ps with
  | nil => simp [splitLinesAux]
  | cons p ps ih =>
    rw [List.flatMap_cons, scriptLine_eq, List.append_assoc, List.singleton_append,
      splitLinesAux_line _ _ _ (lineBody_notEnd p), ih]
    simp

theorem splitCsv_lineBody (p : Nat × Int) :
    Trivial.splitCsvLine (PyStr.strip (lineBody p)) ',' false = [PyStr.ofNat p.1, PyStr.ofInt p.2] := by
  rw [strip_lineBody, lineBody, Trivial.splitCsvLine_join]
  · simp
  · intro q hq
    simp only [List.mem_cons, List.not_mem_nil, or_false] at hq
    rcases hq with rfl | rfl
    · exact plain_ofInt (Int.ofNat p.1)
    · exact plain_ofInt _

/-! ### The cache after the script -/

/-- Add the values to the cache, one after another. -/
def addPairs (T : Topo) (a : Nat) (s : Scope) : List (Nat × Int) → Cache Nat Int → Cache Nat Int
  | [], c => c
  | p :: ps, c => addPairs T a s ps (c.add T a p.1 p.2 s)

@[simp] theorem enabled_addPairs (T : Topo) (a : Nat) (s : Scope) (ps : List (Nat × Int)) (c : Cache Nat Int) :
    (addPairs T a s ps c).enabled = c.enabled := by
  induction ps generalizing c with
  | nil => rfl
  | cons p ps ih => simp [addPairs, ih]

/-- The dictionary `regvals`. -/
def setPairs : List (Nat × Int) → Dict Int Int → Dict Int Int
  | [], d => d
  | p :: ps, d => setPairs ps (d.set p.1 p.2)

theorem handleLines_script (E : Env) (a : Nat) (s : Scope) (ps : List (Nat × Int)) (h : ∀ p ∈ ps, p.1 ∈ E.T.online)
    (st : St) (d : Dict Int Int) :
    handleLines E a s (ps.map lineBody) st d =
      ({ st with cache := addPairs E.T a s ps st.cache }, .ok (setPairs ps d)) := by
  induction ps generalizing st d with
  | nil => rfl
  | cons p ps ih =>
    have h1 : Trivial.strToInt (PyStr.ofNat p.1) = .ok (p.1 : Int) := Trivial.strToInt_ofNat _
    have hon := h p (by simp)
    rw [List.map_cons, handleLines, splitCsv_lineBody]
    simp only [h1, strToInt_ofInt]
    rw [if_neg (by simp [hon])]
    rw [ih (fun q hq => h q (by simp [hq]))]
    rfl

theorem get?_setPairs (ps : List (Nat × Int)) (hn : (ps.map Prod.fst).Nodup) (d : Dict Int Int) (c : Nat) :
    (∀ v, (c, v) ∈ ps → (setPairs ps d).get? (c : Int) = some v) ∧
    (c ∉ ps.map Prod.fst → (setPairs ps d).get? (c : Int) = d.get? (c : Int)) := by
  induction ps generalizing d with
  | nil => exact ⟨fun v h => by simp at h, fun _ => rfl⟩
  | cons p ps ih =>
    obtain ⟨x, v⟩ := p
    rw [List.map_cons, List.nodup_cons] at hn
    obtain ⟨i1, i2⟩ := ih hn.2 (d.set (x : Int) v)
    refine ⟨fun w hw => ?_, fun hc => ?_⟩
    · rcases List.mem_cons.1 hw with h | h
      · obtain ⟨rfl, rfl⟩ := Prod.mk.inj h
        rw [setPairs, i2 hn.1, Dict.get?_set_self]
      · exact i1 w h
    · simp only [List.map_cons, List.mem_cons, not_or] at hc
      rw [setPairs, i2 hc.2, Dict.get?_set_ne]
      intro e
      exact hc.1 (Int.ofNat.inj e).symm

theorem get?_addPairs_keep (T : Topo) (a : Nat) (s : Scope) (ps : List (Nat × Int)) (c : Cache Nat Int) (x : Nat)
    (v : Int) (hx : c.get? a x = some v) (h : ∀ p ∈ ps, x ∈ T.sib s p.1 → p.2 = v) :
    (addPairs T a s ps c).get? a x = some v := by
  induction ps generalizing c with
  | nil => exact hx
  | cons p ps ih =>
    rw [addPairs]
    refine ih _ ?_ (fun q hq => h q (by simp [hq]))
    rw [Cache.get?_add]
    split
    · rename_i hh
      rw [h p (by simp) hh.2.2]
    · exact hx

/-! ### The plan -/

/-- Siblings are listed once. -/
def SibNodup (T : Topo) : Prop := ∀ s, ∀ c ∈ T.online, (T.sib s c).Nodup

theorem sibNodup_ofInfo (i : CPUInfo.Info) (wf : CPUInfo.WF i) : SibNodup (Topo.ofInfo i) := by
  intro s c hc
  obtain ⟨l, h1, h2, _⟩ := CPUInfo.C15_siblings_exact i wf c hc s
  simp only [Topo.ofInfo, h1]
  exact h2.imp fun h => Nat.ne_of_lt h

theorem filter_self {T : Topo} (w : TopoWF T) (hn : SibNodup T) {s : Scope} {c : Nat} (hc : c ∈ T.online) :
    (T.sib s c).filter (· == c) = [c] := by
  have h1 := w.refl s c hc
  have h2 := hn s c hc
  generalize T.sib s c = l at h1 h2
  rw [List.filter_beq, List.count_eq_one_of_mem h2 h1]
  rfl

theorem planReads_sublist {E : Env} (w : TopoWF E.T) (hn : SibNodup E.T) (st : St) (a : Nat) (s : Scope) (l : List Nat)
    (ho : ∀ c ∈ l, c ∈ E.T.online) (dont : List Nat) : (planReads E st a s l dont).Sublist l := by
  induction l generalizing dont with
  | nil => exact List.Sublist.refl _
  | cons c l ih =>
    have ih' := ih (fun x hx => ho x (by simp [hx]))
    unfold planReads
    split
    · exact (ih' _).cons _
    · split
      · exact (ih' _).cons _
      · split
        · dsimp only
          rw [filter_self w hn (ho c (by simp))]
          exact (ih' _).cons_cons _
        · exact (ih' _).cons_cons _

/-- What is in the cache agrees with the hardware of the siblings that are not in the cache. -/
def Compat (E : Env) (a : Nat) (s : Scope) (l : List Nat) (st : St) : Prop :=
  ∀ c ∈ l, ∀ v, st.cache.get? a c = some v → ∀ r ∈ l, st.cache.get? a r = none → c ∈ E.T.sib s r → v = st.hw a r

/-- The register read on the CPUs. -/
def readings (st : St) (a : Nat) (l : List Nat) : List (Nat × Int) := l.map fun c => (c, st.hw a c)

theorem readLoop_plan {E : Env} (w : TopoWF E.T) (hn : SibNodup E.T) (a : Nat) (s : Scope) (l : List Nat) (hl : l.Nodup)
    (ho : ∀ c ∈ l, c ∈ E.T.online) (st0 st : St) (dont : List Nat) (he : st.cache.enabled = st0.cache.enabled)
    (hI : ∀ c ∈ l, st.cache.get? a c = none ↔ (c ∉ dont ∧ st0.cache.get? a c = none)) (hC : Compat E a s l st) :
    ((planReads E st0 a s l dont).any (E.rfail a) = true → (readLoop E a s l st).2 = .error .error) ∧
    ((planReads E st0 a s l dont).any (E.rfail a) = false → ∃ V : Nat → Int,
      readLoop E a s l st =
        ({ st with cache := addPairs E.T a s (readings st a (planReads E st0 a s l dont)) st.cache },
          .ok (l.map fun c => (c, V c))) ∧
      ∀ c ∈ l, (c ∈ planReads E st0 a s l dont → V c = st.hw a c) ∧
        (c ∉ planReads E st0 a s l dont →
          (addPairs E.T a s (readings st a (planReads E st0 a s l dont)) st.cache).get? a c = some (V c))) := by
  induction l generalizing st dont with
  | nil => exact ⟨fun h => by simp [planReads] at h, fun _ => ⟨fun _ => 0, rfl, fun c hc => by simp at hc⟩⟩
  | cons c l ih =>
    rw [List.nodup_cons] at hl
    have hol : ∀ x ∈ l, x ∈ E.T.online := fun x hx => ho x (by simp [hx])
    have hoc := ho c (by simp)
    have hIc := hI c (by simp)
    have sub := fun st0 dont => planReads_sublist w hn st0 a s l hol dont
    cases hg : st.cache.get? a c with
    | some v =>
      -- Cached: not read.
      have hplan : planReads E st0 a s (c :: l) dont = planReads E st0 a s l dont := by
        rw [hg] at hIc
        rw [planReads]
        split
        · rfl
        · rename_i hd
          cases h0 : st0.cache.get? a c with
          | some v => rfl
          | none => exact absurd (hIc.2 ⟨by simpa using hd, h0⟩) (by simp)
      have hC' : Compat E a s l st := fun x hx u hu r hr => hC x (by simp [hx]) u hu r (by simp [hr])
      obtain ⟨i1, i2⟩ := ih hl.2 hol st dont he (fun x hx => hI x (by simp [hx])) hC'
      have hone : readOne E st a s c = (st, .ok v) := by unfold readOne; rw [hg]
      rw [hplan]
      refine ⟨fun h => ?_, fun h => ?_⟩
      · have := i1 h
        rw [readLoop, hone]
        dsimp only
        cases hr : readLoop E a s l st with
        | mk st1 r =>
          rw [hr] at this
          dsimp only at this
          subst this
          rfl
      · obtain ⟨V, j1, j2⟩ := i2 h
        have hcl : ∀ x ∈ l, x ≠ c := fun x hx e => hl.1 (e ▸ hx)
        refine ⟨fun x => if x = c then v else V x, ?_, ?_⟩
        · rw [readLoop, hone]
          dsimp only
          rw [j1]
          dsimp only
          rw [List.map_cons, if_pos rfl]
          congr 3
          exact List.map_congr_left fun x hx => by rw [if_neg (hcl x hx)]
        · intro x hx
          rcases List.mem_cons.1 hx with rfl | hx
          · refine ⟨fun hm => absurd ((sub _ _).subset hm) hl.1, fun _ => ?_⟩
            dsimp only
            rw [if_pos rfl]
            refine get?_addPairs_keep _ _ _ _ _ _ _ hg ?_
            intro p hp hs
            obtain ⟨r, hr, rfl⟩ := List.mem_map.1 hp
            have hrl := (sub _ _).subset hr
            -- `r` is not in the cache.
            have hrn : st.cache.get? a r = none := by
              have key : ∀ (l : List Nat) (dont : List Nat), (∀ x ∈ l, x ∈ E.T.online) →
                  ∀ r ∈ planReads E st0 a s l dont, r ∉ dont ∧ st0.cache.get? a r = none := by
                intro l
                induction l with
                | nil => intro dont _ r hr; simp [planReads] at hr
                | cons y l ih2 =>
                  intro dont hon r hr
                  have hon' : ∀ x ∈ l, x ∈ E.T.online := fun x hx => hon x (by simp [hx])
                  unfold planReads at hr
                  split at hr
                  · exact ih2 _ hon' r hr
                  · rename_i hyd
                    split at hr
                    · exact ih2 _ hon' r hr
                    · rename_i hy0
                      split at hr
                      · dsimp only at hr
                        rw [filter_self w hn (hon y (by simp))] at hr
                        rcases List.mem_append.1 hr with hr | hr
                        · rw [List.mem_singleton] at hr
                          subst hr
                          exact ⟨by simpa using hyd, hy0⟩
                        · obtain ⟨q1, q2⟩ := ih2 _ hon' r hr
                          exact ⟨fun hh => q1 (List.mem_append_right _ hh), q2⟩
                      · rcases List.mem_cons.1 hr with rfl | hr
                        · exact ⟨by simpa using hyd, hy0⟩
                        · exact ih2 _ hon' r hr
              exact (hI r (by simp [hrl])).2 (key l dont hol r hr)
            exact (hC x (by simp) v hg r (by simp [hrl]) hrn hs).symm
          · simp only [if_neg (hcl x hx)]
            exact j2 x hx
    | none =>
      -- Not cached: read, unless the read fails.
      obtain ⟨hcd, hc0⟩ := hIc.1 hg
      have hplan : ∃ dont', planReads E st0 a s (c :: l) dont = c :: planReads E st0 a s l dont' ∧
          ((st0.cache.enabled = false ∧ dont' = dont) ∨ (st0.cache.enabled = true ∧
            ∀ x, x ∈ dont' ↔ (x ∈ dont ∨ (x ∈ E.T.sib s c ∧ x ≠ c)))) := by
        cases hen : st0.cache.enabled with
        | true =>
          refine ⟨(E.T.sib s c).filter (· != c) ++ dont, ?_, .inr ⟨rfl, fun x => ?_⟩⟩
          · rw [planReads, if_neg (by simpa using hcd), hc0]
            simp only [hen, if_true]
            rw [filter_self w hn hoc]
            rfl
          · simp only [List.mem_append, List.mem_filter, bne_iff_ne, ne_eq]
            tauto
        | false =>
          refine ⟨dont, ?_, .inl ⟨rfl, rfl⟩⟩
          rw [planReads, if_neg (by simpa using hcd), hc0]
          simp only [hen, Bool.false_eq_true, if_false]
      obtain ⟨dont', hplan, hd'⟩ := hplan
      rw [hplan]
      by_cases hf : E.rfail a c = true
      · refine ⟨fun _ => ?_, fun h => by simp [hf] at h⟩
        have hone : readOne E st a s c = (st, .error .error) := by
          unfold readOne; rw [hg]; dsimp only; rw [if_pos hf]
        rw [readLoop, hone]
      · have hone : readOne E st a s c =
            ({ st with cache := st.cache.add E.T a c (st.hw a c) s }, .ok (st.hw a c)) := by
          unfold readOne; rw [hg]; dsimp only; rw [if_neg hf]
        have hcl : ∀ x ∈ l, x ≠ c := fun x hx e => hl.1 (e ▸ hx)
        have hI' : ∀ x ∈ l, (st.cache.add E.T a c (st.hw a c) s).get? a x = none ↔
            (x ∉ dont' ∧ st0.cache.get? a x = none) := by
          intro x hx
          have hIx := hI x (by simp [hx])
          rw [Cache.get?_add]
          rcases hd' with ⟨hen, rfl⟩ | ⟨hen, hd'⟩
          · rw [if_neg (by simp [he, hen])]
            exact hIx
          · rw [hd']
            by_cases hs : x ∈ E.T.sib s c
            · rw [if_pos ⟨he.trans hen, rfl, hs⟩]
              simp [hs, hcl x hx]
            · rw [if_neg (by simp [hs]), hIx]
              simp [hs]
        have hC' : Compat E a s l { st with cache := st.cache.add E.T a c (st.hw a c) s } := by
          intro x hx u hu r hr hrn hxr
          dsimp only at hu hrn ⊢
          rw [Cache.get?_add] at hu hrn
          split at hrn
          · cases hrn
          · rename_i hnr
            split at hu
            · rename_i hxs
              exfalso
              refine hnr ⟨hxs.1, rfl, ?_⟩
              rw [w.common hoc (hol r hr) hxs.2.2 hxr]
              exact w.refl _ _ (hol r hr)
            · exact hC x (by simp [hx]) u hu r (by simp [hr]) hrn hxr
        obtain ⟨i1, i2⟩ := ih hl.2 hol { st with cache := st.cache.add E.T a c (st.hw a c) s } dont'
          (by simpa using he) hI' hC'
        refine ⟨fun h => ?_, fun h => ?_⟩
        · have h' : (planReads E st0 a s l dont').any (E.rfail a) = true := by
            simpa [List.any_cons, hf] using h
          have := i1 h'
          rw [readLoop, hone]
          dsimp only
          cases hr : readLoop E a s l { st with cache := st.cache.add E.T a c (st.hw a c) s } with
          | mk st1 r =>
            rw [hr] at this
            dsimp only at this
            subst this
            rfl
        · have h' : (planReads E st0 a s l dont').any (E.rfail a) = false := by
            rw [List.any_cons, Bool.or_eq_false_iff] at h
            exact h.2
          obtain ⟨V, j1, j2⟩ := i2 h'
          refine ⟨fun x => if x = c then st.hw a c else V x, ?_, ?_⟩
          · rw [readLoop, hone]
            dsimp only
            rw [j1]
            dsimp only
            rw [List.map_cons, if_pos rfl]
            refine Prod.ext rfl (congrArg (fun t => Except.ok ((c, st.hw a c) :: t)) ?_)
            exact List.map_congr_left fun x hx => by rw [if_neg (hcl x hx)]
          · intro x hx
            rcases List.mem_cons.1 hx with rfl | hx
            · exact ⟨fun _ => if_pos rfl, fun hm => absurd List.mem_cons_self hm⟩
            · simp only [if_neg (hcl x hx)]
              refine ⟨fun hm => (j2 x hx).1 ?_, fun hm => (j2 x hx).2 fun h => hm (List.mem_cons_of_mem _ h)⟩
              rcases List.mem_cons.1 hm with h | h
              · exact absurd h (hcl x hx)
              · exact h

theorem collect_eq (st : St) (a : Nat) (d : Dict Int Int) (l : List Nat) (V : Nat → Int)
    (h : ∀ c ∈ l, (d.get? (c : Int)).or (st.cache.get? a c) = some (V c)) :
    collect st a d l = .ok (l.map fun c => (c, V c)) := by
  induction l with
  | nil => rfl
  | cons c l ih =>
    rw [collect, h c (by simp), ih (fun x hx => h x (by simp [hx]))]
    rfl

/-- Reading by the script and reading CPU by CPU are the same if nothing fails; otherwise both fail. -/
theorem readRemote_eq {E : Env} (w : TopoWF E.T) (hn : SibNodup E.T) (a : Nat) (s : Scope) (l : List Nat) (hl : l.Nodup)
    (ho : ∀ c ∈ l, c ∈ E.T.online) (st : St) (hC : Compat E a s l st) :
    (∀ r, (readLoop E a s l st).2 = .ok r → readRemote E a s l st = readLoop E a s l st) ∧
    (∀ e, (readLoop E a s l st).2 = .error e → e = .error ∧ readRemote E a s l st = (st, .error .error)) := by
  obtain ⟨h1, h2⟩ := readLoop_plan w hn a s l hl ho st st [] rfl (fun c _ => by simp) hC
  have hsub := planReads_sublist w hn st a s l ho []
  generalize hP : planReads E st a s l [] = P at h1 h2 hsub
  have hPo : ∀ p ∈ readings st a P, p.1 ∈ E.T.online := by
    intro p hp
    obtain ⟨c, hc, rfl⟩ := List.mem_map.1 hp
    exact ho c (hsub.subset hc)
  have hfst : (readings st a P).map Prod.fst = P := by simp [readings, List.map_map, Function.comp_def]
  have hPn : ((readings st a P).map Prod.fst).Nodup := by rw [hfst]; exact hsub.nodup hl
  cases hany : P.any (E.rfail a) with
  | true =>
    have h3 := h1 hany
    refine ⟨fun r hr => (by rw [h3] at hr; cases hr), fun e he => ?_⟩
    rw [h3] at he
    cases he
    refine ⟨rfl, ?_⟩
    have hne : P.isEmpty = false := by
      cases P with
      | nil => simp at hany
      | cons c P => rfl
    unfold readRemote
    simp only [hP, hne, Bool.false_eq_true, if_false, runReadScript, hany, if_true]
  | false =>
    obtain ⟨V, j1, j2⟩ := h2 hany
    refine ⟨fun r _ => ?_, fun e he => (by rw [j1] at he; cases he)⟩
    have hcol : ∀ st' : St, st'.cache = addPairs E.T a s (readings st a P) st.cache →
        collect st' a (setPairs (readings st a P) []) l = .ok (l.map fun c => (c, V c)) := by
      intro st' hst'
      refine collect_eq _ _ _ _ _ fun c hc => ?_
      obtain ⟨g1, g2⟩ := get?_setPairs (readings st a P) hPn [] c
      by_cases hm : c ∈ P
      · rw [g1 (st.hw a c) (List.mem_map.2 ⟨c, hm, rfl⟩), (j2 c hc).1 hm]
        rfl
      · rw [g2 (by rw [hfst]; exact hm), hst', (j2 c hc).2 hm]
        rfl
    rw [j1]
    unfold readRemote
    simp only [hP]
    by_cases hemp : P.isEmpty = true
    · rw [if_pos hemp]
      have : P = [] := by simpa using hemp
      subst this
      have := hcol st rfl
      simp only [readings, List.map_nil, setPairs, addPairs] at this ⊢
      rw [this]
    · rw [if_neg hemp]
      have hs : (P.flatMap fun c => scriptLine (c, st.hw a c)) = (readings st a P).flatMap scriptLine := by
        rw [readings, List.flatMap_map]
      simp only [runReadScript, hany, Bool.false_eq_true, if_false, hs, splitLines_script,
        handleLines_script E a s _ hPo st []]
      rw [hcol _ rfl]

end Verif.MSR
