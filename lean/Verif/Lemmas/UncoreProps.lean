import Verif.Lemmas.PStates
import Verif.Props.PStates
import Verif.Props.UncoreFreq
import Verif.Props.UncorePropsSpec

/-!
Lemmas about the uncore frequency commands.
-/

namespace Verif.UncoreProps

open Verif.UncoreFreq
open Verif.PStates (FVal PName)

theorem among_iff (dies : Dict Int (List Int)) (x : Die) : Among dies x ↔ x ∈ pairs dies := by
  obtain ⟨p, d⟩ := x
  exact (mem_pairs dies p d).symm

theorem exist_iff (m : Machine) (dies : Dict Int (List Int)) : Exist m dies ↔ ∀ x ∈ pairs dies, x ∈ m.dies := by
  constructor
  · rintro h ⟨p, d⟩ hx
    obtain ⟨ds, h1, h2⟩ := (mem_pairs dies p d).1 hx
    exact h p ds d h1 h2
  · exact fun h p ds d h1 h2 => h (p, d) ((mem_pairs dies p d).2 ⟨ds, h1, h2⟩)

/-! ### What can happen to the frequencies, whatever fails -/

theorem restoreLoop_any {m : Machine} (p : Int) (key : Key) (g : Int → Int) (ds : List Int)
    (h : ∀ d ∈ ds, (p, d) ∈ m.dies) (s : KState) :
    let r := restoreLoop m.sysfs s key (ds.map fun d => (m.dirOf (p, d), g d))
    r.1.cap = s.cap ∧
    ∀ x k, r.1.val x k = s.val x k ∨ (x.1 = p ∧ x.2 ∈ ds ∧ k = key ∧ r.1.val x k = g x.2) := by
  induction ds generalizing s with
  | nil => exact ⟨rfl, fun _ _ => Or.inl rfl⟩
  | cons d ds ih =>
    have hd := domain_dirOf (h d List.mem_cons_self)
    have ih := ih (fun d' hd' => h d' (List.mem_cons_of_mem _ hd'))
    rw [List.map_cons]
    unfold restoreLoop
    rw [write_die _ hd]
    cases hf : m.wfail (m.dirOf (p, d)) (fname key false) (g d) with
    | some e => exact ⟨rfl, fun _ _ => Or.inl rfl⟩
    | none =>
      dsimp only
      by_cases ha : Machine.accepts s p key (g d) = true
      · rw [if_pos ha]
        dsimp only
        obtain ⟨h1, h2⟩ := ih (Machine.setOne s (p, d) key (g d))
        refine ⟨h1, fun x k => ?_⟩
        rcases h2 x k with e | ⟨e1, e2, e3, e4⟩
        · rw [e]
          show (if x = (p, d) ∧ k = key then g d else s.val x k) = _ ∨ _
          by_cases hx : x = (p, d) ∧ k = key
          · obtain ⟨rfl, rfl⟩ := hx
            right
            exact ⟨rfl, List.mem_cons_self, rfl, if_pos ⟨rfl, rfl⟩⟩
          · exact Or.inl (if_neg hx)
        · exact Or.inr ⟨e1, List.mem_cons_of_mem _ e2, e3, e4⟩
      · rw [if_neg ha]
        exact ⟨rfl, fun _ _ => Or.inl rfl⟩

/-- The value is the one from before, or the limit of the package. -/
def OrLimit (m : Machine) (s s' : KState) : Prop :=
  ∀ x k, s'.val x k = s.val x k ∨ (x ∈ m.dies ∧ s'.val x k = m.limit x.1 k)

theorem OrLimit.trans {m : Machine} {a b c : KState} (h1 : OrLimit m a b) (h2 : OrLimit m b c) : OrLimit m a c := by
  intro x k
  rcases h2 x k with e | e
  · rw [e]; exact h1 x k
  · exact Or.inr e

theorem inLimit_limit (m : Machine) (p : Int) (key : Key) : m.InLimit p key (m.limit p key) := by
  cases key <;> exact Int.le_refl _

theorem unlockKey_any {m : Machine} (hw : m.WF) {s : KState} (hg : m.Good s) {p : Int} {ds : List Int}
    (hds : ∀ d, d ∈ ds ↔ (p, d) ∈ m.dies) (hne : ds ≠ []) (key : Key) :
    OrLimit m s (unlockKey m.sysfs s p ds key).1 ∧ m.Good (unlockKey m.sysfs s p ds key).1 := by
  obtain ⟨d0, hd0⟩ := List.exists_mem_of_ne_nil ds hne
  have hx : (p, d0) ∈ m.dies := (hds d0).1 hd0
  have hlim := read_limit (s := s) hw hx key
  obtain ⟨v, hv, y, hy, hyp, hyv⟩ := read_legacy (s := s) hw hx key
  dsimp only at hlim hv hyp
  unfold unlockKey
  rw [hlim]
  dsimp only
  rw [hv]
  dsimp only
  by_cases he : v = m.limit p key
  · rw [if_pos he]
    exact ⟨fun _ _ => Or.inl rfl, hg⟩
  · rw [if_neg he, saveLoop_eq hw s p key ds fun d hd => (hds d).1 hd]
    dsimp only
    rw [write_legacy hw hx]
    dsimp only
    cases hf : m.wfail (legacyDir p 0) (fname key false) (m.limit p key) with
    | some e => exact ⟨fun _ _ => Or.inl rfl, hg⟩
    | none =>
      dsimp only
      obtain ⟨h1, h2⟩ := restoreLoop_any p key (fun d => s.val (p, d) key) ds (fun d hd => (hds d).1 hd)
        (m.setAll s p key (m.limit p key))
      have hor : OrLimit m s (restoreLoop m.sysfs (m.setAll s p key (m.limit p key)) key
          (ds.map fun d => (m.dirOf (p, d), s.val (p, d) key))).1 := by
        intro x k
        rcases h2 x k with e | ⟨e1, e2, e3, e4⟩
        · rw [e]
          show (if x ∈ m.dies ∧ x.1 = p ∧ k = key then m.limit p key else s.val x k) = _ ∨ _
          by_cases hc : x ∈ m.dies ∧ x.1 = p ∧ k = key
          · obtain ⟨c1, rfl, rfl⟩ := hc
            right
            exact ⟨c1, if_pos ⟨c1, rfl, rfl⟩⟩
          · exact Or.inl (if_neg hc)
        · left
          rw [e4]
          subst e1 e3
          rfl
      refine ⟨hor, fun x hx' k => ?_⟩
      have hin : m.InLimit x.1 k ((restoreLoop m.sysfs (m.setAll s p key (m.limit p key)) key
          (ds.map fun d => (m.dirOf (p, d), s.val (p, d) key))).1.val x k) := by
        rcases hor x k with e | ⟨-, e⟩
        · rw [e]; exact (hg x hx' k).1
        · rw [e]; exact inLimit_limit m _ _
      refine ⟨hin, ?_⟩
      by_cases hc : x.1 = p ∧ k = key
      · obtain ⟨rfl, rfl⟩ := hc
        unfold Machine.accepts
        rw [h1, show (m.setAll s x.1 k (m.limit x.1 k)).cap x.1 k = some (m.limit x.1 k) from if_pos ⟨rfl, rfl⟩]
        cases k <;> exact decide_eq_true hin
      · have hcap : (restoreLoop m.sysfs (m.setAll s p key (m.limit p key)) key
          (ds.map fun d => (m.dirOf (p, d), s.val (p, d) key))).1.cap x.1 k = s.cap x.1 k := by
          rw [h1]; exact if_neg hc
        rw [accepts_cap hcap]
        have hval : (restoreLoop m.sysfs (m.setAll s p key (m.limit p key)) key
          (ds.map fun d => (m.dirOf (p, d), s.val (p, d) key))).1.val x k = s.val x k := by
          rcases h2 x k with e | ⟨e1, -, e3, -⟩
          · rw [e]
            exact if_neg fun h => hc ⟨h.2.1, h.2.2⟩
          · exact absurd ⟨e1, e3⟩ hc
        rw [hval]
        exact (hg x hx' k).2

theorem unlockLoop_any {m : Machine} (hw : m.WF) (D : Dict Int (List Int))
    (hD : ∀ p ds, (p, ds) ∈ D → ds ≠ [] ∧ ∀ d, d ∈ ds ↔ (p, d) ∈ m.dies) {s : KState} (hg : m.Good s) :
    OrLimit m s (unlockLoop m.sysfs s D).1 ∧ m.Good (unlockLoop m.sysfs s D).1 := by
  induction D generalizing s with
  | nil => exact ⟨fun _ _ => Or.inl rfl, hg⟩
  | cons e D ih =>
    obtain ⟨p, ds⟩ := e
    obtain ⟨hne, hds⟩ := hD p ds List.mem_cons_self
    unfold unlockLoop
    obtain ⟨a1, a2⟩ := unlockKey_any hw hg hds hne .min
    cases hr1 : unlockKey m.sysfs s p ds .min with
    | mk s1 r1 =>
      rw [hr1] at a1 a2
      cases r1 with
      | error e => exact ⟨a1, a2⟩
      | ok u =>
        dsimp only at a1 a2 ⊢
        obtain ⟨b1, b2⟩ := unlockKey_any hw a2 hds hne .max
        cases hr2 : unlockKey m.sysfs s1 p ds .max with
        | mk s2 r2 =>
          rw [hr2] at b1 b2
          cases r2 with
          | error e => exact ⟨a1.trans b1, b2⟩
          | ok u =>
            dsimp only at b1 b2 ⊢
            obtain ⟨c1, c2⟩ := ih (fun q l hq => hD q l (List.mem_cons_of_mem _ hq)) b2
            exact ⟨(a1.trans b1).trans c1, c2⟩

theorem unlock_any {m : Machine} (hw : m.WF) {st : State KState} (hst : Ready m st) :
    OrLimit m st.kernel (unlock m.sysfs st).1.kernel ∧ Ready m (unlock m.sysfs st).1 := by
  cases hres : (unlock m.sysfs st).2 with
  | ok u =>
    obtain ⟨h1, h2, -⟩ := (unlock_spec hw hst).1 hres
    exact ⟨fun x k => Or.inl (by rw [h1]), h2⟩
  | error err =>
    revert hres
    unfold unlock
    by_cases hu : st.unlocked = true
    · rw [if_pos hu]; intro h; cases h
    · rw [if_neg hu, build_sysfs hw]
      dsimp only
      have hkeys := keys_addAll m.entries ⟨[], []⟩ List.nodup_nil
      have hD : ∀ p ds, (p, ds) ∈ (addAll ⟨[], []⟩ m.entries).dies →
          ds ≠ [] ∧ ∀ d, d ∈ ds ↔ (p, d) ∈ m.dies := by
        intro p ds hmem
        have hget := Dict.get?_of_mem hkeys.1 hmem
        have hds := (info_dies m p).2 ds hget
        have hiff : ∀ d, d ∈ ds ↔ (p, d) ∈ m.dies := by
          intro d
          rw [hds, List.mem_map]
          constructor
          · rintro ⟨⟨q, d'⟩, hx, h⟩
            rw [List.mem_filter] at hx
            have : q = p := by simpa using hx.2
            cases h
            rw [← this]
            exact hx.1
          · intro h
            exact ⟨(p, d), List.mem_filter.2 ⟨h, by simp⟩, rfl⟩
        refine ⟨?_, hiff⟩
        have hpk : p ∈ (addAll ⟨[], []⟩ m.entries).dies.keys := List.mem_map.2 ⟨(p, ds), hmem, rfl⟩
        obtain ⟨⟨q, d⟩, hx, h⟩ := (info_dies m p).1.1 hpk
        cases h
        exact List.ne_nil_of_mem ((hiff d).2 hx)
      obtain ⟨h1, h2⟩ := unlockLoop_any hw _ hD hst.1
      cases hr : unlockLoop m.sysfs st.kernel (addAll ⟨[], []⟩ m.entries).dies with
      | mk s r =>
        rw [hr] at h1 h2
        cases r with
        | ok u => intro h; cases h
        | error e => exact fun _ => ⟨h1, h2, fun h => absurd h hu⟩

theorem setLoop_any {m : Machine} (hw : m.WF) (freq : Int) (key : Key) (l : List Die) (s : KState) :
    (setLoop m.sysfs freq key s l).1.cap = s.cap ∧
    ∀ x k, (setLoop m.sysfs freq key s l).1.val x k = s.val x k ∨
      (x ∈ l ∧ x ∈ m.dies ∧ k = key ∧ (setLoop m.sysfs freq key s l).1.val x k = freq / 1000 ∧
        Machine.accepts s x.1 key (freq / 1000) = true) := by
  induction l generalizing s with
  | nil => exact ⟨rfl, fun _ _ => Or.inl rfl⟩
  | cons y l ih =>
    obtain ⟨p, d⟩ := y
    unfold setLoop dieDir
    rw [if_pos (useNew_sysfs hw)]
    by_cases hx : (p, d) ∈ m.dies
    · have hd := domain_dirOf hx
      rw [show newDir m.sysfs p d = _ from newDir_sysfs hw hd]
      dsimp only
      rw [write_die _ hd]
      cases hf : m.wfail (m.dirOf (p, d)) (fname key false) (freq / 1000) with
      | some e => exact ⟨rfl, fun _ _ => Or.inl rfl⟩
      | none =>
        dsimp only
        by_cases ha : Machine.accepts s p key (freq / 1000) = true
        · rw [if_pos ha]
          dsimp only
          obtain ⟨h1, h2⟩ := ih (Machine.setOne s (p, d) key (freq / 1000))
          refine ⟨h1, fun x k => ?_⟩
          rcases h2 x k with e | ⟨e1, e2, e3, e4, e5⟩
          · rw [e]
            show (if x = (p, d) ∧ k = key then freq / 1000 else s.val x k) = _ ∨ _
            by_cases hc : x = (p, d) ∧ k = key
            · obtain ⟨rfl, rfl⟩ := hc
              right
              exact ⟨List.mem_cons_self, hx, rfl, if_pos ⟨rfl, rfl⟩, ha⟩
            · exact Or.inl (if_neg hc)
          · refine Or.inr ⟨List.mem_cons_of_mem _ e1, e2, e3, e4, ?_⟩
            rw [← e5]
            exact (accepts_cap rfl _).symm
        · rw [if_neg ha]
          exact ⟨rfl, fun _ _ => Or.inl rfl⟩
    · rw [show newDir m.sysfs p d = _ from newDir_missing hw hx]
      exact ⟨rfl, fun _ _ => Or.inl rfl⟩

theorem setFreqDies_any {m : Machine} (hw : m.WF) {st : State KState} (hst : Ready m st) (freq : Int) (key : Key)
    (dies : Dict Int (List Int)) (hlim : ∀ x ∈ pairs dies, x ∈ m.dies → m.InLimit x.1 key (freq / 1000)) :
    let r := (setFreqDies m.sysfs st freq key dies).1
    Ready m r ∧ ∀ x k, (r.kernel.val x k = st.kernel.val x k ∨ (x ∈ m.dies ∧ r.kernel.val x k = m.limit x.1 k)) ∨
      (x ∈ pairs dies ∧ x ∈ m.dies ∧ k = key ∧ r.kernel.val x k = freq / 1000) := by
  obtain ⟨u1, u2⟩ := unlock_any hw hst
  unfold setFreqDies
  rw [if_pos (useNew_sysfs hw)]
  cases hu : unlock m.sysfs st with
  | mk st1 r =>
    rw [hu] at u1 u2
    cases r with
    | error e => exact ⟨u2, fun x k => Or.inl (u1 x k)⟩
    | ok u =>
      dsimp only at u1 u2 ⊢
      obtain ⟨c1, c2⟩ := setLoop_any hw freq key (pairs dies) st1.kernel
      refine ⟨⟨?_, ?_⟩, ?_⟩
      · intro x hx k
        have hg := u2.1 x hx k
        rw [accepts_cap (congrFun (congrFun c1 x.1) k)]
        rcases c2 x k with e | ⟨e1, e2, e3, e4, e5⟩
        · rw [e]; exact hg
        · rw [e4]
          subst e3
          exact ⟨hlim x e1 e2, e5⟩
      · intro h x hx k v hv
        rw [accepts_cap (congrFun (congrFun c1 x.1) k)]
        exact u2.2 h x hx k v hv
      · intro x k
        rcases c2 x k with e | ⟨e1, e2, e3, e4, e5⟩
        · left
          rw [e]
          exact u1 x k
        · exact Or.inr ⟨e1, e2, e3, e4⟩

/-! ### Groups -/

/-- The die is in the group of frequency `f`. -/
def InG (d : Dict Int (Dict Int (List Int))) (f : Int) (x : Die) : Prop := ∃ g, (f, g) ∈ d ∧ x ∈ pairs g

theorem mem_pairs_groups (g : Dict Int (List Int)) (x : Die) : x ∈ pairs g ↔ InGroups g x.1 x.2 := by
  obtain ⟨p, d⟩ := x
  exact mem_pairs g p d

theorem inG_cons (d : Dict Int (Dict Int (List Int))) (f' f : Int) (g : Dict Int (List Int)) (x : Die) :
    InG ((f', g) :: d) f x ↔ (f = f' ∧ x ∈ pairs g) ∨ InG d f x := by
  unfold InG
  constructor
  · rintro ⟨g', h, hx⟩
    rcases List.mem_cons.1 h with h | h
    · cases h; exact Or.inl ⟨rfl, hx⟩
    · exact Or.inr ⟨g', h, hx⟩
  · rintro (⟨rfl, hx⟩ | ⟨g', h, hx⟩)
    · exact ⟨g, List.mem_cons_self, hx⟩
    · exact ⟨g', List.mem_cons_of_mem _ h, hx⟩

theorem inG_nil (f : Int) (x : Die) : ¬ InG [] f x := by rintro ⟨_, h, _⟩; cases h

theorem inG_addGroup (d : Dict Int (Dict Int (List Int))) (f f' : Int) (x x' : Die) :
    InG (addGroup d f x) f' x' ↔ InG d f' x' ∨ (f' = f ∧ x' = x) := by
  have hp : ∀ g : Dict Int (List Int), x' ∈ pairs (g.set x.1 ((g.get? x.1).getD [] ++ [x.2])) ↔
      x' ∈ pairs g ∨ x' = x := by
    intro g
    rw [mem_pairs_groups, mem_pairs_groups, inGroups_set, Prod.ext_iff]
  unfold addGroup
  dsimp only
  induction d with
  | nil =>
    rw [Dict.get?_nil, Option.getD_none, Dict.set]
    rw [inG_cons, hp]
    constructor
    · rintro (⟨h, h' | h'⟩ | h)
      · cases h'
      · exact Or.inr ⟨h, h'⟩
      · exact absurd h (inG_nil _ _)
    · rintro (h | ⟨h, h'⟩)
      · exact absurd h (inG_nil _ _)
      · exact Or.inl ⟨h, Or.inr h'⟩
  | cons e d ih =>
    obtain ⟨f0, g⟩ := e
    by_cases hf : f0 = f
    · subst hf
      simp only [Dict.get?, if_true, Option.getD_some, Dict.set]
      rw [inG_cons, inG_cons, hp]
      constructor
      · rintro (⟨h, h' | h'⟩ | h)
        · exact Or.inl (Or.inl ⟨h, h'⟩)
        · exact Or.inr ⟨h, h'⟩
        · exact Or.inl (Or.inr h)
      · rintro ((⟨h, h'⟩ | h) | ⟨h, h'⟩)
        · exact Or.inl ⟨h, Or.inl h'⟩
        · exact Or.inr h
        · exact Or.inl ⟨h, Or.inr h'⟩
    · simp only [Dict.get?, if_neg hf, Dict.set]
      rw [inG_cons, inG_cons]
      exact (or_congr Iff.rfl ih).trans or_assoc.symm

/-- Grouping by package does not matter: the loop is the generic one. -/
theorem checkLoop_sim (isMin : Bool) (l : List ((Die × Int) × (Die × Int) × (Die × Int) × (Die × Int)))
    (d : Dict Int (Dict Int (List Int))) (d' : Dict Int (List Die)) (hd : ∀ f x, InG d f x ↔ InGroups d' f x) :
    (∃ e, checkLoop isMin l d = .error e ∧ PStates.checkLoop isMin l d' = .error e) ∨
    ∃ g g', checkLoop isMin l d = .ok g ∧ PStates.checkLoop isMin l d' = .ok g' ∧
      ∀ f x, InG g f x ↔ InGroups g' f x := by
  induction l generalizing d d' with
  | nil => exact Or.inr ⟨d, d', rfl, rfl, hd⟩
  | cons e l ih =>
    obtain ⟨⟨x, f⟩, ⟨_, lo⟩, ⟨_, hi⟩, _, cur⟩ := e
    have hnext : ∀ f' x', InG (addGroup d f x) f' x' ↔
        InGroups (d'.set f ((d'.get? f).getD [] ++ [x])) f' x' := by
      intro f' x'
      rw [inG_addGroup, inGroups_set, hd]
    have ih := ih _ _ hnext
    unfold checkLoop PStates.checkLoop
    by_cases h1 : f < lo ∨ f > hi
    · rw [if_pos h1, if_pos h1]
      exact Or.inl ⟨_, rfl, rfl⟩
    · rw [if_neg h1, if_neg h1]
      cases isMin with
      | true =>
        rw [if_pos rfl]
        by_cases h2 : f > cur
        · rw [if_pos h2, if_pos ⟨rfl, h2⟩]
          exact Or.inl ⟨_, rfl, rfl⟩
        · rw [if_neg h2, if_neg (fun h => h2 h.2), if_neg (fun h => h.1 rfl)]
          exact ih
      | false =>
        rw [if_neg Bool.false_ne_true, if_neg (c := false = true ∧ f > cur) (fun h => Bool.false_ne_true h.1)]
        by_cases h2 : f < cur
        · rw [if_pos h2, if_pos ⟨Bool.false_ne_true, h2⟩]
          exact Or.inl ⟨_, rfl, rfl⟩
        · rw [if_neg h2, if_neg (fun h => h2 h.2)]
          exact ih

/-! ### Writing the groups -/

theorem setGroups_any {m : Machine} (hw : m.WF) (isMin : Bool) (d : Dict Int (Dict Int (List Int)))
    (hlim : ∀ f x, InG d f x → x ∈ m.dies → m.InLimit x.1 (keyOf isMin) (f / 1000)) {st : State KState}
    (hst : Ready m st) :
    let r := (setGroups m.sysfs isMin d st).1
    Ready m r ∧ ∀ x k, (r.kernel.val x k = st.kernel.val x k ∨ (x ∈ m.dies ∧ r.kernel.val x k = m.limit x.1 k)) ∨
      (k = keyOf isMin ∧ ∃ f, InG d f x ∧ r.kernel.val x k = f / 1000) := by
  induction d generalizing st with
  | nil => exact ⟨hst, fun _ _ => Or.inl (Or.inl rfl)⟩
  | cons e d ih =>
    obtain ⟨f, g⟩ := e
    obtain ⟨a1, a2⟩ := setFreqDies_any hw hst f (keyOf isMin) g
      (fun x hx hm => hlim f x ((inG_cons _ _ _ _ _).2 (Or.inl ⟨rfl, hx⟩)) hm)
    have hstep : ∀ x k, ((setFreqDies m.sysfs st f (keyOf isMin) g).1.kernel.val x k = st.kernel.val x k ∨
        (x ∈ m.dies ∧ (setFreqDies m.sysfs st f (keyOf isMin) g).1.kernel.val x k = m.limit x.1 k)) ∨
        (k = keyOf isMin ∧ ∃ f', InG ((f, g) :: d) f' x ∧
          (setFreqDies m.sysfs st f (keyOf isMin) g).1.kernel.val x k = f' / 1000) := by
      intro x k
      rcases a2 x k with h | ⟨h1, -, h3, h4⟩
      · exact Or.inl h
      · exact Or.inr ⟨h3, f, (inG_cons _ _ _ _ _).2 (Or.inl ⟨rfl, h1⟩), h4⟩
    unfold setGroups
    cases hr : setFreqDies m.sysfs st f (keyOf isMin) g with
    | mk st1 r =>
      rw [hr] at a1 hstep
      cases r with
      | error e => exact ⟨a1, hstep⟩
      | ok u =>
        dsimp only at a1 hstep ⊢
        obtain ⟨b1, b2⟩ := ih (fun f' x h => hlim f' x ((inG_cons _ _ _ _ _).2 (Or.inr h))) a1
        refine ⟨b1, fun x k => ?_⟩
        rcases b2 x k with (h | h) | ⟨h1, f', h2, h3⟩
        · rw [h]; exact hstep x k
        · exact Or.inl (Or.inr h)
        · exact Or.inr ⟨h1, f', (inG_cons _ _ _ _ _).2 (Or.inr h2), h3⟩

theorem setGroups_ok {m : Machine} (hw : m.WF) (isMin : Bool) (d : Dict Int (Dict Int (List Int)))
    (hlim : ∀ f x, InG d f x → m.InLimit x.1 (keyOf isMin) (f / 1000))
    (huniq : ∀ x f f', InG d f x → InG d f' x → f = f') {st : State KState} (hst : Ready m st) :
    let r := setGroups m.sysfs isMin d st
    (r.2 = .ok () → Ready m r.1 ∧
      (∀ f x, InG d f x → r.1.kernel.val x (keyOf isMin) = f / 1000) ∧
      (∀ x, (∀ f, ¬ InG d f x) → r.1.kernel.val x (keyOf isMin) = st.kernel.val x (keyOf isMin)) ∧
      ∀ x k, k ≠ keyOf isMin → r.1.kernel.val x k = st.kernel.val x k) ∧
    (m.Reliable → (∀ f x, InG d f x → x ∈ m.dies) → r.2 = .ok ()) := by
  induction d generalizing st with
  | nil => exact ⟨fun _ => ⟨hst, fun f x h => absurd h (inG_nil f x), fun _ _ => rfl, fun _ _ _ => rfl⟩, fun _ _ => rfl⟩
  | cons e d ih =>
    obtain ⟨f, g⟩ := e
    have head : ∀ x ∈ pairs g, InG ((f, g) :: d) f x := fun x hx => (inG_cons _ _ _ _ _).2 (Or.inl ⟨rfl, hx⟩)
    have tail : ∀ f' x, InG d f' x → InG ((f, g) :: d) f' x := fun f' x h => (inG_cons _ _ _ _ _).2 (Or.inr h)
    have hl : ∀ p ds d', (p, ds) ∈ g → d' ∈ ds → m.InLimit p (keyOf isMin) (f / 1000) := fun p ds d' h1 h2 =>
      hlim f (p, d') (head _ ((mem_pairs g p d').2 ⟨ds, h1, h2⟩))
    have c65 := C65_set m hw st hst f (keyOf isMin) g hl
    have c65' := fun hrel hex => C65_succeeds m hw st hst f (keyOf isMin) g hex hl hrel
    unfold setGroups
    cases hr : setFreqDies m.sysfs st f (keyOf isMin) g with
    | mk st1 r =>
      rw [hr] at c65 c65'
      cases r with
      | error e =>
        refine ⟨fun h => (by cases h), fun hrel hex => ?_⟩
        have := c65' hrel fun p ds d' h1 h2 => hex f (p, d') (head _ ((mem_pairs g p d').2 ⟨ds, h1, h2⟩))
        cases this
      | ok u =>
        obtain ⟨⟨a1, a2, a3⟩, a4⟩ := c65 rfl
        dsimp only at a1 a2 a3 a4 ⊢
        obtain ⟨b1, b2⟩ := ih (fun f' x h => hlim f' x (tail f' x h))
          (fun x f1 f2 h1 h2 => huniq x f1 f2 (tail _ _ h1) (tail _ _ h2)) a4
        refine ⟨fun hok => ?_, fun hrel hex => b2 hrel fun f' x h => hex f' x (tail f' x h)⟩
        obtain ⟨k1, k2, k3, k4⟩ := b1 hok
        refine ⟨k1, fun f' x h => ?_, fun x h => ?_, fun x k hk => (k4 x k hk).trans (a3 x k hk)⟩
        · rcases (inG_cons _ _ _ _ _).1 h with ⟨rfl, hx⟩ | h'
          · by_cases hd : ∃ f'', InG d f'' x
            · obtain ⟨f'', hd⟩ := hd
              obtain rfl := huniq x f' f'' (head x hx) (tail _ _ hd)
              exact k2 f' x hd
            · rw [k3 x fun f'' h'' => hd ⟨f'', h''⟩]
              obtain ⟨p, d'⟩ := x
              obtain ⟨ds, h1, h2⟩ := (mem_pairs g p d').1 hx
              exact a1 p ds d' h1 h2
          · exact k2 f' x h'
        · rw [k3 x fun f'' h'' => h f'' (tail _ _ h'')]
          obtain ⟨p, d'⟩ := x
          exact a2 p d' fun ds h1 h2 => h f (head _ ((mem_pairs g p d').2 ⟨ds, h1, h2⟩))

/-! ### One request -/

/-- The frequencies as plain files. -/
def files (s : KState) : PStates.Sysfs Die := ⟨fun x => s.val x .min, fun x => s.val x .max⟩

theorem file_files (s : KState) (b : Bool) (x : Die) : (files s).file b x = s.val x (keyOf b) := by
  cases b <;> rfl

/-- The limits of the dies. -/
def plat (m : Machine) : PStates.Plat Die :=
  PStates.uncorePlat (fun _ => 100000000) (fun x => m.dieLimit x .min) (fun x => m.dieLimit x .max)

theorem platform (m : Machine) : PStates.Platform (plat m) := .uncore _ _ _

theorem getFreqDies_eq {m : Machine} (hw : m.WF) (s : KState) (key : Key) (limit : Bool) {dies : Dict Int (List Int)}
    (h : Exist m dies) : getFreqDies m.sysfs s key limit dies =
      .ok ((pairs dies).map fun x => (x, (if limit then m.dieLimit x key else s.val x key) * 1000)) :=
  getFreqLoop_spec hw s key limit _ ((exist_iff m dies).1 h)

theorem getFreqLoop_missing {m : Machine} (hw : m.WF) (s : KState) (key : Key) (limit : Bool) (l : List Die)
    (h : ¬ ∀ x ∈ l, x ∈ m.dies) : ∃ e, getFreqLoop m.sysfs s key limit l = .error e := by
  induction l with
  | nil => exact absurd (fun x hx => absurd hx List.not_mem_nil) h
  | cons x l ih =>
    obtain ⟨p, d⟩ := x
    unfold getFreqLoop dieDir
    rw [if_pos (useNew_sysfs hw)]
    by_cases hx : (p, d) ∈ m.dies
    · obtain ⟨e, he⟩ := ih fun h' => h fun y hy => by
        rcases List.mem_cons.1 hy with rfl | hy
        · exact hx
        · exact h' y hy
      cases newDir m.sysfs p d with
      | error e => exact ⟨e, rfl⟩
      | ok dir =>
        dsimp only
        cases m.sysfs.readInt s dir (fname key limit) with
        | error e => exact ⟨e, rfl⟩
        | ok v =>
          dsimp only
          rw [he]
          exact ⟨e, rfl⟩
    · rw [show newDir m.sysfs p d = _ from newDir_missing hw hx]
      exact ⟨_, rfl⟩

theorem mdlLoop_eq (l : List Die) (b lo hi : Die → Int) :
    mdlLoop ((l.map fun x => (x, b x)).zip ((l.map fun x => (x, lo x)).zip (l.map fun x => (x, hi x)))) =
      l.map fun x => (x, PStates.mdl (b x) (lo x) (hi x)) := by
  induction l with
  | nil => rfl
  | cons x l ih => rw [List.map_cons, List.map_cons, List.map_cons, List.map_cons, List.zip_cons_cons,
      List.zip_cons_cons, mdlLoop, ih]

theorem numericFreq_plat (m : Machine) (v : FVal) (l : List Die) :
    (PStates.numericFreq (plat m) v l = .error .error ∧ ∀ x, wanted m x v = none) ∨
    ∃ n : Die → Int, (∀ x, wanted m x v = some (n x)) ∧
      PStates.numericFreq (plat m) v l = .ok (l.map fun x => (x, n x)) := by
  cases v with
  | min => exact Or.inr ⟨_, fun x => rfl, rfl⟩
  | max => exact Or.inr ⟨_, fun x => rfl, rfl⟩
  | num f => exact Or.inr ⟨fun _ => f, fun x => rfl, rfl⟩
  | other n =>
    by_cases h : n = "mdl"
    · refine Or.inr ⟨_, fun x => if_pos h, ?_⟩
      exact if_pos h
    · exact Or.inl ⟨if_neg h, fun x => if_neg h⟩

theorem numericDies_eq {m : Machine} (hw : m.WF) (ck : Clock) (v : FVal) {dies : Dict Int (List Int)}
    (h : Exist m dies) (s : KState) :
    (numericDies m.sysfs ck v dies s = PStates.numericFreq (plat m) v (pairs dies)) ∨
    (¬ Modern ck ∧ v = .other "mdl" ∧ ∃ e, numericDies m.sysfs ck v dies s = .error e) := by
  cases v with
  | min => left; unfold numericDies; dsimp only; rw [getFreqDies_eq hw _ _ _ h]; rfl
  | max => left; unfold numericDies; dsimp only; rw [getFreqDies_eq hw _ _ _ h]; rfl
  | num f => exact Or.inl rfl
  | other n =>
    unfold numericDies
    dsimp only
    by_cases hn : n = "mdl"
    · rw [if_pos hn]
      subst hn
      by_cases hm : Modern ck
      · left
        have hb : bclksDies ck dies = .ok ((pairs dies).map fun x => (x, 100000000)) := by
          unfold bclksDies
          rw [hm.1]
          exact if_pos hm.2
        rw [hb, getFreqDies_eq hw _ _ _ h, getFreqDies_eq hw _ _ _ h]
        dsimp only
        rw [mdlLoop_eq _ (fun _ => 100000000)]
        rfl
      · refine Or.inr ⟨hm, rfl, ?_⟩
        have : ∃ e, bclksDies ck dies = .error e := by
          unfold bclksDies
          cases hf : ck.fsb with
          | ok u => exact ⟨_, rfl⟩
          | error e =>
            cases e with
            | notSupported =>
              dsimp only
              cases hi : ck.intel with
              | true => exact absurd ⟨hf, hi⟩ hm
              | false => exact ⟨_, rfl⟩
            | _ => exact ⟨_, rfl⟩
        obtain ⟨e, he⟩ := this
        rw [he]
        exact ⟨e, rfl⟩
    · left
      rw [if_neg hn]
      exact (if_neg hn).symm

theorem bad_violates (m : Machine) (s : KState) (isMin : Bool) (x : Die) (f : Int) :
    PStates.Bad (plat m) isMin (PStates.sysfsView (files s) (!isMin)) x f ↔ Violates m s isMin x f := by
  unfold PStates.Bad Violates
  cases isMin with
  | true =>
    show (f < m.dieLimit x .min * 1000 ∨ m.dieLimit x .max * 1000 < f ∨ (true = true ∧ s.val x .max * 1000 < f) ∨
      (true = false ∧ f < s.val x .max * 1000)) ↔ _
    simp
  | false =>
    show (f < m.dieLimit x .min * 1000 ∨ m.dieLimit x .max * 1000 < f ∨ (false = true ∧ s.val x .min * 1000 < f) ∨
      (false = false ∧ f < s.val x .min * 1000)) ↔ _
    simp

theorem inLimit_of {m : Machine} (hc : Covers m) {s : KState} {isMin : Bool} {x : Die} {f : Int} (hx : x ∈ m.dies)
    (h : ¬ Violates m s isMin x f) : m.InLimit x.1 (keyOf isMin) (f / 1000) := by
  obtain ⟨c1, c2, c3⟩ := hc x hx
  have h1 : ¬ f < m.dieLimit x .min * 1000 := fun h' => h (Or.inl h')
  have h2 : ¬ m.dieLimit x .max * 1000 < f := fun h' => h (Or.inr (Or.inl h'))
  cases isMin with
  | true => show m.limit x.1 .min ≤ f / 1000; omega
  | false => show f / 1000 ≤ m.limit x.1 .max; omega

/-- What a request does: the abstract and the concrete one take the same decision. -/
theorem setUncore_cases {m : Machine} (hw : m.WF) (ck : Clock) (isMin : Bool) (v : FVal) {dies : Dict Int (List Int)}
    (hex : Exist m dies) (st : State KState) :
    (∃ e, setUncore m.sysfs ck isMin v dies st = (st, .error e) ∧
      (Modern ck → (∀ x, wanted m x v = none) ∧ ∀ w, PStates.setFreq (plat m) (PStates.sysfsBackend w) isMin v (pairs dies)
        (files st.kernel) = (files st.kernel, .error e)) ∧ (¬ Modern ck → v = .other "mdl" ∨ ∀ x, wanted m x v = none)) ∨
    ∃ n : Die → Int, (∀ x, wanted m x v = some (n x)) ∧
      ((∃ e, (e = .freqRange ∨ e = .freqOrder) ∧ setUncore m.sysfs ck isMin v dies st = (st, .error e) ∧
          (∃ x ∈ pairs dies, Violates m st.kernel isMin x (n x)) ∧
          (e = .freqRange → ∃ x ∈ pairs dies, n x < m.dieLimit x .min * 1000 ∨ m.dieLimit x .max * 1000 < n x) ∧
          (e = .freqOrder → ∃ x ∈ pairs dies, if isMin then st.kernel.val x .max * 1000 < n x
            else n x < st.kernel.val x .min * 1000) ∧
          ∀ w, PStates.setFreq (plat m) (PStates.sysfsBackend w) isMin v (pairs dies) (files st.kernel) =
            (files st.kernel, .error e)) ∨
       ((∀ x ∈ pairs dies, ¬ Violates m st.kernel isMin x (n x)) ∧
          ∃ g g', setUncore m.sysfs ck isMin v dies st = setGroups m.sysfs isMin g st ∧
            (∀ w, PStates.setFreq (plat m) (PStates.sysfsBackend w) isMin v (pairs dies) (files st.kernel) =
              PStates.setGroups (PStates.sysfsBackend w) isMin g' (files st.kernel)) ∧
            (∀ f x, InG g f x ↔ x ∈ pairs dies ∧ f = n x) ∧ ∀ f x, InG g f x ↔ InGroups g' f x)) := by
  have hcur : ∀ w : Die → Option Exn, (PStates.sysfsBackend w).get (!isMin) (pairs dies) (files st.kernel) =
      .ok ((pairs dies).map fun x => (x, st.kernel.val x (keyOf !isMin) * 1000)) := by
    intro w
    show PStates.sysfsGet (!isMin) (pairs dies) (files st.kernel) = _
    unfold PStates.sysfsGet
    congr 1
    refine List.map_congr_left fun x _ => ?_
    rw [file_files]
  unfold setUncore
  rcases numericFreq_plat m v (pairs dies) with ⟨hnum, hnone⟩ | ⟨n, hwant, hnum⟩
  · left
    rcases numericDies_eq hw ck v hex st.kernel with h | ⟨h1, h2, e, h3⟩
    · rw [h, hnum]
      refine ⟨_, rfl, fun _ => ⟨hnone, fun w => ?_⟩, fun _ => Or.inr hnone⟩
      unfold PStates.setFreq
      rw [hnum]
    · rw [h3]
      exact ⟨e, rfl, fun h => absurd h h1, fun _ => Or.inl h2⟩
  · rcases numericDies_eq hw ck v hex st.kernel with h | ⟨h1, h2, e, h3⟩
    · right
      refine ⟨n, hwant, ?_⟩
      rw [h, hnum]
      dsimp only
      rw [getFreqDies_eq hw _ _ _ hex, getFreqDies_eq hw _ _ _ hex, getFreqDies_eq hw _ _ _ hex]
      dsimp only
      have habs : ∀ w : Die → Option Exn,
          PStates.setFreq (plat m) (PStates.sysfsBackend w) isMin v (pairs dies) (files st.kernel) =
          match PStates.checkLoop isMin (PStates.zipped (plat m) (PStates.sysfsView (files st.kernel) (!isMin))
            ((pairs dies).map fun x => (x, n x))) [] with
          | .error e => (files st.kernel, .error e)
          | .ok g => PStates.setGroups (PStates.sysfsBackend w) isMin g (files st.kernel) := by
        intro w
        unfold PStates.setFreq
        rw [hnum]
        dsimp only
        rw [hcur w]
        dsimp only
        rw [← PStates.zip_eq_zipped (plat m) (PStates.sysfsView (files st.kernel) (!isMin))
          ((pairs dies).map fun x => (x, n x)) (pairs dies) (by rw [List.map_map]; exact List.map_id _)]
        have : ∀ x, st.kernel.val x (keyOf !isMin) * 1000 = PStates.sysfsView (files st.kernel) (!isMin) x := by
          intro x
          unfold PStates.sysfsView
          rw [file_files]
        simp only [this]
        generalize PStates.checkLoop isMin _ _ = c
        cases c <;> rfl
      have hz : ((pairs dies).map fun x => (x, n x)).zip (((pairs dies).map fun x =>
            (x, (if true = true then m.dieLimit x .min else st.kernel.val x .min) * 1000)).zip
          (((pairs dies).map fun x => (x, (if true = true then m.dieLimit x .max else st.kernel.val x .max) * 1000)).zip
            ((pairs dies).map fun x => (x, (if false = true then m.dieLimit x (keyOf !isMin) else
              st.kernel.val x (keyOf !isMin)) * 1000)))) =
          PStates.zipped (plat m) (PStates.sysfsView (files st.kernel) (!isMin)) ((pairs dies).map fun x => (x, n x)) := by
        rw [← PStates.zip_eq_zipped (plat m) (PStates.sysfsView (files st.kernel) (!isMin))
          ((pairs dies).map fun x => (x, n x)) (pairs dies) (by rw [List.map_map]; exact List.map_id _)]
        have : ∀ x, st.kernel.val x (keyOf !isMin) * 1000 = PStates.sysfsView (files st.kernel) (!isMin) x := by
          intro x
          unfold PStates.sysfsView
          rw [file_files]
        simp only [← this]
        rfl
      rw [hz]
      have hmem : ∀ f x, (x, f) ∈ ((pairs dies).map fun x => (x, n x)) ↔ x ∈ pairs dies ∧ f = n x := by
        intro f x
        simp only [List.mem_map, Prod.mk.injEq]
        constructor
        · rintro ⟨a, ha, rfl, rfl⟩; exact ⟨ha, rfl⟩
        · rintro ⟨h, rfl⟩; exact ⟨x, h, rfl, rfl⟩
      rcases PStates.checkLoop_spec (plat m) isMin (PStates.sysfsView (files st.kernel) (!isMin))
        ((pairs dies).map fun x => (x, n x)) [] with ⟨⟨p, hp, hb⟩, hch⟩ | ⟨hall, g', hg', hin⟩
      · left
        have hviol : ∃ x ∈ pairs dies, Violates m st.kernel isMin x (n x) := by
          obtain ⟨h1, h2⟩ := (hmem p.2 p.1).1 hp
          refine ⟨p.1, h1, (bad_violates m st.kernel isMin p.1 (n p.1)).1 ?_⟩
          rw [← h2]
          exact hb
        rcases checkLoop_sim isMin (PStates.zipped (plat m) (PStates.sysfsView (files st.kernel) (!isMin))
          ((pairs dies).map fun x => (x, n x))) [] [] (fun f x => ⟨fun h => absurd h (inG_nil f x),
            fun h => absurd h (inGroups_nil f x)⟩) with ⟨e, s1, s2⟩ | ⟨g, g', s1, s2, -⟩
        · refine ⟨e, ?_, by rw [s1], hviol, ?_, ?_, fun w => by rw [habs w, s2]⟩
          · rcases hch with ⟨c, -⟩ | ⟨c, -⟩
            · rw [c] at s2; cases s2; exact Or.inl rfl
            · rw [c] at s2; cases s2; exact Or.inr rfl
          · rintro rfl
            rcases hch with ⟨c, q, hq, c'⟩ | ⟨c, -⟩
            · obtain ⟨h1, h2⟩ := (hmem q.2 q.1).1 hq
              exact ⟨q.1, h1, by rw [← h2]; exact c'⟩
            · rw [c] at s2; cases s2
          · rintro rfl
            rcases hch with ⟨c, -⟩ | ⟨c, q, hq, c'⟩
            · rw [c] at s2; cases s2
            · obtain ⟨h1, h2⟩ := (hmem q.2 q.1).1 hq
              refine ⟨q.1, h1, ?_⟩
              rw [← h2]
              cases isMin with
              | true => rcases c' with ⟨-, c'⟩ | ⟨c', -⟩
                        · exact c'
                        · cases c'
              | false => rcases c' with ⟨c', -⟩ | ⟨-, c'⟩
                         · cases c'
                         · exact c'
        · rcases hch with ⟨c, -⟩ | ⟨c, -⟩ <;> (rw [c] at s2; cases s2)
      · right
        refine ⟨fun x hx hv => hall (x, n x) ((hmem _ _).2 ⟨hx, rfl⟩) ((bad_violates m st.kernel isMin x (n x)).2 hv), ?_⟩
        rcases checkLoop_sim isMin (PStates.zipped (plat m) (PStates.sysfsView (files st.kernel) (!isMin))
          ((pairs dies).map fun x => (x, n x))) [] [] (fun f x => ⟨fun h => absurd h (inG_nil f x),
            fun h => absurd h (inGroups_nil f x)⟩) with ⟨e, s1, s2⟩ | ⟨g, g2, s1, s2, s3⟩
        · rw [hg'] at s2; cases s2
        · rw [hg'] at s2
          cases s2
          refine ⟨g, g', by rw [s1], fun w => by rw [habs w, hg'], fun f x => ?_, s3⟩
          rw [s3, hin, hmem]
          exact or_iff_right (inGroups_nil f x)
    · left
      rw [h3]
      exact ⟨e, rfl, fun h => absurd h h1, fun _ => Or.inl h2⟩

theorem setUncore_missing {m : Machine} (hw : m.WF) (ck : Clock) (isMin : Bool) (v : FVal) {dies : Dict Int (List Int)}
    (hex : ¬ Exist m dies) (st : State KState) : ∃ e, setUncore m.sysfs ck isMin v dies st = (st, .error e) := by
  rw [exist_iff] at hex
  obtain ⟨e, he⟩ := getFreqLoop_missing hw st.kernel .min true _ hex
  unfold setUncore
  cases numericDies m.sysfs ck v dies st.kernel with
  | error e => exact ⟨e, rfl⟩
  | ok new =>
    dsimp only
    unfold getFreqDies
    rw [he]
    exact ⟨e, rfl⟩

/-! ### Refinement -/

theorem setUncore_refines {m : Machine} (hw : m.WF) (hc : Covers m) (hrel : m.Reliable) {ck : Clock} (hck : Modern ck)
    (isMin : Bool) (v : FVal) {dies : Dict Int (List Int)} (hex : Exist m dies) {st : State KState} (hst : Ready m st) :
    let r := setUncore m.sysfs ck isMin v dies st
    let a := PStates.setFreq (plat m) (PStates.sysfsBackend fun _ => none) isMin v (pairs dies) (files st.kernel)
    r.2 = a.2 ∧ files r.1.kernel = a.1 ∧ Ready m r.1 := by
  have hmem := (exist_iff m dies).1 hex
  rcases setUncore_cases hw ck isMin v hex st with ⟨e, h1, h2, -⟩ | ⟨n, -, ⟨e, -, h1, -, -, -, h2⟩ | ⟨hv, g, g', h1, h2, h3, h4⟩⟩
  · dsimp only
    rw [h1, (h2 hck).2]
    exact ⟨rfl, rfl, hst⟩
  · dsimp only
    rw [h1, h2]
    exact ⟨rfl, rfl, hst⟩
  · dsimp only
    rw [h1, h2]
    have hlim : ∀ f x, InG g f x → m.InLimit x.1 (keyOf isMin) (f / 1000) := by
      intro f x h
      obtain ⟨hx, rfl⟩ := (h3 f x).1 h
      exact inLimit_of hc (hmem x hx) (hv x hx)
    have huniq : ∀ x f f', InG g f x → InG g f' x → f = f' := by
      intro x f f' h h'
      rw [((h3 _ _).1 h).2, ((h3 _ _).1 h').2]
    obtain ⟨a1, a2⟩ := setGroups_ok hw isMin g hlim huniq hst
    have hok := a2 hrel fun f x h => hmem x ((h3 _ _).1 h).1
    obtain ⟨b1, b2, b3, b4⟩ := a1 hok
    obtain ⟨-, c2, c3, c4, c5⟩ := PStates.setGroups_spec (PStates.sysfsLaws (κ := Die) fun _ => none) isMin g'
      (files st.kernel) trivial
    have hok' := c5 fun _ _ _ => rfl
    have c4 := c4 (fun x f f' h h' => huniq x f f' ((h4 _ _).2 h) ((h4 _ _).2 h')) hok'
    refine ⟨by rw [hok, hok'], ?_, b1⟩
    have key : ∀ b x, (files (setGroups m.sysfs isMin g st).1.kernel).file b x =
        (PStates.setGroups (PStates.sysfsBackend fun _ => none) isMin g' (files st.kernel)).1.file b x := by
      intro b x
      rw [file_files]
      by_cases hb : b = isMin
      · subst hb
        by_cases hx : ∃ f, InG g f x
        · obtain ⟨f, hf⟩ := hx
          have := c4 f x ((h4 _ _).1 hf)
          rw [b2 f x hf]
          unfold PStates.sysfsView at this
          omega
        · rw [b3 x fun f hf => hx ⟨f, hf⟩]
          rcases c3 x with h | ⟨f, hf, -⟩
          · unfold PStates.sysfsView at h
            rw [file_files] at h
            omega
          · exact absurd ⟨f, (h4 _ _).2 hf⟩ hx
      · have hb' : b = !isMin := by cases b <;> cases isMin <;> first | rfl | exact absurd rfl hb
        have hk : keyOf b ≠ keyOf isMin := by
          rw [hb']; cases isMin <;> exact fun h => (by cases h)
        rw [b4 x _ hk]
        have := c2 x
        rw [← hb'] at this
        unfold PStates.sysfsView at this
        rw [file_files] at this
        omega
    have k1 : ∀ x, _ := key true
    have k2 : ∀ x, _ := key false
    have e1 := funext k1
    have e2 := funext k2
    cases hf : files (setGroups m.sysfs isMin g st).1.kernel with
    | mk mn mx =>
      cases ha : (PStates.setGroups (PStates.sysfsBackend fun _ => none) isMin g' (files st.kernel)).1 with
      | mk mn' mx' =>
        rw [hf, ha] at e1 e2
        have e1 : mn = mn' := e1
        have e2 : mx = mx' := e2
        rw [e1, e2]

/-- Two setters which do the same. -/
structure Sim {σ τ : Type} (R : σ → τ → Prop) (f : σ → σ × Except Exn Unit) (f' : τ → τ × Except Exn Unit) : Prop where
  res : ∀ s t, R s t → (f s).2 = (f' t).2
  rel : ∀ s t, R s t → R (f s).1 (f' t).1

section
variable {σ τ : Type} {R : σ → τ → Prop}

theorem Sim.split {f : σ → σ × Except Exn Unit} {f' : τ → τ × Except Exn Unit} (h : Sim R f f') {s : σ} {t : τ}
    (hr : R s t) : (∃ s1 t1, R s1 t1 ∧ f s = (s1, .ok ()) ∧ f' t = (t1, .ok ())) ∨
      ∃ s1 t1 e, R s1 t1 ∧ f s = (s1, .error e) ∧ f' t = (t1, .error e) := by
  have h1 := h.res s t hr
  have h2 := h.rel s t hr
  cases hf : f s with
  | mk s1 r =>
    cases hf' : f' t with
    | mk t1 r' =>
      rw [hf, hf'] at h1 h2
      dsimp only at h1 h2
      subst h1
      cases r with
      | ok u => exact Or.inl ⟨s1, t1, h2, rfl, rfl⟩
      | error e => exact Or.inr ⟨s1, t1, e, h2, rfl, rfl⟩

theorem sim_setPropSname {set : PName → FVal → σ → σ × Except Exn Unit} {set' : PName → FVal → τ → τ × Except Exn Unit}
    (h : ∀ p v, Sim R (set p v) (set' p v)) (p : PName) (sp : Dict PName FVal) {s : σ} {t : τ} (hr : R s t) :
    (PStates.setPropSname set p sp s).2 = (PStates.setPropSname set' p sp t).2 ∧
    R (PStates.setPropSname set p sp s).1 (PStates.setPropSname set' p sp t).1 := by
  unfold PStates.setPropSname
  cases sp.get? p with
  | none => exact ⟨rfl, hr⟩
  | some v =>
    dsimp only
    rcases (h p v).split hr with ⟨s1, t1, r1, e1, e2⟩ | ⟨s1, t1, e, r1, e1, e2⟩
    · rw [e1, e2]; exact ⟨rfl, r1⟩
    · rw [e1, e2]
      dsimp only
      by_cases he : e ≠ .freqOrder
      · rw [if_pos he, if_pos he]; exact ⟨rfl, r1⟩
      · rw [if_neg he, if_neg he]
        cases PStates.otherPname p with
        | none => exact ⟨rfl, r1⟩
        | some o =>
          dsimp only
          cases sp.get? o with
          | none => exact ⟨rfl, r1⟩
          | some v' =>
            dsimp only
            rcases (h o v').split r1 with ⟨s2, t2, r2, f1, f2⟩ | ⟨s2, t2, e, r2, f1, f2⟩
            · rw [f1, f2]
              dsimp only
              rcases (h p v).split r2 with ⟨s3, t3, r3, g1, g2⟩ | ⟨s3, t3, e, r3, g1, g2⟩
              · rw [g1, g2]; exact ⟨rfl, r3⟩
              · rw [g1, g2]; exact ⟨rfl, r3⟩
            · rw [f1, f2]; exact ⟨rfl, r2⟩

theorem sim_setPropsLoop {set : PName → FVal → σ → σ × Except Exn Unit} {set' : PName → FVal → τ → τ × Except Exn Unit}
    (h : ∀ p v, Sim R (set p v) (set' p v)) (l : List PName) (sp : Dict PName FVal) {s : σ} {t : τ} (hr : R s t) :
    (PStates.setPropsLoop set l sp s).2 = (PStates.setPropsLoop set' l sp t).2 ∧
    R (PStates.setPropsLoop set l sp s).1 (PStates.setPropsLoop set' l sp t).1 := by
  induction l generalizing sp s t with
  | nil => exact ⟨rfl, hr⟩
  | cons p l ih =>
    unfold PStates.setPropsLoop
    obtain ⟨h1, h2⟩ := sim_setPropSname h p sp hr
    cases hf : PStates.setPropSname set p sp s with
    | mk s1 r =>
      cases hf' : PStates.setPropSname set' p sp t with
      | mk t1 r' =>
        rw [hf, hf'] at h1 h2
        dsimp only at h1 h2
        subst h1
        cases r with
        | error e => exact ⟨rfl, h2⟩
        | ok sp' => exact ih sp' h2

theorem sim_setProps {set : PName → FVal → σ → σ × Except Exn Unit} {set' : PName → FVal → τ → τ × Except Exn Unit}
    (h : ∀ p v, Sim R (set p v) (set' p v)) (sp : Dict PName FVal) :
    Sim R (PStates.setProps set sp) (PStates.setProps set' sp) :=
  ⟨fun _ _ hr => (sim_setPropsLoop h _ sp hr).1, fun _ _ hr => (sim_setPropsLoop h _ sp hr).2⟩

variable {κ κ' : Type} {φ : List κ → List κ'} {Ok : List κ → Prop}

theorem sim_restoreProp {set : PName → FVal → List κ → σ → σ × Except Exn Unit}
    {set' : PName → FVal → List κ' → τ → τ × Except Exn Unit}
    (h : ∀ p v n, Ok n → Sim R (set p v n) (set' p v (φ n))) (p : PName) (v : FVal) (n : List κ) (hn : Ok n) :
    Sim R (PStates.restoreProp set p v n) (PStates.restoreProp set' p v (φ n)) := by
  suffices hs : ∀ s t, R s t → (PStates.restoreProp set p v n s).2 = (PStates.restoreProp set' p v (φ n) t).2 ∧
      R (PStates.restoreProp set p v n s).1 (PStates.restoreProp set' p v (φ n) t).1 from
    ⟨fun s t hr => (hs s t hr).1, fun s t hr => (hs s t hr).2⟩
  intro s t hr
  unfold PStates.restoreProp
  rcases (h p v n hn).split hr with ⟨s1, t1, r1, e1, e2⟩ | ⟨s1, t1, e, r1, e1, e2⟩
  · rw [e1, e2]; exact ⟨rfl, r1⟩
  · rw [e1, e2]
    dsimp only
    by_cases he : e ≠ .freqOrder
    · rw [if_pos he, if_pos he]; exact ⟨rfl, r1⟩
    · rw [if_neg he, if_neg he]
      have two : ∀ q w, (match set q w n s1 with
            | (s, .error e) => (s, .error e)
            | (s, .ok ()) => set p v n s : σ × Except Exn Unit).2 =
          (match set' q w (φ n) t1 with
            | (s, .error e) => (s, .error e)
            | (s, .ok ()) => set' p v (φ n) s : τ × Except Exn Unit).2 ∧
          R (match set q w n s1 with
            | (s, .error e) => (s, .error e)
            | (s, .ok ()) => set p v n s : σ × Except Exn Unit).1
          (match set' q w (φ n) t1 with
            | (s, .error e) => (s, .error e)
            | (s, .ok ()) => set' p v (φ n) s : τ × Except Exn Unit).1 := by
        intro q w
        rcases (h q w n hn).split r1 with ⟨s2, t2, r2, f1, f2⟩ | ⟨s2, t2, e, r2, f1, f2⟩
        · rw [f1, f2]
          exact ⟨(h p v n hn).res s2 t2 r2, (h p v n hn).rel s2 t2 r2⟩
        · rw [f1, f2]; exact ⟨rfl, r2⟩
      cases p with
      | true => rw [if_pos rfl, if_pos rfl]; exact two false .max
      | false => rw [if_neg Bool.false_ne_true, if_neg Bool.false_ne_true]; exact two true .min

theorem sim_restoreInfos {set : PName → FVal → List κ → σ → σ × Except Exn Unit}
    {set' : PName → FVal → List κ' → τ → τ × Except Exn Unit}
    (h : ∀ p v n, Ok n → Sim R (set p v n) (set' p v (φ n))) (p : PName) (infos : List (FVal × List κ))
    (hn : ∀ e ∈ infos, Ok e.2) :
    Sim R (PStates.restoreInfos set p infos) (PStates.restoreInfos set' p (infos.map fun e => (e.1, φ e.2))) := by
  suffices hs : ∀ s t, R s t → (PStates.restoreInfos set p infos s).2 =
      (PStates.restoreInfos set' p (infos.map fun e => (e.1, φ e.2)) t).2 ∧
      R (PStates.restoreInfos set p infos s).1 (PStates.restoreInfos set' p (infos.map fun e => (e.1, φ e.2)) t).1 from
    ⟨fun s t hr => (hs s t hr).1, fun s t hr => (hs s t hr).2⟩
  intro s t hr
  induction infos generalizing s t with
  | nil => exact ⟨rfl, hr⟩
  | cons e infos ih =>
    obtain ⟨v, n⟩ := e
    rw [List.map_cons]
    unfold PStates.restoreInfos
    rcases (sim_restoreProp h p v n (hn (v, n) List.mem_cons_self)).split hr with
      ⟨s1, t1, r1, e1, e2⟩ | ⟨s1, t1, e, r1, e1, e2⟩
    · rw [e1, e2]; exact ih (fun e he => hn e (List.mem_cons_of_mem _ he)) s1 t1 r1
    · rw [e1, e2]; exact ⟨rfl, r1⟩

theorem sim_restoreProps {set : PName → FVal → List κ → σ → σ × Except Exn Unit}
    {set' : PName → FVal → List κ' → τ → τ × Except Exn Unit}
    (h : ∀ p v n, Ok n → Sim R (set p v n) (set' p v (φ n))) (file : List (PName × List (FVal × List κ)))
    (hn : ∀ l ∈ file, ∀ e ∈ l.2, Ok e.2) :
    Sim R (PStates.restoreProps set file)
      (PStates.restoreProps set' (file.map fun l => (l.1, l.2.map fun e => (e.1, φ e.2)))) := by
  suffices hs : ∀ s t, R s t → (PStates.restoreProps set file s).2 =
      (PStates.restoreProps set' (file.map fun l => (l.1, l.2.map fun e => (e.1, φ e.2))) t).2 ∧
      R (PStates.restoreProps set file s).1
        (PStates.restoreProps set' (file.map fun l => (l.1, l.2.map fun e => (e.1, φ e.2))) t).1 from
    ⟨fun s t hr => (hs s t hr).1, fun s t hr => (hs s t hr).2⟩
  intro s t hr
  induction file generalizing s t with
  | nil => exact ⟨rfl, hr⟩
  | cons l file ih =>
    obtain ⟨p, infos⟩ := l
    rw [List.map_cons]
    unfold PStates.restoreProps
    rcases (sim_restoreInfos h p infos (hn (p, infos) List.mem_cons_self)).split hr with
      ⟨s1, t1, r1, e1, e2⟩ | ⟨s1, t1, e, r1, e1, e2⟩
    · rw [e1, e2]; exact ih (fun l hl => hn l (List.mem_cons_of_mem _ hl)) s1 t1 r1
    · rw [e1, e2]; exact ⟨rfl, r1⟩

end

/-- The frequencies are those of the plain files, and the driver is fine. -/
def Rel (m : Machine) (st : State KState) (a : PStates.Sysfs Die) : Prop := Ready m st ∧ files st.kernel = a

theorem sim_setUncore {m : Machine} (hw : m.WF) (hc : Covers m) (hrel : m.Reliable) {ck : Clock} (hck : Modern ck)
    (p : PName) (v : FVal) (dies : Dict Int (List Int)) (hex : Exist m dies) :
    Sim (Rel m) (fun st => setUncore m.sysfs ck p v dies st)
      (fun a => PStates.setFreq (plat m) (PStates.sysfsBackend fun _ => none) p v (pairs dies) a) where
  res st a h := by
    obtain ⟨h1, rfl⟩ := h
    exact (setUncore_refines hw hc hrel hck p v hex h1).1
  rel st a h := by
    obtain ⟨h1, rfl⟩ := h
    obtain ⟨-, h2, h3⟩ := setUncore_refines hw hc hrel hck p v hex h1
    exact ⟨h3, h2⟩

theorem sim_config {m : Machine} (hw : m.WF) (hc : Covers m) (hrel : m.Reliable) {ck : Clock} (hck : Modern ck)
    (dies : Dict Int (List Int)) (hex : Exist m dies) (opts : Dict PName FVal) :
    Sim (Rel m) (config m.sysfs ck dies opts) (PStates.setCommand (plat m) (pairs dies) opts) :=
  sim_setProps (fun p v => sim_setUncore hw hc hrel hck p v dies hex) opts

theorem sim_restore {m : Machine} (hw : m.WF) (hc : Covers m) (hrel : m.Reliable) {ck : Clock} (hck : Modern ck)
    (file : List (PName × List (FVal × Dict Int (List Int)))) (hex : ∀ l ∈ file, ∀ e ∈ l.2, Exist m e.2) :
    Sim (Rel m) (restore m.sysfs ck file)
      (PStates.restoreProps (fun p v n s => PStates.setFreq (plat m) (PStates.sysfsBackend fun _ => none) p v n s)
        (file.map fun l => (l.1, l.2.map fun e => (e.1, pairs e.2)))) :=
  sim_restoreProps (κ := Int × List Int) (φ := pairs) (Ok := fun n => Exist m n)
    (fun p v n hn => sim_setUncore hw hc hrel hck p v n hn) file hex

end Verif.UncoreProps
