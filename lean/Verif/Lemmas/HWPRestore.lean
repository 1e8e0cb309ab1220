import Verif.Lemmas.HWP

/-!
# Lemmas about restoring of the frequency limits through `MSR_HWP_REQUEST`, with package control
-/

namespace Verif.HWP

open Verif.PStates (Plat FVal)

/-- What the own register of CPU `c` holds. -/
def own (E : Env) (s : St) (m : Bool) (c : Nat) : Int := perfToFreq E c (fieldOf (s.req c) (perfBits m))

/-- What a CPU shows after frequency `f` has been stored. -/
def stored (E : Env) (c : Nat) (f : Int) : Int := perfToFreq E c (freqToPerf E c f)

/-- Limit `m` of the CPUs `S` was set to `n`; the other CPUs may have got what their own register
holds. -/
structure SetTo (E : Env) (m : Bool) (S : Nat → Prop) (n : Nat → Int) (s s' : St) : Prop where
  other : ∀ c, hwpView E s' (!m) c = hwpView E s (!m) c ∧ own E s' (!m) c = own E s (!m) c
  set : ∀ c, S c → hwpView E s' m c = stored E c (n c) ∧ own E s' m c = stored E c (n c)
  rest : ∀ c, ¬ S c → own E s' m c = own E s m c
    ∧ (hwpView E s' m c = hwpView E s m c ∨ hwpView E s' m c = own E s m c)

theorem SetTo.refl (E : Env) (m : Bool) (n : Nat → Int) (s : St) : SetTo E m (fun _ => False) n s s :=
  ⟨fun _ => ⟨rfl, rfl⟩, fun _ h => h.elim, fun _ _ => ⟨rfl, .inl rfl⟩⟩

theorem SetTo.trans {E : Env} {m : Bool} {S T U : Nat → Prop} {n : Nat → Int} {s s1 s2 : St}
    (h1 : SetTo E m S n s s1) (h2 : SetTo E m T n s1 s2) (hU : ∀ c, U c ↔ S c ∨ T c) :
    SetTo E m U n s s2 := by
  refine ⟨fun c => ?_, fun c hc => ?_, fun c hc => ?_⟩
  · exact ⟨(h2.other c).1.trans (h1.other c).1, (h2.other c).2.trans (h1.other c).2⟩
  · by_cases ht : T c
    · exact h2.set c ht
    · have hs : S c := ((hU c).1 hc).resolve_right ht
      obtain ⟨a1, a2⟩ := h1.set c hs
      obtain ⟨b1, b2⟩ := h2.rest c ht
      refine ⟨?_, b1.trans a2⟩
      rcases b2 with b | b
      · exact b.trans a1
      · exact b.trans a2
  · have ⟨hs, ht⟩ : ¬ S c ∧ ¬ T c := ⟨fun h => hc ((hU c).2 (.inl h)), fun h => hc ((hU c).2 (.inr h))⟩
    obtain ⟨a1, a2⟩ := h1.rest c hs
    obtain ⟨b1, b2⟩ := h2.rest c ht
    refine ⟨b1.trans a1, ?_⟩
    rcases b2 with b | b
    · rcases a2 with a | a
      · exact .inl (b.trans a)
      · exact .inr (b.trans a)
    · exact .inr (b.trans a1)

variable {E : Env}

/-- One call of `_set_freq_msr()`. -/
theorem setFreq_setTo (hw : ∀ c, E.wfail c = none) (m : Bool) (f : Int) (cpus : List Nat)
    (hon : ∀ c ∈ cpus, c ∈ E.online) (hfit : ∀ c ∈ cpus, 0 ≤ freqToPerf E c f ∧ freqToPerf E c f < 256)
    (s : St) (hR : Regs s) :
    ∃ s', setFreq E m f cpus s = (s', .ok ()) ∧ Regs s' ∧ SetTo E m (· ∈ cpus) (fun _ => f) s s' := by
  obtain ⟨k1, k2, k3, k4, k5⟩ := setFreq_spec E m f cpus s hR
  have hok := k5 (fun c _ => hw c) (fun c _ => hw c) hfit
  obtain ⟨k6, k7⟩ := k4 hok
  have k7 := k7 (fun c => by rw [hw c]; simp)
  refine ⟨(setFreq E m f cpus s).1, Prod.ext rfl hok, k2, ?_, ?_, ?_⟩
  · intro c
    refine ⟨?_, ?_⟩
    · unfold hwpView controlled
      rw [k1, (k3 c).pkg, (k3 c).otherValid]
      split
      · rfl
      · rw [(k3 c).other]
    · unfold own
      rw [(k3 c).other]
  · intro c hc
    have ho : own E (setFreq E m f cpus s).1 m c = stored E c f := by
      unfold own stored
      rw [k6 c hc]
    refine ⟨?_, ho⟩
    have hctl : controlled E m (setFreq E m f cpus s).1 c = false := by
      unfold controlled
      cases hp : E.pkgSup
      · rfl
      · rw [(k3 c).pkg]
        by_cases h1 : fieldOf (s.req c) pkgControlBits = 1
        · rw [k7 hp c (hon c hc) h1]; simp
        · simp [h1]
    rw [← ho]
    unfold hwpView own
    rw [hctl, if_neg (by simp)]
  · intro c hc
    have hperf : fieldOf ((setFreq E m f cpus s).1.req c) (perfBits m) = fieldOf (s.req c) (perfBits m) := by
      rcases (k3 c).perf with h | h
      · exact h
      · exact absurd h.1 hc
    refine ⟨by unfold own; rw [hperf], ?_⟩
    unfold hwpView own
    rw [k1]
    cases h' : controlled E m (setFreq E m f cpus s).1 c
    · right
      rw [if_neg (by simp), hperf]
    · left
      have : controlled E m s c = true := by
        unfold controlled at h' ⊢
        rw [(k3 c).pkg] at h'
        rcases (k3 c).valid with h | ⟨_, _, _, h⟩
        · rw [h] at h'; exact h'
        · rw [h] at h'; simp at h'
      rw [if_pos rfl, if_pos this]

theorem setGroups_setTo (hw : ∀ c, E.wfail c = none) (m : Bool) (n : Nat → Int) (d : Dict Int (List Nat))
    (hd : ∀ f c, InGroups d f c → f = n c ∧ c ∈ E.online ∧ 0 ≤ freqToPerf E c f ∧ freqToPerf E c f < 256)
    (s : St) (hR : Regs s) :
    ∃ s', PStates.setGroups (backend E) m d s = (s', .ok ()) ∧ Regs s'
      ∧ SetTo E m (fun c => ∃ f, InGroups d f c) n s s' := by
  induction d generalizing s with
  | nil =>
    refine ⟨s, rfl, hR, (SetTo.refl E m n s).trans (SetTo.refl E m n s) ?_⟩
    intro c
    simp [InGroups]
  | cons p d ih =>
    obtain ⟨f, cpus⟩ := p
    have hin : ∀ c ∈ cpus, InGroups ((f, cpus) :: d) f c := fun c hc => ⟨cpus, by simp, hc⟩
    obtain ⟨s1, e1, r1, t1⟩ := setFreq_setTo hw m f cpus (fun c hc => (hd f c (hin c hc)).2.1)
      (fun c hc => (hd f c (hin c hc)).2.2) s hR
    have t1' : SetTo E m (· ∈ cpus) n s s1 :=
      ⟨t1.other, fun c hc => by have := t1.set c hc; rwa [(hd f c (hin c hc)).1] at this, t1.rest⟩
    have htl : ∀ g c, InGroups d g c → InGroups ((f, cpus) :: d) g c := by
      rintro g c ⟨cs, hp, h⟩
      exact ⟨cs, List.mem_cons_of_mem _ hp, h⟩
    obtain ⟨s2, e2, r2, t2⟩ := ih (fun g c h => hd g c (htl g c h)) s1 r1
    have e1' : (backend E).set m f cpus s = (s1, .ok ()) := e1
    refine ⟨s2, by simp [PStates.setGroups, e1', e2], r2, t1'.trans t2 ?_⟩
    intro c
    constructor
    · rintro ⟨g, cs, hp, hc⟩
      rcases List.mem_cons.1 hp with h | hp
      · cases h
        exact .inl hc
      · exact .inr ⟨g, cs, hp, hc⟩
    · rintro (h | ⟨g, h⟩)
      · exact ⟨f, hin c h⟩
      · exact ⟨g, htl g c h⟩

/-- The order of the limits would be wrong with value `f` of limit `m`. -/
def Wrong (E : Env) (s : St) (m : Bool) (c : Nat) (f : Int) : Prop :=
  (m = true ∧ hwpView E s false c < f) ∨ (m = false ∧ f < hwpView E s true c)

/-- The facts about the platform. -/
structure Fine (E : Env) (P : Plat Nat) : Prop where
  wfail : ∀ c, E.wfail c = none
  lo : ∀ c, stored E c (P.lo c) = P.lo c
  hi : ∀ c, stored E c (P.hi c) = P.hi c
  fits : ∀ c f, P.lo c ≤ f → f ≤ P.hi c → 0 ≤ freqToPerf E c f ∧ freqToPerf E c f < 256

/-- One set request. -/
theorem setReq {P : Plat Nat} (F : Fine E P) (m : Bool) (v : FVal) (cpus : List Nat) (n : Nat → Int)
    (hn : PStates.numericFreq P v cpus = .ok (cpus.map fun c => (c, n c))) (hnd : cpus.Nodup)
    (hon : ∀ c ∈ cpus, c ∈ E.online) (hr : ∀ c ∈ cpus, P.lo c ≤ n c ∧ n c ≤ P.hi c) (s : St) (hR : Regs s) :
    ((∃ c ∈ cpus, Wrong E s m c (n c)) ∧
      PStates.setFreq P (backend E) m v cpus s = (s, .error .freqOrder)) ∨
    ((∀ c ∈ cpus, ¬ Wrong E s m c (n c)) ∧
      ∃ s', PStates.setFreq P (backend E) m v cpus s = (s', .ok ()) ∧ Regs s'
        ∧ SetTo E m (· ∈ cpus) n s s') := by
  have hmem : ∀ c f, (c, f) ∈ (cpus.map fun c => (c, n c)) ↔ c ∈ cpus ∧ f = n c := by
    intro c f
    simp only [List.mem_map, Prod.mk.injEq]
    constructor
    · rintro ⟨a, ha, rfl, rfl⟩; exact ⟨ha, rfl⟩
    · rintro ⟨h, rfl⟩; exact ⟨c, h, rfl, rfl⟩
  have hget : (backend E).get (!m) cpus s = .ok (cpus.map fun c => (c, hwpView E s (!m) c)) :=
    getFreq_eq E (!m) s cpus hnd
  have hz := PStates.zip_eq_zipped P (hwpView E s (!m)) (cpus.map fun c => (c, n c)) cpus
    (by simp [Function.comp_def])
  unfold PStates.setFreq
  simp only [hn, hget, hz]
  rcases PStates.checkLoop_spec P m (hwpView E s (!m)) (cpus.map fun c => (c, n c)) [] with
    ⟨_, ⟨_, p, hp, h⟩ | ⟨e, p, hp, h⟩⟩ | ⟨hall, d', hd, hg⟩
  · obtain ⟨hc, hf⟩ := (hmem p.1 p.2).1 hp
    have := hr _ hc
    rw [hf] at h
    omega
  · left
    obtain ⟨hc, hf⟩ := (hmem p.1 p.2).1 hp
    refine ⟨⟨p.1, hc, ?_⟩, by simp only [e]⟩
    rw [hf] at h
    unfold Wrong
    cases m <;> simpa using h
  · right
    have hg' : ∀ f c, InGroups d' f c ↔ c ∈ cpus ∧ f = n c := by
      intro f c
      rw [hg, hmem]
      simp [InGroups]
    simp only [hd]
    obtain ⟨s', e, r, t⟩ := setGroups_setTo F.wfail m n d' (fun f c h => by
      obtain ⟨hc, rfl⟩ := (hg' f c).1 h
      exact ⟨rfl, hon c hc, F.fits c _ (hr c hc).1 (hr c hc).2⟩) s hR
    refine ⟨fun c hc => ?_, s', e, r, ?_⟩
    · have := hall (c, n c) ((hmem c (n c)).2 ⟨hc, rfl⟩)
      unfold PStates.Bad at this
      unfold Wrong
      cases m <;> simp only [Bool.not_true, Bool.not_false] at this <;> grind
    · have : (fun c => ∃ f, InGroups d' f c) = (· ∈ cpus) := by
        funext c
        simp [hg']
      rwa [this] at t

/-- Both what CPU `c` shows and what its own register holds are not on the wrong side of the hardware
limits. -/
def Inside (E : Env) (P : Plat Nat) (s : St) (c : Nat) : Prop :=
  ∀ m, (m = true → hwpView E s m c ≤ P.hi c ∧ own E s m c ≤ P.hi c) ∧
    (m = false → P.lo c ≤ hwpView E s m c ∧ P.lo c ≤ own E s m c)

/-- CPU `c` has at most got what its own register holds. -/
def Drift (E : Env) (s s' : St) (c : Nat) : Prop :=
  ∀ m, own E s' m c = own E s m c ∧ (hwpView E s' m c = hwpView E s m c ∨ hwpView E s' m c = own E s m c)

theorem Drift.trans {s s1 s2 : St} {c : Nat} (h1 : Drift E s s1 c) (h2 : Drift E s1 s2 c) :
    Drift E s s2 c := by
  intro m
  obtain ⟨a1, a2⟩ := h1 m
  obtain ⟨b1, b2⟩ := h2 m
  grind

theorem Drift.inside {P : Plat Nat} {s s1 : St} {c : Nat} (h1 : Drift E s s1 c) (h : Inside E P s c) :
    Inside E P s1 c := by
  intro m
  obtain ⟨a1, a2⟩ := h1 m
  have := h m
  grind

theorem SetTo.drift {m : Bool} {S : Nat → Prop} {n : Nat → Int} {s s1 : St} (h : SetTo E m S n s s1)
    {c : Nat} (hc : ¬ S c) : Drift E s s1 c := by
  intro m'
  have h1 := h.other c
  have h2 := h.rest c hc
  by_cases e : m' = m
  · subst e; exact h2
  · have : m' = !m := by cases m <;> cases m' <;> simp_all
    subst this
    exact ⟨h1.2, .inl h1.1⟩

theorem SetTo.inside {P : Plat Nat} {m : Bool} {S : Nat → Prop} {n : Nat → Int} {s s1 : St}
    (h : SetTo E m S n s s1) {c : Nat} (hn : P.lo c ≤ stored E c (n c) ∧ stored E c (n c) ≤ P.hi c)
    (hi : Inside E P s c) : Inside E P s1 c := by
  by_cases hc : S c
  · intro m'
    have h1 := h.other c
    have h2 := h.set c hc
    by_cases e : m' = m
    · subst e; rw [h2.1, h2.2]; exact ⟨fun _ => ⟨hn.2, hn.2⟩, fun _ => ⟨hn.1, hn.1⟩⟩
    · have : m' = !m := by cases m <;> cases m' <;> simp_all
      subst this
      rw [h1.1, h1.2]; exact hi _
  · exact (h.drift hc).inside hi

/-- Limit `m` of CPU `c` is `f`, from its own register. -/
def Settled (E : Env) (s : St) (m : Bool) (c : Nat) (f : Int) : Prop :=
  hwpView E s m c = f ∧ own E s m c = f

theorem Drift.settled {s s1 : St} {m : Bool} {c : Nat} {f : Int} (h1 : Drift E s s1 c)
    (h : Settled E s m c f) : Settled E s1 m c f := by
  obtain ⟨a1, a2⟩ := h1 m
  obtain ⟨b1, b2⟩ := h
  unfold Settled
  grind

/-- One entry of a saved property. -/
theorem restoreProp_pkg {P : Plat Nat} (F : Fine E P) (m : Bool) (f : Nat → Int) (g : Int)
    (nums : List Nat) (hnd : nums.Nodup) (hon : ∀ c ∈ nums, c ∈ E.online) (hf : ∀ c ∈ nums, f c = g)
    (hg : ∀ c ∈ nums, stored E c (f c) = f c) (hr : ∀ c ∈ nums, P.lo c ≤ f c ∧ f c ≤ P.hi c) (s : St)
    (hR : Regs s) (hw : ∀ c ∈ nums, Inside E P s c) :
    ∃ s', PStates.restoreProp (fun p v n s => PStates.setFreq P (backend E) p v n s) m (.num g) nums s
        = (s', .ok ()) ∧ Regs s' ∧
      (∀ c ∈ nums, Settled E s' m c (f c) ∧ Inside E P s' c) ∧
      (∀ c, c ∉ nums → Drift E s s' c) ∧
      ((∀ c ∈ nums, ¬ Wrong E s m c (f c)) →
        ∀ c, hwpView E s' (!m) c = hwpView E s (!m) c ∧ own E s' (!m) c = own E s (!m) c) := by
  have hn := PStates.numericFreq_saved (P := P) hf
  rcases setReq F m (.num g) nums f hn hnd hon hr s hR with ⟨⟨c0, hc0, h0⟩, h'⟩ | ⟨_, s1, e1, r1, t1⟩
  · let w : FVal := if m then .max else .min
    let nw : Nat → Int := fun c => if m then P.hi c else P.lo c
    have hnw : PStates.numericFreq P w nums = .ok (nums.map fun c => (c, nw c)) := by
      cases m <;> rfl
    have hgw : ∀ c, stored E c (nw c) = nw c := by
      intro c; cases m
      · exact F.lo c
      · exact F.hi c
    have hrw : ∀ c ∈ nums, P.lo c ≤ nw c ∧ nw c ≤ P.hi c := by
      intro c hc
      have := hr c hc
      have : P.lo c ≤ P.hi c := by omega
      cases m <;> simp [nw, this]
    rcases setReq F (!m) w nums nw hnw hnd hon hrw s hR with ⟨⟨c, hc, h⟩, _⟩ | ⟨_, s1, e1, r1, t1⟩
    · exfalso
      have hi := hw c hc
      have i1 := (hi true).1 rfl
      have i2 := (hi false).2 rfl
      unfold Wrong at h
      cases m with
      | true => simp [nw] at h; omega
      | false => simp [nw] at h; omega
    · have q1 : ∀ c ∈ nums, hwpView E s1 (!m) c = nw c := fun c hc => by
        rw [(t1.set c hc).1, hgw]
      rcases setReq F m (.num g) nums f hn hnd hon hr s1 r1 with ⟨⟨c, hc, h⟩, _⟩ | ⟨_, s2, e2, r2, t2⟩
      · exfalso
        have := hr c hc
        have e := q1 c hc
        unfold Wrong at h
        cases m with
        | true => simp [nw] at h e; omega
        | false => simp [nw] at h e; omega
      · refine ⟨s2, ?_, r2, ?_, fun c hc => (t1.drift hc).trans (t2.drift hc), ?_⟩
        · cases m <;> simp only [w, Bool.not_true, Bool.not_false, if_true, Bool.false_eq_true, if_false]
            at e1 <;> simp [PStates.restoreProp, h', e1, e2]
        · intro c hc
          have a := t2.set c hc
          rw [hg c hc] at a
          refine ⟨a, t2.inside (by rw [hg c hc]; exact hr c hc) (t1.inside (by rw [hgw]; exact hrw c hc) (hw c hc))⟩
        · intro h
          exact absurd h0 (h c0 hc0)
  · refine ⟨s1, by simp [PStates.restoreProp, e1], r1, ?_, fun c hc => t1.drift hc, fun _ => t1.other⟩
    intro c hc
    have a := t1.set c hc
    rw [hg c hc] at a
    exact ⟨a, t1.inside (by rw [hg c hc]; exact hr c hc) (hw c hc)⟩

theorem wrong_congr {s s1 : St} {m : Bool} {c : Nat} {f : Int}
    (h : hwpView E s1 (!m) c = hwpView E s (!m) c) : Wrong E s1 m c f ↔ Wrong E s m c f := by
  unfold Wrong
  cases m <;> simp at h ⊢ <;> rw [h]

/-- One saved property. -/
theorem restoreInfos_pkg {P : Plat Nat} (F : Fine E P) (m : Bool) (f : Nat → Int)
    (infos : List (FVal × List Nat)) (K : Nat → Prop) (hsv : PStates.SavedAs infos K f)
    (hnd : ∀ p ∈ infos, p.2.Nodup) (hon : ∀ c, K c → c ∈ E.online)
    (hg : ∀ c, K c → stored E c (f c) = f c) (hr : ∀ c, K c → P.lo c ≤ f c ∧ f c ≤ P.hi c) (s : St)
    (hR : Regs s) (hw : ∀ c, K c → Inside E P s c) :
    ∃ s', PStates.restoreInfos (fun p v n s => PStates.setFreq P (backend E) p v n s) m infos s
        = (s', .ok ()) ∧ Regs s' ∧
      (∀ c, K c → Settled E s' m c (f c) ∧ Inside E P s' c) ∧
      (∀ c, ¬ K c → Drift E s s' c) ∧
      ((∀ c, K c → ¬ Wrong E s m c (f c)) →
        ∀ c, hwpView E s' (!m) c = hwpView E s (!m) c ∧ own E s' (!m) c = own E s (!m) c) := by
  induction infos generalizing s K with
  | nil =>
    refine ⟨s, rfl, hR, ?_, fun _ _ _ => ⟨rfl, .inl rfl⟩, fun _ _ => ⟨rfl, rfl⟩⟩
    intro c hc
    obtain ⟨p, hp, _⟩ := (hsv.cover c).1 hc
    cases hp
  | cons p infos ih =>
    obtain ⟨v, nums⟩ := p
    obtain ⟨g, hv, hfg⟩ := hsv.val (v, nums) (by simp)
    dsimp only at hv hfg
    subst hv
    have hK : ∀ c ∈ nums, K c := fun c hc => (hsv.cover c).2 ⟨_, List.mem_cons_self .., hc⟩
    obtain ⟨s1, e1, i1, v1, o1, u1⟩ := restoreProp_pkg F m f g nums (hnd _ (List.mem_cons_self ..))
      (fun c hc => hon c (hK c hc)) hfg (fun c hc => hg c (hK c hc)) (fun c hc => hr c (hK c hc)) s hR
      (fun c hc => hw c (hK c hc))
    have hK' : ∀ c, (∃ p ∈ infos, c ∈ p.2) → K c := by
      rintro c ⟨p, hp, hc⟩
      exact (hsv.cover c).2 ⟨p, List.mem_cons_of_mem _ hp, hc⟩
    have w1 : ∀ c, K c → Inside E P s1 c := by
      intro c hc
      by_cases hn : c ∈ nums
      · exact (v1 c hn).2
      · exact (o1 c hn).inside (hw c hc)
    obtain ⟨s2, e2, i2, v2, o2, u2⟩ := ih (fun c => ∃ p ∈ infos, c ∈ p.2)
      ⟨fun p hp => hsv.val p (List.mem_cons_of_mem _ hp), fun c => Iff.rfl⟩
      (fun p hp => hnd p (List.mem_cons_of_mem _ hp)) (fun c hc => hon c (hK' c hc))
      (fun c hc => hg c (hK' c hc)) (fun c hc => hr c (hK' c hc)) s1 i1
      (fun c hc => w1 c (hK' c hc))
    refine ⟨s2, by simp [PStates.restoreInfos, e1, e2], i2, ?_, ?_, ?_⟩
    · intro c hc
      by_cases ht : ∃ p ∈ infos, c ∈ p.2
      · exact v2 c ht
      · have hn : c ∈ nums := by
          obtain ⟨p, hp, hcp⟩ := (hsv.cover c).1 hc
          rcases List.mem_cons.1 hp with rfl | hp
          · exact hcp
          · exact absurd ⟨p, hp, hcp⟩ ht
        exact ⟨(o2 c ht).settled (v1 c hn).1, (o2 c ht).inside (v1 c hn).2⟩
    · intro c hc
      exact (o1 c fun h => hc (hK c h)).trans (o2 c fun h => hc (hK' c h))
    · intro hord
      have h1 := u1 (fun c hc => hord c (hK c hc))
      have h2 := u2 (fun c hc h => hord c (hK' c hc) ((wrong_congr (h1 c).1).1 h))
      intro c
      exact ⟨(h2 c).1.trans (h1 c).1, (h2 c).2.trans (h1 c).2⟩

/-- Both saved properties. -/
theorem restoreProps_pkg {P : Plat Nat} (F : Fine E P) (m : Bool) (sv : Bool → Nat → Int)
    (i1 i2 : List (FVal × List Nat)) (K : Nat → Prop) (h1 : PStates.SavedAs i1 K (sv m))
    (h2 : PStates.SavedAs i2 K (sv (!m))) (hnd : ∀ p ∈ i1 ++ i2, p.2.Nodup)
    (hon : ∀ c, K c → c ∈ E.online) (hg : ∀ m c, K c → stored E c (sv m c) = sv m c)
    (hr : ∀ c, K c → P.lo c ≤ sv true c ∧ sv true c ≤ sv false c ∧ sv false c ≤ P.hi c) (s : St)
    (hR : Regs s) (hw : ∀ c, K c → Inside E P s c) :
    ∃ s', PStates.restoreProps (fun p v n s => PStates.setFreq P (backend E) p v n s)
        [(m, i1), (!m, i2)] s = (s', .ok ()) ∧
      (∀ c, K c → ∀ m, hwpView E s' m c = sv m c) ∧ (∀ c, ¬ K c → Drift E s s' c) := by
  have hr' : ∀ m c, K c → P.lo c ≤ sv m c ∧ sv m c ≤ P.hi c := by
    intro m c hc
    obtain ⟨w1, w2, w3⟩ := hr c hc
    cases m <;> omega
  obtain ⟨s1, e1, j1, v1, o1, -⟩ := restoreInfos_pkg F m (sv m) i1 K h1
    (fun p hp => hnd p (List.mem_append_left _ hp)) hon (hg m) (hr' m) s hR hw
  obtain ⟨s2, e2, j2, v2, o2, u2⟩ := restoreInfos_pkg F (!m) (sv (!m)) i2 K h2
    (fun p hp => hnd p (List.mem_append_right _ hp)) hon (hg (!m)) (hr' (!m)) s1 j1
    (fun c hc => (v1 c hc).2)
  refine ⟨s2, by simp [PStates.restoreProps, e1, e2], ?_, fun c hc => (o1 c hc).trans (o2 c hc)⟩
  have hu := u2 (by
    intro c hc h
    obtain ⟨w1, w2, w3⟩ := hr c hc
    have := (v1 c hc).1.1
    unfold Wrong at h
    cases m <;> simp at h this <;> omega)
  rw [Bool.not_not] at hu
  intro c hc m'
  have q1 := (v1 c hc).1.1
  have q2 := (v2 c hc).1.1
  have q3 := (hu c).1
  cases m <;> cases m' <;> simp only [Bool.not_true, Bool.not_false] at q1 q2 q3
  · rw [q3, q1]
  · exact q2
  · exact q2
  · rw [q3, q1]

end Verif.HWP
