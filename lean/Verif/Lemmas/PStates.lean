import Verif.Lib.Groups
import Verif.Model.PStates

/-!
Lemmas about the frequency model, generic in the mechanism.
-/

namespace Verif.PStates

variable {κ σ : Type}

/-- The zipped iterators for an aligned list of new frequencies. -/
def zipped (P : Plat κ) (cur : κ → Int) (l : List (κ × Int)) :
    List ((κ × Int) × (κ × Int) × (κ × Int) × (κ × Int)) :=
  l.map fun p => (p, (p.1, P.lo p.1), (p.1, P.hi p.1), (p.1, cur p.1))

theorem zip_eq_zipped (P : Plat κ) (cur : κ → Int) (l : List (κ × Int)) (cpus : List κ)
    (h : l.map Prod.fst = cpus) :
    l.zip ((cpus.map fun c => (c, P.lo c)).zip ((cpus.map fun c => (c, P.hi c)).zip
      (cpus.map fun c => (c, cur c)))) = zipped P cur l := by
  subst h
  induction l with
  | nil => rfl
  | cons p l ih => simp only [List.map_cons, List.zip_cons_cons, zipped, ih]

/-- The request cannot be honoured on CPU `c`. -/
def Bad (P : Plat κ) (isMin : Bool) (cur : κ → Int) (c : κ) (f : Int) : Prop :=
  f < P.lo c ∨ P.hi c < f ∨ (isMin = true ∧ cur c < f) ∨ (isMin = false ∧ f < cur c)

instance (P : Plat κ) (isMin : Bool) (cur : κ → Int) (c : κ) (f : Int) :
    Decidable (Bad P isMin cur c f) := by unfold Bad; infer_instance

theorem checkLoop_spec (P : Plat κ) (isMin : Bool) (cur : κ → Int) (l : List (κ × Int))
    (d : Dict Int (List κ)) :
    ((∃ p ∈ l, Bad P isMin cur p.1 p.2) ∧
      (checkLoop isMin (zipped P cur l) d = .error .freqRange ∧
          (∃ p ∈ l, p.2 < P.lo p.1 ∨ P.hi p.1 < p.2) ∨
       checkLoop isMin (zipped P cur l) d = .error .freqOrder ∧
          ∃ p ∈ l, (isMin = true ∧ cur p.1 < p.2) ∨ (isMin = false ∧ p.2 < cur p.1))) ∨
    ((∀ p ∈ l, ¬ Bad P isMin cur p.1 p.2) ∧
      ∃ d', checkLoop isMin (zipped P cur l) d = .ok d' ∧
        ∀ f c, InGroups d' f c ↔ InGroups d f c ∨ (c, f) ∈ l) := by
  induction l generalizing d with
  | nil =>
    right
    exact ⟨by simp, d, rfl, by simp⟩
  | cons p l ih =>
    obtain ⟨c, f⟩ := p
    have hz : zipped P cur ((c, f) :: l) =
      ((c, f), (c, P.lo c), (c, P.hi c), (c, cur c)) :: zipped P cur l := rfl
    rw [hz]
    unfold checkLoop
    by_cases h1 : f < P.lo c ∨ f > P.hi c
    · left
      rw [if_pos h1]
      refine ⟨⟨(c, f), by simp, ?_⟩, Or.inl ⟨rfl, (c, f), by simp, h1⟩⟩
      unfold Bad; rcases h1 with h | h
      · exact Or.inl h
      · exact Or.inr (Or.inl h)
    · rw [if_neg h1]
      by_cases h2 : isMin = true ∧ f > cur c
      · left
        rw [if_pos h2]
        exact ⟨⟨(c, f), by simp, Or.inr (Or.inr (Or.inl h2))⟩,
          Or.inr ⟨rfl, (c, f), by simp, Or.inl h2⟩⟩
      · rw [if_neg h2]
        by_cases h3 : ¬ isMin = true ∧ f < cur c
        · left
          rw [if_pos h3]
          have hf : isMin = false := by simpa using h3.1
          exact ⟨⟨(c, f), by simp, Or.inr (Or.inr (Or.inr ⟨hf, h3.2⟩))⟩,
            Or.inr ⟨rfl, (c, f), by simp, Or.inr ⟨hf, h3.2⟩⟩⟩
        · rw [if_neg h3]
          have hb : ¬ Bad P isMin cur c f := by
            unfold Bad
            intro hb
            rcases hb with h | h | h | h
            · exact h1 (Or.inl h)
            · exact h1 (Or.inr h)
            · exact h2 h
            · exact h3 ⟨by simp [h.1], h.2⟩
          rcases ih (d.set f ((d.get? f).getD [] ++ [c])) with ⟨⟨p, hp, hpb⟩, h⟩ | ⟨hall, d', hd, hg⟩
          · left
            refine ⟨⟨p, List.mem_cons_of_mem _ hp, hpb⟩, ?_⟩
            rcases h with ⟨h, q, hq, hqb⟩ | ⟨h, q, hq, hqb⟩
            · exact Or.inl ⟨h, q, List.mem_cons_of_mem _ hq, hqb⟩
            · exact Or.inr ⟨h, q, List.mem_cons_of_mem _ hq, hqb⟩
          · right
            refine ⟨?_, d', hd, ?_⟩
            · intro p hp
              rcases List.mem_cons.1 hp with rfl | hp
              · exact hb
              · exact hall p hp
            · intro f' c'
              rw [hg, inGroups_set, List.mem_cons, Prod.mk.injEq, or_assoc]
              constructor
              · rintro (h | ⟨rfl, rfl⟩ | h)
                · exact Or.inl h
                · exact Or.inr (Or.inl ⟨rfl, rfl⟩)
                · exact Or.inr (Or.inr h)
              · rintro (h | ⟨rfl, rfl⟩ | h)
                · exact Or.inl h
                · exact Or.inr (Or.inl ⟨rfl, rfl⟩)
                · exact Or.inr (Or.inr h)

/-- What the frequency code relies on from a mechanism. `view` is what the "min_freq" (`true`) and
"max_freq" (`false`) properties show, `store c f` is what a property shows after `f` was written,
`Ok c f` tells that writing `f` on `c` cannot fail. -/
structure Laws (B : Backend κ σ) (view : σ → Bool → κ → Int) (store : κ → Int → Int)
    (Ok : κ → Int → Prop) (Inv : σ → Prop) : Prop where
  get : ∀ s m cpus, Inv s → B.get m cpus s = .ok (cpus.map fun c => (c, view s m c))
  inv : ∀ s m f cpus, Inv s → Inv (B.set m f cpus s).1
  other : ∀ s m f cpus c, Inv s → view (B.set m f cpus s).1 (!m) c = view s (!m) c
  same : ∀ s m f cpus c, Inv s → view (B.set m f cpus s).1 m c = view s m c ∨
    (c ∈ cpus ∧ view (B.set m f cpus s).1 m c = store c f)
  done : ∀ s m f cpus, Inv s → (B.set m f cpus s).2 = .ok () →
    ∀ c ∈ cpus, view (B.set m f cpus s).1 m c = store c f
  ok : ∀ s m f cpus, Inv s → (∀ c ∈ cpus, Ok c f) → (B.set m f cpus s).2 = .ok ()

variable {B : Backend κ σ} {view : σ → Bool → κ → Int} {store : κ → Int → Int} {Ok : κ → Int → Prop}
  {Inv : σ → Prop}

theorem setGroups_spec (L : Laws B view store Ok Inv) (m : Bool) (d : Dict Int (List κ)) (s : σ)
    (hs : Inv s) :
    Inv (setGroups B m d s).1 ∧
    (∀ c, view (setGroups B m d s).1 (!m) c = view s (!m) c) ∧
    (∀ c, view (setGroups B m d s).1 m c = view s m c ∨
      ∃ f, InGroups d f c ∧ view (setGroups B m d s).1 m c = store c f) ∧
    ((∀ c f f', InGroups d f c → InGroups d f' c → f = f') → (setGroups B m d s).2 = .ok () →
      ∀ f c, InGroups d f c → view (setGroups B m d s).1 m c = store c f) ∧
    ((∀ f c, InGroups d f c → Ok c f) → (setGroups B m d s).2 = .ok ()) := by
  induction d generalizing s with
  | nil =>
    refine ⟨hs, fun _ => rfl, fun _ => Or.inl rfl, ?_, fun _ => rfl⟩
    rintro _ _ f c ⟨cs, h, _⟩
    cases h
  | cons p d ih =>
    obtain ⟨f, cs⟩ := p
    have hmem : ∀ c ∈ cs, InGroups ((f, cs) :: d) f c := fun c hc => ⟨cs, by simp, hc⟩
    have htail : ∀ f' c, InGroups d f' c → InGroups ((f, cs) :: d) f' c := by
      rintro f' c ⟨cs', h, hc⟩
      exact ⟨cs', List.mem_cons_of_mem _ h, hc⟩
    cases hr : B.set m f cs s with
    | mk s1 r =>
      have e1 : s1 = (B.set m f cs s).1 := by rw [hr]
      have e2 : r = (B.set m f cs s).2 := by rw [hr]
      have i1 : Inv s1 := by rw [e1]; exact L.inv s m f cs hs
      have o1 : ∀ c, view s1 (!m) c = view s (!m) c := by
        intro c; rw [e1]; exact L.other s m f cs c hs
      have a1 : ∀ c, view s1 m c = view s m c ∨ (c ∈ cs ∧ view s1 m c = store c f) := by
        intro c; rw [e1]; exact L.same s m f cs c hs
      cases r with
      | error e =>
        have hg : setGroups B m ((f, cs) :: d) s = (s1, .error e) := by
          simp only [setGroups, hr]
        rw [hg]
        refine ⟨i1, o1, ?_, ?_, ?_⟩
        · intro c
          rcases a1 c with h | ⟨hc, h⟩
          · exact Or.inl h
          · exact Or.inr ⟨f, hmem c hc, h⟩
        · intro _ h; cases h
        · intro hok
          have := L.ok s m f cs hs (fun c hc => hok f c (hmem c hc))
          rw [← e2] at this; cases this
      | ok u =>
        have hg : setGroups B m ((f, cs) :: d) s = setGroups B m d s1 := by
          simp only [setGroups, hr]
        rw [hg]
        obtain ⟨k1, k2, k3, k4, k5⟩ := ih s1 i1
        refine ⟨k1, fun c => (k2 c).trans (o1 c), ?_, ?_, fun hok => k5 (fun f' c h => hok f' c (htail f' c h))⟩
        · intro c
          rcases k3 c with h | ⟨f', h, h'⟩
          · rw [h]
            rcases a1 c with h | ⟨hc, h⟩
            · exact Or.inl h
            · exact Or.inr ⟨f, hmem c hc, h⟩
          · exact Or.inr ⟨f', htail f' c h, h'⟩
        · intro huniq hok f' c hfc
          by_cases hd : ∃ f'', InGroups d f'' c
          · obtain ⟨f'', hf''⟩ := hd
            obtain rfl := huniq c f' f'' hfc (htail f'' c hf'')
            exact k4 (fun c f f' h h' => huniq c f f' (htail _ _ h) (htail _ _ h')) hok f' c hf''
          · have hv : view (setGroups B m d s1).1 m c = view s1 m c := by
              rcases k3 c with h | ⟨f'', h, _⟩
              · exact h
              · exact absurd ⟨f'', h⟩ hd
            obtain ⟨cs', hcs', hc⟩ := hfc
            rcases List.mem_cons.1 hcs' with heq | hcs'
            · injection heq with h1 h2
              subst h1; subst h2
              rw [hv, e1]
              exact L.done s m f' cs' hs (by rw [← e2]) c hc
            · exact absurd ⟨f', cs', hcs', hc⟩ hd

theorem snd_unique {l : List (κ × Int)} (h : (l.map Prod.fst).Nodup) {c : κ} {f f' : Int}
    (h1 : (c, f) ∈ l) (h2 : (c, f') ∈ l) : f = f' := by
  induction l with
  | nil => cases h1
  | cons p l ih =>
    rw [List.map_cons, List.nodup_cons] at h
    rcases List.mem_cons.1 h1 with k1 | k1
    · rcases List.mem_cons.1 h2 with k2 | k2
      · rw [← k1] at k2; injection k2 with _ k2; exact k2.symm
      · rw [← k1] at h; exact absurd (List.mem_map_of_mem (f := Prod.fst) k2) h.1
    · rcases List.mem_cons.1 h2 with k2 | k2
      · rw [← k2] at h; exact absurd (List.mem_map_of_mem (f := Prod.fst) k1) h.1
      · exact ih h.2 k1 k2

/-- All the facts about one set request with an aligned list `l` of numeric values. -/
theorem setFreq_spec (P : Plat κ) (L : Laws B view store Ok Inv) (m : Bool) (v : FVal) (cpus : List κ)
    (s : σ) (hs : Inv s) (l : List (κ × Int)) (hl : numericFreq P v cpus = .ok l)
    (hal : l.map Prod.fst = cpus) :
    ((∃ p ∈ l, Bad P m (view s (!m)) p.1 p.2) ∧
      (setFreq P B m v cpus s = (s, .error .freqRange) ∧
          (∃ p ∈ l, p.2 < P.lo p.1 ∨ P.hi p.1 < p.2) ∨
       setFreq P B m v cpus s = (s, .error .freqOrder) ∧
          ∃ p ∈ l, (m = true ∧ view s (!m) p.1 < p.2) ∨ (m = false ∧ p.2 < view s (!m) p.1))) ∨
    ((∀ p ∈ l, ¬ Bad P m (view s (!m)) p.1 p.2) ∧
      Inv (setFreq P B m v cpus s).1 ∧
      (∀ c, view (setFreq P B m v cpus s).1 (!m) c = view s (!m) c) ∧
      (∀ c, view (setFreq P B m v cpus s).1 m c = view s m c ∨
        ∃ f, (c, f) ∈ l ∧ view (setFreq P B m v cpus s).1 m c = store c f) ∧
      ((∀ c f f', (c, f) ∈ l → (c, f') ∈ l → f = f') → (setFreq P B m v cpus s).2 = .ok () →
        ∀ f c, (c, f) ∈ l → view (setFreq P B m v cpus s).1 m c = store c f) ∧
      ((∀ f c, (c, f) ∈ l → Ok c f) → (setFreq P B m v cpus s).2 = .ok ())) := by
  have hget := L.get s (!m) cpus hs
  have hz := zip_eq_zipped P (view s (!m)) l cpus hal
  unfold setFreq
  simp only [hl, hget, hz]
  rcases checkLoop_spec P m (view s (!m)) l [] with ⟨hb, h⟩ | ⟨hall, d', hd, hg⟩
  · left
    refine ⟨hb, ?_⟩
    rcases h with ⟨h, hh⟩ | ⟨h, hh⟩
    · exact Or.inl ⟨by rw [h], hh⟩
    · exact Or.inr ⟨by rw [h], hh⟩
  · right
    have hg' : ∀ f c, InGroups d' f c ↔ (c, f) ∈ l := by
      intro f c
      rw [hg]
      simp [InGroups]
    simp only [hd]
    obtain ⟨k1, k2, k3, k4, k5⟩ := setGroups_spec L m d' s hs
    refine ⟨hall, k1, k2, ?_, ?_, ?_⟩
    · intro c
      rcases k3 c with h | ⟨f, h, h'⟩
      · exact Or.inl h
      · exact Or.inr ⟨f, (hg' f c).1 h, h'⟩
    · intro hnd hok f c h
      refine k4 ?_ hok f c ((hg' f c).2 h)
      intro c f f' h h'
      exact hnd c f f' ((hg' f c).1 h) ((hg' f' c).1 h')
    · intro hok
      exact k5 (fun f c h => hok f c ((hg' f c).1 h))

/-- The special names are resolved for the requested CPUs, in the same order. -/
def Aligned (P : Plat κ) : Prop := ∀ n cpus l, P.other n cpus = .ok l → l.map Prod.fst = cpus

theorem numericFreq_aligned {P : Plat κ} (h : Aligned P) {v : FVal} {cpus : List κ}
    {l : List (κ × Int)} (hl : numericFreq P v cpus = .ok l) : l.map Prod.fst = cpus := by
  cases v with
  | min => injection hl with hl; subst hl; simp [Function.comp_def]
  | max => injection hl with hl; subst hl; simp [Function.comp_def]
  | other n => exact h n cpus l hl
  | num f => injection hl with hl; subst hl; simp [Function.comp_def]

/-- The representable frequencies `G` and the way other frequencies are rounded. -/
structure Grid (P : Plat κ) (view : σ → Bool → κ → Int) (store : κ → Int → Int) (Inv : σ → Prop)
    (G : κ → Int → Prop) : Prop where
  lo : ∀ c, G c (P.lo c)
  hi : ∀ c, G c (P.hi c)
  view : ∀ s m c, Inv s → G c (view s m c)
  le : ∀ c f g, G c g → f ≤ g → store c f ≤ g
  ge : ∀ c f g, G c g → g ≤ f → g ≤ store c f

/-- Both limits are in the right order and within the hardware limits. -/
def Within (P : Plat κ) (mn mx : κ → Int) (c : κ) : Prop :=
  P.lo c ≤ mn c ∧ mn c ≤ mx c ∧ mx c ≤ P.hi c

variable {G : κ → Int → Prop}

theorem within_setFreq {P : Plat κ} (hal : Aligned P) (L : Laws B view store Ok Inv)
    (hG : Grid P view store Inv G) (m : Bool) (v : FVal) (cpus : List κ) (s : σ) (hs : Inv s)
    (h : ∀ c, Within P (view s true) (view s false) c) :
    Inv (setFreq P B m v cpus s).1 ∧
    ∀ c, Within P (view (setFreq P B m v cpus s).1 true) (view (setFreq P B m v cpus s).1 false) c := by
  cases hl : numericFreq P v cpus with
  | error e =>
    have : setFreq P B m v cpus s = (s, .error e) := by unfold setFreq; simp only [hl]
    rw [this]; exact ⟨hs, h⟩
  | ok l =>
    rcases setFreq_spec P L m v cpus s hs l hl (numericFreq_aligned hal hl) with
      ⟨_, h' | h'⟩ | ⟨hall, k1, k2, k3, _, _⟩
    · rw [h'.1]; exact ⟨hs, h⟩
    · rw [h'.1]; exact ⟨hs, h⟩
    · refine ⟨k1, fun c => ?_⟩
      obtain ⟨w1, w2, w3⟩ := h c
      rcases k3 c with h3 | ⟨f, hf, h3⟩
      · have h2 := k2 c
        unfold Within
        cases m <;> simp only [Bool.not_true, Bool.not_false] at h2 h3 <;> rw [h2, h3] <;>
          exact ⟨w1, w2, w3⟩
      · have hb := hall _ hf
        unfold Bad at hb
        have h2 := k2 c
        have b1 : P.lo c ≤ f := by
          rcases Int.lt_or_le f (P.lo c) with h | h
          · exact absurd (Or.inl h) hb
          · exact h
        have b2 : f ≤ P.hi c := by
          rcases Int.lt_or_le (P.hi c) f with h | h
          · exact absurd (Or.inr (Or.inl h)) hb
          · exact h
        have g1 := hG.ge c f _ (hG.lo c) b1
        have g2 := hG.le c f _ (hG.hi c) b2
        unfold Within
        cases m with
        | true =>
          simp only [Bool.not_true] at h2 hb
          rw [h2, h3]
          refine ⟨g1, hG.le c f _ (hG.view s false c hs) ?_, w3⟩
          rcases Int.lt_or_le (view s false c) f with h | h
          · exact absurd (Or.inr (Or.inr (Or.inl ⟨trivial, h⟩))) hb
          · exact h
        | false =>
          simp only [Bool.not_false] at h2 hb
          rw [h2, h3]
          refine ⟨w1, hG.ge c f _ (hG.view s true c hs) ?_, g2⟩
          rcases Int.lt_or_le f (view s true c) with h | h
          · exact absurd (Or.inr (Or.inr (Or.inr ⟨trivial, h⟩))) hb
          · exact h

/-- A request for `n c` on every CPU `c`, where no write can fail. -/
theorem setFreq_num {P : Plat κ} (L : Laws B view store Ok Inv) (m : Bool) (v : FVal) (cpus : List κ)
    (n : κ → Int) (hn : numericFreq P v cpus = .ok (cpus.map fun c => (c, n c)))
    (hr : ∀ c ∈ cpus, P.lo c ≤ n c ∧ n c ≤ P.hi c) (hok : ∀ c ∈ cpus, Ok c (n c)) (s : σ) (hs : Inv s) :
    ((∃ c ∈ cpus, (m = true ∧ view s false c < n c) ∨ (m = false ∧ n c < view s true c)) ∧
      setFreq P B m v cpus s = (s, .error .freqOrder)) ∨
    ((∀ c ∈ cpus, (m = true → n c ≤ view s false c) ∧ (m = false → view s true c ≤ n c)) ∧
      (setFreq P B m v cpus s).2 = .ok () ∧ Inv (setFreq P B m v cpus s).1 ∧
      (∀ c, view (setFreq P B m v cpus s).1 (!m) c = view s (!m) c) ∧
      (∀ c ∈ cpus, view (setFreq P B m v cpus s).1 m c = store c (n c)) ∧
      (∀ c, c ∉ cpus → view (setFreq P B m v cpus s).1 m c = view s m c)) := by
  have hmem : ∀ c f, (c, f) ∈ (cpus.map fun c => (c, n c)) ↔ c ∈ cpus ∧ f = n c := by
    intro c f
    simp only [List.mem_map, Prod.mk.injEq]
    constructor
    · rintro ⟨a, ha, rfl, rfl⟩; exact ⟨ha, rfl⟩
    · rintro ⟨h, rfl⟩; exact ⟨c, h, rfl, rfl⟩
  rcases setFreq_spec P L m v cpus s hs _ hn (by simp [Function.comp_def]) with
      ⟨_, ⟨_, p, hp, h'⟩ | ⟨h', p, hp, hp'⟩⟩ | ⟨hall, k1, k2, k3, k4, k5⟩
  · obtain ⟨hc, hf⟩ := (hmem p.1 p.2).1 hp
    have := hr _ hc
    rw [hf] at h'
    omega
  · left
    obtain ⟨hc, hf⟩ := (hmem p.1 p.2).1 hp
    refine ⟨⟨p.1, hc, ?_⟩, h'⟩
    rw [hf] at hp'
    cases m with
    | true => left; rcases hp' with h | h; · exact h
              · cases h.1
    | false => right; rcases hp' with h | h; · cases h.1
               · exact h
  · right
    have hok' : (setFreq P B m v cpus s).2 = .ok () :=
      k5 (fun f c h => by obtain ⟨hc, rfl⟩ := (hmem c f).1 h; exact hok c hc)
    refine ⟨?_, hok', k1, k2, ?_, ?_⟩
    · intro c hc
      have hb := hall (c, n c) ((hmem _ _).2 ⟨hc, rfl⟩)
      unfold Bad at hb
      dsimp only at hb
      constructor
      · intro hm; subst hm
        simp only [Bool.not_true] at hb
        rcases Int.lt_or_le (view s false c) (n c) with h | h
        · exact absurd (Or.inr (Or.inr (Or.inl ⟨trivial, h⟩))) hb
        · exact h
      · intro hm; subst hm
        simp only [Bool.not_false] at hb
        rcases Int.lt_or_le (n c) (view s true c) with h | h
        · exact absurd (Or.inr (Or.inr (Or.inr ⟨trivial, h⟩))) hb
        · exact h
    · intro c hc
      refine k4 ?_ hok' _ _ ((hmem _ _).2 ⟨hc, rfl⟩)
      intro c f f' h h'
      rw [((hmem _ _).1 h).2, ((hmem _ _).1 h').2]
    · intro c hc
      rcases k3 c with h | ⟨f, hf, _⟩
      · exact h
      · exact absurd ((hmem _ _).1 hf).1 hc

theorem Grid.fix {P : Plat κ} (hG : Grid P view store Inv G) {c : κ} {f : Int} (h : G c f) :
    store c f = f :=
  Int.le_antisymm (hG.le c f f h (Int.le_refl _)) (hG.ge c f f h (Int.le_refl _))

/-- What a request for both limits is about: `n1` and `n2` are the numeric values of `v1` and `v2`. -/
structure Both (P : Plat κ) (Ok : κ → Int → Prop) (G : κ → Int → Prop) (cpus : List κ) (v1 v2 : FVal)
    (n1 n2 : κ → Int) : Prop where
  h1 : numericFreq P v1 cpus = .ok (cpus.map fun c => (c, n1 c))
  h2 : numericFreq P v2 cpus = .ok (cpus.map fun c => (c, n2 c))
  lo : ∀ c ∈ cpus, P.lo c ≤ n1 c
  le : ∀ c ∈ cpus, n1 c ≤ n2 c
  hi : ∀ c ∈ cpus, n2 c ≤ P.hi c
  g1 : ∀ c ∈ cpus, G c (n1 c)
  g2 : ∀ c ∈ cpus, G c (n2 c)
  ok1 : ∀ c ∈ cpus, Ok c (n1 c)
  ok2 : ∀ c ∈ cpus, Ok c (n2 c)

/-- Both limits are as requested. -/
def BothSet (view : σ → Bool → κ → Int) (cpus : List κ) (n1 n2 : κ → Int) (s s' : σ) : Prop :=
  (∀ c ∈ cpus, view s' true c = n1 c ∧ view s' false c = n2 c) ∧
  ∀ c m, c ∉ cpus → view s' m c = view s m c

theorem setBoth {P : Plat κ} (L : Laws B view store Ok Inv) (hG : Grid P view store Inv G)
    {cpus : List κ} {v1 v2 : FVal} {n1 n2 : κ → Int} (hb : Both P Ok G cpus v1 v2 n1 n2) (s : σ)
    (hs : Inv s) (m : Bool) :
    let v : Bool → FVal := fun m => if m then v1 else v2
    ((setFreq P B m (v m) cpus s = (s, .error .freqOrder)) ∧
      (∃ c ∈ cpus, (m = true ∧ view s false c < n1 c) ∨ (m = false ∧ n2 c < view s true c))) ∨
    (((setFreq P B m (v m) cpus s).2 = .ok ()) ∧
      (∀ c ∈ cpus, (m = true → n1 c ≤ view s false c) ∧ (m = false → view s true c ≤ n2 c)) ∧
      ∃ s', (setFreq P B (!m) (v (!m)) cpus (setFreq P B m (v m) cpus s).1) = (s', .ok ()) ∧
        BothSet view cpus n1 n2 s s') := by
  intro v
  let n : Bool → κ → Int := fun m => if m then n1 else n2
  have hn : ∀ m, numericFreq P (v m) cpus = .ok (cpus.map fun c => (c, n m c)) := by
    intro m; cases m
    · exact hb.h2
    · exact hb.h1
  have hr : ∀ m, ∀ c ∈ cpus, P.lo c ≤ n m c ∧ n m c ≤ P.hi c := by
    intro m c hc
    have := hb.lo c hc; have := hb.le c hc; have := hb.hi c hc
    cases m <;> simp only [n] <;> constructor <;> simp <;> omega
  have hok : ∀ m, ∀ c ∈ cpus, Ok c (n m c) := by
    intro m c hc; cases m
    · exact hb.ok2 c hc
    · exact hb.ok1 c hc
  have hg : ∀ m, ∀ c ∈ cpus, G c (n m c) := by
    intro m c hc; cases m
    · exact hb.g2 c hc
    · exact hb.g1 c hc
  rcases setFreq_num L m (v m) cpus (n m) (hn m) (hr m) (hok m) s hs with ⟨⟨c, hc, h⟩, h'⟩ | ⟨a, b, k1, k2, k3, k4⟩
  · left
    refine ⟨h', c, hc, ?_⟩
    rcases h with ⟨rfl, h⟩ | ⟨rfl, h⟩
    · exact Or.inl ⟨rfl, h⟩
    · exact Or.inr ⟨rfl, h⟩
  · right
    refine ⟨b, ?_, ?_⟩
    · intro c hc
      obtain ⟨a1, a2⟩ := a c hc
      constructor
      · rintro rfl; exact a1 rfl
      · rintro rfl; exact a2 rfl
    · have k3' : ∀ c ∈ cpus, view (setFreq P B m (v m) cpus s).1 m c = n m c := by
        intro c hc; rw [k3 c hc]; exact hG.fix (hg m c hc)
      generalize hs1 : (setFreq P B m (v m) cpus s).1 = s1 at k1 k2 k3' k4 ⊢
      rcases setFreq_num L (!m) (v (!m)) cpus (n (!m)) (hn _) (hr _) (hok _) s1 k1 with
        ⟨⟨c, hc, h⟩, h'⟩ | ⟨_, b', j1, j2, j3, j4⟩
      · exfalso
        have hle := hb.le c hc
        have := k3' c hc
        cases m with
        | true =>
          rcases h with ⟨h, _⟩ | ⟨_, h⟩
          · cases h
          · simp only [n, Bool.not_true] at h this
            simp at h this
            omega
        | false =>
          rcases h with ⟨_, h⟩ | ⟨h, _⟩
          · simp only [n, Bool.not_false] at h this
            simp at h this
            omega
          · cases h
      · refine ⟨(setFreq P B (!m) (v (!m)) cpus s1).1, Prod.ext rfl b', ?_, ?_⟩
        · intro c hc
          have e1 := j2 c
          have e2 := j3 c hc
          have e3 := k3' c hc
          rw [hG.fix (hg _ c hc)] at e2
          cases m with
          | true =>
            simp only [Bool.not_true, Bool.not_false] at e1 e2
            exact ⟨by rw [Bool.not_true, e1]; exact e3, e2⟩
          | false =>
            simp only [Bool.not_true, Bool.not_false] at e1 e2
            exact ⟨e2, by rw [Bool.not_false, e1]; exact e3⟩
        · intro c m' hc
          have e1 := j2 c
          have e2 := j4 c hc
          have e3 := k2 c
          have e4 := k4 c hc
          cases m <;> cases m' <;> simp only [Bool.not_true, Bool.not_false] at e1 e2 e3 e4 ⊢
          · rw [e1, e4]
          · rw [e2, e3]
          · rw [e2, e3]
          · rw [e1, e4]

/-- The options in the order min., max. -/
theorem setProps_min_first {P : Plat κ} (L : Laws B view store Ok Inv) (hG : Grid P view store Inv G)
    {cpus : List κ} {v1 v2 : FVal} {n1 n2 : κ → Int} (hb : Both P Ok G cpus v1 v2 n1 n2) (s : σ)
    (hs : Inv s) :
    (((∀ c ∈ cpus, n1 c ≤ view s false c) ∨ (∀ c ∈ cpus, view s true c ≤ n2 c)) ∧
      ∃ s', setProps (fun p v s => setFreq P B p v cpus s) [(true, v1), (false, v2)] s = (s', .ok ()) ∧
        BothSet view cpus n1 n2 s s') ∨
    ((∃ c ∈ cpus, view s false c < n1 c) ∧ (∃ c ∈ cpus, n2 c < view s true c) ∧
      setProps (fun p v s => setFreq P B p v cpus s) [(true, v1), (false, v2)] s =
        (s, .error .freqOrder)) := by
  have hm := setBoth L hG hb s hs true
  have hx := setBoth L hG hb s hs false
  simp only [Bool.not_true, Bool.not_false, if_true, Bool.false_eq_true, if_false] at hm hx
  rcases hm with ⟨hm, c, hc, hcm⟩ | ⟨hm, hmc, s', hs', hbs⟩
  · have hcm' : view s false c < n1 c := by
      rcases hcm with h | h
      · exact h.2
      · exact absurd h.1 (by simp)
    rcases hx with ⟨hx, d, hd, hdx⟩ | ⟨hx, hxc, s', hs', hbs⟩
    · right
      refine ⟨⟨c, hc, hcm'⟩, ⟨d, hd, ?_⟩, ?_⟩
      · rcases hdx with h | h
        · exact absurd h.1 (by simp)
        · exact h.2
      · simp [setProps, setPropsLoop, setPropSname, Dict.keys, Dict.get?, otherPname, hm, hx]
    · left
      refine ⟨Or.inr (fun c hc => (hxc c hc).2 trivial), s', ?_, hbs⟩
      have hx' : setFreq P B false v2 cpus s = ((setFreq P B false v2 cpus s).1, .ok ()) :=
        Prod.ext rfl hx
      generalize (setFreq P B false v2 cpus s).1 = s1 at hx' hs'
      simp [setProps, setPropsLoop, setPropSname, Dict.keys, Dict.get?, Dict.erase, otherPname, hm, hx',
        hs']
  · left
    refine ⟨Or.inl (fun c hc => (hmc c hc).1 trivial), s', ?_, hbs⟩
    have hm' : setFreq P B true v1 cpus s = ((setFreq P B true v1 cpus s).1, .ok ()) :=
      Prod.ext rfl hm
    generalize (setFreq P B true v1 cpus s).1 = s1 at hm' hs'
    simp [setProps, setPropsLoop, setPropSname, Dict.keys, Dict.get?, Dict.erase, hm', hs']

/-- The options in the order max., min. -/
theorem setProps_max_first {P : Plat κ} (L : Laws B view store Ok Inv) (hG : Grid P view store Inv G)
    {cpus : List κ} {v1 v2 : FVal} {n1 n2 : κ → Int} (hb : Both P Ok G cpus v1 v2 n1 n2) (s : σ)
    (hs : Inv s) :
    ((∀ c ∈ cpus, view s true c ≤ n2 c) ∧
      ∃ s', setProps (fun p v s => setFreq P B p v cpus s) [(false, v2), (true, v1)] s = (s', .ok ()) ∧
        BothSet view cpus n1 n2 s s') ∨
    ((∃ c ∈ cpus, n2 c < view s true c) ∧
      setProps (fun p v s => setFreq P B p v cpus s) [(false, v2), (true, v1)] s =
        (s, .error .freqOrder)) := by
  have hx := setBoth L hG hb s hs false
  simp only [Bool.not_false, Bool.false_eq_true, if_true, if_false] at hx
  rcases hx with ⟨hx, d, hd, hdx⟩ | ⟨hx, hxc, s', hs', hbs⟩
  · right
    refine ⟨⟨d, hd, ?_⟩, ?_⟩
    · rcases hdx with h | h
      · exact absurd h.1 (by simp)
      · exact h.2
    · simp [setProps, setPropsLoop, setPropSname, Dict.keys, Dict.get?, otherPname, hx]
  · left
    refine ⟨fun c hc => (hxc c hc).2 trivial, s', ?_, hbs⟩
    have hx' : setFreq P B false v2 cpus s = ((setFreq P B false v2 cpus s).1, .ok ()) :=
      Prod.ext rfl hx
    generalize (setFreq P B false v2 cpus s).1 = s1 at hx' hs'
    simp [setProps, setPropsLoop, setPropSname, Dict.keys, Dict.get?, Dict.erase, hx', hs']

/-! ### Restoring -/

/-- The saved values in the file are those of `f`, for exactly the CPUs in `K`. -/
structure SavedAs (infos : List (FVal × List κ)) (K : κ → Prop) (f : κ → Int) : Prop where
  val : ∀ p ∈ infos, ∃ g, p.1 = .num g ∧ ∀ c ∈ p.2, f c = g
  cover : ∀ c, K c ↔ ∃ p ∈ infos, c ∈ p.2

theorem numericFreq_saved {P : Plat κ} {f : κ → Int} {g : Int} {nums : List κ}
    (h : ∀ c ∈ nums, f c = g) :
    numericFreq P (.num g) nums = .ok (nums.map fun c => (c, f c)) := by
  simp only [numericFreq]
  congr 1
  apply List.map_congr_left
  intro c hc
  rw [h c hc]

/-- Restoring one property of one group of CPUs: it ends up with the saved value, the other one stays
within the limits. -/
theorem restoreProp_spec {P : Plat κ} (L : Laws B view store Ok Inv) (hG : Grid P view store Inv G)
    (hok : ∀ c f, G c f → P.lo c ≤ f → f ≤ P.hi c → Ok c f) (m : Bool) (f : κ → Int) (g : Int)
    (nums : List κ) (hf : ∀ c ∈ nums, f c = g) (hg : ∀ c ∈ nums, G c (f c))
    (hr : ∀ c ∈ nums, P.lo c ≤ f c ∧ f c ≤ P.hi c) (s : σ) (hs : Inv s)
    (hw : ∀ c ∈ nums, Within P (view s true) (view s false) c) :
    ∃ s', restoreProp (fun p v n s => setFreq P B p v n s) m (.num g) nums s = (s', .ok ()) ∧ Inv s' ∧
      (∀ c ∈ nums, view s' m c = f c ∧ Within P (view s' true) (view s' false) c) ∧
      (∀ c m', c ∉ nums → view s' m' c = view s m' c) ∧
      ((∀ c ∈ nums, (m = true → f c ≤ view s false c) ∧ (m = false → view s true c ≤ f c)) →
        ∀ c, view s' (!m) c = view s (!m) c) := by
  have hn := numericFreq_saved (P := P) hf
  rcases setFreq_num L m (.num g) nums f hn hr (fun c hc => hok c _ (hg c hc) (hr c hc).1 (hr c hc).2) s hs with
    ⟨⟨c0, hc0, h0⟩, h'⟩ | ⟨a, b, k1, k2, k3, k4⟩
  · -- The order does not fit: first move the other limit out of the way.
    let w : FVal := if m then .max else .min
    let nw : κ → Int := fun c => if m then P.hi c else P.lo c
    have hnw : numericFreq P w nums = .ok (nums.map fun c => (c, nw c)) := by
      cases m <;> rfl
    have hgw : ∀ c, G c (nw c) := by
      intro c; cases m
      · exact hG.lo c
      · exact hG.hi c
    have hrw : ∀ c ∈ nums, P.lo c ≤ nw c ∧ nw c ≤ P.hi c := by
      intro c hc
      obtain ⟨w1, w2, w3⟩ := hw c hc
      have : P.lo c ≤ P.hi c := Int.le_trans w1 (Int.le_trans w2 w3)
      cases m <;> simp [nw, this]
    rcases setFreq_num L (!m) w nums nw hnw hrw
      (fun c hc => hok c _ (hgw c) (hrw c hc).1 (hrw c hc).2) s hs with
      ⟨⟨c, hc, h⟩, _⟩ | ⟨_, b, k1, k2, k3, k4⟩
    · exfalso
      obtain ⟨w1, w2, w3⟩ := hw c hc
      cases m with
      | true =>
        rcases h with ⟨h, _⟩ | ⟨_, h⟩
        · cases h
        · simp only [nw, if_true] at h; omega
      | false =>
        rcases h with ⟨_, h⟩ | ⟨h, _⟩
        · simp only [nw, Bool.false_eq_true, if_false] at h; omega
        · cases h
    · have e1 : setFreq P B (!m) w nums s = ((setFreq P B (!m) w nums s).1, .ok ()) := Prod.ext rfl b
      generalize (setFreq P B (!m) w nums s).1 = s1 at e1 k1 k2 k3 k4
      have k3' : ∀ c ∈ nums, view s1 (!m) c = nw c := fun c hc => by
        rw [k3 c hc]; exact hG.fix (hgw c)
      rw [Bool.not_not] at k2
      rcases setFreq_num L m (.num g) nums f hn hr
        (fun c hc => hok c _ (hg c hc) (hr c hc).1 (hr c hc).2) s1 k1 with
        ⟨⟨c, hc, h⟩, _⟩ | ⟨_, b', j1, j2, j3, j4⟩
      · exfalso
        have := hr c hc
        have e := k3' c hc
        cases m with
        | true =>
          rcases h with ⟨_, h⟩ | ⟨h, _⟩
          · simp only [Bool.not_true, nw, if_true] at e; omega
          · cases h
        | false =>
          rcases h with ⟨h, _⟩ | ⟨_, h⟩
          · cases h
          · simp only [Bool.not_false, nw, Bool.false_eq_true, if_false] at e; omega
      · have e2 : setFreq P B m (.num g) nums s1 = ((setFreq P B m (.num g) nums s1).1, .ok ()) :=
          Prod.ext rfl b'
        generalize (setFreq P B m (.num g) nums s1).1 = s2 at e2 j1 j2 j3 j4
        refine ⟨s2, ?_, j1, ?_, ?_, ?_⟩
        · cases m <;> simp only [w, Bool.not_true, Bool.not_false, if_true, Bool.false_eq_true, if_false]
            at e1 <;> simp [restoreProp, h', e1, e2]
        · intro c hc
          have q1 := j3 c hc
          rw [hG.fix (hg c hc)] at q1
          have q2 := j2 c
          rw [k3' c hc] at q2
          have := hr c hc
          refine ⟨q1, ?_⟩
          unfold Within
          cases m with
          | true => simp only [Bool.not_true, nw, if_true] at q2; rw [q1, q2]; omega
          | false => simp only [Bool.not_false, nw, Bool.false_eq_true, if_false] at q2; rw [q1, q2]; omega
        · intro c m' hc
          have q1 := j2 c
          have q2 := j4 c hc
          have q3 := k2 c
          have q4 := k4 c hc
          cases m <;> cases m' <;> simp only [Bool.not_true, Bool.not_false] at q1 q2 q3 q4
          · rw [q2, q3]
          · rw [q1, q4]
          · rw [q1, q4]
          · rw [q2, q3]
        · intro hord
          exfalso
          have := hord c0 hc0
          rcases h0 with ⟨h0, h1⟩ | ⟨h0, h1⟩
          · have := this.1 h0; omega
          · have := this.2 h0; omega
  · have e1 : setFreq P B m (.num g) nums s = ((setFreq P B m (.num g) nums s).1, .ok ()) := Prod.ext rfl b
    generalize (setFreq P B m (.num g) nums s).1 = s1 at e1 k1 k2 k3 k4
    refine ⟨s1, by simp [restoreProp, e1], k1, ?_, ?_, fun _ => k2⟩
    · intro c hc
      have q1 := k3 c hc
      rw [hG.fix (hg c hc)] at q1
      have q2 := k2 c
      obtain ⟨w1, w2, w3⟩ := hw c hc
      have := hr c hc
      have := a c hc
      refine ⟨q1, ?_⟩
      unfold Within
      cases m with
      | true => simp only [Bool.not_true] at q2; rw [q1, q2]; simp at this; omega
      | false => simp only [Bool.not_false] at q2; rw [q1, q2]; simp at this; omega
    · intro c m' hc
      have q1 := k2 c
      have q2 := k4 c hc
      cases m <;> cases m' <;> simp only [Bool.not_true, Bool.not_false] at q1 q2
      · rw [q2]
      · rw [q1]
      · rw [q1]
      · rw [q2]

theorem restoreInfos_spec {P : Plat κ} (L : Laws B view store Ok Inv) (hG : Grid P view store Inv G)
    (hok : ∀ c f, G c f → P.lo c ≤ f → f ≤ P.hi c → Ok c f) (m : Bool) (f : κ → Int)
    (infos : List (FVal × List κ)) (K : κ → Prop) (hsv : SavedAs infos K f)
    (hg : ∀ c, K c → G c (f c)) (hr : ∀ c, K c → P.lo c ≤ f c ∧ f c ≤ P.hi c) (s : σ) (hs : Inv s)
    (hw : ∀ c, K c → Within P (view s true) (view s false) c) :
    ∃ s', restoreInfos (fun p v n s => setFreq P B p v n s) m infos s = (s', .ok ()) ∧ Inv s' ∧
      (∀ c, K c → view s' m c = f c ∧ Within P (view s' true) (view s' false) c) ∧
      (∀ c m', ¬ K c → view s' m' c = view s m' c) ∧
      ((∀ c, K c → (m = true → f c ≤ view s false c) ∧ (m = false → view s true c ≤ f c)) →
        ∀ c, view s' (!m) c = view s (!m) c) := by
  induction infos generalizing s K with
  | nil =>
    refine ⟨s, rfl, hs, ?_, fun _ _ _ => rfl, fun _ _ => rfl⟩
    intro c hc
    obtain ⟨p, hp, _⟩ := (hsv.cover c).1 hc
    cases hp
  | cons p infos ih =>
    obtain ⟨v, nums⟩ := p
    obtain ⟨g, hv, hfg⟩ := hsv.val (v, nums) (by simp)
    dsimp only at hv hfg
    subst hv
    have hK : ∀ c ∈ nums, K c := fun c hc => (hsv.cover c).2 ⟨_, List.mem_cons_self .., hc⟩
    obtain ⟨s1, e1, i1, v1, o1, u1⟩ := restoreProp_spec L hG hok m f g nums hfg
      (fun c hc => hg c (hK c hc)) (fun c hc => hr c (hK c hc)) s hs (fun c hc => hw c (hK c hc))
    have hK' : ∀ c, (∃ p ∈ infos, c ∈ p.2) → K c := by
      rintro c ⟨p, hp, hc⟩
      exact (hsv.cover c).2 ⟨p, List.mem_cons_of_mem _ hp, hc⟩
    have w1 : ∀ c, K c → Within P (view s1 true) (view s1 false) c := by
      intro c hc
      by_cases hn : c ∈ nums
      · exact (v1 c hn).2
      · unfold Within; rw [o1 c true hn, o1 c false hn]; exact hw c hc
    obtain ⟨s2, e2, i2, v2, o2, u2⟩ := ih (fun c => ∃ p ∈ infos, c ∈ p.2)
      ⟨fun p hp => hsv.val p (List.mem_cons_of_mem _ hp), fun c => Iff.rfl⟩
      (fun c hc => hg c (hK' c hc)) (fun c hc => hr c (hK' c hc)) s1 i1
      (fun c hc => w1 c (hK' c hc))
    refine ⟨s2, by simp [restoreInfos, e1, e2], i2, ?_, ?_, ?_⟩
    · intro c hc
      by_cases ht : ∃ p ∈ infos, c ∈ p.2
      · exact v2 c ht
      · have hn : c ∈ nums := by
          obtain ⟨p, hp, hcp⟩ := (hsv.cover c).1 hc
          rcases List.mem_cons.1 hp with rfl | hp
          · exact hcp
          · exact absurd ⟨p, hp, hcp⟩ ht
        have := v1 c hn
        unfold Within at this ⊢
        rw [o2 c true ht, o2 c false ht, o2 c m ht]
        exact this
    · intro c m' hc
      have h1 : c ∉ nums := fun h => hc (hK c h)
      have h2 : ¬ ∃ p ∈ infos, c ∈ p.2 := fun h => hc (hK' c h)
      rw [o2 c m' h2, o1 c m' h1]
    · intro hord
      have h1 := u1 (fun c hc => hord c (hK c hc))
      have h2 := u2 (by
        intro c hc
        have hh := hord c (hK' c hc)
        have e := h1 c
        cases m with
        | true => simp only [Bool.not_true] at e; rw [e]; exact ⟨hh.1, (fun h => by cases h)⟩
        | false => simp only [Bool.not_false] at e; rw [e]; exact ⟨(fun h => by cases h), hh.2⟩)
      intro c
      rw [h2 c, h1 c]

/-- Restoring both properties, in either order. -/
theorem restoreProps_spec {P : Plat κ} (L : Laws B view store Ok Inv) (hG : Grid P view store Inv G)
    (hok : ∀ c f, G c f → P.lo c ≤ f → f ≤ P.hi c → Ok c f) (m : Bool) (sv : Bool → κ → Int)
    (i1 i2 : List (FVal × List κ)) (K : κ → Prop) (h1 : SavedAs i1 K (sv m)) (h2 : SavedAs i2 K (sv (!m)))
    (hg : ∀ m c, K c → G c (sv m c))
    (hr : ∀ c, K c → Within P (sv true) (sv false) c) (s : σ) (hs : Inv s)
    (hw : ∀ c, K c → Within P (view s true) (view s false) c) :
    ∃ s', restoreProps (fun p v n s => setFreq P B p v n s) [(m, i1), (!m, i2)] s = (s', .ok ()) ∧
      (∀ c, K c → ∀ m, view s' m c = sv m c) ∧ (∀ c m', ¬ K c → view s' m' c = view s m' c) := by
  have hr' : ∀ m c, K c → P.lo c ≤ sv m c ∧ sv m c ≤ P.hi c := by
    intro m c hc
    obtain ⟨w1, w2, w3⟩ := hr c hc
    cases m <;> omega
  obtain ⟨s1, e1, j1, v1, o1, -⟩ := restoreInfos_spec L hG hok m (sv m) i1 K h1 (hg m) (hr' m) s hs hw
  obtain ⟨s2, e2, j2, v2, o2, u2⟩ := restoreInfos_spec L hG hok (!m) (sv (!m)) i2 K h2 (hg (!m))
    (hr' (!m)) s1 j1 (fun c hc => (v1 c hc).2)
  refine ⟨s2, by simp [restoreProps, e1, e2], ?_, fun c m' hc => by rw [o2 c m' hc, o1 c m' hc]⟩
  have hu := u2 (by
    intro c hc
    obtain ⟨w1, w2, w3⟩ := hr c hc
    have := (v1 c hc).1
    cases m with
    | true => exact ⟨fun h => by simp at h, fun _ => by rw [this]; exact w2⟩
    | false => exact ⟨fun _ => by rw [this]; exact w2, fun h => by simp at h⟩)
  rw [Bool.not_not] at hu
  intro c hc m'
  have q1 := (v1 c hc).1
  have q2 := (v2 c hc).1
  have q3 := hu c
  cases m <;> cases m' <;> simp only [Bool.not_true, Bool.not_false] at q1 q2 q3
  · rw [q3, q1]
  · exact q2
  · exact q2
  · rw [q3, q1]

/-! ### The sysfs mechanism -/

/-- What the frequency properties show. -/
def sysfsView (s : Sysfs κ) (m : Bool) (c : κ) : Int := s.file m c * 1000

theorem sysfsSet_spec [DecidableEq κ] (wfail : κ → Option Exn) (m : Bool) (f : Int) (cpus : List κ)
    (s : Sysfs κ) :
    (∀ c, sysfsView (sysfsSet wfail m f cpus s).1 (!m) c = sysfsView s (!m) c) ∧
    (∀ c, sysfsView (sysfsSet wfail m f cpus s).1 m c = sysfsView s m c ∨
      (c ∈ cpus ∧ sysfsView (sysfsSet wfail m f cpus s).1 m c = f / 1000 * 1000)) ∧
    ((sysfsSet wfail m f cpus s).2 = .ok () →
      ∀ c ∈ cpus, sysfsView (sysfsSet wfail m f cpus s).1 m c = f / 1000 * 1000) ∧
    ((∀ c ∈ cpus, wfail c = none) → (sysfsSet wfail m f cpus s).2 = .ok ()) := by
  induction cpus generalizing s with
  | nil =>
    refine ⟨fun _ => rfl, fun _ => Or.inl rfl, ?_, fun _ => rfl⟩
    intro _ c hc; cases hc
  | cons c cpus ih =>
    unfold sysfsSet
    cases hw : wfail c with
    | some e =>
      simp only
      refine ⟨fun _ => trivial, fun _ => Or.inl trivial, ?_, ?_⟩
      · intro h; cases h
      · intro h; rw [h c (by simp)] at hw; cases hw
    | none =>
      simp only
      obtain ⟨k1, k2, k3, k4⟩ := ih (s.write m c (f / 1000))
      have o : ∀ d, sysfsView (s.write m c (f / 1000)) (!m) d = sysfsView s (!m) d := by
        intro d; cases m <;> rfl
      have a : ∀ d, d ≠ c → sysfsView (s.write m c (f / 1000)) m d = sysfsView s m d := by
        intro d hd; cases m <;> simp [sysfsView, Sysfs.write, Sysfs.file, hd]
      have b : sysfsView (s.write m c (f / 1000)) m c = f / 1000 * 1000 := by
        cases m <;> simp [sysfsView, Sysfs.write, Sysfs.file]
      refine ⟨fun d => (k1 d).trans (o d), ?_, ?_, fun h => k4 (fun d hd => h d (by simp [hd]))⟩
      · intro d
        rcases k2 d with h | ⟨hd, h⟩
        · by_cases hdc : d = c
          · subst hdc; right; rw [h]; exact ⟨by simp, b⟩
          · left; rw [h, a d hdc]
        · right; exact ⟨by simp [hd], h⟩
      · intro hok d hd
        by_cases hdc : d ∈ cpus
        · exact k3 hok d hdc
        · obtain rfl : d = c := by
            rcases List.mem_cons.1 hd with h | h
            · exact h
            · exact absurd h hdc
          rcases k2 d with h | ⟨h, _⟩
          · rw [h, b]
          · exact absurd h hdc

theorem sysfsLaws [DecidableEq κ] (wfail : κ → Option Exn) :
    Laws (sysfsBackend wfail) sysfsView (fun _ f => f / 1000 * 1000) (fun c _ => wfail c = none)
      (fun _ => True) where
  get _ _ _ _ := rfl
  inv _ _ _ _ _ := trivial
  other s m f cpus c _ := (sysfsSet_spec wfail m f cpus s).1 c
  same s m f cpus c _ := (sysfsSet_spec wfail m f cpus s).2.1 c
  done s m f cpus _ := (sysfsSet_spec wfail m f cpus s).2.2.1
  ok s m f cpus _ := (sysfsSet_spec wfail m f cpus s).2.2.2

theorem sysfsGrid (P : Plat κ) :
    Grid P sysfsView (fun _ f => f / 1000 * 1000) (fun _ => True) (fun _ g => ∃ k, g = k * 1000) where
  lo c := ⟨_, rfl⟩
  hi c := ⟨_, rfl⟩
  view s m c _ := ⟨_, rfl⟩
  le c f g := by rintro ⟨k, rfl⟩ h; omega
  ge c f g := by rintro ⟨k, rfl⟩ h; omega

end Verif.PStates
