import Verif.Props.ConnectSpec

/-! Lemmas for C122. -/

namespace Verif.Connect

theorem strLe_total (a b : PyStr) : strLe a b = true ∨ strLe b a = true := by
  induction a generalizing b with
  | nil => left; rw [strLe]
  | cons x a ih =>
    cases b with
    | nil => right; rw [strLe]
    | cons y b =>
      rw [strLe, strLe]
      by_cases h : x = y
      · subst h
        rw [if_pos rfl, if_pos rfl]
        exact ih b
      · have h' : ¬y = x := fun e => h e.symm
        rw [if_neg h, if_neg h']
        have hne : x.toNat ≠ y.toNat := fun e => h (Char.toNat_inj.1 e)
        simp only [decide_eq_true_eq]
        omega

theorem strLe_trans {a b c : PyStr} (h1 : strLe a b = true) (h2 : strLe b c = true) : strLe a c = true := by
  induction a generalizing b c with
  | nil => rw [strLe]
  | cons x a ih =>
    cases b with
    | nil => rw [strLe] at h1; cases h1
    | cons y b =>
      cases c with
      | nil => rw [strLe] at h2; cases h2
      | cons z c =>
        rw [strLe] at h1 h2 ⊢
        by_cases e1 : x = y
        · subst e1
          rw [if_pos rfl] at h1
          by_cases e2 : x = z
          · subst e2
            rw [if_pos rfl] at h2 ⊢
            exact ih h1 h2
          · rw [if_neg e2] at h2 ⊢
            exact h2
        · rw [if_neg e1] at h1
          simp only [decide_eq_true_eq] at h1
          by_cases e2 : y = z
          · subst e2
            rw [if_neg e1]
            simp only [decide_eq_true_eq]
            exact h1
          · rw [if_neg e2] at h2
            simp only [decide_eq_true_eq] at h2
            have : ¬x = z := by intro e; subst e; omega
            rw [if_neg this]
            simp only [decide_eq_true_eq]
            omega

theorem mem_insertStr {x y : PyStr} {l : List PyStr} : y ∈ insertStr x l ↔ y = x ∨ y ∈ l := by
  induction l with
  | nil => simp [insertStr]
  | cons z l ih =>
    rw [insertStr]
    split
    · simp
    · simp only [List.mem_cons, ih]
      constructor
      · rintro (h | h | h) <;> simp [h]
      · rintro (h | h | h) <;> simp [h]

theorem mem_sortStr {y : PyStr} {l : List PyStr} : y ∈ sortStr l ↔ y ∈ l := by
  induction l with
  | nil => simp [sortStr]
  | cons z l ih =>
    have : sortStr (z :: l) = insertStr z (sortStr l) := rfl
    rw [this, mem_insertStr, ih, List.mem_cons]

theorem pairwise_insertStr {x : PyStr} {l : List PyStr} (h : l.Pairwise (fun a b => strLe a b = true)) :
    (insertStr x l).Pairwise (fun a b => strLe a b = true) := by
  induction l with
  | nil => simp [insertStr]
  | cons z l ih =>
    rw [insertStr]
    rw [List.pairwise_cons] at h
    by_cases hx : strLe x z = true
    · rw [if_pos hx, List.pairwise_cons]
      refine ⟨fun a ha => ?_, List.pairwise_cons.2 h⟩
      rcases List.mem_cons.1 ha with e | e
      · subst e; exact hx
      · exact strLe_trans hx (h.1 a e)
    · rw [if_neg hx, List.pairwise_cons]
      refine ⟨fun a ha => ?_, ih h.2⟩
      rcases mem_insertStr.1 ha with e | e
      · subst e
        rcases strLe_total z a with t | t
        · exact t
        · exact absurd t hx
      · exact h.1 a e

theorem pairwise_sortStr (l : List PyStr) : (sortStr l).Pairwise (fun a b => strLe a b = true) := by
  induction l with
  | nil => exact List.Pairwise.nil
  | cons z l ih => exact pairwise_insertStr ih

/-- The loop without "include". -/
theorem scan_plain (W : World) (opt : PyStr) (again : List PyStr → Except Crash (Option PyStr)) (l : List PyStr)
    (hi : NoInclude W l) (hp : l.Pairwise (fun a b => strLe a b = true)) :
    (scan W opt again l = .ok none ∧ ∀ f ∈ l, W.look f opt = none) ∨
    ∃ f v, scan W opt again l = .ok (some v) ∧ TakenFrom W opt l f v := by
  induction l with
  | nil => exact .inl ⟨rfl, fun f hf => absurd hf (List.not_mem_nil)⟩
  | cons f l ih =>
    rw [List.pairwise_cons] at hp
    rw [scan]
    cases hl : W.look f opt with
    | some v =>
      refine .inr ⟨f, v, rfl, List.mem_cons_self .., hl, fun g hg hn => ?_⟩
      rcases List.mem_cons.1 hg with e | e
      · subst e
        rcases strLe_total g g with t | t <;> exact t
      · exact hp.1 g e
    | none =>
      have h1 : W.look f "include".toList = none := hi f (List.mem_cons_self ..)
      dsimp only
      rw [h1]
      dsimp only
      rcases ih (fun g hg => hi g (List.mem_cons_of_mem _ hg)) hp.2 with ⟨h2, h3⟩ | ⟨g, v, h2, h3, h4, h5⟩
      · refine .inl ⟨h2, fun g hg => ?_⟩
        rcases List.mem_cons.1 hg with e | e
        · subst e; exact hl
        · exact h3 g e
      · refine .inr ⟨g, v, h2, List.mem_cons_of_mem _ h3, h4, fun k hk hn => ?_⟩
        rcases List.mem_cons.1 hk with e | e
        · subst e; exact absurd hl hn
        · exact h5 k e hn

theorem keyGood_iff (W : World) (k : PyStr) : keyGood W (some k) = true ↔ KeyFile W k := by
  unfold KeyFile
  cases h : W.stat k with
  | none => simp [keyGood, h]
  | some p =>
    obtain ⟨r, m⟩ := p
    have hm : m &&& 7 = m % 8 := Nat.and_two_pow_sub_one_eq_mod m 3
    cases r <;> simp [keyGood, h, hm]

theorem cfgLookup_env (W : World) (opt user u : PyStr) : (cfgLookup W opt user (some u)).1 = some u := rfl

theorem keyOf_env (W : World) (k : Option PyStr) (user u : PyStr) : (keyOf W k user (some u)).1 = some u := by
  unfold keyOf cfgLookup
  cases given k with
  | some _ => rfl
  | none =>
    dsimp only
    cases cfgFiles W "identityfile".toList W.depth [] <;> rfl

theorem hostOf_env (W : World) (h : PyStr) (ip : Option PyStr) (user u : PyStr) :
    (hostOf W h ip user (some u)).1 = some u := by
  unfold hostOf cfgLookup
  cases given ip with
  | some _ => rfl
  | none =>
    dsimp only
    cases cfgFiles W "hostname".toList W.depth [] <;> rfl

end Verif.Connect
