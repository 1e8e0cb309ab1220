import Verif.Model.PropOptions
import Verif.Props.PropOptionsSpec

namespace Verif.PropOptions

open Spec

theorem optName_eq (p : PyStr) : optName p = '-' :: '-' :: dashed p := by
  show '-' :: '-' :: (p.map fun c => if c = '_' then '-' else c) = _
  congr 2
  induction p with
  | nil => rfl
  | cons c s ih =>
    by_cases h : c = '_'
    · subst h; simp [dashed, ← ih]
    · rw [dashed]
      · simp [h, ih]
      · exact h

theorem destOf_optName {p : PyStr} (h : ProperName p) : destOf (optName p) = p := by
  obtain ⟨h1, h2⟩ := h
  have hd : ∀ q : PyStr, '-' ∉ q →
      (q.map fun c => if c = '_' then '-' else c).map (fun c => if c = '-' then '_' else c) = q := by
    intro q
    induction q with
    | nil => intro _; rfl
    | cons c s ih =>
      intro hq
      simp only [List.mem_cons, not_or] at hq
      simp only [List.map_cons, ih hq.2]
      congr 1
      by_cases hc : c = '_'
      · simp [hc]
      · simp [hc, Ne.symm hq.1]
  have hs : PyStr.lstripBy (· == '-') (optName p) = p.map fun c => if c = '_' then '-' else c := by
    show List.dropWhile (· == '-') (p.map fun c => if c = '_' then '-' else c) = _
    cases p with
    | nil => rfl
    | cons c s =>
      have h3 : c ≠ '-' := fun e => h1 (by simp [e])
      have h4 : c ≠ '_' := fun e => h2 (by simp [e])
      simp [h4, h3]
  unfold destOf
  rw [hs, hd p h1]

theorem kind_of_mem {opts : List Opt} {o : Opt} (ho : o ∈ opts) (hu : ∀ o' ∈ opts, o'.name = o.name → o' = o)
    (hd : o.name.head? = some '-') : kind opts o.name = .opt o := by
  cases hn : o.name with
  | nil => simp [hn] at hd
  | cons c r =>
    have hc : c = '-' := by simpa [hn] using hd
    have hf : opts.find? (fun o => o.name == c :: r) = some o := by
      cases hf : opts.find? (fun o => o.name == c :: r) with
      | none =>
        have := List.find?_eq_none.1 hf o ho
        simp [hn] at this
      | some o' =>
        have h1 := List.mem_of_find?_eq_some hf
        have h2 := List.find?_some hf
        rw [hu o' h1 (by simpa [hn] using h2)]
    unfold kind
    dsimp only
    rw [if_neg (by simp [hc]), hf]

theorem kind_plain (opts : List Opt) {v : PyStr} (h : Plain v) : kind opts v = .value := by
  cases v with
  | nil => rfl
  | cons c r =>
    have hc : c ≠ '-' := fun e => h (by simp [e])
    unfold kind
    dsimp only
    rw [if_pos hc]

/-- A parsed thing: an option of the sub-command with its value, or an unknown option with its value. -/
inductive Tok where
  | known (o : Opt) (v : Option PyStr)
  | glob (o v : PyStr)

def Tok.text : Tok → List PyStr
  | .known o v => o.name :: v.toList
  | .glob o v => [o, v]

def Tok.apply : Tok → Res → Res
  | .known o v, r => r.put o v
  | .glob o v, r => (r.unknown v).unknown o

def Tok.Fine (opts : List Opt) : Tok → Prop
  | .known o v => kind opts o.name = .opt o ∧ (∀ x ∈ v, Plain x) ∧
      match o.nargs with
      | .zero => v = none
      | .one => v ≠ none
      | .maybe => True
  | .glob o v => kind opts o = .unknown ∧ Plain v

theorem first_not_value {opts : List Opt} {l : List Tok} (h : ∀ t ∈ l, t.Fine opts) {v : PyStr} {rest : List PyStr}
    (e : l.flatMap Tok.text = v :: rest) : kind opts v ≠ .value := by
  cases l with
  | nil => simp at e
  | cons t l =>
    have ht := h t (by simp)
    cases t with
    | known o w =>
      simp only [List.flatMap_cons, Tok.text, List.cons_append, List.cons.injEq] at e
      rw [← e.1, ht.1]; simp
    | glob o w =>
      simp only [List.flatMap_cons, Tok.text, List.cons_append, List.cons.injEq] at e
      rw [← e.1, ht.1]; simp

theorem parse_toks {opts : List Opt} : ∀ {l : List Tok}, (∀ t ∈ l, t.Fine opts) →
    parse opts (l.flatMap Tok.text) = .ok (l.foldr Tok.apply ⟨[], [], []⟩) := by
  intro l
  induction l with
  | nil => intro _; rfl
  | cons t l ih =>
    intro h
    have ih := ih (fun t ht => h t (List.mem_cons_of_mem _ ht))
    have hl : ∀ t ∈ l, t.Fine opts := fun t ht => h t (List.mem_cons_of_mem _ ht)
    have ht := h t (by simp)
    cases t with
    | glob o v =>
      obtain ⟨h1, h2⟩ := ht
      simp only [List.flatMap_cons, Tok.text, List.cons_append, List.nil_append, List.foldr_cons, Tok.apply]
      rw [parse, h1]
      dsimp only
      rw [parse, kind_plain opts h2]
      dsimp only
      rw [ih]; rfl
    | known o v =>
      obtain ⟨h1, h2, h3⟩ := ht
      simp only [List.flatMap_cons, Tok.text, List.cons_append, List.foldr_cons, Tok.apply]
      rw [parse, h1]
      dsimp only
      cases hn : o.nargs with
      | zero =>
        rw [hn] at h3
        dsimp only at h3 ⊢
        subst h3
        simp only [Option.toList_none, List.nil_append, ih]; rfl
      | one =>
        rw [hn] at h3
        cases v with
        | none => exact absurd rfl h3
        | some x =>
          simp only [Option.toList_some, List.cons_append, List.nil_append]
          rw [if_pos (kind_plain opts (h2 x rfl)), ih]; rfl
      | maybe =>
        cases v with
        | some x =>
          simp only [Option.toList_some, List.cons_append, List.nil_append]
          rw [if_pos (kind_plain opts (h2 x rfl)), ih]; rfl
        | none =>
          simp only [Option.toList_none, List.nil_append]
          cases hr : l.flatMap Tok.text with
          | nil =>
            rw [hr] at ih
            have : (⟨[], [], []⟩ : Res) = l.foldr Tok.apply ⟨[], [], []⟩ := by simpa [parse] using ih
            dsimp only
            rw [← this]
          | cons w rest =>
            dsimp only
            rw [if_neg (first_not_value hl hr), ← hr, ih]; rfl

/-- An argument which is not known is never taken for anything else. -/
theorem parse_unknown {opts : List Opt} {t : PyStr} (ht : kind opts t = .unknown) (args : List PyStr) (h : t ∈ args) :
    parse opts args = .error .error ∨ ∃ r, parse opts args = .ok r ∧ t ∈ r.uargs := by
  have put : ∀ (o : Opt) (v : Option PyStr) (x : Except Exn Res), (x = .error .error ∨ ∃ r, x = .ok r ∧ t ∈ r.uargs) →
      (x.map (Res.put o v) = .error .error ∨ ∃ r, x.map (Res.put o v) = .ok r ∧ t ∈ r.uargs) := by
    intro o v x hx
    rcases hx with rfl | ⟨r, rfl, hr⟩
    · exact .inl rfl
    · refine .inr ⟨_, rfl, ?_⟩
      unfold Res.put
      split <;> exact hr
  have unk : ∀ (u : PyStr) (x : Except Exn Res), (x = .error .error ∨ ∃ r, x = .ok r ∧ t ∈ r.uargs) →
      (x.map (Res.unknown u) = .error .error ∨ ∃ r, x.map (Res.unknown u) = .ok r ∧ t ∈ r.uargs) := by
    intro u x hx
    rcases hx with rfl | ⟨r, rfl, hr⟩
    · exact .inl rfl
    · exact .inr ⟨_, rfl, List.mem_cons_of_mem _ hr⟩
  have err : ∀ l : List PyStr, (∃ r, parse opts l = .ok r) ∨ parse opts l = .error .error := by
    have m : ∀ (f : Res → Res) (x : Except Exn Res), ((∃ r, x = .ok r) ∨ x = .error .error) →
        ((∃ r, x.map f = .ok r) ∨ x.map f = .error .error) := by
      intro f x hx
      rcases hx with ⟨r, rfl⟩ | rfl
      · exact .inl ⟨_, rfl⟩
      · exact .inr rfl
    intro l
    fun_induction parse opts l <;> first
      | exact .inl ⟨_, rfl⟩
      | exact .inr rfl
      | (apply m; assumption)
  have first' : ∀ l : List PyStr, ((parse opts l).map (Res.unknown t) = .error .error ∨
      ∃ r, (parse opts l).map (Res.unknown t) = .ok r ∧ t ∈ r.uargs) := by
    intro l
    rcases err l with ⟨r, hr⟩ | hr
    · exact .inr ⟨r.unknown t, by rw [hr]; rfl, List.mem_cons_self⟩
    · exact .inl (by rw [hr]; rfl)
  fun_induction parse opts args with
  | case1 => simp at h
  | case2 u rest hk => exact .inl rfl
  | case3 u rest hk ih =>
    by_cases e : t = u
    · subst e; exact first' rest
    · exact unk _ _ (ih ((List.mem_cons.1 h).resolve_left e))
  | case4 u rest hk ih =>
    by_cases e : t = u
    · subst e; exact first' rest
    · exact unk _ _ (ih ((List.mem_cons.1 h).resolve_left e))
  | case5 u rest o hk hn ih =>
    refine put _ _ _ (ih ((List.mem_cons.1 h).resolve_left ?_))
    intro e; rw [e, hk] at ht; exact nomatch ht
  | case6 => exact .inl rfl
  | case7 u o hk hn v rest hv ih =>
    refine put _ _ _ (ih ?_)
    rcases List.mem_cons.1 h with e | h
    · rw [e, hk] at ht; exact nomatch ht
    · refine (List.mem_cons.1 h).resolve_left ?_
      intro e; rw [e, hv] at ht; exact nomatch ht
  | case8 => exact .inl rfl
  | case9 u o hk hn =>
    have e : t = u := by simpa using h
    rw [e, hk] at ht; exact nomatch ht
  | case10 u o hk hn v rest hv ih =>
    refine put _ _ _ (ih ?_)
    rcases List.mem_cons.1 h with e | h
    · rw [e, hk] at ht; exact nomatch ht
    · refine (List.mem_cons.1 h).resolve_left ?_
      intro e; rw [e, hv] at ht; exact nomatch ht
  | case11 u o hk hn v rest hv ih =>
    refine put _ _ _ (ih ((List.mem_cons.1 h).resolve_left ?_))
    intro e; rw [e, hk] at ht; exact nomatch ht

end Verif.PropOptions
