import Verif.Props.PropOptions

namespace Verif.PropOptions

open Spec

/-- `t` is an abbreviation which stands for the option `n` only: two dashes, the beginning of `n`, and of no other option. -/
def Spec.Completes (names : List PyStr) (t n : PyStr) : Prop :=
  (∃ r, r ≠ [] ∧ t = '-' :: '-' :: r) ∧ n ∈ names ∧ t <+: n ∧ ∀ m ∈ names, t <+: m → m = n

/-- `t` is not an option, and the beginning of two different ones. -/
def Spec.Several (names : List PyStr) (t n m : PyStr) : Prop :=
  (∃ r, r ≠ [] ∧ t = '-' :: '-' :: r) ∧ t ∉ names ∧ n ∈ names ∧ m ∈ names ∧ t <+: n ∧ t <+: m ∧ n ≠ m

theorem filter_single {opts : List Opt} {P : Opt → Bool} {o : Opt} (hn : (opts.map (·.name)).Nodup) (ho : o ∈ opts)
    (hP : P o = true) (hu : ∀ o' ∈ opts, P o' = true → o'.name = o.name) : opts.filter P = [o] := by
  induction opts with
  | nil => simp at ho
  | cons a l ih =>
    simp only [List.map_cons, List.nodup_cons] at hn
    by_cases ha : a = o
    · subst ha
      rw [List.filter_cons_of_pos hP]
      congr 1
      rw [List.filter_eq_nil_iff]
      intro b hb hPb
      exact hn.1 (List.mem_map.2 ⟨b, hb, hu b (List.mem_cons_of_mem _ hb) hPb⟩)
    · have hol : o ∈ l := (List.mem_cons.1 ho).resolve_left (fun e => ha e.symm)
      have hPa : ¬ P a = true := fun h => hn.1 (List.mem_map.2 ⟨o, hol, (hu a (by simp) h).symm⟩)
      rw [List.filter_cons_of_neg hPa]
      exact ih hn.2 hol (fun o' ho' => hu o' (List.mem_cons_of_mem _ ho'))

theorem kind_completes {opts : List Opt} (hn : (opts.map (·.name)).Nodup) {t n : PyStr}
    (h : Completes (opts.map (·.name)) t n) : ∃ o ∈ opts, o.name = n ∧ kind opts t = .opt o := by
  obtain ⟨⟨r, -, rfl⟩, h1, h2, h3⟩ := h
  obtain ⟨o, ho, rfl⟩ := List.mem_map.1 h1
  refine ⟨o, ho, rfl, ?_⟩
  have hf : opts.filter (fun o => ('-' :: '-' :: r).isPrefixOf o.name) = [o] :=
    filter_single hn ho (List.isPrefixOf_iff_prefix.2 h2) fun o' ho' hp =>
      h3 o'.name (List.mem_map.2 ⟨o', ho', rfl⟩) (List.isPrefixOf_iff_prefix.1 hp)
  unfold kind
  dsimp only
  rw [if_neg (by simp)]
  cases hx : opts.find? (fun o => o.name == '-' :: '-' :: r) with
  | some o' =>
    have h4 := List.mem_of_find?_eq_some hx
    have h5 : o'.name = '-' :: '-' :: r := by simpa using List.find?_some hx
    have h6 : o' ∈ opts.filter (fun o => ('-' :: '-' :: r).isPrefixOf o.name) :=
      List.mem_filter.2 ⟨h4, List.isPrefixOf_iff_prefix.2 (h5 ▸ List.prefix_refl _)⟩
    rw [hf] at h6
    simp only [List.mem_singleton] at h6
    rw [h6]
  | none =>
    dsimp only
    rw [if_neg (by simp), hf]

theorem parse_replace {opts : List Opt} {t t' : PyStr} {o : Opt} (ht : kind opts t = .opt o) (ht' : kind opts t' = .opt o)
    (post : List PyStr) : ∀ (n : Nat) (pre : List PyStr), pre.length ≤ n →
      parse opts (pre ++ t :: post) = parse opts (pre ++ t' :: post) := by
  intro n
  induction n with
  | zero =>
    intro pre hp
    have : pre = [] := by simpa using hp
    subst this
    simp only [List.nil_append]
    rw [parse, parse, ht, ht']
  | succ n ih =>
    intro pre hp
    cases pre with
    | nil =>
      simp only [List.nil_append]
      rw [parse, parse, ht, ht']
    | cons a pre =>
      have hp' : pre.length ≤ n := by simpa using hp
      have ih0 := ih pre hp'
      simp only [List.cons_append]
      rw [parse, parse]
      cases kind opts a with
      | ambiguous => rfl
      | unknown => dsimp only; rw [ih0]
      | value => dsimp only; rw [ih0]
      | opt x =>
        dsimp only
        cases x.nargs with
        | zero => dsimp only; rw [ih0]
        | one =>
          cases pre with
          | nil => simp [ht, ht']
          | cons b pre =>
            have := ih pre (by simp at hp'; omega)
            simp [this]
        | maybe =>
          cases pre with
          | nil =>
            simp only [List.nil_append] at ih0 ⊢
            simp [ht, ht', ih0]
          | cons b pre =>
            have h1 := ih pre (by simp at hp'; omega)
            simp only [List.cons_append] at ih0 ⊢
            simp [h1, ih0]

theorem config_nodup (c : Dispatch.Cls) : ((configAll c).map (·.name)).Nodup := by cases c <;> decide +kernel

theorem info_nodup (c : Dispatch.Cls) : ((infoAll c).map (·.name)).Nodup := by cases c <;> decide +kernel

theorem abbreviated {opts : List Opt} (hn : (opts.map (·.name)).Nodup) (hk : ∀ o ∈ opts, kind opts o.name = .opt o)
    {t n : PyStr} (h : Completes (opts.map (·.name)) t n) (ns : CmdLine.Namespace) (pre post : List PyStr) :
    subcommand opts ns (pre ++ t :: post) = subcommand opts ns (pre ++ n :: post) := by
  obtain ⟨o, ho, rfl, h2⟩ := kind_completes hn h
  unfold subcommand
  rw [parse_replace h2 (hk o ho) post pre.length pre (Nat.le_refl _)]

/-- C128, abbreviations for `config`: an abbreviation which only one option has can be replaced by this option, wherever it stands
and whatever else is on the command line. -/
theorem C128_config_abbreviated (c : Dispatch.Cls) {t n : PyStr}
    (h : Completes ((configOthers c ++ configOptions (Dispatch.props c)).map (·.name)) t n) (ns : CmdLine.Namespace)
    (pre post : List PyStr) :
    subcommand (configOthers c ++ configOptions (Dispatch.props c)) ns (pre ++ t :: post) =
      subcommand (configOthers c ++ configOptions (Dispatch.props c)) ns (pre ++ n :: post) :=
  abbreviated (config_nodup c) (config_known c) h ns pre post

/-- C128, abbreviations for `info`. -/
theorem C128_info_abbreviated (c : Dispatch.Cls) {t n : PyStr}
    (h : Completes ((infoOthers c ++ infoOptions (subprops c) ((Dispatch.props c).map (·.name))).map (·.name)) t n)
    (ns : CmdLine.Namespace) (pre post : List PyStr) :
    subcommand (infoOthers c ++ infoOptions (subprops c) ((Dispatch.props c).map (·.name))) ns (pre ++ t :: post) =
      subcommand (infoOthers c ++ infoOptions (subprops c) ((Dispatch.props c).map (·.name))) ns (pre ++ n :: post) :=
  abbreviated (info_nodup c) (info_known c) h ns pre post

example : Completes ((configAll .pstates).map (·.name)) "--tur".toList "--turbo".toList :=
  ⟨⟨"tur".toList, by decide, rfl⟩, by decide +kernel, by decide +kernel, by decide +kernel⟩

theorem kind_several {opts : List Opt} {t n m : PyStr} (h : Several (opts.map (·.name)) t n m) : kind opts t = .ambiguous := by
  obtain ⟨⟨r, -, rfl⟩, h0, h1, h2, h3, h4, h5⟩ := h
  obtain ⟨o, ho, rfl⟩ := List.mem_map.1 h1
  obtain ⟨o', ho', rfl⟩ := List.mem_map.1 h2
  have m1 : o ∈ opts.filter (fun o => ('-' :: '-' :: r).isPrefixOf o.name) :=
    List.mem_filter.2 ⟨ho, List.isPrefixOf_iff_prefix.2 h3⟩
  have m2 : o' ∈ opts.filter (fun o => ('-' :: '-' :: r).isPrefixOf o.name) :=
    List.mem_filter.2 ⟨ho', List.isPrefixOf_iff_prefix.2 h4⟩
  have hx : opts.find? (fun o => o.name == '-' :: '-' :: r) = none := by
    rw [List.find?_eq_none]
    intro x hx hxn
    exact h0 (List.mem_map.2 ⟨x, hx, by simpa using hxn⟩)
  unfold kind
  dsimp only
  rw [if_neg (by simp), hx]
  dsimp only
  rw [if_neg (by simp)]
  generalize opts.filter (fun o => ('-' :: '-' :: r).isPrefixOf o.name) = l at m1 m2
  cases l with
  | nil => simp at m1
  | cons a l =>
    cases l with
    | cons b l => rfl
    | nil =>
      simp only [List.mem_singleton] at m1 m2
      exact absurd (by rw [m1, m2]) h5

theorem parse_ambiguous {opts : List Opt} {t : PyStr} (ht : kind opts t = .ambiguous) (args : List PyStr) (h : t ∈ args) :
    parse opts args = .error .error := by
  have m : ∀ (f : Res → Res) (x : Except Exn Res), x = .error .error → x.map f = .error .error := by
    rintro f x rfl; rfl
  fun_induction parse opts args with
  | case1 => simp at h
  | case2 u rest hk => rfl
  | case3 u rest hk ih =>
    refine m _ _ (ih ((List.mem_cons.1 h).resolve_left ?_))
    intro e; rw [e, hk] at ht; exact nomatch ht
  | case4 u rest hk ih =>
    refine m _ _ (ih ((List.mem_cons.1 h).resolve_left ?_))
    intro e; rw [e, hk] at ht; exact nomatch ht
  | case5 u rest o hk hn ih =>
    refine m _ _ (ih ((List.mem_cons.1 h).resolve_left ?_))
    intro e; rw [e, hk] at ht; exact nomatch ht
  | case6 => rfl
  | case7 u o hk hn v rest hv ih =>
    refine m _ _ (ih ?_)
    rcases List.mem_cons.1 h with e | h
    · rw [e, hk] at ht; exact nomatch ht
    · refine (List.mem_cons.1 h).resolve_left ?_
      intro e; rw [e, hv] at ht; exact nomatch ht
  | case8 => rfl
  | case9 u o hk hn =>
    have e : t = u := by simpa using h
    rw [e, hk] at ht; exact nomatch ht
  | case10 u o hk hn v rest hv ih =>
    refine m _ _ (ih ?_)
    rcases List.mem_cons.1 h with e | h
    · rw [e, hk] at ht; exact nomatch ht
    · refine (List.mem_cons.1 h).resolve_left ?_
      intro e; rw [e, hv] at ht; exact nomatch ht
  | case11 u o hk hn v rest hv ih =>
    refine m _ _ (ih ((List.mem_cons.1 h).resolve_left ?_))
    intro e; rw [e, hk] at ht; exact nomatch ht

/-- C128: an abbreviation which stands for several options is refused, by `config` and by `info`, wherever it stands and whatever
else is on the command line. -/
theorem C128_several (opts : List Opt) {t n m : PyStr} (h : Several (opts.map (·.name)) t n m) (ns : CmdLine.Namespace)
    {args : List PyStr} (ha : t ∈ args) : subcommand opts ns args = .error .error := by
  unfold subcommand
  rw [parse_ambiguous (kind_several h) args ha]

example : Several ((configAll .pstates).map (·.name)) "--max".toList "--max-freq".toList "--max-uncore-freq".toList :=
  ⟨⟨"max".toList, by decide, rfl⟩, by decide +kernel, by decide +kernel, by decide +kernel, by decide +kernel, by decide +kernel,
    by decide +kernel⟩

end Verif.PropOptions
