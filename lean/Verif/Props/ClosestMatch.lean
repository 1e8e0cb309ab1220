import Verif.Lemmas.ClosestMatch

/-!
C47: closest-match suggestions are really closest.

The specification (`Op`, `Edits`, `Distance` in `Verif.Lemmas.ClosestMatch`): the distance of two
strings is the smallest number of insertions, deletions, substitutions and swaps of adjacent characters
in a left to right edit script which transforms one to the other.
-/

namespace Verif.ClosestMatch

/-- C47: the distance is the smallest number of edits; computing it never fails. -/
theorem C47_distance (a b : PyStr) : ∃ n, osaDistance a b = .ok n ∧ Distance a b n := osaDistance_spec a b

example : osaDistance "cpufreq".toList "cupferq".toList = .ok 2 := by decide +kernel

/-- C47: the distance is 0 exactly for equal strings. -/
theorem C47_zero (a b : PyStr) : osaDistance a b = .ok 0 ↔ a = b := by
  obtain ⟨n, h1, ⟨ops, h2⟩, h3⟩ := osaDistance_spec a b
  rw [h1]
  constructor
  · intro h
    injection h with h
    subst h
    exact edits_zero h2
  · rintro rfl
    have := h3 _ _ (edits_keep a)
    congr 1
    omega

/-- C47: the distance is symmetric. -/
theorem C47_symmetric (a b : PyStr) : osaDistance a b = osaDistance b a := by
  obtain ⟨n, h1, h2⟩ := osaDistance_spec a b
  obtain ⟨m, h3, h4⟩ := osaDistance_spec b a
  rw [h1, h3, distance_unique h2 (distance_symm h4)]

/-- How strings are compared: as they are, or lower-cased. -/
def folded (lower : PyStr → PyStr) (caseSensitive : Bool) (s : PyStr) : PyStr :=
  if caseSensitive then s else lower s

/-- The candidate is within the limit and no candidate is closer. -/
def Closest (fold : PyStr → PyStr) (string : PyStr) (strings : List PyStr) (limit : Int) (c : PyStr) : Prop :=
  c ∈ strings ∧ ∃ n : Nat, Distance (fold string) (fold c) n ∧ n ≤ limit ∧
    ∀ c' ∈ strings, ∀ n' : Nat, Distance (fold string) (fold c') n' → n ≤ n'

/-- C47, exact behaviour for all inputs: a returned string is a closest candidate within the limit (of
the candidates with the same lower-case form the last one). Nothing is returned only if there is no
candidate within the limit, or if the closest candidate found is the empty string.

Missing from the full statement: the last case, see `C47_empty_counterexample`. -/
theorem C47_closest_partial (lower : PyStr → PyStr) (string : PyStr) (strings : List PyStr) (limit : Int)
    (cs : Bool) :
    ∃ r, closestMatch lower string strings limit cs = .ok r ∧
      (∀ c, r = some c → Closest (folded lower cs) string strings limit c ∧ folded lower cs c ≠ [] ∧
        ∃ pre post, strings = pre ++ c :: post ∧ ∀ d ∈ post, folded lower cs d ≠ folded lower cs c) ∧
      (r = none → (∀ c ∈ strings, ∀ n : Nat,
          Distance (folded lower cs string) (folded lower cs c) n → limit < n) ∨
        ∃ c, Closest (folded lower cs) string strings limit c ∧ folded lower cs c = []) := by
  have hf : (if cs then id else lower) = folded lower cs := by
    funext s
    unfold folded
    cases cs <;> rfl
  unfold closestMatch
  simp only [hf]
  generalize folded lower cs = fold
  obtain ⟨r, e, hle, hor, hall⟩ := search_spec (fold string) (options fold strings).keys (limit + 1, none)
  rw [e]
  simp only [bind, Except.bind]
  have hall' : ∀ c ∈ strings, ∀ n : Nat, Distance (fold string) (fold c) n → r.1 ≤ n :=
    fun c hc n hn => hall _ ((mem_keys_options _ _ _).2 ⟨c, hc, rfl⟩) n hn
  rcases hor with h | ⟨o, ho, n, hn, hr, hlt⟩
  · subst h
    dsimp only
    refine ⟨none, rfl, (fun c h => (by cases h)), fun _ => .inl (fun c hc n hn => ?_)⟩
    have := hall' c hc n hn
    dsimp only at this
    omega
  · subst hr
    dsimp only at hlt hall' ⊢
    obtain ⟨s, hs, hso⟩ := (mem_keys_options _ _ _).1 ho
    have close : ∀ c ∈ strings, fold c = o → Closest fold string strings limit c := by
      intro c hc hco
      refine ⟨hc, n, by rw [hco]; exact hn, by omega, fun c' hc' n' hn' => ?_⟩
      have := hall' c' hc' n' hn'
      omega
    cases o with
    | nil =>
      refine ⟨none, rfl, (fun c h => (by cases h)), fun _ => .inr ⟨s, close s hs hso, hso⟩⟩
    | cons x o =>
      dsimp only
      rw [get?_options]
      cases hfind : strings.reverse.find? (fun s => fold s = x :: o) with
      | none =>
        have := List.find?_eq_none.1 hfind s (List.mem_reverse.2 hs)
        exact absurd (decide_eq_true hso) this
      | some c =>
        refine ⟨some c, rfl, ?_, (fun h => (by cases h))⟩
        intro c' hc'
        injection hc' with hc'
        subst hc'
        have h1 : fold c = x :: o := by simpa using List.find?_some hfind
        have h2 := List.mem_reverse.1 (List.mem_of_find?_eq_some hfind)
        refine ⟨close c h2 h1, by rw [h1]; simp, ?_⟩
        obtain ⟨-, as, bs, hsplit, hno⟩ := List.find?_eq_some_iff_append.1 hfind
        refine ⟨bs.reverse, as.reverse, ?_, ?_⟩
        · have := congrArg List.reverse hsplit
          rw [List.reverse_reverse] at this
          rw [this]
          simp
        · intro d hd
          have := hno d (List.mem_reverse.1 hd)
          rw [h1]
          simpa using this

/-- C47 for candidates which are not empty: the suggestion is a closest candidate within the limit, and
there is none only if no candidate is within the limit. -/
theorem C47_nonempty (lower : PyStr → PyStr) (string : PyStr) (strings : List PyStr) (limit : Int)
    (cs : Bool) (hne : ∀ c ∈ strings, folded lower cs c ≠ []) :
    ∃ r, closestMatch lower string strings limit cs = .ok r ∧
      (∀ c, r = some c → Closest (folded lower cs) string strings limit c) ∧
      (r = none ↔ ∀ c ∈ strings, ∀ n : Nat,
          Distance (folded lower cs string) (folded lower cs c) n → limit < n) := by
  obtain ⟨r, e, h1, h2⟩ := C47_closest_partial lower string strings limit cs
  refine ⟨r, e, fun c hc => (h1 c hc).1, fun h => ?_, fun h => ?_⟩
  · rcases h2 h with h | ⟨c, hc, hc0⟩
    · exact h
    · exact absurd hc0 (hne c hc.1)
  · cases hr : r with
    | none => rfl
    | some c =>
      obtain ⟨hc, n, hn, hl, -⟩ := (h1 c hr).1
      have := h c hc n hn
      omega

/-- C47: a non-empty string which is a candidate itself is suggested (up to the case). -/
theorem C47_exact (lower : PyStr → PyStr) (string : PyStr) (strings : List PyStr) (limit : Int)
    (cs : Bool) (hl : 0 ≤ limit) (hm : string ∈ strings) (hne : folded lower cs string ≠ []) :
    ∃ c ∈ strings, closestMatch lower string strings limit cs = .ok (some c) ∧
      folded lower cs c = folded lower cs string := by
  obtain ⟨r, e, h1, h2⟩ := C47_closest_partial lower string strings limit cs
  have d0 : Distance (folded lower cs string) (folded lower cs string) 0 :=
    ⟨⟨_, edits_keep _⟩, fun _ _ _ => Nat.zero_le _⟩
  have eq0 : ∀ c n, Distance (folded lower cs string) (folded lower cs c) n → n ≤ 0 →
      folded lower cs c = folded lower cs string := by
    intro c n hn h0
    have : n = 0 := by omega
    subst this
    obtain ⟨⟨ops, ho⟩, -⟩ := hn
    exact (edits_zero ho).symm
  cases r with
  | none =>
    rcases h2 rfl with h | ⟨c, ⟨hc, n, hn, -, hmin⟩, hc0⟩
    · have := h string hm 0 d0
      omega
    · have := eq0 c n hn (hmin string hm 0 d0)
      rw [hc0] at this
      exact absurd this.symm hne
  | some c =>
    obtain ⟨⟨hc, n, hn, -, hmin⟩, -⟩ := h1 c rfl
    exact ⟨c, hc, e, eq0 c n hn (hmin string hm 0 d0)⟩

example : closestMatch id "--cpu".toList ["--core".toList, "--cpus".toList, "--dies".toList] 2 true =
    .ok (some "--cpus".toList) := by decide +kernel
example : closestMatch id "--cpu".toList ["--packages".toList] 2 true = .ok none := by decide +kernel

/-- C47 does not hold for empty candidates: the empty string is at distance 1 and is not suggested, and
it hides a candidate which is within the limit. -/
theorem C47_empty_counterexample :
    closestMatch id ['a'] [[]] 2 true = .ok none ∧ closestMatch id [] [[], ['a']] 2 true = .ok none := by
  decide +kernel

end Verif.ClosestMatch
