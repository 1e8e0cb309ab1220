import Verif.Lemmas.YamlLoad

/-!
C107: an include statement in a YAML file stands for the text of the included file.
-/

namespace Verif.YamlLoad

/-- Loading a file succeeds exactly if its include statements can be replaced by the text of the included files, and no file is included
twice. The result is the dictionary of the text: the keys in the order of the text, with the last value for every key. -/
theorem C107_includes (fs : YPath → Except Exn Doc) (s : Src) (d : Dict PyStr Val) (hfiles : CleanFiles fs)
    (hroot : ∀ l, s.contents fs = .ok (.map l) → Clean l) :
    (∃ n, loadTop fs n s = some (.ok d)) ↔
    ∃ x pairs out inc, s.contents fs = .ok x ∧ pairsOf x = some pairs ∧ Expand fs s.dir pairs out inc ∧ inc.Nodup ∧ IsDictOf d out := by
  constructor
  · rintro ⟨n, h⟩
    unfold loadTop at h
    split at h
    · exact nomatch h
    · exact nomatch h
    · next d' inc hd =>
      cases h
      obtain ⟨x, pairs, out, new, h1, h2, h3, h4, h5, h6⟩ := doc_sound fs _ (load_sound fs hfiles n) _ _ hroot _ _ _ hd
      refine ⟨x, pairs, out, new, h1, h2, h3, ?_, (isDictOf_iff _ _).2 h4⟩
      rw [List.nil_append] at h5
      rw [← h5]; exact h6 List.nodup_nil
  · rintro ⟨x, pairs, out, inc, h1, h2, h3, h4, h5⟩
    rw [isDictOf_iff] at h5
    cases x with
    | falsy =>
      cases h2
      cases h3
      refine ⟨0, ?_⟩
      unfold loadTop doc
      rw [h1, h5]; rfl
    | other => exact nomatch h2
    | map l =>
      cases h2
      obtain ⟨n, hn⟩ := entries_complete fs hfiles h3
      obtain ⟨y, hy⟩ := construct_ok (expand_reserved h3)
      refine ⟨n, ?_⟩
      unfold loadTop doc
      rw [h1]
      dsimp only
      rw [hy]
      dsimp only
      rw [hn n (Nat.le_refl _) y (construct_clean (hroot _ h1) hy) [] [] (by rw [List.nil_append]; exact h4), h5]

/-- A file which is included twice - also by two different files - is refused. -/
theorem C107_twice (fs : YPath → Except Exn Doc) (s : Src) (pairs out : List (PyStr × Val)) (inc : List YPath) (hfiles : CleanFiles fs)
    (hroot : s.contents fs = .ok (.map pairs)) (hclean : Clean pairs) (h : Expand fs s.dir pairs out inc) (htwice : ¬ inc.Nodup)
    (n : Nat) (d : Dict PyStr Val) : loadTop fs n s ≠ some (.ok d) := by
  intro hl
  obtain ⟨x, pairs', out', inc', h1, h2, h3, h4, _⟩ :=
    (C107_includes fs s d hfiles (fun l hl => by rw [hroot] at hl; cases hl; exact hclean)).1 ⟨n, hl⟩
  rw [hroot] at h1
  cases h1
  cases h2
  obtain ⟨_, h6⟩ := expand_unique h h3
  rw [h6] at h4
  exact htwice h4

/-- If the include statements name only finitely many paths, then loading comes to an end - with a result or an exception - whatever the
files include. The limit of the depth does not matter then. -/
theorem C107_total (fs : YPath → Except Exn Doc) (s : Src) (S : List YPath) (hS : ClosedFiles fs S)
    (hroot : ∀ l, s.contents fs = .ok (.map l) → Closed S s.dir l) :
    ∃ r, ∀ n, S.length ≤ n → loadTop fs n s = some r := by
  have h := (doc_total S (load fs S.length) S.length (load_total fs S hS S.length) s.dir (s.contents fs) [] hroot
    ⟨List.nodup_nil, fun _ h => nomatch h⟩ (by omega)).1
  have h' : ∃ r, loadTop fs S.length s = some r := by
    unfold loadTop
    split
    · next hn => exact absurd hn h
    · exact ⟨_, rfl⟩
    · exact ⟨_, rfl⟩
  obtain ⟨r, hr⟩ := h'
  exact ⟨r, fun n hn => loadTop_mono fs _ n hn s r hr⟩

/-- The files of the examples, in the directory /d. -/
def exFs (p : YPath) : Except Exn Doc :=
  if p = parsePath "/d/main.yml".toList then
    .ok (.map [("a".toList, .int 1), ("include".toList, .text "x.yml".toList), ("b".toList, .int 2),
      ("include".toList, .text "/d/sub/y.yml".toList), ("include".toList, .null)])
  else if p = parsePath "/d/x.yml".toList then .ok (.map [("c".toList, .int 3), ("a".toList, .int 4)])
  else if p = parsePath "/d/sub/y.yml".toList then .ok (.map [("b".toList, .int 5), ("include".toList, .text "z.yml".toList)])
  else if p = parsePath "/d/sub/z.yml".toList then .ok .falsy
  else if p = parsePath "/d/self.yml".toList then .ok (.map [("include".toList, .text "self.yml".toList)])
  else if p = parsePath "/d/two.yml".toList then
    .ok (.map [("include".toList, .text "x.yml".toList), ("include".toList, .text "./x.yml".toList)])
  else if p = parsePath "/d/list.yml".toList then .ok .other
  else .error .error

example : loadTop exFs 3 (.path (parsePath "/d/main.yml".toList)) =
    some (.ok [("a".toList, .int 4), ("c".toList, .int 3), ("b".toList, .int 5)]) := by decide +kernel

example : loadTop exFs 3 (.path (parsePath "/d/self.yml".toList)) = some (.error .error) ∧
    loadTop exFs 3 (.path (parsePath "/d/two.yml".toList)) = some (.error .error) ∧
    loadTop exFs 3 (.path (parsePath "/d/none.yml".toList)) = some (.error .error) := by decide +kernel

/-- The hypotheses of `C107_total` for these files. -/
example : Closed [parsePath "/d/x.yml".toList] (some (parsePath "/d".toList)) [("include".toList, .text "x.yml".toList)] := by
  intro v p q h hk hr
  rw [List.mem_singleton] at h
  cases h
  have hp : p = ⟨false, ["x.yml".toList]⟩ := by
    have : kind (.text "x.yml".toList) = .path ⟨false, ["x.yml".toList]⟩ := by decide +kernel
    rw [this] at hk
    exact (Kind.path.inj hk).symm
  subst hp
  have h1 : resolve (some (parsePath "/d".toList)) ⟨false, ["x.yml".toList]⟩ = some (parsePath "/d/x.yml".toList) := by decide +kernel
  have := resolves_inj hr ((resolve_iff _ _ _).1 h1)
  rw [this]; exact List.mem_singleton.2 rfl

/-! ### Where it does not hold -/

/-- The repeated part of the path. -/
def reps : Nat → List PyStr
  | 0 => []
  | k + 1 => reps k ++ ["sub".toList, "..".toList]

/-- The components with "x/.." taken away. -/
def collapse (l : List PyStr) : List PyStr := l.foldl (fun acc c => if c = "..".toList then acc.dropLast else acc ++ [c]) []

/-- The directory /d has the file "a.yml" and the directory "sub". -/
def loopFs (p : YPath) : Except Exn Doc :=
  if p.abs = true ∧ collapse p.parts = ["d".toList, "a.yml".toList] then .ok (.map [("include".toList, .text "sub/../a.yml".toList)])
  else .error .error

def loopPath (k : Nat) : YPath := ⟨true, "d".toList :: (reps k ++ ["a.yml".toList])⟩

theorem collapse_reps (acc : List PyStr) (k : Nat) :
    (reps k).foldl (fun acc c => if c = "..".toList then acc.dropLast else acc ++ [c]) acc = acc := by
  induction k with
  | zero => rfl
  | succ k ih =>
    unfold reps
    rw [List.foldl_append, ih, List.foldl_cons, List.foldl_cons, List.foldl_nil]
    rw [if_neg (show ¬ "sub".toList = "..".toList by decide), if_pos rfl, List.dropLast_concat]

theorem loopFs_loopPath (k : Nat) : loopFs (loopPath k) = .ok (.map [("include".toList, .text "sub/../a.yml".toList)]) := by
  refine if_pos ⟨rfl, ?_⟩
  unfold collapse loopPath
  rw [List.foldl_cons, List.foldl_append, collapse_reps]
  decide +kernel

theorem loopPath_length (k : Nat) : (loopPath k).parts.length = 2 * k + 2 := by
  unfold loopPath
  simp only [List.length_cons, List.length_append, List.length_nil]
  have : (reps k).length = 2 * k := by
    induction k with
    | zero => rfl
    | succ k ih => unfold reps; rw [List.length_append, ih]; simp only [List.length_cons, List.length_nil]; omega
  omega

theorem loopPath_next (k : Nat) :
    resolve (some (loopPath k).parent) ⟨false, ["sub".toList, "..".toList, "a.yml".toList]⟩ = some (loopPath (k + 1)) := by
  unfold resolve
  rw [if_neg Bool.false_ne_true]
  have : ("d".toList :: (reps k ++ ["a.yml".toList])).dropLast = "d".toList :: reps k := by
    rw [← List.cons_append, List.dropLast_concat]
  unfold YPath.parent YPath.join loopPath
  dsimp only [Option.map]
  rw [this]
  congr 2
  conv => rhs; unfold reps
  rw [List.cons_append, List.append_assoc]
  rfl

theorem loop_none (n : Nat) : ∀ k inc, (∀ q ∈ inc, q.parts.length ≤ 2 * k + 2) → load loopFs n (loopPath k) inc = none := by
  induction n with
  | zero => intro k inc _; rfl
  | succ n ih =>
    intro k inc h
    unfold load doc
    rw [loopFs_loopPath]
    dsimp only
    have hc : construct [("include".toList, .text "sub/../a.yml".toList)] =
        .ok [("include_0".toList, .text "sub/../a.yml".toList)] := by decide +kernel
    rw [hc]
    dsimp only
    unfold entries
    rw [if_neg (show ¬ (!reserved "include_0".toList) = true by decide +kernel)]
    have hk : kind (.text "sub/../a.yml".toList) = .path ⟨false, ["sub".toList, "..".toList, "a.yml".toList]⟩ := by decide +kernel
    rw [hk]
    dsimp only
    rw [loopPath_next]
    dsimp only
    have hlen := loopPath_length (k + 1)
    rw [if_neg (fun hm => by have := h _ hm; omega)]
    rw [ih (k + 1) _ ?_]
    intro q hq
    rcases List.mem_append.1 hq with hq | hq
    · have := h q hq; omega
    · rw [List.mem_singleton] at hq; rw [hq]; omega

/-- A circular include is not recognised if the path goes up again: loading does not come to an end (Python raises 'RecursionError' or the
path becomes too long). -/
theorem C107_circular_counterexample : ∀ n, loadTop loopFs n (.path (parsePath "/d/a.yml".toList)) = none := by
  intro n
  have h0 : parsePath "/d/a.yml".toList = loopPath 0 := by decide +kernel
  have h := loop_none (n + 1) 0 [] (fun _ h => nomatch h)
  rw [h0]
  unfold loadTop Src.contents Src.dir
  unfold load at h
  rw [h]

/-- A relative include in a file which is given as a text - as the 'restore' commands do - or on standard input is a Python exception; it
works for a 'Path' object. -/
theorem C107_relative_counterexample :
    loadTop exFs 3 (.text "/d/main.yml".toList) = some (.error .pyAttributeError) ∧
    loadTop exFs 3 (.stream (exFs (parsePath "/d/main.yml".toList))) = some (.error .pyAttributeError) ∧
    loadTop exFs 3 (.path (parsePath "/d/main.yml".toList)) =
      some (.ok [("a".toList, .int 4), ("c".toList, .int 3), ("b".toList, .int 5)]) := by decide +kernel

/-- For every file and every relative include in it. -/
theorem C107_relative_general (fs : YPath → Except Exn Doc) (n : Nat) (s : PyStr) (t : PyStr) (ht : t ≠ []) (hrel : t.head? ≠ some '/')
    (h : fs (parsePath s) = .ok (.map [("include".toList, .text t)])) : loadTop fs n (.text s) = some (.error .pyAttributeError) := by
  unfold loadTop Src.contents Src.dir doc
  dsimp only
  rw [h]
  dsimp only
  have hc : ∀ v, construct [("include".toList, v)] = .ok [("include_".toList ++ PyStr.ofNat 0, v)] := by
    intro v
    unfold construct rename rename
    rw [if_pos rfl]; rfl
  rw [hc]
  dsimp only
  unfold entries
  rw [renamed_reserved, if_neg (by decide)]
  have hk : kind (.text t) = .path (parsePath t) := if_neg ht
  rw [hk]
  have ha : (parsePath t).abs = false := by
    unfold parsePath
    dsimp only
    exact beq_eq_false_iff_ne.2 hrel
  dsimp only
  have hr : resolve none (parsePath t) = none := by
    unfold resolve
    rw [ha, if_neg Bool.false_ne_true]; rfl
  rw [hr]

/-- If a key is in a file twice with an include statement in between, then the last value does not count: the text gives 3. -/
theorem C107_key_counterexample :
    loadTop exFs 3 (.stream (.ok (.map [("a".toList, .int 1), ("include".toList, .text "/d/x.yml".toList), ("a".toList, .int 3)]))) =
      some (.ok [("a".toList, .int 4), ("c".toList, .int 3)]) := by decide +kernel

/-- An include statement in a nested mapping is not processed: the key has another name afterwards. -/
theorem C107_nested_counterexample (v : Val) : construct [("include".toList, v)] = .ok [("include_0".toList, v)] := by
  have h : "include_".toList ++ PyStr.ofNat 0 = "include_0".toList := by decide +kernel
  rw [← h]
  unfold construct rename rename
  rw [if_pos rfl]; rfl

/-- A file with a list is a Python exception. -/
theorem C107_list_counterexample : loadTop exFs 3 (.path (parsePath "/d/list.yml".toList)) = some (.error .pyAttributeError) := by
  decide +kernel

end Verif.YamlLoad
