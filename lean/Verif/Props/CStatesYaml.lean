import Verif.Lemmas.CStatesYaml

/-!
C77: restoring the saved status of the C-states.

The specification uses `Has`, `NameOf`, `NameAt` and the assumptions `WF`, `Good` of C43 and C44, see `Verif.Props.CPUIdle`,
and `SameNames`, `HaveStates` and `Clean` of `Verif.Lemmas.CStatesYaml`.
-/

namespace Verif.CStatesYaml

open CPUIdle
open PropsYaml (rangifyN)

/-- C77: saving the status of the C-states of `cpus`, and restoring it later, when the files may have any other contents
(but the C-states are the same ones): the "disable" files of `cpus` have the contents they had when saving, and nothing else
is changed. Missing: C-states which are enabled on some CPUs and disabled on others, for these restoring fails, see
`C77_mixed_counterexample`; CPUs with different C-states, see `C43_hybrid_counterexample`. -/
theorem C77_restore_partial {E E' : Env} (hd : E.driver = true) (hE : E.cacheOn = true) (hd' : E'.driver = true)
    (hE' : E'.cacheOn = true) (hk : ∀ c i v, E'.kern c i v = .stored) {online cpus : List Nat} (hn : cpus.Nodup)
    (hs : ∀ c ∈ cpus, c ∈ online) {s s2 : St} (G : Good s) (G2 : Good s2) (hnames : SameNames s2.files s.files)
    (hst : HaveStates s.files online)
    (hsame : ∀ c ∈ online, ∀ c' ∈ online, ∀ n, NameOf s.files c n → NameOf s.files c' n)
    (hclean : ∀ c ∈ online, ∀ n, NameOf s.files c n → Clean n)
    (hbool : ∀ c i x, Has s.files c i "disable".toList x → x = ['0'] ∨ x = ['1'])
    (hstat : ∀ c ∈ cpus, ∀ c' ∈ cpus, ∀ i i' n x x', NameAt s.files c i n → NameAt s.files c' i' n →
      Has s.files c i "disable".toList x → Has s.files c' i' "disable".toList x' → x = x') :
    ∃ (f : File) (s1 s3 : St), save E cpus s = (s1, .ok f) ∧ s1.files = s.files ∧
      restore E' online f s2 = (s3, .ok ()) ∧ Good s3 ∧
      (∀ c ∈ cpus, ∀ i x, Has s3.files c i "disable".toList x ↔ Has s.files c i "disable".toList x) ∧
      (∀ c i k x, ¬ (c ∈ cpus ∧ k = "disable".toList) → (Has s3.files c i k x ↔ Has s2.files c i k x)) := by
  have hstc : HaveStates s.files cpus := fun c h => hst c (hs c h)
  have hg := C43_get_all_partial hd hE G hstc.uniform
    (fun c h c' h' => hsame c (hs c h) c' (hs c' h'))
  cases hget : getInfo E .all cpus s with
  | mk s1 res =>
  rw [hget] at hg
  dsimp only at hg
  obtain ⟨g1, g2, l, rfl, g4, g5⟩ := hg
  have hnl : ∀ x ∈ l, x.2.keys.Nodup := nodup_getInfo (E := E) (s := s) (names := .all) (cpus := cpus) (by rw [hget])
  -- The names and the status.
  classical
  let N : PyStr → Prop := fun n => ∃ c ∈ cpus, NameOf s.files c n
  let on : PyStr → Bool := fun n =>
    decide (∃ c ∈ cpus, ∃ i, NameAt s.files c i n ∧ Has s.files c i "disable".toList ['0'])
  let stat : PyStr → Value := fun n => .num (if on n then 0 else 1)
  have hon : ∀ c ∈ cpus, ∀ i n x, NameAt s.files c i n → Has s.files c i "disable".toList x → x = flag (on n) := by
    intro c hc i n x h1 h2
    by_cases h0 : on n = true
    · obtain ⟨c', hc', i', h3, h4⟩ := of_decide_eq_true h0
      rw [h0]
      exact hstat c hc c' hc' i i' n x _ h1 h3 h2 h4
    · have hf : on n = false := by simpa using h0
      rw [hf]
      rcases hbool c i x h2 with rfl | rfl
      · exact absurd (decide_eq_true (⟨c, hc, i, h1, h2⟩ :
          ∃ c ∈ cpus, ∃ i, NameAt s.files c i n ∧ Has s.files c i "disable".toList ['0'])) h0
      · rfl
  have hcpu : ∀ x ∈ l, x.1 ∈ cpus := fun x hx => g4 ▸ List.mem_map.2 ⟨x, hx, rfl⟩
  have hkeys : ∀ x ∈ l, ∀ n, n ∈ x.2.keys ↔ N n := by
    intro x hx n
    have h1 := (g5 x hx).isSome n
    have h2 : (x.2.get? n).isSome ↔ n ∈ x.2.keys := by
      have := Dict.get?_eq_none_iff x.2 n
      cases hg : x.2.get? n with
      | none => simp [this.1 hg]
      | some u =>
        simp only [Option.isSome_some, true_iff]
        by_contra hcon
        rw [this.2 hcon] at hg
        cases hg
    rw [← h2, h1]
    constructor
    · exact fun h => ⟨x.1, hcpu x hx, h⟩
    · rintro ⟨c, hc, h⟩
      exact hsame c (hs c hc) x.1 (hs _ (hcpu x hx)) n h
  have hvals : ∀ x ∈ l, ∀ y ∈ x.2, ∃ v, y.2.attrs.get? "disable".toList = some v ∧ dictKey v = stat y.1 := by
    intro x hx y hy
    obtain ⟨n, st⟩ := y
    obtain ⟨i, nm, _, h2, h3, h4, _, h5⟩ := (g5 x hx).1 n st (Dict.get?_of_mem (hnl x hx) hy)
    obtain ⟨sx, v, h6, h7, h8⟩ := h5 _ disable_mem
    refine ⟨v, h8, ?_⟩
    have h9 := hon x.1 (hcpu x hx) i n sx ⟨nm, h2, h3⟩ h6
    show dictKey v = .num (if on n then 0 else 1)
    have e0 : (['0'] : PyStr) = PyStr.ofNat 0 := by decide +kernel
    have e1 : (['1'] : PyStr) = PyStr.ofNat 1 := by decide +kernel
    rcases h7 with h7 | ⟨b, rfl, h7⟩
    · cases ho : on n with
      | true =>
        rw [ho] at h9
        have hr : Reads sx (.num ((0 : Nat) : Int)) := Or.inl ⟨0, by rw [h9, ← e0]; rfl, rfl⟩
        rw [reads_unique h7 hr]
        rfl
      | false =>
        rw [ho] at h9
        have hr : Reads sx (.num ((1 : Nat) : Int)) := Or.inl ⟨1, by rw [h9, ← e1]; rfl, rfl⟩
        rw [reads_unique h7 hr]
        rfl
    · rw [h7] at h9
      cases ho : on n <;> rw [ho] at h9 <;> cases b <;> first | rfl | (exact absurd h9 (by decide))
  obtain ⟨b1, b2, b3⟩ := build_spec stat N l hnl hkeys hvals [] [] (by simp [Dict.keys]) (fun n _ => by simp)
    (fun n _ => by simp)
  -- The file.
  have hfx : ∀ x ∈ toYaml (build l []), N x.1 ∧ x.2 = [⟨.status (on x.1), rangifyN cpus⟩] := by
    intro x hx
    obtain ⟨hx1, hx2⟩ := List.mem_filter.1 hx
    obtain ⟨y, hy, rfl⟩ := List.mem_map.1 hx1
    have hy' := Dict.get?_of_mem b1 (k := y.1) (v := y.2) hy
    by_cases hN : N y.1
    · refine ⟨hN, ?_⟩
      rw [b2 _ hN] at hy'
      split at hy'
      · cases hy'
      · have := Option.some.inj hy'
        show entries y.2 = _
        rw [← this, List.nil_append, g4]
        show [(⟨.status (!truthy (.num (if on y.1 then 0 else 1))), rangifyN cpus⟩ : CEntry)] = _
        cases on y.1 <;> rfl
    · rw [b3 _ hN] at hy'
      cases hy'
  have hfn : (toYaml (build l [])).keys.Nodup := by
    refine List.Nodup.sublist (List.Sublist.map _ List.filter_sublist) ?_
    rw [List.map_map]
    exact b1
  have hfN : ∀ n, N n → n ∈ (toYaml (build l [])).keys := by
    rintro n ⟨c, hc, hno⟩
    have hg := b2 n ⟨c, hc, hno⟩
    rw [if_neg (by
      rw [List.nil_append, g4]
      intro h
      rw [h] at hc
      cases hc)] at hg
    refine List.mem_map.2 ⟨(n, entries _), List.mem_filter.2 ⟨List.mem_map.2 ⟨_, Dict.mem_of_get? hg, rfl⟩, ?_⟩, rfl⟩
    rfl
  have hkN : ∀ n ∈ (toYaml (build l [])).keys, N n := by
    intro n hn
    obtain ⟨x, hx, rfl⟩ := List.mem_map.1 hn
    exact (hfx x hx).1
  -- Restoring.
  have hst2 : HaveStates s2.files online := fun c h => by
    obtain ⟨i, nm, h⟩ := hst c h
    exact ⟨i, nm, (hnames c i nm).2 h⟩
  have hg' := C43_get_all_partial hd' hE' G2 hst2.uniform
    (fun c h c' h' n hno => (hnames.nameOf c' n).2 (hsame c h c' h' n ((hnames.nameOf c n).1 hno)))
  cases hget' : getInfo E' .all online s2 with
  | mk s2' res' =>
  rw [hget'] at hg'
  dsimp only at hg'
  obtain ⟨q1, q2, l', rfl, q4, q5⟩ := hg'
  have hnames' : SameNames s2'.files s.files := by rw [q1]; exact hnames
  obtain ⟨s3, r1, r2, r3, r4, r5⟩ := restoreCStates_spec hd' hE' hk hn hs on (toYaml (build l [])) hfn
    (fun x hx => (hfx x hx).2)
    (fun n hn => by
      obtain ⟨c, hc, hno⟩ := hkN n hn
      refine ⟨hclean c (hs c hc) n hno, ?_⟩
      obtain ⟨i, nm, _, rfl⟩ := hno
      exact upper_upper nm)
    q2
    (fun c h => by
      obtain ⟨i, nm, h⟩ := hstc c h
      exact ⟨i, nm, (hnames' c i nm).2 h⟩)
    (fun n hn c hc => by
      obtain ⟨c', hc', hno⟩ := hkN n hn
      exact (hnames'.nameOf c n).2 (hsame c' (hs c' hc') c (hs c hc) n hno))
  have hset : ∀ c ∈ cpus, ∀ i x, Has s.files c i "disable".toList x → Has s3.files c i "disable".toList x := by
    intro c hc i x h
    obtain ⟨nm, hnm⟩ := exists_name G.wf h
    have hna : NameAt s.files c i (upper nm) := ⟨nm, hnm, rfl⟩
    have := r4 (upper nm) (hfN _ ⟨c, hc, i, nm, hnm, rfl⟩) c hc i ((hnames'.nameAt c i _).2 hna)
    rw [hon c hc i _ x hna h]
    exact this
  refine ⟨toYaml (build l []), s1, s3, ?_, g1, ?_, r2, ?_, ?_⟩
  · unfold save
    rw [hget]
  · unfold restore
    rw [hget']
    dsimp only
    rw [if_pos]
    · exact r1
    · rw [List.all_eq_true]
      intro n hn
      obtain ⟨c, hc, hno⟩ := hkN n hn
      rw [List.any_eq_true]
      obtain ⟨x, hx, hxc⟩ := List.mem_map.1 (show c ∈ l'.map Prod.fst from q4 ▸ hs c hc)
      refine ⟨x, hx, ?_⟩
      have h1 := ((q5 x hx).isSome n).2 (by rw [hxc]; exact (hnames.nameOf c n).2 hno)
      rw [List.contains_iff_mem]
      by_contra hcon
      rw [(Dict.get?_eq_none_iff _ _).2 hcon] at h1
      cases h1
  · intro c hc i x
    refine ⟨fun h => ?_, hset c hc i x⟩
    obtain ⟨nm, hnm⟩ := exists_name r2.wf h
    obtain ⟨x', hx'⟩ := G.wf.complete _ ((hnames' c i nm).1 ((r3 c i nm).1 hnm)) _ disable_mem
    have := r2.wf.uniq c i _ x x' h (hset c hc i x' hx')
    rw [this]
    exact hx'
  · intro c i k x h
    rw [← q1]
    exact r5 c i k x fun ⟨h1, _, h3⟩ => h ⟨h1, h3⟩

/-! ### An example -/

/-- Two CPUs, POLL and C6 are enabled, C1E is disabled. -/
def exSame : List CPUIdle.File :=
  exState 0 0 "POLL" "0" 0 ++ exState 0 1 "C1E" "1" 4 ++ exState 0 2 "C6" "0" 170 ++
  exState 1 0 "POLL" "0" 0 ++ exState 1 1 "C1E" "1" 4 ++ exState 1 2 "C6" "0" 170

/-- The status changed later. -/
def exLater : List CPUIdle.File :=
  exState 0 0 "POLL" "1" 0 ++ exState 0 1 "C1E" "0" 4 ++ exState 0 2 "C6" "0" 170 ++
  exState 1 0 "POLL" "0" 0 ++ exState 1 1 "C1E" "0" 4 ++ exState 1 2 "C6" "1" 170

def nameList (files : List CPUIdle.File) : List (Nat × Nat × PyStr) :=
  (files.filter fun f => f.fname = "name".toList).map fun f => (f.cpu, f.idx, f.content)

theorem has_name_iff (files : List CPUIdle.File) (c i : Nat) (nm : PyStr) :
    Has files c i "name".toList nm ↔ (c, i, nm) ∈ nameList files := by
  unfold Has nameList
  constructor
  · exact fun h => List.mem_map.2 ⟨_, List.mem_filter.2 ⟨h, by simp⟩, rfl⟩
  · intro h
    obtain ⟨⟨c', i', k', x'⟩, h1, h2⟩ := List.mem_map.1 h
    obtain ⟨h3, h4⟩ := List.mem_filter.1 h1
    cases h2
    have h5 : k' = "name".toList := of_decide_eq_true h4
    subst h5
    exact h3

theorem exSame_good : Good ⟨exSame, fun _ => none⟩ := ⟨wf_of_check (by decide +kernel), fun _ _ h => by cases h⟩

theorem exLater_good : Good ⟨exLater, fun _ => none⟩ := ⟨wf_of_check (by decide +kernel), fun _ _ h => by cases h⟩

example : SameNames exLater exSame := fun c i nm => by
  rw [has_name_iff, has_name_iff]
  have : nameList exLater = nameList exSame := by decide +kernel
  rw [this]

/-- The names of the C-states. -/
theorem exSame_names (c : Nat) (n : PyStr) (h : NameOf exSame c n) :
    n = "POLL".toList ∨ n = "C1E".toList ∨ n = "C6".toList := by
  obtain ⟨i, nm, h1, rfl⟩ := h
  rw [has_name_iff] at h1
  have hall : ∀ x ∈ nameList exSame,
      upper x.2.2 = "POLL".toList ∨ upper x.2.2 = "C1E".toList ∨ upper x.2.2 = "C6".toList := by decide +kernel
  exact hall _ h1

example : HaveStates exSame [0, 1] ∧ (∀ c ∈ [0, 1], ∀ n, NameOf exSame c n → Clean n) ∧
    (∀ c ∈ [0, 1], ∀ c' ∈ [0, 1], ∀ n, NameOf exSame c n → NameOf exSame c' n) := by
  have hex : ∀ c ∈ [0, 1], NameOf exSame c "POLL".toList ∧ NameOf exSame c "C1E".toList ∧ NameOf exSame c "C6".toList := by
    intro c hc
    refine ⟨⟨0, "POLL".toList, ?_, by decide +kernel⟩, ⟨1, "C1E".toList, ?_, by decide +kernel⟩,
      ⟨2, "C6".toList, ?_, by decide +kernel⟩⟩ <;> rw [has_name_iff] <;> revert c <;> decide +kernel
  refine ⟨?_, ?_, ?_⟩
  · intro c hc
    obtain ⟨i, nm, h, _⟩ := (hex c hc).1
    exact ⟨i, nm, h⟩
  · intro c _ n h
    rcases exSame_names c n h with rfl | rfl | rfl <;> exact ⟨by decide, by decide +kernel⟩
  · intro c _ c' hc' n h
    rcases exSame_names c n h with rfl | rfl | rfl
    · exact (hex c' hc').1
    · exact (hex c' hc').2.1
    · exact (hex c' hc').2.2

example : (∀ c i x, Has exSame c i "disable".toList x → x = ['0'] ∨ x = ['1']) ∧
    (∀ c ∈ [0, 1], ∀ c' ∈ [0, 1], ∀ i i' n x x', NameAt exSame c i n → NameAt exSame c' i' n →
      Has exSame c i "disable".toList x → Has exSame c' i' "disable".toList x' → x = x') := by
  have hd : ∀ c i x, Has exSame c i "disable".toList x → x = if i = 1 then ['1'] else ['0'] := by
    intro c i x h
    have hall : ∀ f ∈ exSame, f.fname = "disable".toList → f.content = if f.idx = 1 then ['1'] else ['0'] := by
      decide +kernel
    exact hall _ h rfl
  constructor
  · intro c i x h
    rw [hd c i x h]
    split
    · exact Or.inr rfl
    · exact Or.inl rfl
  · intro c _ c' _ i i' n x x' h1 h2 h3 h4
    obtain ⟨a, a1, rfl⟩ := h1
    obtain ⟨b, b1, b2⟩ := h2
    rw [has_name_iff] at a1 b1
    have hall : ∀ x ∈ nameList exSame, ∀ y ∈ nameList exSame, upper x.2.2 = upper y.2.2 → x.2.1 = y.2.1 := by
      decide +kernel
    have : i = i' := hall _ a1 _ b1 b2
    subst this
    rw [hd _ _ _ h3, hd _ _ _ h4]

/-- Restore from a result of saving. -/
def restoreSaved (E : Env) (online : List Nat) (r : St × Except Exn File) (s : St) : St × Except Exn Unit :=
  match r.2 with
  | .error e => (s, .error e)
  | .ok f => restore E online f s

/-- The file, and restoring from it. -/
example : (save exEnv [0, 1] ⟨exSame, fun _ => none⟩).2 = .ok
    [("POLL".toList, [⟨.status true, "0,1".toList⟩]), ("C1E".toList, [⟨.status false, "0,1".toList⟩]),
     ("C6".toList, [⟨.status true, "0,1".toList⟩])] := by decide +kernel

example : (restoreSaved exEnv [0, 1] (save exEnv [0, 1] ⟨exSame, fun _ => none⟩) ⟨exLater, fun _ => none⟩).2 = .ok () ∧
    exFlags (restoreSaved exEnv [0, 1] (save exEnv [0, 1] ⟨exSame, fun _ => none⟩) ⟨exLater, fun _ => none⟩).1 =
      [(0, 0, "0"), (0, 1, "1"), (0, 2, "0"), (1, 0, "0"), (1, 1, "1"), (1, 2, "0")] :=
  ⟨by decide +kernel, by decide +kernel⟩

/-! ### Counterexamples -/

/-- C77 is false for C-states which are enabled on some CPUs and disabled on others: CPU 0 has C1E disabled, and CPU 1 has
it enabled. Only the first value is saved as "off", the other one is saved as a number. Restoring is refused, even at once,
and the C-states after this one in the file are not restored: C6 of CPU 1 was disabled when saving, here it was enabled
later, and stays so. -/
theorem C77_mixed_counterexample :
    Good exSt ∧ (save exEnv [0, 1] exSt).2 = .ok
      [("POLL".toList, [⟨.status true, "0,1".toList⟩]),
       ("C1E".toList, [⟨.status false, "0".toList⟩, ⟨.raw (.num 0), "1".toList⟩]),
       ("C6".toList, [⟨.status true, "0".toList⟩, ⟨.raw (.num 1), "1".toList⟩])] ∧
    (restoreSaved exEnv [0, 1] (save exEnv [0, 1] exSt) exSt).2 = .error .error ∧
    exFlags (restoreSaved exEnv [0, 1] (save exEnv [0, 1] exSt) ⟨exSame, fun _ => none⟩).1 =
      [(0, 0, "0"), (0, 1, "1"), (0, 2, "0"), (1, 0, "0"), (1, 1, "1"), (1, 2, "0")] :=
  ⟨exSt_good, by decide +kernel, by decide +kernel, by decide +kernel⟩

/-- The package C-state limit is saved if it is not locked, and left out if it is locked everywhere. -/
theorem C77_limit_partial {α : Type} (locked : Nat → Bool) (cpus : List Nat) (pinfo : α)
    (h : (∀ c ∈ cpus, locked c = false) ∨ (cpus ≠ [] ∧ ∀ c ∈ cpus, locked c = true)) :
    printAdjusted (adjustLimit locked cpus pinfo) = .ok (if cpus.any locked then none else some pinfo) := by
  unfold adjustLimit
  rcases h with h | ⟨hne, h⟩
  · have h1 : cpus.filter locked = [] := by simpa using h
    have h2 : cpus.any locked = false := by simpa using h
    simp [h1, h2, printAdjusted]
  · have h1 : cpus.filter locked = cpus := by simpa using h
    have h2 : cpus.any locked = true := by
      obtain ⟨c, hc⟩ := List.exists_mem_of_ne_nil _ hne
      exact List.any_eq_true.2 ⟨c, hc, h c hc⟩
    have h3 : cpus.isEmpty = false := by simpa using hne
    simp [h1, h2, h3, printAdjusted]

example : (∀ c ∈ [0, 1], (fun _ => false : Nat → Bool) c = false) ∧ (∀ c ∈ [0, 1], (fun _ => true : Nat → Bool) c = true) := by
  decide

/-- Saving crashes if the limit is locked on some CPUs only. -/
theorem C77_limit_counterexample :
    printAdjusted (adjustLimit (fun c => c == 0) [0, 1] ()) = .error .pyAttributeError := by decide

end Verif.CStatesYaml
