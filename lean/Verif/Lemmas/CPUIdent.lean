import Verif.Props.CPUIdentSpec
import Verif.Lemmas.EP
import Verif.Lemmas.TpmiText
import Verif.Lemmas.TpmiDump
import Verif.Lemmas.Human
import Verif.Lemmas.HumanNum
import Verif.Lemmas.FreqInfo

/-! Lemmas for C109. -/

namespace Verif.CPUIdent

theorem stripPrefix_eq (p : PyStr) : ∀ s, Tpmi.stripPrefix p s = if p.isPrefixOf s then some (s.drop p.length) else none := by
  induction p with
  | nil => intro s; cases s <;> rfl
  | cons c p ih =>
    intro s
    cases s with
    | nil => rfl
    | cons d s =>
      unfold Tpmi.stripPrefix
      by_cases h : c = d
      · subst h
        rw [if_pos rfl, ih]
        simp only [List.isPrefixOf_cons_cons, beq_self_eq_true, Bool.true_and, List.length_cons, List.drop_succ_cons]
      · rw [if_neg h]
        have : (c :: p).isPrefixOf (d :: s) = false := by
          rw [List.isPrefixOf_cons_cons]
          simp [h]
        rw [this]
        rfl

theorem group_field (label line : PyStr) : (Pat.field label).group (PyStr.strip line) = valueAfter label line := by
  unfold Pat.group valueAfter
  dsimp only
  rw [stripPrefix_eq]
  split <;> rfl

/-- The value of a key after a line. -/
theorem patLoop_get {line : PyStr} (pats : List (Pat × PyStr)) : ∀ (info info' : Dict PyStr Val),
    (pats.map Prod.snd).Nodup → patLoop line pats info = .ok info' →
    (∀ k, k ∉ pats.map Prod.snd → info'.get? k = info.get? k) ∧
    ∀ p k, (p, k) ∈ pats → match p.group line with
      | none => info'.get? k = info.get? k
      | some v => ∃ x, conv v = .ok x ∧ info'.get? k = some x := by
  induction pats with
  | nil =>
    intro info info' _ h
    cases h
    exact ⟨fun _ _ => rfl, fun p k hm => by cases hm⟩
  | cons q pats ih =>
    obtain ⟨p0, k0⟩ := q
    intro info info' hnd h
    rw [List.map_cons, List.nodup_cons] at hnd
    unfold patLoop at h
    have rest : ∀ i1, patLoop line pats i1 = .ok info' → (∀ k, k ≠ k0 → i1.get? k = info.get? k) →
        (match p0.group line with
          | none => i1.get? k0 = info.get? k0
          | some v => ∃ x, conv v = .ok x ∧ i1.get? k0 = some x) →
        (∀ k, k ∉ ((p0, k0) :: pats).map Prod.snd → info'.get? k = info.get? k) ∧
        ∀ p k, (p, k) ∈ (p0, k0) :: pats → match p.group line with
          | none => info'.get? k = info.get? k
          | some v => ∃ x, conv v = .ok x ∧ info'.get? k = some x := by
      intro i1 h1 h2 h3
      obtain ⟨g1, g2⟩ := ih i1 info' hnd.2 h1
      refine ⟨?_, ?_⟩
      · intro k hk
        rw [List.map_cons, List.mem_cons, not_or] at hk
        rw [g1 k hk.2, h2 k hk.1]
      · intro p k hm
        rcases List.mem_cons.1 hm with e | hm
        · obtain ⟨rfl, rfl⟩ := Prod.mk.injEq .. ▸ e
          rw [g1 _ hnd.1]
          exact h3
        · have hne : k ≠ k0 := fun e => hnd.1 (List.mem_map.2 ⟨(p, k), hm, e⟩)
          have := g2 p k hm
          rw [h2 k hne] at this
          exact this
    cases hg : p0.group line with
    | none =>
      rw [hg] at h
      exact rest info h (fun _ _ => rfl) (by rw [hg])
    | some v =>
      rw [hg] at h
      dsimp only at h
      cases hc : conv v with
      | error e => rw [hc] at h; cases h
      | ok x =>
        rw [hc] at h
        refine rest _ h (fun k hk => Dict.get?_set_ne _ _ (Ne.symm hk)) ?_
        rw [hg]
        exact ⟨x, hc, by rw [Dict.get?_set, if_pos rfl]⟩

theorem patterns_nodup : (patterns.map Prod.snd).Nodup := by decide +kernel

theorem lineLoop_get (lines : List PyStr) : ∀ (info info' : Dict PyStr Val), lineLoop lines info = .ok info' →
    ∀ p k, (p, k) ∈ patterns → match (lines.filterMap fun l => p.group (PyStr.strip l)).getLast? with
      | none => info'.get? k = info.get? k
      | some v => ∃ x, conv v = .ok x ∧ info'.get? k = some x := by
  induction lines with
  | nil =>
    intro info info' h p k _
    cases h
    rfl
  | cons l ls ih =>
    intro info info' h p k hm
    unfold lineLoop at h
    cases hp : patLoop (PyStr.strip l) patterns info with
    | error e => rw [hp] at h; cases h
    | ok i1 =>
      rw [hp] at h
      have h1 := ih i1 info' h p k hm
      have h2 := (patLoop_get patterns info i1 patterns_nodup hp).2 p k hm
      rw [List.filterMap_cons]
      cases hg : p.group (PyStr.strip l) with
      | none =>
        rw [hg] at h2
        dsimp only at h2 ⊢
        rw [h2] at h1
        exact h1
      | some v =>
        rw [hg] at h2
        dsimp only at h2 ⊢
        rw [List.getLast?_cons]
        cases hl : (ls.filterMap fun l => p.group (PyStr.strip l)).getLast? with
        | none =>
          rw [hl] at h1
          dsimp only at h1
          rw [Option.getD_none]
          dsimp only
          obtain ⟨x, hx, hy⟩ := h2
          exact ⟨x, hx, h1.trans hy⟩
        | some w =>
          rw [hl] at h1
          rw [Option.getD_some]
          exact h1

theorem mem_patterns {label key : PyStr} (h : (label, key) ∈ labels) : (Pat.field label, key) ∈ patterns := by
  unfold labels at h
  unfold patterns
  simp only [List.mem_cons, List.not_mem_nil, or_false, Prod.mk.injEq] at h
  simp only [List.mem_cons, List.not_mem_nil, or_false, Prod.mk.injEq, Pat.field.injEq, reduceCtorEq, false_and, false_or]
  tauto

theorem lineLoop_label {lines : List PyStr} {info : Dict PyStr Val} (h : lineLoop lines [] = .ok info) {label key : PyStr}
    (hm : (label, key) ∈ labels) : match told lines label with
      | none => info.get? key = none
      | some v => ∃ x, conv v = .ok x ∧ info.get? key = some x := by
  have := lineLoop_get lines [] info h _ key (mem_patterns hm)
  have e : (lines.filterMap fun l => (Pat.field label).group (PyStr.strip l)) = lines.filterMap (valueAfter label) := by
    congr 1
    funext l
    exact group_field label l
  rw [e] at this
  exact this

theorem conv_means {v : PyStr} {x : Val} (h : Means v x) : conv v = .ok x := by
  unfold conv
  rcases h with ⟨n, rfl, rfl⟩ | ⟨h, rfl⟩
  · rw [if_pos (EP.isInt_of_parse10 (EP.parse10_ofNat n)), EP.parse10_ofNat]
  · rw [h]
    rfl

/-! ### Success -/

theorem patLoop_ok {line : PyStr} (pats : List (Pat × PyStr))
    (h : ∀ p k, (p, k) ∈ pats → ∀ v, p.group line = some v → ∃ x, conv v = .ok x) :
    ∀ info, ∃ info', patLoop line pats info = .ok info' := by
  induction pats with
  | nil => exact fun info => ⟨info, rfl⟩
  | cons q pats ih =>
    obtain ⟨p0, k0⟩ := q
    intro info
    have ih := ih fun p k hm => h p k (List.mem_cons_of_mem _ hm)
    unfold patLoop
    cases hg : p0.group line with
    | none => exact ih info
    | some v =>
      obtain ⟨x, hx⟩ := h p0 k0 List.mem_cons_self v hg
      dsimp only
      rw [hx]
      exact ih _

theorem lineLoop_ok (lines : List PyStr)
    (h : ∀ l ∈ lines, ∀ p k, (p, k) ∈ patterns → ∀ v, p.group (PyStr.strip l) = some v → ∃ x, conv v = .ok x) :
    ∀ info, ∃ info', lineLoop lines info = .ok info' := by
  induction lines with
  | nil => exact fun info => ⟨info, rfl⟩
  | cons l ls ih =>
    intro info
    obtain ⟨i1, h1⟩ := patLoop_ok patterns (h l List.mem_cons_self) info
    unfold lineLoop
    rw [h1]
    exact ih (fun l' hl => h l' (List.mem_cons_of_mem _ hl)) i1

/-! ### The base frequency -/

theorem afterAt_none {s : PyStr} (h : '@' ∉ s) : afterAt s = none := by
  induction s with
  | nil => rfl
  | cons c s ih =>
    rw [List.mem_cons, not_or] at h
    unfold afterAt
    rw [ih h.2]
    exact if_neg (Ne.symm h.1)

theorem afterAt_append (pre : PyStr) {u : PyStr} (h : '@' ∉ u) : afterAt (pre ++ '@' :: u) = some u := by
  induction pre with
  | nil =>
    show afterAt ('@' :: u) = some u
    unfold afterAt
    rw [afterAt_none h]
    rfl
  | cons c pre ih =>
    show afterAt (c :: (pre ++ '@' :: u)) = some u
    unfold afterAt
    rw [ih]

theorem dropWhile_blank {sp s : PyStr} (h : ∀ c ∈ sp, PyStr.isSpace c = true) (hs : ∀ c, s.head? = some c → PyStr.isSpace c = false) :
    (sp ++ s).dropWhile PyStr.isSpace = s := by
  induction sp with
  | nil => exact PyStr.dropWhile_eq_self hs
  | cons c sp ih =>
    rw [List.cons_append, List.dropWhile_cons_of_pos (h c List.mem_cons_self)]
    exact ih fun c hc => h c (List.mem_cons_of_mem _ hc)

theorem group_ghz {l v f : PyStr} (hv : valueAfter "Model name:".toList l = some v) (hf : GHz v f) :
    Pat.ghz.group (PyStr.strip l) = some f := by
  unfold valueAfter at hv
  dsimp only at hv
  split at hv
  case isFalse => cases hv
  rename_i hp
  cases hv
  obtain ⟨pre, sp, e, hat, hsp, hhead⟩ := hf
  unfold Pat.group
  dsimp only
  rw [stripPrefix_eq, if_pos hp]
  dsimp only
  generalize hr : (PyStr.strip l).drop "Model name:".toList.length = r at e
  have hr2 : r = (r.takeWhile PyStr.isSpace ++ pre) ++ '@' :: (sp ++ (f ++ "GHz".toList)) := by
    conv => lhs; rw [← List.takeWhile_append_dropWhile (p := PyStr.isSpace) (l := r), e]
    simp only [List.append_assoc, List.cons_append]
  have hu : '@' ∉ sp ++ (f ++ "GHz".toList) := by
    rw [List.mem_append, List.mem_append]
    rintro (h | h | h)
    · exact absurd (hsp _ h) (by decide +kernel)
    · exact hat h
    · exact absurd h (by decide +kernel)
  have hd : PyStr.lstripBy PyStr.isSpace (sp ++ (f ++ "GHz".toList)) = f ++ "GHz".toList := by
    refine dropWhile_blank hsp ?_
    intro c hc
    cases f with
    | nil =>
      have : ("GHz".toList).head? = some 'G' := rfl
      rw [List.nil_append, this] at hc
      cases hc
      rfl
    | cons d f => exact hhead c hc
  rw [show afterAt r = some (sp ++ (f ++ "GHz".toList)) from by
    conv => lhs; rw [hr2]
    exact afterAt_append _ hu]
  dsimp only
  rw [hd]
  have hsuf : "GHz".toList.isSuffixOf (f ++ "GHz".toList) = true := by
    rw [List.isSuffixOf_iff_suffix]
    exact ⟨f, rfl⟩
  rw [if_pos hsuf, List.length_append]
  have : f.length + "GHz".toList.length - 3 = f.length := by
    show f.length + 3 - 3 = f.length
    omega
  rw [this, List.take_left]

theorem afterAt_some {s u : PyStr} (h : afterAt s = some u) : ∃ pre, s = pre ++ '@' :: u ∧ '@' ∉ u := by
  induction s with
  | nil => cases h
  | cons c s ih =>
    unfold afterAt at h
    cases ha : afterAt s with
    | some t =>
      rw [ha] at h
      cases h
      obtain ⟨pre, e, hn⟩ := ih ha
      exact ⟨c :: pre, by rw [e]; rfl, hn⟩
    | none =>
      rw [ha] at h
      dsimp only at h
      by_cases hc : c = '@'
      · rw [if_pos hc] at h
        cases h
        refine ⟨[], by rw [hc]; rfl, ?_⟩
        clear ih
        intro hm
        obtain ⟨a, b, e⟩ := List.append_of_mem hm
        have : ∀ (a b : PyStr), afterAt (a ++ '@' :: b) ≠ none := by
          intro a b
          induction a with
          | nil =>
            show afterAt ('@' :: b) ≠ none
            unfold afterAt
            cases afterAt b with
            | none => exact fun h => by cases h
            | some t => exact fun h => by cases h
          | cons d a ih =>
            show afterAt (d :: (a ++ '@' :: b)) ≠ none
            unfold afterAt
            cases hh : afterAt (a ++ '@' :: b) with
            | none => exact absurd hh ih
            | some t => exact fun h => by cases h
        exact this a b (e ▸ ha)
      · rw [if_neg hc] at h
        cases h

theorem ghz_of_group {l f : PyStr} (h : Pat.ghz.group (PyStr.strip l) = some f) :
    ∃ v, valueAfter "Model name:".toList l = some v ∧ GHz v f := by
  unfold Pat.group at h
  dsimp only at h
  rw [stripPrefix_eq] at h
  by_cases hp : "Model name:".toList.isPrefixOf (PyStr.strip l) = true
  case neg => rw [if_neg hp] at h; cases h
  rw [if_pos hp] at h
  dsimp only at h
  generalize hr : (PyStr.strip l).drop "Model name:".toList.length = r at h
  cases ha : afterAt r with
  | none => rw [ha] at h; cases h
  | some u =>
    rw [ha] at h
    dsimp only at h
    by_cases hs : "GHz".toList.isSuffixOf (PyStr.lstripBy PyStr.isSpace u) = true
    case neg => rw [if_neg hs] at h; cases h
    rw [if_pos hs] at h
    cases h
    obtain ⟨pre, er, hn⟩ := afterAt_some ha
    obtain ⟨f, ef⟩ := List.isSuffixOf_iff_suffix.1 hs
    have hf : (PyStr.lstripBy PyStr.isSpace u).take ((PyStr.lstripBy PyStr.isSpace u).length - 3) = f := by
      rw [← ef, List.length_append]
      have : f.length + "GHz".toList.length - 3 = f.length := by
        show f.length + 3 - 3 = f.length
        omega
      rw [this, List.take_left]
    rw [hf]
    have hu : u = u.takeWhile PyStr.isSpace ++ (f ++ "GHz".toList) := by
      rw [ef]
      exact (List.takeWhile_append_dropWhile (p := PyStr.isSpace) (l := u)).symm
    refine ⟨r.dropWhile PyStr.isSpace, ?_, pre.dropWhile PyStr.isSpace, u.takeWhile PyStr.isSpace, ?_, ?_, ?_, ?_⟩
    · unfold valueAfter
      dsimp only
      rw [if_pos hp, hr]
    · have e1 : ∀ p : PyStr, (p ++ '@' :: u).dropWhile PyStr.isSpace = p.dropWhile PyStr.isSpace ++ '@' :: u := by
        intro p
        induction p with
        | nil => exact List.dropWhile_cons_of_neg (by decide)
        | cons c p ih =>
          rw [List.cons_append, List.dropWhile_cons, List.dropWhile_cons]
          split
          · exact ih
          · rfl
      rw [er, e1]
      conv => lhs; rw [hu]
      simp only [List.append_assoc, List.cons_append]
    · intro hm
      exact hn (hu ▸ List.mem_append_right _ (List.mem_append_left _ hm))
    · intro c hc
      exact List.all_eq_true.1 (List.all_takeWhile (p := PyStr.isSpace) (l := u)) c hc
    · intro c hc
      have hd : (u.dropWhile PyStr.isSpace).head? = some c := by
        have : u.dropWhile PyStr.isSpace = f ++ "GHz".toList := ef.symm
        rw [this]
        cases f with
        | nil => cases hc
        | cons d f => exact hc
      have := List.head?_dropWhile_not PyStr.isSpace u
      rw [hd] at this
      simpa using this

/-! ### Numbers of `--override-cpu-model` -/

theorem hex_hexDigits (n : Nat) : Tpmi.Hex (Tpmi.hexDigits n) := by
  refine ⟨?_, ?_⟩
  · unfold Tpmi.hexDigits
    split
    · exact List.cons_ne_nil _ _
    · exact List.append_ne_nil_of_right_ne_nil _ (List.cons_ne_nil _ _)
  · intro c hc
    rw [Tpmi.mem_hex]
    have hd : ∀ n, Tpmi.isHex (Tpmi.hexDigit n) = true := fun n => Tpmi.isHex_hexC n
    induction n using Nat.strongRecOn with
    | ind n ih =>
      unfold Tpmi.hexDigits at hc
      split at hc
      · cases List.mem_singleton.1 hc
        exact hd n
      · rcases List.mem_append.1 hc with h | h
        · exact ih (n / 16) (by omega) h
        · cases List.mem_singleton.1 h
          exact hd n

theorem strToInt16_hexDigits (n : Nat) : Tpmi.strToInt16 (Tpmi.hexDigits n) = .ok (n : Int) := by
  rw [Tpmi.strToInt16_hex (hex_hexDigits n)]
  have : Tpmi.hexVal (Tpmi.hexDigits n) = n := Tpmi.Text.hex_hexDigits n
  rw [this]

theorem strToInt16_pyHex (n : Nat) : Tpmi.strToInt16 ('0' :: 'x' :: Tpmi.hexDigits n) = .ok (n : Int) := by
  have hx := hex_hexDigits n
  have hns : ∀ c ∈ '0' :: 'x' :: Tpmi.hexDigits n, PyStr.isSpace c = false := by
    intro c hc
    rcases List.mem_cons.1 hc with rfl | hc
    · decide
    rcases List.mem_cons.1 hc with rfl | hc
    · decide
    exact Tpmi.not_space_hex (hx.all c hc)
  unfold Tpmi.strToInt16
  rw [show PyStr.strip ('0' :: 'x' :: Tpmi.hexDigits n) = '0' :: 'x' :: Tpmi.hexDigits n from
    PyStr.stripBy_of_stripped (PyStr.stripped_of_all hns)]
  dsimp only
  have h16 : Tpmi.parse16 ('0' :: 'x' :: Tpmi.hexDigits n) = some n := by
    have h1 := Tpmi.parse16_hex hx
    have h2 : Tpmi.hexVal (Tpmi.hexDigits n) = n := Tpmi.Text.hex_hexDigits n
    rw [h2] at h1
    have h3 : Tpmi.parse16 (Tpmi.hexDigits n) = Trivial.parseDigits 16 0 false (Tpmi.hexDigits n) := by
      unfold Tpmi.parse16
      split
      · rename_i cs e
        exact absurd (hx.all 'x' (by rw [e]; simp)) (by decide)
      · rename_i cs e
        exact absurd (hx.all 'X' (by rw [e]; simp)) (by decide)
      · rfl
    have h4 : Trivial.skipUnderscore (Tpmi.hexDigits n) = Tpmi.hexDigits n := by
      unfold Trivial.skipUnderscore
      split
      · rename_i cs e
        exact absurd (hx.all '_' (by rw [e]; simp)) (by decide)
      · rfl
    have h5 : ∀ cs, Tpmi.parse16 ('0' :: 'x' :: cs) = Trivial.parseDigits 16 0 false (Trivial.skipUnderscore cs) :=
      fun _ => rfl
    rw [h5, h4, ← h3, h1]
  show (match (Tpmi.parse16 ('0' :: 'x' :: Tpmi.hexDigits n)).map (fun n : Nat => (n : Int)) with
    | some v => Except.ok v
    | none => Except.error Exn.badFormat) = _
  rw [h16]
  rfl

theorem parse10_x {s : PyStr} (h : 'x' ∈ s) : EP.parse10 s = .error .pyValueError :=
  Human.parse10_bad (c := 'x') (by decide) (by decide) (fun d hd => by
    rw [show Trivial.digitVal 'x' = some 33 by decide] at hd; cases hd; omega) h

theorem parse10_letter {s : PyStr} {c : Char} (hc : c ∈ ['a', 'b', 'c', 'd', 'e', 'f']) (h : c ∈ s) :
    EP.parse10 s = .error .pyValueError := by
  have hd : ∀ c ∈ ['a', 'b', 'c', 'd', 'e', 'f'], PyStr.isSpace c = false ∧ c ∉ ['+', '-', '_'] ∧
      ∀ d, Trivial.digitVal c = some d → 10 ≤ d := by
    intro c hc
    simp only [List.mem_cons, List.not_mem_nil, or_false] at hc
    rcases hc with rfl | rfl | rfl | rfl | rfl | rfl <;>
      exact ⟨by decide, by decide, fun d hd => by revert hd; revert d; decide +revert⟩
  obtain ⟨h1, h2, h3⟩ := hd c hc
  exact Human.parse10_bad h1 h2 h3 h

theorem splitWs_joinC {ws : List PyStr} (h : ∀ w ∈ ws, w ≠ [] ∧ ∀ c ∈ w, PyStr.isSpace c = false) :
    FreqInfo.splitWs (PyStr.joinC ' ' ws) = ws := by
  induction ws with
  | nil => rfl
  | cons w ws ih =>
    have hw := h w List.mem_cons_self
    have ih := ih fun v hv => h v (List.mem_cons_of_mem _ hv)
    cases ws with
    | nil => exact FreqInfo.splitWs_word hw.1 hw.2
    | cons v vs =>
      show FreqInfo.splitWs (w ++ ' ' :: PyStr.joinC ' ' (v :: vs)) = _
      rw [FreqInfo.splitWs_append hw.1 hw.2, ih]

theorem digitVal_notHex {c : Char} (h : NotHex c) : ∀ d, Trivial.digitVal c = some d → 16 ≤ d := by
  obtain ⟨h1, h2, h3, _, _⟩ := h
  simp only [Char.le_def, UInt32.le_iff_toNat_le] at h1 h2 h3
  have e : c.val.toNat = c.toNat := rfl
  rw [e] at h1 h2 h3
  have n0 : '0'.val.toNat = 48 := rfl
  have n9 : '9'.val.toNat = 57 := rfl
  have na : 'a'.val.toNat = 97 := rfl
  have nf : 'f'.val.toNat = 102 := rfl
  have nA : 'A'.val.toNat = 65 := rfl
  have nF : 'F'.val.toNat = 70 := rfl
  rw [n0, n9] at h1
  rw [na, nf] at h2
  rw [nA, nF] at h3
  intro d hd
  unfold Trivial.digitVal at hd
  dsimp only at hd
  split at hd
  · omega
  split at hd
  · cases hd; omega
  split at hd
  · cases hd; omega
  · cases hd

theorem strToInt16_bad {s : PyStr} {c : Char} (hc : c ∈ s) (h : NotHex c) :
    Tpmi.strToInt16 s = .error .badFormat := by
  have hd := digitVal_notHex h
  obtain ⟨_, _, _, h4, h5⟩ := h
  have hu : c ≠ '_' := fun e => h4 (by rw [e]; simp)
  have hm := Human.mem_strip hc h5
  have tl : ∀ (a : Char) (q : PyStr), a ≠ c → c ∈ a :: q → c ∈ q := fun a q ha hq =>
    (List.mem_cons.1 hq).resolve_left fun e => ha e.symm
  have n : ∀ a ∈ ['+', '-', '_', 'x', 'X'], a ≠ c := fun a ha e => h4 (e ▸ ha)
  have h0 : '0' ≠ c := fun e => absurd (hd 0 (by rw [← e]; rfl)) (by omega)
  have key : ∀ q : PyStr, c ∈ q → Tpmi.parse16 q = none := by
    intro q hq
    unfold Tpmi.parse16
    have sk : ∀ q, c ∈ q → c ∈ Trivial.skipUnderscore q := by
      intro q hq
      unfold Trivial.skipUnderscore
      split
      · exact tl _ _ (n _ (by simp)) hq
      · exact hq
    split
    · exact Human.parseDigits_bad hu hd _ _ _ (sk _ (tl _ _ (n _ (by simp)) (tl _ _ h0 hq)))
    · exact Human.parseDigits_bad hu hd _ _ _ (sk _ (tl _ _ (n _ (by simp)) (tl _ _ h0 hq)))
    · exact Human.parseDigits_bad hu hd _ _ _ hq
  unfold Tpmi.strToInt16
  generalize PyStr.strip s = r at hm
  dsimp only
  split
  · rename_i v hv
    split at hv
    · rw [key _ (tl _ _ (n _ (by simp)) hm)] at hv; cases hv
    · rw [key _ (tl _ _ (n _ (by simp)) hm)] at hv; cases hv
    · rw [key _ hm] at hv; cases hv
  · rfl

end Verif.CPUIdent
