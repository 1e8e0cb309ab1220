import Verif.Lemmas.Tpmi
import Verif.Lemmas.TpmiSpecFile
import Verif.Props.TpmiDiscoverSpec

/-! Helper lemmas about the discovery of TPMI features. -/

namespace Verif.Tpmi

/-! ### The head of a spec file -/

/-- The head lacks a key. -/
def Head.Missing (h : Head) : Prop := h.name = none ∨ h.desc = none ∨ h.fid = none

theorem Head.Missing.complete {h : Head} (hm : h.Missing) : h.complete? = none := by
  obtain ⟨n, d, i⟩ := h
  unfold Head.complete?
  rcases hm with hm | hm | hm
  · cases hm; rfl
  · cases hm; cases n <;> rfl
  · cases hm; cases n <;> cases d <;> rfl

/-- One step of the loop. -/
theorem readKeys_step {evs : List Ev} {h : Head} (hm : h.Missing) {r : PyStr × PyStr × Int} :
    readKeys evs h = .ok r ↔ ∃ k v rest h', evs = .scalar k :: .scalar v :: rest ∧ checkKey h k = .ok () ∧
      storeKey h k v = .ok h' ∧ readKeys rest h' = .ok r := by
  rw [readKeys.eq_def, hm.complete]
  dsimp only
  constructor
  · intro he
    split at he
    · cases he
    · split at he
      · cases he
      · split at he <;> cases he
    · next ev ev' rest =>
      split at he
      · cases he
      next k hk =>
      split at he
      · cases he
      next hc =>
      split at he
      · cases he
      next v hv =>
      split at he
      · cases he
      next h' hs =>
      cases ev with
      | mark => cases hk
      | bad => cases hk
      | scalar k' =>
        cases hk
        cases ev' with
        | mark => cases hv
        | bad => cases hv
        | scalar v' =>
          cases hv
          exact ⟨_, _, rest, h', rfl, hc, hs, he⟩
  · rintro ⟨k, v, rest, h', rfl, hc, hs, he⟩
    simp only [evValue, hc, hs]
    exact he

theorem readKeys_done (evs : List Ev) (n d : PyStr) (i : Int) :
    readKeys evs ⟨some n, some d, some i⟩ = .ok (n, d, i) := by
  rw [readKeys.eq_def]
  rfl

theorem kName_ne_kDesc : kName ≠ kDesc := by decide +kernel
theorem kName_ne_kFid : kName ≠ kFid := by decide +kernel
theorem kDesc_ne_kFid : kDesc ≠ kFid := by decide +kernel

/-- Which steps there are. -/
theorem step_cases {h h' : Head} {k v : PyStr} : (checkKey h k = .ok () ∧ storeKey h k v = .ok h') ↔
    (k = kName ∧ h.name = none ∧ h' = { h with name := some v }) ∨
    (k = kDesc ∧ h.desc = none ∧ h' = { h with desc := some v }) ∨
    (k = kFid ∧ h.fid = none ∧ ∃ n, Trivial.strToInt v = .ok n ∧ h' = { h with fid := some n }) := by
  unfold checkKey storeKey
  by_cases h1 : k = kName
  · subst h1
    simp only [if_true, kName_ne_kDesc, kName_ne_kFid, false_and, or_false, true_and]
    cases h.name with
    | none => simp [eq_comm]
    | some x => simp
  · by_cases h2 : k = kDesc
    · subst h2
      simp only [h1, if_false, if_true, kDesc_ne_kFid, false_and, or_false, false_or, true_and]
      cases h.desc with
      | none => simp [eq_comm]
      | some x => simp
    · by_cases h3 : k = kFid
      · subst h3
        simp only [h1, h2, if_false, if_true, false_and, false_or, true_and]
        cases h.fid with
        | none =>
          cases Trivial.strToInt v with
          | error e => simp
          | ok n => simp [eq_comm]
        | some x => simp
      · simp [h1, h2, h3]

section
attribute [local irreducible] kName kDesc kFid

/-- The loop takes three pairs of key and value, the keys in some order. -/
theorem readKeys_ok {evs : List Ev} {n d : PyStr} {i : Int} : readKeys evs ⟨none, none, none⟩ = .ok (n, d, i) ↔
    ∃ (pairs : List (PyStr × PyStr)) (t : PyStr) (rest : List Ev),
      evs = pairs.flatMap (fun p => [.scalar p.1, .scalar p.2]) ++ rest ∧ pairs.length = 3 ∧
      (kName, n) ∈ pairs ∧ (kDesc, d) ∈ pairs ∧ (kFid, t) ∈ pairs ∧ Trivial.strToInt t = .ok i := by
  constructor
  · intro h
    obtain ⟨k₁, v₁, r₁, h₁, rfl, a₁, b₁, h⟩ := (readKeys_step (.inl rfl)).1 h
    have c₁ := step_cases.1 ⟨a₁, b₁⟩
    clear a₁ b₁
    have hm₁ : h₁.Missing := by
      rcases c₁ with ⟨-, -, rfl⟩ | ⟨-, -, rfl⟩ | ⟨-, -, x, -, rfl⟩
      · exact .inr (.inl rfl)
      · exact .inl rfl
      · exact .inl rfl
    obtain ⟨k₂, v₂, r₂, h₂, rfl, a₂, b₂, h⟩ := (readKeys_step hm₁).1 h
    have c₂ := step_cases.1 ⟨a₂, b₂⟩
    clear a₂ b₂
    have hm₂ : h₂.Missing := by
      rcases c₁ with ⟨-, -, rfl⟩ | ⟨-, -, rfl⟩ | ⟨-, -, x, -, rfl⟩ <;>
        rcases c₂ with ⟨-, q, rfl⟩ | ⟨-, q, rfl⟩ | ⟨-, q, y, -, rfl⟩ <;> simp_all [Head.Missing]
    obtain ⟨k₃, v₃, r₃, h₃, rfl, a₃, b₃, h⟩ := (readKeys_step hm₂).1 h
    have c₃ := step_cases.1 ⟨a₃, b₃⟩
    clear a₃ b₃ hm₁ hm₂
    have key : ∃ t, (kName, n) ∈ [(k₁, v₁), (k₂, v₂), (k₃, v₃)] ∧ (kDesc, d) ∈ [(k₁, v₁), (k₂, v₂), (k₃, v₃)] ∧
        (kFid, t) ∈ [(k₁, v₁), (k₂, v₂), (k₃, v₃)] ∧ Trivial.strToInt t = .ok i := by
      rcases c₁ with ⟨rfl, -, rfl⟩ | ⟨rfl, -, rfl⟩ | ⟨rfl, -, x, hx, rfl⟩ <;>
        rcases c₂ with ⟨rfl, q, rfl⟩ | ⟨rfl, q, rfl⟩ | ⟨rfl, q, y, hy, rfl⟩ <;>
        first
        | exact absurd q (Option.some_ne_none _)
        | rcases c₃ with ⟨rfl, q3, rfl⟩ | ⟨rfl, q3, rfl⟩ | ⟨rfl, q3, z, hz, rfl⟩ <;>
          first
          | exact absurd q3 (Option.some_ne_none _)
          | (rw [readKeys_done] at h
             cases h
             refine ⟨_, ?_, ?_, ?_, by assumption⟩ <;> simp)
    obtain ⟨t, e1, e2, e3, e4⟩ := key
    exact ⟨[(k₁, v₁), (k₂, v₂), (k₃, v₃)], t, r₃, rfl, rfl, e1, e2, e3, e4⟩
  · rintro ⟨pairs, t, rest, rfl, hlen, hn, hd, hf, ht⟩
    obtain _ | ⟨⟨k₁, v₁⟩, _ | ⟨⟨k₂, v₂⟩, _ | ⟨⟨k₃, v₃⟩, _ | ⟨_, _⟩⟩⟩⟩ := pairs <;> simp at hlen
    have e : ∀ (h h' : Head) k v r, h.Missing → ((k = kName ∧ h.name = none ∧ h' = { h with name := some v }) ∨
        (k = kDesc ∧ h.desc = none ∧ h' = { h with desc := some v }) ∨
        (k = kFid ∧ h.fid = none ∧ ∃ n, Trivial.strToInt v = .ok n ∧ h' = { h with fid := some n })) →
        readKeys r h' = .ok (n, d, i) → readKeys (.scalar k :: .scalar v :: r) h = .ok (n, d, i) := by
      intro h h' k v r hm hc hr
      obtain ⟨a, b⟩ := step_cases.2 hc
      exact (readKeys_step hm).2 ⟨k, v, r, h', rfl, a, b, hr⟩
    have n1 := kName_ne_kDesc
    have n2 := kName_ne_kFid
    have n3 := kDesc_ne_kFid
    have sname : ∀ (h : Head) r, h.name = none → readKeys r { h with name := some n } = .ok (n, d, i) →
        readKeys (.scalar kName :: .scalar n :: r) h = .ok (n, d, i) :=
      fun h r hh hr => e h _ _ _ r (.inl hh) (.inl ⟨rfl, hh, rfl⟩) hr
    have sdesc : ∀ (h : Head) r, h.desc = none → readKeys r { h with desc := some d } = .ok (n, d, i) →
        readKeys (.scalar kDesc :: .scalar d :: r) h = .ok (n, d, i) :=
      fun h r hh hr => e h _ _ _ r (.inr (.inl hh)) (.inr (.inl ⟨rfl, hh, rfl⟩)) hr
    have sfid : ∀ (h : Head) r, h.fid = none → readKeys r { h with fid := some i } = .ok (n, d, i) →
        readKeys (.scalar kFid :: .scalar t :: r) h = .ok (n, d, i) :=
      fun h r hh hr => e h _ _ _ r (.inr (.inr hh)) (.inr (.inr ⟨rfl, hh, i, ht, rfl⟩)) hr
    simp only [List.mem_cons, Prod.mk.injEq, List.not_mem_nil, or_false] at hn hd hf
    simp only [List.flatMap_cons, List.flatMap_nil, List.cons_append, List.nil_append]
    rcases hn with ⟨rfl, rfl⟩ | ⟨rfl, rfl⟩ | ⟨rfl, rfl⟩ <;>
      rcases hd with ⟨h1, rfl⟩ | ⟨h1, rfl⟩ | ⟨h1, rfl⟩ <;>
      first
      | exact absurd h1.symm n1
      | (subst h1
         rcases hf with ⟨h2, rfl⟩ | ⟨h2, rfl⟩ | ⟨h2, rfl⟩ <;>
         first
         | exact absurd h2.symm n2
         | exact absurd h2.symm n3
         | (subst h2
            first
            | exact sname _ _ rfl (sdesc _ _ rfl (sfid _ _ rfl (readKeys_done _ _ _ _)))
            | exact sname _ _ rfl (sfid _ _ rfl (sdesc _ _ rfl (readKeys_done _ _ _ _)))
            | exact sdesc _ _ rfl (sname _ _ rfl (sfid _ _ rfl (readKeys_done _ _ _ _)))
            | exact sdesc _ _ rfl (sfid _ _ rfl (sname _ _ rfl (readKeys_done _ _ _ _)))
            | exact sfid _ _ rfl (sname _ _ rfl (sdesc _ _ rfl (readKeys_done _ _ _ _)))
            | exact sfid _ _ rfl (sdesc _ _ rfl (sname _ _ rfl (readKeys_done _ _ _ _)))))

end

theorem skipMarks_ok {evs rest : List Ev} : skipMarks evs = .ok rest ↔
    ∃ n v r, evs = List.replicate n .mark ++ rest ∧ rest = .scalar v :: r := by
  induction evs with
  | nil =>
    simp only [skipMarks, reduceCtorEq, false_iff]
    rintro ⟨n, v, r, h, rfl⟩
    have := congrArg List.length h
    simp at this
  | cons e evs ih =>
    cases e with
    | scalar v =>
      simp only [skipMarks, Except.ok.injEq]
      constructor
      · rintro rfl; exact ⟨0, v, evs, rfl, rfl⟩
      · rintro ⟨n, v', r, h, rfl⟩
        cases n with
        | zero => exact h
        | succ n => simp [List.replicate_succ] at h
    | bad =>
      simp only [skipMarks, reduceCtorEq, false_iff]
      rintro ⟨n, v, r, h, rfl⟩
      cases n <;> simp [List.replicate_succ] at h
    | mark =>
      simp only [skipMarks, ih]
      constructor
      · rintro ⟨n, v, r, rfl, rfl⟩; exact ⟨n + 1, v, r, rfl, rfl⟩
      · rintro ⟨n, v, r, h, rfl⟩
        cases n with
        | zero => simp at h
        | succ n =>
          simp only [List.replicate_succ, List.cons_append, List.cons.injEq, true_and] at h
          exact ⟨n, v, r, h, rfl⟩

theorem isYaml_iff (name : PyStr) : isYaml name = true ↔ ".yml".toList <:+ name ∨ ".yaml".toList <:+ name := by
  unfold isYaml
  rw [Bool.or_eq_true, List.isSuffixOf_iff_suffix, List.isSuffixOf_iff_suffix]

theorem describes_iff (x : Nat × SpecFile) (s : SDict) :
    Describes x s ↔ isYaml x.2.name = true ∧ loadSdict x.1 x.2 = .ok s := by
  unfold Describes
  rw [isYaml_iff]
  refine and_congr Iff.rfl ?_
  unfold loadSdict
  constructor
  · rintro ⟨evs, he, ⟨n, pairs, t, rest, rfl, hlen, h1, h2, h3, ht⟩, hd, hf⟩
    rw [he]
    dsimp only
    have hs : skipMarks (List.replicate n .mark ++ pairs.flatMap (fun p => [.scalar p.1, .scalar p.2]) ++ rest) =
        .ok (pairs.flatMap (fun p => [.scalar p.1, .scalar p.2]) ++ rest) := by
      rw [skipMarks_ok]
      cases pairs with
      | nil => simp at hlen
      | cons p ps => exact ⟨n, p.1, _, List.append_assoc _ _ _, rfl⟩
    rw [hs]
    dsimp only
    have hr := readKeys_ok.2 ⟨pairs, t, rest, rfl, hlen, (show (kName, s.name) ∈ pairs from h1),
      (show (kDesc, s.desc) ∈ pairs from h2), (show (kFid, t) ∈ pairs from h3), ht⟩
    rw [hr]
    dsimp only
    rw [← hd, ← hf]
  · intro h
    split at h
    · cases h
    next evs he =>
    split at h
    · cases h
    next evs' hs =>
    split at h
    · cases h
    next n d i hr =>
    cases h
    obtain ⟨k, v, r, rfl, -⟩ := skipMarks_ok.1 hs
    obtain ⟨pairs, t, rest, rfl, hlen, h1, h2, h3, ht⟩ := readKeys_ok.1 hr
    exact ⟨_, he, ⟨k, pairs, t, rest, (List.append_assoc _ _ _).symm, hlen, h1, h2, h3, ht⟩, rfl, rfl⟩

/-! ### Scanning the spec directories -/

/-- What a file adds. -/
def addFile (d : Dict PyStr SDict) (x : Nat × SpecFile) : Dict PyStr SDict :=
  if isYaml x.2.name then
    match loadSdict x.1 x.2 with
    | .ok s => d.set s.name s
    | .error _ => d
  else d

theorem scanFiles_ok {i : Nat} {fs : List SpecFile} : ∀ {a b c : Nat} {d r : Dict PyStr SDict},
    scanFiles i fs a b c d = .ok r → r = (fs.map fun f => (i, f)).foldl addFile d := by
  induction fs with
  | nil => intro a b c d r h; cases h; rfl
  | cons f fs ih =>
    intro a b c d r h
    unfold scanFiles at h
    rw [List.map_cons, List.foldl_cons]
    split at h
    · next hy =>
      split at h
      · cases h
      have e : addFile d (i, f) = d := by
        unfold addFile
        rw [if_neg (by simpa using hy)]
      rw [e]
      exact ih h
    · next hy =>
      have hy : isYaml f.name = true := by simpa using hy
      split at h
      · next e he =>
        have e' : addFile d (i, f) = d := by
          unfold addFile
          rw [if_pos hy]
          dsimp only
          rw [he]
        rw [e']
        split at h
        · split at h
          · cases h
          · exact ih h
        · cases h
      · next s hs =>
        have e' : addFile d (i, f) = d.set s.name s := by
          unfold addFile
          rw [if_pos hy]
          dsimp only
          rw [hs]
        rw [e']
        split at h
        · cases h
        · exact ih h

theorem scanDirs_ok {ds : List (List SpecFile)} : ∀ {i : Nat} {d r : Dict PyStr SDict},
    scanDirs i ds d = .ok r → r = (allFiles i ds).foldl addFile d := by
  induction ds with
  | nil => intro i d r h; cases h; rfl
  | cons fs ds ih =>
    intro i d r h
    unfold scanDirs at h
    split at h
    · cases h
    next d' hd' =>
    rw [allFiles, List.foldl_append, ← scanFiles_ok hd']
    exact ih h

theorem buildSdicts_ok {ds : List (List SpecFile)} {r : Dict PyStr SDict} (h : buildSdicts ds = .ok r) :
    r = (allFiles 0 ds).foldl addFile [] := by
  unfold buildSdicts at h
  split at h
  · cases h
  next d hd =>
  split at h
  · cases h
  · cases h
    exact scanDirs_ok hd

theorem foldl_snoc {α β : Type} (f : β → α → β) (b : β) (l : List α) (a : α) :
    (l ++ [a]).foldl f b = f (l.foldl f b) a := by
  rw [List.foldl_append]; rfl

/-- List induction from the end. -/
theorem snoc_induction {α : Type} {P : List α → Prop} (h0 : P []) (h1 : ∀ l a, P l → P (l ++ [a])) (l : List α) : P l := by
  rw [← List.reverse_reverse l]
  induction l.reverse with
  | nil => exact h0
  | cons a l ih => rw [List.reverse_cons]; exact h1 _ _ ih

theorem get?_addFile (files : List (Nat × SpecFile)) (f : PyStr) (s : SDict) :
    (files.foldl addFile []).get? f = some s ↔ LastNamed files f s := by
  induction files using snoc_induction generalizing s with
  | h0 =>
    constructor
    · intro h; cases h
    · rintro ⟨pre, x, post, h, -⟩
      exact absurd h (by simp)
  | h1 files y ih =>
    rw [foldl_snoc]
    by_cases hd : ∃ t, Describes y t
    · obtain ⟨t, ht⟩ := hd
      have ht' := (describes_iff _ _).1 ht
      have huniq : ∀ t', Describes y t' → t' = t := by
        intro t' h
        have := ((describes_iff _ _).1 h).2
        rw [ht'.2] at this
        cases this; rfl
      have e : addFile (files.foldl addFile []) y = (files.foldl addFile []).set t.name t := by
        rw [addFile, if_pos ht'.1, ht'.2]
      rw [e, Dict.get?_set]
      by_cases hn : t.name = f
      · rw [if_pos hn]
        constructor
        · rintro h
          cases h
          exact ⟨files, y, [], rfl, ht, hn, by simp⟩
        · rintro ⟨pre, x, post, he, hx, hs, hpost⟩
          rcases List.eq_nil_or_concat post with rfl | ⟨post', z, rfl⟩
          · have := List.append_inj' he rfl
            cases this.2
            rw [huniq s hx]
          · rw [List.concat_eq_append, ← List.cons_append, ← List.append_assoc] at he
            have := List.append_inj' he rfl
            cases this.2
            exact absurd hn (hpost y (by simp) t ht)
      · rw [if_neg hn, ih]
        constructor
        · rintro ⟨pre, x, post, he, hx, hs, hpost⟩
          refine ⟨pre, x, post ++ [y], by rw [he]; simp, hx, hs, ?_⟩
          intro z hz t' ht''
          rcases List.mem_append.1 hz with hz | hz
          · exact hpost z hz t' ht''
          · rw [List.mem_singleton] at hz
            subst hz
            rw [huniq t' ht'']
            exact hn
        · rintro ⟨pre, x, post, he, hx, hs, hpost⟩
          rcases List.eq_nil_or_concat post with rfl | ⟨post', z, rfl⟩
          · have := List.append_inj' he rfl
            cases this.2
            rw [huniq s hx] at hs
            exact absurd hs hn
          · rw [List.concat_eq_append, ← List.cons_append, ← List.append_assoc] at he
            have := List.append_inj' he rfl
            exact ⟨pre, x, post', this.1, hx, hs, fun z hz => hpost z (by simp [hz])⟩
    · have e : addFile (files.foldl addFile []) y = files.foldl addFile [] := by
        unfold addFile
        split
        · next hy =>
          split
          · next t ht => exact absurd ⟨t, (describes_iff _ _).2 ⟨hy, ht⟩⟩ hd
          · rfl
        · rfl
      rw [e, ih]
      constructor
      · rintro ⟨pre, x, post, he, hx, hs, hpost⟩
        refine ⟨pre, x, post ++ [y], by rw [he]; simp, hx, hs, ?_⟩
        intro z hz t' ht''
        rcases List.mem_append.1 hz with hz | hz
        · exact hpost z hz t' ht''
        · rw [List.mem_singleton] at hz
          subst hz
          exact absurd ⟨t', ht''⟩ hd
      · rintro ⟨pre, x, post, he, hx, hs, hpost⟩
        rcases List.eq_nil_or_concat post with rfl | ⟨post', z, rfl⟩
        · have := List.append_inj' he rfl
          cases this.2
          exact absurd ⟨s, hx⟩ hd
        · rw [List.concat_eq_append, ← List.cons_append, ← List.append_assoc] at he
          have := List.append_inj' he rfl
          exact ⟨pre, x, post', this.1, hx, hs, fun z hz => hpost z (by simp [hz])⟩

theorem nodup_addFile (files : List (Nat × SpecFile)) : ∀ {d : Dict PyStr SDict}, d.keys.Nodup →
    (files.foldl addFile d).keys.Nodup := by
  induction files with
  | nil => intro d h; exact h
  | cons x files ih =>
    intro d h
    apply ih
    unfold addFile
    split
    · split
      · exact Dict.nodup_keys_set h _ _
      · exact h
    · exact h

/-! ### Feature IDs -/

theorem get?_foldl_ids (l : Dict PyStr SDict) : ∀ (d : Dict Int PyStr) (i : Int) (f : PyStr),
    (l.foldl (fun d p => d.set p.2.fid p.1) d).get? i = some f →
      (∃ s, (f, s) ∈ l ∧ s.fid = i) ∨ d.get? i = some f := by
  induction l with
  | nil => intro d i f h; exact .inr h
  | cons p l ih =>
    intro d i f h
    rcases ih _ i f h with ⟨s, hs, hi⟩ | h
    · exact .inl ⟨s, List.mem_cons_of_mem _ hs, hi⟩
    · rw [Dict.get?_set] at h
      split at h
      · next e =>
        cases h
        exact .inl ⟨p.2, List.mem_cons_self, e⟩
      · exact .inr h

theorem isSome_foldl_ids (l : Dict PyStr SDict) : ∀ (d : Dict Int PyStr) (i : Int),
    ((∃ p ∈ l, p.2.fid = i) ∨ (d.get? i).isSome = true) → ((l.foldl (fun d p => d.set p.2.fid p.1) d).get? i).isSome = true := by
  induction l with
  | nil =>
    rintro d i (⟨p, hp, -⟩ | h)
    · cases hp
    · exact h
  | cons p l ih =>
    intro d i h
    apply ih
    rcases h with ⟨q, hq, he⟩ | h
    · rcases List.mem_cons.1 hq with rfl | hq
      · right
        dsimp only
        rw [he, Dict.get?_set_self]; rfl
      · exact .inl ⟨q, hq, he⟩
    · right
      rw [Dict.get?_set]
      split
      · rfl
      · exact h

/-- The name of an ID is the name of a feature with the ID. -/
theorem fid2fname_sound {sd : Dict PyStr SDict} (hnd : sd.keys.Nodup) {i : Int} {f : PyStr}
    (h : (fid2fname sd).get? i = some f) : ∃ s, sd.get? f = some s ∧ s.fid = i := by
  rcases get?_foldl_ids sd [] i f h with ⟨s, hs, hi⟩ | h
  · exact ⟨s, Dict.get?_of_mem hnd hs, hi⟩
  · cases h

theorem fid2fname_some {sd : Dict PyStr SDict} {f : PyStr} {s : SDict} (h : sd.get? f = some s) :
    ∃ g, (fid2fname sd).get? s.fid = some g := by
  have := isSome_foldl_ids sd [] s.fid (.inl ⟨(f, s), Dict.mem_of_get? h, rfl⟩)
  exact Option.isSome_iff_exists.1 this

/-! ### Devices -/

theorem stripPrefix_iff (p s r : PyStr) : stripPrefix p s = some r ↔ s = p ++ r := by
  constructor
  · induction p generalizing s with
    | nil => intro h; cases h; rfl
    | cons a p ih =>
      cases s with
      | nil => intro h; cases h
      | cons c s =>
        intro h
        unfold stripPrefix at h
        split at h
        · next e => subst e; rw [ih s h]; rfl
        · cases h
  · rintro rfl
    exact stripPrefix_append p r

theorem featureId_iff (n : PyStr) (i : Nat) : featureId n = some i ↔
    ∃ s, n = "tpmi-id-".toList ++ s ∧ Hex s ∧ hexVal s = i := by
  unfold featureId
  constructor
  · intro h
    split at h
    · cases h
    next s hs =>
    split at h
    · next hc =>
      have hx : Hex s := ⟨hc.1, fun c h' => mem_hex.2 (List.all_eq_true.1 hc.2 c h')⟩
      rw [parse16_hex hx] at h
      cases h
      exact ⟨s, (stripPrefix_iff _ _ _).1 hs, hx, rfl⟩
    · cases h
  · rintro ⟨s, rfl, hx, rfl⟩
    rw [stripPrefix_append]
    dsimp only
    rw [if_pos ⟨hx.1, List.all_eq_true.2 hx.all⟩]
    exact parse16_hex hx

theorem tpmiDirs_ok {root devs : Root} (h : tpmiDirs root = .ok devs) (a : PyStr) (ents : List PyStr) :
    (a, ents) ∈ devs ↔ ("tpmi-".toList ++ a, ents) ∈ root := by
  have e : devs = root.filterMap (fun d => (stripPrefix "tpmi-".toList d.1).map fun a => (a, d.2)) := by
    unfold tpmiDirs at h
    split at h
    · cases h
    · cases h; rfl
  rw [e, List.mem_filterMap]
  constructor
  · rintro ⟨⟨n, es⟩, hm, hx⟩
    obtain ⟨r, hr, hx⟩ := Option.map_eq_some_iff.1 hx
    cases hx
    have := (stripPrefix_iff _ _ _).1 hr
    dsimp only at this
    rw [← this]
    exact hm
  · intro hm
    exact ⟨_, hm, by dsimp only; rw [stripPrefix_append]; rfl⟩

/-! ### Collecting -/

/-- The device is listed for the feature. -/
def Listed (f2a : Dict PyStr (List PyStr)) (f a : PyStr) : Prop := a ∈ (f2a.get? f).getD []

/-- The lists are not empty and every feature has one. -/
def Lists (f2a : Dict PyStr (List PyStr)) : Prop := f2a.keys.Nodup ∧ ∀ f l, f2a.get? f = some l → l ≠ []

theorem collectDirs_spec (ids : Dict Int PyStr) (addr : PyStr) (ents : List PyStr) :
    ∀ (f2a : Dict PyStr (List PyStr)) (unknown : List Nat), Lists f2a →
      let r := collectDirs ids addr ents f2a unknown
      Lists r.1 ∧
      (∀ f a, Listed r.1 f a ↔ Listed f2a f a ∨
        (a = addr ∧ f ≠ [] ∧ ∃ n ∈ ents, ∃ i, featureId n = some i ∧ ids.get? (i : Int) = some f)) ∧
      ∀ i, i ∈ r.2 ↔ i ∈ unknown ∨
        ∃ n ∈ ents, featureId n = some i ∧ (ids.get? (i : Int) = none ∨ ids.get? (i : Int) = some []) := by
  induction ents with
  | nil =>
    intro f2a u h
    exact ⟨h, fun f a => by simp [collectDirs], fun i => by simp [collectDirs]⟩
  | cons n ents ih =>
    intro f2a u hl
    rw [collectDirs]
    have skip : featureId n = none →
        (∀ f a, (a = addr ∧ f ≠ [] ∧ ∃ n ∈ ents, ∃ i, featureId n = some i ∧ ids.get? (i : Int) = some f) ↔
          (a = addr ∧ f ≠ [] ∧ ∃ m ∈ n :: ents, ∃ i, featureId m = some i ∧ ids.get? (i : Int) = some f)) := by
      intro hn f a
      constructor
      · rintro ⟨h1, h2, m, hm, h3⟩
        exact ⟨h1, h2, m, List.mem_cons_of_mem _ hm, h3⟩
      · rintro ⟨h1, h2, m, hm, i, h3, h4⟩
        rcases List.mem_cons.1 hm with rfl | hm
        · rw [hn] at h3; cases h3
        · exact ⟨h1, h2, m, hm, i, h3, h4⟩
    cases hn : featureId n with
    | none =>
      dsimp only
      obtain ⟨h1, h2, h3⟩ := ih f2a u hl
      refine ⟨h1, fun f a => ?_, fun i => ?_⟩
      · rw [h2, skip hn]
      · rw [h3]
        apply or_congr_right
        constructor
        · rintro ⟨m, hm, h⟩
          exact ⟨m, List.mem_cons_of_mem _ hm, h⟩
        · rintro ⟨m, hm, h, h'⟩
          rcases List.mem_cons.1 hm with rfl | hm
          · rw [hn] at h; cases h
          · exact ⟨m, hm, h, h'⟩
    | some fid =>
      dsimp only
      have unk : (ids.get? (fid : Int) = none ∨ ids.get? (fid : Int) = some []) →
          let r := collectDirs ids addr ents f2a (u ++ [fid])
          Lists r.1 ∧
          (∀ f a, Listed r.1 f a ↔ Listed f2a f a ∨
            (a = addr ∧ f ≠ [] ∧ ∃ m ∈ n :: ents, ∃ i, featureId m = some i ∧ ids.get? (i : Int) = some f)) ∧
          ∀ i, i ∈ r.2 ↔ i ∈ u ∨
            ∃ m ∈ n :: ents, featureId m = some i ∧ (ids.get? (i : Int) = none ∨ ids.get? (i : Int) = some []) := by
        intro hu
        obtain ⟨h1, h2, h3⟩ := ih f2a (u ++ [fid]) hl
        refine ⟨h1, fun f a => ?_, fun i => ?_⟩
        · rw [h2]
          apply or_congr_right
          constructor
          · rintro ⟨h1, h2, m, hm, h3⟩
            exact ⟨h1, h2, m, List.mem_cons_of_mem _ hm, h3⟩
          · rintro ⟨h1, h2, m, hm, i, h3, h4⟩
            rcases List.mem_cons.1 hm with rfl | hm
            · rw [hn] at h3
              cases h3
              rcases hu with hu | hu
              · rw [hu] at h4; cases h4
              · rw [hu] at h4; cases h4; exact absurd rfl h2
            · exact ⟨h1, h2, m, hm, i, h3, h4⟩
        · rw [h3, List.mem_append, List.mem_singleton]
          constructor
          · rintro ((h | h) | ⟨m, hm, h⟩)
            · exact .inl h
            · subst h
              exact .inr ⟨n, List.mem_cons_self, hn, hu⟩
            · exact .inr ⟨m, List.mem_cons_of_mem _ hm, h⟩
          · rintro (h | ⟨m, hm, h, h'⟩)
            · exact .inl (.inl h)
            · rcases List.mem_cons.1 hm with rfl | hm
              · rw [hn] at h; cases h; exact .inl (.inr rfl)
              · exact .inr ⟨m, hm, h, h'⟩
      split
      · next h => exact unk (.inl h)
      · next h => exact unk (.inr h)
      · next fname hne hf =>
        have hne : fname ≠ [] := fun h => hne h
        have hl' : Lists (f2a.set fname ((f2a.get? fname).getD [] ++ [addr])) := by
          refine ⟨Dict.nodup_keys_set hl.1 _ _, fun f l h => ?_⟩
          rw [Dict.get?_set] at h
          split at h
          · cases h; simp
          · exact hl.2 f l h
        obtain ⟨h1, h2, h3⟩ := ih _ u hl'
        refine ⟨h1, fun f a => ?_, fun i => ?_⟩
        · rw [h2]
          unfold Listed
          rw [Dict.get?_set]
          by_cases hff : fname = f
          · subst hff
            rw [if_pos rfl, Option.getD_some, List.mem_append, List.mem_singleton]
            constructor
            · rintro ((h | h) | ⟨h1, h2, m, hm, h3⟩)
              · exact .inl h
              · exact .inr ⟨h, hne, n, List.mem_cons_self, fid, hn, hf⟩
              · exact .inr ⟨h1, h2, m, List.mem_cons_of_mem _ hm, h3⟩
            · rintro (h | ⟨h1, h2, m, hm, i, h3, h4⟩)
              · exact .inl (.inl h)
              · exact .inl (.inr h1)
          · rw [if_neg hff]
            apply or_congr_right
            constructor
            · rintro ⟨h1, h2, m, hm, h3⟩
              exact ⟨h1, h2, m, List.mem_cons_of_mem _ hm, h3⟩
            · rintro ⟨h1, h2, m, hm, i, h3, h4⟩
              rcases List.mem_cons.1 hm with rfl | hm
              · rw [hn] at h3
                cases h3
                rw [hf] at h4
                cases h4
                exact absurd rfl hff
              · exact ⟨h1, h2, m, hm, i, h3, h4⟩
        · rw [h3]
          apply or_congr_right
          constructor
          · rintro ⟨m, hm, h⟩
            exact ⟨m, List.mem_cons_of_mem _ hm, h⟩
          · rintro ⟨m, hm, h, h'⟩
            rcases List.mem_cons.1 hm with rfl | hm
            · rw [hn] at h
              cases h
              rcases h' with h' | h'
              · rw [hf] at h'; cases h'
              · rw [hf] at h'; cases h'; exact absurd rfl hne
            · exact ⟨m, hm, h, h'⟩

theorem collect_spec (ids : Dict Int PyStr) (devs : Root) :
    ∀ (f2a : Dict PyStr (List PyStr)) (unknown : List Nat), Lists f2a →
      let r := collect ids devs f2a unknown
      Lists r.1 ∧
      (∀ f a, Listed r.1 f a ↔ Listed f2a f a ∨
        (f ≠ [] ∧ ∃ ents, (a, ents) ∈ devs ∧ ∃ n ∈ ents, ∃ i, featureId n = some i ∧ ids.get? (i : Int) = some f)) ∧
      ∀ i, i ∈ r.2 ↔ i ∈ unknown ∨ ∃ a ents, (a, ents) ∈ devs ∧
        ∃ n ∈ ents, featureId n = some i ∧ (ids.get? (i : Int) = none ∨ ids.get? (i : Int) = some []) := by
  induction devs with
  | nil =>
    intro f2a u h
    exact ⟨h, fun f a => by simp [collect], fun i => by simp [collect]⟩
  | cons d devs ih =>
    obtain ⟨addr, ents⟩ := d
    intro f2a u hl
    rw [collect]
    obtain ⟨h1, h2, h3⟩ := collectDirs_spec ids addr ents f2a u hl
    obtain ⟨k1, k2, k3⟩ := ih _ (collectDirs ids addr ents f2a u).2 h1
    refine ⟨k1, fun f a => ?_, fun i => ?_⟩
    · rw [k2, h2]
      constructor
      · rintro ((h | ⟨rfl, h, h'⟩) | ⟨h, es, h', h''⟩)
        · exact .inl h
        · exact .inr ⟨h, ents, List.mem_cons_self, h'⟩
        · exact .inr ⟨h, es, List.mem_cons_of_mem _ h', h''⟩
      · rintro (h | ⟨h, es, h', h''⟩)
        · exact .inl (.inl h)
        · rcases List.mem_cons.1 h' with e | h'
          · cases e
            exact .inl (.inr ⟨rfl, h, h''⟩)
          · exact .inr ⟨h, es, h', h''⟩
    · rw [k3, h3]
      constructor
      · rintro ((h | h') | ⟨b, es, h', h''⟩)
        · exact .inl h
        · exact .inr ⟨addr, ents, List.mem_cons_self, h'⟩
        · exact .inr ⟨b, es, List.mem_cons_of_mem _ h', h''⟩
      · rintro (h | ⟨b, es, h', h''⟩)
        · exact .inl (.inl h)
        · rcases List.mem_cons.1 h' with e | h'
          · cases e
            exact .inl (.inr h'')
          · exact .inr ⟨b, es, h', h''⟩

/-! ### The maps -/

/-- The package of the device in the map of the feature. -/
def Maps.pkg (M : Maps) (f a : PyStr) : Option Nat := ((M.fmaps.get? f).getD []).get? a

section
variable {W : Type} (K : Kernel W) (w : W) (dirs : List (List SpecFile)) (infoFid : Nat)

/-- What holds for the maps being built. -/
structure MInv (M : Maps) : Prop where
  nodup : M.fmaps.keys.Nodup
  nodups : ∀ f fm, M.fmaps.get? f = some fm → fm.keys.Nodup
  info : kInfo ∈ M.fmaps.keys
  same : ∀ f a p, M.pkg f a = some p → M.pkg kInfo a = some p
  read : ∀ a p, M.pkg kInfo a = some p →
    ∃ d, readPackage K w dirs infoFid a = .ok (d, p) ∧ M.mdmaps.get? (kInfo, a) = some d
  only : ∀ f a d, M.mdmaps.get? (f, a) = some d → f = kInfo ∧ ∃ p, M.pkg kInfo a = some p
  pkgs : M.pkg2addrs.keys.Nodup
  addrs : ∀ p a, a ∈ (M.pkg2addrs.get? p).getD [] ↔ M.pkg kInfo a = some p
  some : ∀ p l, M.pkg2addrs.get? p = some l → l ≠ []
  order : M.mdmaps.keys = ((M.fmaps.get? kInfo).getD []).keys.map fun a => (kInfo, a)

theorem pkg_set (M : Maps) (f : PyStr) (a : PyStr) (p : Nat) (md : Dict (PyStr × PyStr) Mdmap) (pa : Dict Nat (List PyStr))
    (g b : PyStr) :
    Maps.pkg ⟨M.fmaps.set f (((M.fmaps.get? f).getD []).set a p), md, pa⟩ g b =
      if g = f ∧ b = a then some p else M.pkg g b := by
  unfold Maps.pkg
  dsimp only
  rw [Dict.get?_set]
  by_cases h : f = g
  · subst h
    rw [if_pos rfl, Option.getD_some, Dict.get?_set]
    by_cases hb : a = b
    · subst hb
      rw [if_pos rfl, if_pos ⟨rfl, rfl⟩]
    · rw [if_neg hb, if_neg (fun h => hb h.2.symm)]
  · rw [if_neg h, if_neg (fun h' => h h'.1.symm)]

variable {K w dirs infoFid}

/-- What a step does: `X` are the pairs which are added. -/
structure MStep (M M' : Maps) (X : PyStr → PyStr → Prop) : Prop where
  keep : ∀ g b p, M.pkg g b = some p → M'.pkg g b = some p
  new : ∀ g b, (∃ p, M'.pkg g b = some p) ↔ (∃ p, M.pkg g b = some p) ∨ X g b
  keys : ∀ g, g ∈ M'.fmaps.keys ↔ g ∈ M.fmaps.keys

theorem MStep.refl {M : Maps} {X : PyStr → PyStr → Prop} (h : ∀ g b, X g b → ∃ p, M.pkg g b = some p) : MStep M M X :=
  ⟨fun _ _ _ h => h, fun g b => ⟨.inl, fun h' => h'.elim id (h g b)⟩, fun _ => Iff.rfl⟩

theorem MStep.trans {M M' M'' : Maps} {X Y : PyStr → PyStr → Prop} (h : MStep M M' X) (h' : MStep M' M'' Y) :
    MStep M M'' (fun g b => X g b ∨ Y g b) :=
  ⟨fun g b p hp => h'.keep g b p (h.keep g b p hp), fun g b => by rw [h'.new, h.new, or_assoc],
    fun g => by rw [h'.keys, h.keys]⟩

theorem MStep.congr {M M' : Maps} {X Y : PyStr → PyStr → Prop} (h : MStep M M' X) (e : ∀ g b, X g b ↔ Y g b) : MStep M M' Y :=
  ⟨h.keep, fun g b => by rw [h.new, e], h.keys⟩

theorem addInfo_spec {a : PyStr} {M M' : Maps} (hi : MInv K w dirs infoFid M)
    (h : addInfo K w dirs infoFid a M = .ok M') :
    MInv K w dirs infoFid M' ∧ MStep M M' (fun g b => g = kInfo ∧ b = a) := by
  unfold addInfo at h
  split at h
  · next p hp =>
    cases h
    refine ⟨hi, MStep.refl ?_⟩
    rintro g b ⟨rfl, rfl⟩
    exact ⟨p, hp⟩
  next hnone =>
  split at h
  · cases h
  next d p hr =>
  cases h
  have hnone : M.pkg kInfo a = none := hnone
  refine ⟨?_, ?_⟩
  · constructor
    · exact Dict.nodup_keys_set hi.nodup _ _
    · intro f fm hf
      dsimp only at hf
      rw [Dict.get?_set] at hf
      split at hf
      · cases hf
        refine Dict.nodup_keys_set ?_ _ _
        cases hg : M.fmaps.get? kInfo with
        | none => exact List.nodup_nil
        | some fm => exact hi.nodups _ _ hg
      · exact hi.nodups _ _ hf
    · exact (Dict.mem_keys_set _ _ _ _).2 (.inl rfl)
    · intro f b q hq
      rw [pkg_set] at hq ⊢
      by_cases hb : b = a
      · subst hb
        rw [if_pos ⟨rfl, rfl⟩]
        split at hq
        · exact hq
        · rw [hi.same f b q hq] at hnone; cases hnone
      · rw [if_neg (fun h => hb h.2)] at hq ⊢
        exact hi.same f b q hq
    · intro b q hq
      rw [pkg_set] at hq
      dsimp only
      rw [Dict.get?_set]
      by_cases hb : b = a
      · subst hb
        rw [if_pos ⟨rfl, rfl⟩] at hq
        cases hq
        exact ⟨d, hr, if_pos rfl⟩
      · rw [if_neg (fun h => hb h.2)] at hq
        obtain ⟨d', h1, h2⟩ := hi.read b q hq
        refine ⟨d', h1, ?_⟩
        rw [if_neg (fun h => hb (Prod.mk.inj h).2.symm), h2]
    · intro f b d' hd
      dsimp only at hd
      rw [Dict.get?_set] at hd
      split at hd
      · next e =>
        cases e
        exact ⟨rfl, p, by rw [pkg_set, if_pos ⟨rfl, rfl⟩]⟩
      · obtain ⟨h1, q, hq⟩ := hi.only f b d' hd
        refine ⟨h1, ?_⟩
        rw [pkg_set]
        split
        · exact ⟨p, rfl⟩
        · exact ⟨q, hq⟩
    · exact Dict.nodup_keys_set hi.pkgs _ _
    · intro q b
      rw [pkg_set]
      dsimp only
      rw [Dict.get?_set]
      have hna : a ∉ (M.pkg2addrs.get? p).getD [] := by
        rw [hi.addrs, hnone]
        exact fun h => nomatch h
      rw [if_neg hna]
      by_cases hpq : p = q
      · subst hpq
        rw [if_pos rfl, Option.getD_some, List.mem_append, List.mem_singleton, hi.addrs]
        by_cases hb : b = a
        · subst hb
          simp
        · simp [hb]
      · rw [if_neg hpq, hi.addrs]
        by_cases hb : b = a
        · subst hb
          simp [hnone, hpq]
        · simp [hb]
    · intro q l hl
      dsimp only at hl
      rw [Dict.get?_set] at hl
      split at hl
      · cases hl
        split
        · next h => exact List.ne_nil_of_mem h
        · simp
      · exact hi.some q l hl
    · dsimp only
      rw [Dict.get?_set_self, Option.getD_some, Dict.keys_set, Dict.keys_set, hi.order]
      have hn : a ∉ ((M.fmaps.get? kInfo).getD []).keys := (Dict.get?_eq_none_iff _ _).1 hnone
      rw [if_neg hn, if_neg]
      · rw [List.map_append]; rfl
      · intro h
        obtain ⟨b, hb, e⟩ := List.mem_map.1 h
        cases e
        exact hn hb
  · constructor
    · intro g b q hq
      rw [pkg_set]
      split
      · next e => obtain ⟨rfl, rfl⟩ := e; rw [hnone] at hq; cases hq
      · exact hq
    · intro g b
      rw [pkg_set]
      split
      · next e => simp [e]
      · next e => simp [e]
    · intro g
      rw [Dict.mem_keys_set]
      constructor
      · rintro (rfl | h)
        · exact hi.info
        · exact h
      · exact .inr

theorem addAddr_spec {f a : PyStr} {M M' : Maps} (hi : MInv K w dirs infoFid M) (hf : f ∈ M.fmaps.keys)
    (h : addAddr K w dirs infoFid f a M = .ok M') :
    MInv K w dirs infoFid M' ∧ MStep M M' (fun g b => (g = f ∨ g = kInfo) ∧ b = a) := by
  unfold addAddr at h
  split at h
  · next p hp =>
    cases h
    refine ⟨hi, MStep.refl ?_⟩
    rintro g b ⟨rfl | rfl, rfl⟩
    · exact ⟨p, hp⟩
    · exact ⟨p, hi.same f b p hp⟩
  next hnone =>
  split at h
  · cases h
  next M1 h1 =>
  obtain ⟨hi1, hs1⟩ := addInfo_spec hi h1
  split at h
  · next e =>
    cases h
    refine ⟨hi1, hs1.congr ?_⟩
    intro g b
    rw [e, or_self]
  next hne =>
  split at h
  · cases h
  next p hp =>
  cases h
  have hp : M1.pkg kInfo a = some p := hp
  have key : ∀ g b, Maps.pkg { M1 with fmaps := M1.fmaps.set f (((M1.fmaps.get? f).getD []).set a p) } g b =
      if g = f ∧ b = a then some p else M1.pkg g b := fun g b => pkg_set M1 f a p _ _ g b
  have keyI : ∀ b, Maps.pkg { M1 with fmaps := M1.fmaps.set f (((M1.fmaps.get? f).getD []).set a p) } kInfo b =
      M1.pkg kInfo b := by
    intro b
    rw [key, if_neg (fun h => hne h.1.symm)]
  refine ⟨?_, ?_⟩
  · constructor
    · exact Dict.nodup_keys_set hi1.nodup _ _
    · intro g fm hf
      dsimp only at hf
      rw [Dict.get?_set] at hf
      split at hf
      · cases hf
        refine Dict.nodup_keys_set ?_ _ _
        cases hg : M1.fmaps.get? f with
        | none => exact List.nodup_nil
        | some fm => exact hi1.nodups _ _ hg
      · exact hi1.nodups _ _ hf
    · exact (Dict.mem_keys_set _ _ _ _).2 (.inr hi1.info)
    · intro g b q hq
      rw [keyI]
      rw [key] at hq
      split at hq
      · next e => cases hq; rw [e.2]; exact hp
      · exact hi1.same g b q hq
    · intro b q hq
      rw [keyI] at hq
      exact hi1.read b q hq
    · intro g b d hd
      obtain ⟨h1, q, h2⟩ := hi1.only g b d hd
      exact ⟨h1, q, by rw [keyI]; exact h2⟩
    · exact hi1.pkgs
    · intro q b
      rw [keyI]
      exact hi1.addrs q b
    · exact hi1.some
    · dsimp only
      rw [Dict.get?_set_ne _ _ hne]
      exact hi1.order
  · have hs2 : MStep M1 { M1 with fmaps := M1.fmaps.set f (((M1.fmaps.get? f).getD []).set a p) }
        (fun g b => g = f ∧ b = a) := by
      constructor
      · intro g b q hq
        rw [key]
        split
        · next e =>
          obtain ⟨rfl, rfl⟩ := e
          rw [← hp]
          exact hi1.same g b q hq
        · exact hq
      · intro g b
        rw [key]
        split
        · next e => simp [e]
        · next e => simp [e]
      · intro g
        rw [Dict.mem_keys_set]
        constructor
        · rintro (rfl | h)
          · exact (hs1.keys _).2 hf
          · exact h
        · exact .inr
    refine (hs1.trans hs2).congr ?_
    intro g b
    constructor
    · rintro (⟨h, h'⟩ | ⟨h, h'⟩)
      · exact ⟨.inr h, h'⟩
      · exact ⟨.inl h, h'⟩
    · rintro ⟨h | h, h'⟩
      · exact .inr ⟨h, h'⟩
      · exact .inl ⟨h, h'⟩

theorem addAddrs_spec {f : PyStr} {as : List PyStr} : ∀ {M M' : Maps}, MInv K w dirs infoFid M → f ∈ M.fmaps.keys →
    addAddrs K w dirs infoFid f as M = .ok M' →
    MInv K w dirs infoFid M' ∧ MStep M M' (fun g b => (g = f ∨ g = kInfo) ∧ b ∈ as) := by
  induction as with
  | nil =>
    intro M M' hi hf h
    cases h
    exact ⟨hi, MStep.refl (by simp)⟩
  | cons a as ih =>
    intro M M' hi hf h
    unfold addAddrs at h
    split at h
    · cases h
    next M1 h1 =>
    obtain ⟨hi1, hs1⟩ := addAddr_spec hi hf h1
    obtain ⟨hi2, hs2⟩ := ih hi1 ((hs1.keys f).2 hf) h
    refine ⟨hi2, (hs1.trans hs2).congr ?_⟩
    intro g b
    rw [List.mem_cons]
    constructor
    · rintro (⟨h, h'⟩ | ⟨h, h'⟩)
      · exact ⟨h, .inl h'⟩
      · exact ⟨h, .inr h'⟩
    · rintro ⟨h, h' | h'⟩
      · exact .inl ⟨h, h'⟩
      · exact .inr ⟨h, h'⟩

theorem addKey_pkg (M : Maps) (f g b : PyStr) :
    Maps.pkg { M with fmaps := if (M.fmaps.get? f).isSome then M.fmaps else M.fmaps.set f [] } g b = M.pkg g b := by
  unfold Maps.pkg
  dsimp only
  split
  · rfl
  · next h =>
    rw [Dict.get?_set]
    split
    · next e =>
      subst e
      have : M.fmaps.get? f = none := by simpa using h
      rw [this]
      rfl
    · rfl

theorem addKey_keys (M : Maps) (f g : PyStr) :
    g ∈ (if (M.fmaps.get? f).isSome then M.fmaps else M.fmaps.set f []).keys ↔ g ∈ M.fmaps.keys ∨ g = f := by
  split
  · next h =>
    constructor
    · exact .inl
    · rintro (h' | rfl)
      · exact h'
      · exact Classical.byContradiction fun hn => by
          rw [(Dict.get?_eq_none_iff _ _).2 hn] at h
          cases h
  · rw [Dict.mem_keys_set]
    exact Or.comm

theorem addKey_inv {M : Maps} (f : PyStr) (hi : MInv K w dirs infoFid M) :
    MInv K w dirs infoFid { M with fmaps := if (M.fmaps.get? f).isSome then M.fmaps else M.fmaps.set f [] } := by
  constructor
  · dsimp only
    split
    · exact hi.nodup
    · exact Dict.nodup_keys_set hi.nodup _ _
  · intro g fm hg
    dsimp only at hg
    split at hg
    · exact hi.nodups g fm hg
    · rw [Dict.get?_set] at hg
      split at hg
      · cases hg; exact List.nodup_nil
      · exact hi.nodups g fm hg
  · exact (addKey_keys M f _).2 (.inl hi.info)
  · intro g b p
    rw [addKey_pkg, addKey_pkg]
    exact hi.same g b p
  · intro b p
    rw [addKey_pkg]
    exact hi.read b p
  · intro g b d h
    rw [addKey_pkg]
    exact hi.only g b d h
  · exact hi.pkgs
  · intro p b
    rw [addKey_pkg]
    exact hi.addrs p b
  · exact hi.some
  · dsimp only
    split
    · exact hi.order
    · next h =>
      rw [Dict.get?_set]
      split
      · next e =>
        subst e
        have := hi.info
        rw [Option.isSome_iff_ne_none, Ne, Dict.get?_eq_none_iff] at h
        exact absurd (fun h' => h' this) h
      · exact hi.order

theorem addFeatures_spec {l : List (PyStr × List PyStr)} : ∀ {M M' : Maps}, MInv K w dirs infoFid M →
    addFeatures K w dirs infoFid l M = .ok M' →
    MInv K w dirs infoFid M' ∧
    (∀ g b, (∃ p, M'.pkg g b = some p) ↔ (∃ p, M.pkg g b = some p) ∨ ∃ x ∈ l, (g = x.1 ∨ g = kInfo) ∧ b ∈ x.2) ∧
    ∀ g, g ∈ M'.fmaps.keys ↔ g ∈ M.fmaps.keys ∨ ∃ x ∈ l, g = x.1 := by
  induction l with
  | nil =>
    intro M M' hi h
    cases h
    exact ⟨hi, by simp, by simp⟩
  | cons x l ih =>
    obtain ⟨f, as⟩ := x
    intro M M' hi h
    unfold addFeatures at h
    split at h
    · cases h
    next M1 h1 =>
    obtain ⟨hi1, hs1⟩ := addAddrs_spec (addKey_inv f hi) ((addKey_keys M f f).2 (.inr rfl)) h1
    obtain ⟨hi2, h2, h3⟩ := ih hi1 h
    refine ⟨hi2, fun g b => ?_, fun g => ?_⟩
    · rw [h2, hs1.new, addKey_pkg, or_assoc]
      simp
    · rw [h3, hs1.keys]
      dsimp only
      rw [addKey_keys, or_assoc]
      simp

/-- Nothing fails if the package of every device can be read. -/
theorem addFeatures_works {l : List (PyStr × List PyStr)}
    (hr : ∀ x ∈ l, ∀ a ∈ x.2, ∃ r, readPackage K w dirs infoFid a = .ok r) : ∀ M : Maps,
    ∃ M', addFeatures K w dirs infoFid l M = .ok M' := by
  have hinfo : ∀ a, (∃ r, readPackage K w dirs infoFid a = .ok r) → ∀ M, ∃ M', addInfo K w dirs infoFid a M = .ok M' ∧
      ∃ p, M'.pkg kInfo a = some p := by
    rintro a ⟨⟨d, p⟩, hr⟩ M
    unfold addInfo
    split
    · next p hp => exact ⟨M, rfl, p, hp⟩
    · rw [hr]
      exact ⟨_, rfl, p, by rw [pkg_set, if_pos ⟨rfl, rfl⟩]⟩
  have haddr : ∀ f a, (∃ r, readPackage K w dirs infoFid a = .ok r) → ∀ M, ∃ M', addAddr K w dirs infoFid f a M = .ok M' := by
    intro f a hr M
    unfold addAddr
    split
    · exact ⟨M, rfl⟩
    · obtain ⟨M1, h1, p, hp⟩ := hinfo a hr M
      rw [h1]
      dsimp only
      split
      · exact ⟨_, rfl⟩
      · have hp : ((M1.fmaps.get? kInfo).getD []).get? a = some p := hp
        rw [hp]
        exact ⟨_, rfl⟩
  have haddrs : ∀ f as, (∀ a ∈ as, ∃ r, readPackage K w dirs infoFid a = .ok r) →
      ∀ M, ∃ M', addAddrs K w dirs infoFid f as M = .ok M' := by
    intro f as
    induction as with
    | nil => exact fun _ M => ⟨M, rfl⟩
    | cons a as ih =>
      intro hr M
      unfold addAddrs
      obtain ⟨M1, h1⟩ := haddr f a (hr a List.mem_cons_self) M
      rw [h1]
      exact ih (fun b hb => hr b (List.mem_cons_of_mem _ hb)) M1
  induction l with
  | nil => exact fun M => ⟨M, rfl⟩
  | cons x l ih =>
    intro M
    unfold addFeatures
    obtain ⟨M1, h1⟩ := haddrs x.1 x.2 (hr x List.mem_cons_self)
      { M with fmaps := if (M.fmaps.get? x.1).isSome then M.fmaps else M.fmaps.set x.1 [] }
    rw [h1]
    exact ih (fun y hy => hr y (List.mem_cons_of_mem _ hy)) M1

end

/-! ### The scan works -/

theorem isErr_badFormat : isErr .badFormat = true := rfl

theorem strToInt_isErr {s : PyStr} {e : Exn} (h : Trivial.strToInt s = .error e) : isErr e = true := by
  unfold Trivial.strToInt at h
  split at h
  all_goals
    dsimp only at h
    split at h
    · cases h
    · cases h; rfl

/-- How many keys are missing. -/
def Head.need (h : Head) : Nat :=
  (if h.name.isSome then 0 else 1) + (if h.desc.isSome then 0 else 1) + (if h.fid.isSome then 0 else 1)

theorem Head.missing_of {h : Head} (hc : h.complete? = none) : h.Missing := by
  obtain ⟨n, d, i⟩ := h
  unfold Head.complete? at hc
  cases n with
  | none => exact .inl rfl
  | some n =>
    cases d with
    | none => exact .inr (.inl rfl)
    | some d =>
      cases i with
      | none => exact .inr (.inr rfl)
      | some i => cases hc

theorem need_pos {h : Head} (hm : h.Missing) : 1 ≤ h.need := by
  unfold Head.need
  rcases hm with hm | hm | hm <;> rw [hm] <;> simp <;> omega

theorem need_step {h h' : Head} {k v : PyStr} (hc : checkKey h k = .ok ()) (hs : storeKey h k v = .ok h') :
    h'.need + 1 = h.need := by
  rcases step_cases.1 ⟨hc, hs⟩ with ⟨-, q, rfl⟩ | ⟨-, q, rfl⟩ | ⟨-, q, n, -, rfl⟩ <;>
    simp [Head.need, q] <;> omega

theorem readKeys_err (n : Nat) : ∀ (vals : List PyStr) (rest : List Ev) (h : Head), h.need ≤ n → 2 * h.need ≤ vals.length →
    ∀ e, readKeys (vals.map .scalar ++ rest) h = .error e → isErr e = true := by
  induction n with
  | zero =>
    intro vals rest h hn hl e he
    rw [readKeys.eq_def] at he
    cases hc : h.complete? with
    | some r => rw [hc] at he; cases he
    | none => have := need_pos (Head.missing_of hc); omega
  | succ n ih =>
    intro vals rest h hn hl e he
    cases hc : h.complete? with
    | some r =>
      rw [readKeys.eq_def, hc] at he
      cases he
    | none =>
      have hp := need_pos (Head.missing_of hc)
      match vals, hl with
      | [], hl => simp at hl; omega
      | [_], hl => simp at hl; omega
      | k :: v :: vals, hl =>
        rw [readKeys.eq_def, hc] at he
        simp only [List.map_cons, List.cons_append, evValue] at he
        split at he
        · next e' hk =>
          cases he
          unfold checkKey at hk
          split at hk
          · split at hk <;> cases hk; rfl
          · split at hk
            · split at hk <;> cases hk; rfl
            · split at hk
              · split at hk <;> cases hk; rfl
              · cases hk; rfl
        next hk =>
        split at he
        · next e' hs =>
          cases he
          unfold storeKey at hs
          split at hs
          · cases hs
          · split at hs
            · cases hs
            · split at hs
              · next hi => cases hs; exact strToInt_isErr hi
              · cases hs
        next h' hs =>
        have := need_step hk hs
        simp only [List.length_cons] at hl
        exact ih vals rest h' (by omega) (by omega) e he

theorem skipMarks_replicate (n : Nat) (v : PyStr) (l : List Ev) :
    skipMarks (List.replicate n .mark ++ .scalar v :: l) = .ok (.scalar v :: l) := by
  induction n with
  | zero => rfl
  | succ n ih => rw [List.replicate_succ, List.cons_append, skipMarks]; exact ih

theorem loadSdict_err {i : Nat} {f : SpecFile} (h : Parses f) {e : Exn} (he : loadSdict i f = .error e) : isErr e = true := by
  unfold loadSdict at he
  rcases h with h | ⟨n, vals, rest, h, hl⟩
  · rw [h] at he
    cases he
    rfl
  · rw [h] at he
    cases vals with
    | nil => simp at hl
    | cons v vals =>
      dsimp only at he
      rw [List.append_assoc, List.map_cons, List.cons_append, skipMarks_replicate] at he
      dsimp only at he
      split at he
      · next e' hk =>
        cases he
        exact readKeys_err 3 (v :: vals) rest ⟨none, none, none⟩ (by decide) hl e hk
      · cases he

theorem AtMost.zero {n : Nat} {P : SpecFile → Prop} {d : List SpecFile} : AtMost n P d → True := fun _ => trivial

theorem AtMost.mono {n : Nat} {P : SpecFile → Prop} {f : SpecFile} {d : List SpecFile} (h : AtMost n P (f :: d)) : AtMost n P d :=
  fun l hl hP => h l (hl.trans (List.sublist_cons_self f d)) hP

theorem AtMost.hit {n : Nat} {P : SpecFile → Prop} {f : SpecFile} {d : List SpecFile} (h : AtMost n P (f :: d)) (hf : P f) :
    1 ≤ n ∧ AtMost (n - 1) P d := by
  have h1 : 1 ≤ n := h [f] (by simp) (by simpa using hf)
  refine ⟨h1, fun l hl hP => ?_⟩
  have := h (f :: l) (hl.cons_cons f) (by simpa using ⟨hf, hP⟩)
  simp only [List.length_cons] at this
  omega

theorem scanFiles_works {i : Nat} {fs : List SpecFile} : ∀ {a b c : Nat} {d : Dict PyStr SDict},
    b ≤ 32 → AtMost (32 - b) (fun f => ¬(".yml".toList <:+ f.name ∨ ".yaml".toList <:+ f.name)) fs →
    c ≤ 4 → AtMost (4 - c) (fun f => (".yml".toList <:+ f.name ∨ ".yaml".toList <:+ f.name) ∧ ∀ s, ¬Describes (i, f) s) fs →
    a ≤ 256 → AtMost (256 - a) (fun f => ∃ s, Describes (i, f) s) fs → (∀ f ∈ fs, Parses f) →
    ∃ r, scanFiles i fs a b c d = .ok r := by
  induction fs with
  | nil => intros; exact ⟨_, rfl⟩
  | cons f fs ih =>
    intro a b c d hb Hb hc Hc ha Ha hp
    have hp' : ∀ g ∈ fs, Parses g := fun g hg => hp g (List.mem_cons_of_mem _ hg)
    unfold scanFiles
    split
    · next hy =>
      have hy : ¬(".yml".toList <:+ f.name ∨ ".yaml".toList <:+ f.name) := by
        rw [← isYaml_iff]
        simpa using hy
      obtain ⟨h1, h2⟩ := Hb.hit hy
      rw [if_neg (by omega)]
      exact ih (by omega) (by rw [show 32 - (b + 1) = 32 - b - 1 by omega]; exact h2) hc Hc.mono ha Ha.mono hp'
    · next hy =>
      have hy' : isYaml f.name = true := by simpa using hy
      have hy := (isYaml_iff f.name).1 hy'
      split
      · next e he =>
        have herr := loadSdict_err (hp f List.mem_cons_self) he
        rw [if_pos herr]
        obtain ⟨h1, h2⟩ := Hc.hit ⟨hy, fun s hs => by
          have := ((describes_iff _ _).1 hs).2
          dsimp only at this
          rw [he] at this
          cases this⟩
        rw [if_neg (by omega)]
        exact ih hb Hb.mono (by omega) (by rw [show 4 - (c + 1) = 4 - c - 1 by omega]; exact h2) ha Ha.mono hp'
      · next s hs =>
        obtain ⟨h1, h2⟩ := Ha.hit ⟨s, (describes_iff _ _).2 ⟨hy', hs⟩⟩
        rw [if_neg (by omega)]
        exact ih hb Hb.mono hc Hc.mono (by omega) (by rw [show 256 - (a + 1) = 256 - a - 1 by omega]; exact h2) hp'

theorem scanDirs_works {ds : List (List SpecFile)} : ∀ {i : Nat} {d : Dict PyStr SDict},
    (∀ k (h : k < ds.length), Scannable (i + k) ds[k]) → ∃ r, scanDirs i ds d = .ok r := by
  induction ds with
  | nil => intros; exact ⟨_, rfl⟩
  | cons fs ds ih =>
    intro i d h
    unfold scanDirs
    have h0 : Scannable i fs := h 0 (by simp)
    obtain ⟨h1, h2, h3, h4⟩ := h0
    obtain ⟨r, hr⟩ := scanFiles_works (i := i) (a := 0) (b := 0) (c := 0) (d := d) (by omega) h1 (by omega) h2 (by omega) h3 h4
    rw [hr]
    refine ih fun k hk => ?_
    have := h (k + 1) (by simpa using hk)
    rw [show i + 1 + k = i + (k + 1) by omega]
    exact this

/-! ### Register definitions -/

theorem getFdict_spec {dirs : List (List SpecFile)} {fname : PyStr} {fd : Dict PyStr Reg} (h : getFdict dirs fname = .ok fd) :
    ∃ y sfd, FirstFile dirs (fname ++ ".yml".toList) y ∧ formatFdict y = .ok sfd ∧ fd = sfd.map fun p => (p.1, p.2.reg) := by
  induction dirs with
  | nil => cases h
  | cons d dirs ih =>
    unfold getFdict at h
    split at h
    · next hn =>
      obtain ⟨y, sfd, ⟨pre, d', post, f, rfl, h1, h2⟩, h3⟩ := ih h
      refine ⟨y, sfd, ⟨d :: pre, d', post, f, rfl, ?_, h2⟩, h3⟩
      intro e he g hg
      rcases List.mem_cons.1 he with rfl | he
      · have := List.find?_eq_none.1 hn g hg
        simpa using this
      · exact h1 e he g hg
    · next f hf =>
      split at h
      · cases h
      next y hy =>
      split at h
      · cases h
      next sfd hs =>
      cases h
      exact ⟨y, sfd, ⟨[], d, dirs, f, rfl, by simp, List.mem_of_find?_eq_some hf,
        by simpa using List.find?_some hf, hy⟩, hs, rfl⟩

theorem get?_map_reg {sfd : Dict PyStr SpecReg} {n : PyStr} {R : Reg}
    (h : Dict.get? (sfd.map fun p => (p.1, p.2.reg)) n = some R) : ∃ S, (n, S) ∈ sfd ∧ R = S.reg := by
  have := Dict.mem_of_get? h
  obtain ⟨⟨n', S⟩, h1, h2⟩ := List.mem_map.1 this
  cases h2
  exact ⟨S, h1, rfl⟩

theorem Each.mem {α β : Type} {R : α → β → Prop} : ∀ {as : List α} {bs : List β}, Each R as bs → ∀ b ∈ bs, ∃ a ∈ as, R a b
  | [], [], _, b, hb => nomatch hb
  | a :: as, b' :: bs, h, b, hb => by
    rcases List.mem_cons.1 hb with rfl | hb
    · exact ⟨a, List.mem_cons_self, h.1⟩
    · obtain ⟨x, hx, hr⟩ := Each.mem h.2 b hb
      exact ⟨x, List.mem_cons_of_mem _ hx, hr⟩

theorem find?_name {d : List SpecFile} {f : SpecFile} (hn : (d.map SpecFile.name).Nodup) (hf : f ∈ d) :
    d.find? (fun g => g.name == f.name) = some f := by
  induction d with
  | nil => cases hf
  | cons g d ih =>
    have hn' := List.nodup_cons.1 (show (g.name :: d.map SpecFile.name).Nodup from hn)
    rcases List.mem_cons.1 hf with rfl | hf
    · rw [List.find?_cons_of_pos (by simp)]
    · rw [List.find?_cons_of_neg, ih hn'.2 hf]
      intro h
      have h : g.name = f.name := by simpa using h
      exact hn'.1 (h ▸ List.mem_map.2 ⟨f, hf, rfl⟩)

theorem getFdict_complete {dirs : List (List SpecFile)} {fname : PyStr} {y : Yaml} {sfd : Dict PyStr SpecReg}
    (hn : ∀ d ∈ dirs, (d.map SpecFile.name).Nodup) (hy : FirstFile dirs (fname ++ ".yml".toList) y)
    (hf : formatFdict y = .ok sfd) : getFdict dirs fname = .ok (sfd.map fun p => (p.1, p.2.reg)) := by
  obtain ⟨pre, d, post, f, rfl, h1, h2, h3, h4⟩ := hy
  induction pre with
  | nil =>
    rw [List.nil_append, getFdict, ← h3, find?_name (hn d List.mem_cons_self) h2]
    dsimp only
    rw [h4]
    dsimp only
    rw [hf]
  | cons e pre ih =>
    rw [List.cons_append, getFdict]
    have : e.find? (fun g => g.name == fname ++ ".yml".toList) = none := by
      rw [List.find?_eq_none]
      intro g hg
      simpa using h1 e List.mem_cons_self g hg
    rw [this]
    exact ih (fun d hd => hn d (List.mem_cons_of_mem _ hd)) fun d hd => h1 d (List.mem_cons_of_mem _ hd)

/-- A named element is found, if the names are different. -/
theorem Each.get? {α β : Type} {nm : α → PyStr} {P : α → PyStr × β → Prop} (hP : ∀ a b, P a b → b.1 = nm a) :
    ∀ {as : List α} {bs : Dict PyStr β}, Each P as bs → (as.map nm).Nodup → ∀ a ∈ as,
      ∃ b, Dict.get? bs (nm a) = some b ∧ P a (nm a, b)
  | [], [], _, _, a, ha => nomatch ha
  | a' :: as, (n, b) :: bs, h, hn, a, ha => by
    have hn' := List.nodup_cons.1 (show (nm a' :: as.map nm).Nodup from hn)
    have hb : n = nm a' := hP a' (n, b) h.1
    subst hb
    rcases List.mem_cons.1 ha with rfl | ha
    · exact ⟨b, by rw [Dict.get?, if_pos rfl], h.1⟩
    · obtain ⟨b', h1, h2⟩ := Each.get? hP h.2 hn'.2 a ha
      refine ⟨b', ?_, h2⟩
      rw [Dict.get?, if_neg, h1]
      intro e
      exact hn'.1 (e ▸ List.mem_map.2 ⟨a, ha, rfl⟩)

theorem get?_map_some {sfd : Dict PyStr SpecReg} {n : PyStr} {S : SpecReg} (h : sfd.get? n = some S) :
    Dict.get? (sfd.map fun p => (p.1, p.2.reg)) n = some S.reg := by
  induction sfd with
  | nil => cases h
  | cons p sfd ih =>
    obtain ⟨k, v⟩ := p
    rw [List.map_cons, Dict.get?]
    rw [Dict.get?] at h
    split at h
    · next e => cases h; rw [if_pos e]
    · next e => rw [if_neg e]; exact ih h

/-! ### Reading the package number -/

theorem readPackage_ok {M : Machine} (hM : M.WF) {m : Mem} (hm : m.Words) {dirs : List (List SpecFile)} {fid : Nat}
    {a : PyStr} {d : Mdmap} {p : Nat} :
    readPackage M.kernel m dirs fid a = .ok (d, p) ↔ buildMdmap (M.kernel.dump m (a, fid)) = .ok d ∧
      ∃ fd R F, getFdict dirs kInfo = .ok fd ∧ fd.get? "TPMI_BUS_INFO".toList = some R ∧
        R.fields.get? "PACKAGE_ID".toList = some F ∧ RegShown (M.lay (a, fid)) 0 R ∧
        p = getBitfield F (regVal m (a, fid) 0 R) := by
  unfold readPackage
  generalize "TPMI_BUS_INFO".toList = tbi
  generalize "PACKAGE_ID".toList = pid
  obtain ⟨d', hd', -⟩ := buildMdmap_mapOf hM m (a, fid)
  rw [hd']
  dsimp only
  constructor
  · intro h
    split at h
    · cases h
    next fd hfd =>
    split at h
    · cases h
    next q hq =>
    cases h
    refine ⟨rfl, fd, ?_⟩
    have hR : ∃ R, fd.get? tbi = some R := by
      cases hR : fd.get? tbi with
      | some R => exact ⟨R, rfl⟩
      | none =>
        unfold readReg getReg infoEnv at hq
        dsimp only at hq
        rw [hR] at hq
        cases hq
    obtain ⟨R, hR⟩ := hR
    have hG : getReg (infoEnv fid fd) kInfo tbi = .ok R := by
      unfold getReg infoEnv
      dsimp only
      rw [hR]
    have hs : RegShown (M.lay (a, fid)) 0 R := by
      apply Classical.byContradiction
      intro hn
      obtain ⟨e, he⟩ := readReg_err hM (E := infoEnv fid fd) hG hm hn (some pid)
      rw [he] at hq
      cases hq
    have hF : ∃ F, R.fields.get? pid = some F := by
      cases hF : R.fields.get? pid with
      | some F => exact ⟨F, rfl⟩
      | none =>
        exfalso
        have h0 := readReg_ok hM (E := infoEnv fid fd) hm hG hs
        unfold readReg at h0 hq
        rw [hG] at h0 hq
        dsimp only at h0 hq
        split at h0
        · cases h0
        next md hmd =>
        rw [hmd] at hq
        dsimp only at hq
        split at h0
        · cases h0
        next lo hlo =>
        rw [hlo] at hq
        dsimp only at hq
        split at h0
        · cases h0
        next v hv =>
        rw [hv] at hq
        unfold getField at hq
        dsimp only at hq
        rw [hF] at hq
        cases hq
    obtain ⟨F, hF⟩ := hF
    have hF' : getField R pid = .ok F := by unfold getField; rw [hF]
    rw [readReg_field _ _ _ _ _ _ _ _ hG hF', readReg_ok hM (E := infoEnv fid fd) hm hG hs] at hq
    cases hq
    exact ⟨R, F, hfd, hR, hF, hs, rfl⟩
  · rintro ⟨h, fd, R, F, hfd, hR, hF, hs, rfl⟩
    cases h
    rw [hfd]
    dsimp only
    have hG : getReg (infoEnv fid fd) kInfo tbi = .ok R := by
      unfold getReg infoEnv
      dsimp only
      rw [hR]
    have hF' : getField R pid = .ok F := by unfold getField; rw [hF]
    rw [readReg_field _ _ _ _ _ _ _ _ hG hF', readReg_ok hM (E := infoEnv fid fd) hm hG hs]
    rfl

/-! ### The whole -/

theorem discover_ok {W : Type} {K : Kernel W} {w : W} {dirs : List (List SpecFile)} {root : Root} {D : Found}
    (h : discover K w dirs root = .ok D) :
    ∃ devs s, tpmiDirs root = .ok devs ∧ buildSdicts dirs = .ok D.sdicts ∧ D.sdicts.get? kInfo = some s ∧
      (∃ l, (collect (fid2fname D.sdicts) devs [] []).1.get? kInfo = some l) ∧
      addFeatures K w dirs s.fid.toNat (collect (fid2fname D.sdicts) devs [] []).1 ⟨[(kInfo, [])], [], []⟩ = .ok D.maps ∧
      D.unknown = (collect (fid2fname D.sdicts) devs [] []).2 := by
  unfold discover at h
  split at h
  · cases h
  next devs hdevs =>
  split at h
  · cases h
  next sd hsd =>
  unfold buildFmaps at h
  dsimp only at h
  split at h
  · cases h
  split at h
  · cases h
  next hk =>
  split at h
  · cases h
  next s hs =>
  split at h
  · cases h
  next M hM =>
  cases h
  refine ⟨devs, s, hdevs, hsd, hs, ?_, hM, rfl⟩
  cases hc : (collect (fid2fname sd) devs [] []).1.get? kInfo with
  | some l => exact ⟨l, rfl⟩
  | none => rw [hc] at hk; exact absurd rfl hk

theorem lists_nil : Lists [] := ⟨List.nodup_nil, fun _ _ h => nomatch h⟩

theorem init_inv {W : Type} (K : Kernel W) (w : W) (dirs : List (List SpecFile)) (i : Nat) :
    MInv K w dirs i ⟨[(kInfo, [])], [], []⟩ := by
  have hp : ∀ f a, Maps.pkg ⟨[(kInfo, [])], [], []⟩ f a = none := by
    intro f a
    unfold Maps.pkg
    dsimp only
    by_cases h : kInfo = f
    · subst h
      rw [show Dict.get? [(kInfo, ([] : Dict PyStr Nat))] kInfo = some [] by rw [Dict.get?, if_pos rfl]]
      rfl
    · rw [show Dict.get? [(kInfo, ([] : Dict PyStr Nat))] f = none by rw [Dict.get?, if_neg h]; rfl]
      rfl
  refine ⟨?_, ?_, ?_, ?_, ?_, ?_, List.nodup_nil, ?_, ?_, ?_⟩
  · exact List.nodup_cons.2 ⟨(fun h => nomatch h), List.nodup_nil⟩
  · intro f fm hf
    have := Dict.mem_of_get? hf
    cases List.mem_singleton.1 this
    exact List.nodup_nil
  · exact List.mem_singleton.2 rfl
  · intro f a p h; rw [hp] at h; cases h
  · intro a p h; rw [hp] at h; cases h
  · intro f a d h; cases h
  · intro p a
    rw [hp]
    constructor
    · intro h; cases h
    · intro h; cases h
  · intro p l h; cases h
  · rw [show Dict.get? [(kInfo, ([] : Dict PyStr Nat))] kInfo = some [] by rw [Dict.get?, if_pos rfl]]
    rfl

theorem Found.package?_eq (D : Found) (f a : PyStr) : D.package? f a = D.maps.pkg f a := by
  unfold Found.package? Maps.pkg
  cases D.maps.fmaps.get? f <;> rfl

end Verif.Tpmi
