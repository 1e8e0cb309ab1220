import Verif.Props.YamlLoadSpec
import Verif.Lemmas.CPUIdle

/-! Lemmas for C107. -/

namespace Verif.YamlLoad

/-! ### Dictionaries -/

section
variable {κ β : Type} [DecidableEq κ]

theorem set_set (d : Dict κ β) (k : κ) (v w : β) : Dict.set (Dict.set d k v) k w = Dict.set d k w := by
  induction d with
  | nil => simp [Dict.set]
  | cons p d ih =>
    obtain ⟨a, b⟩ := p
    by_cases h : a = k
    · subst h; simp [Dict.set]
    · simp [Dict.set, h, ih]

theorem set_comm_of_mem (d : Dict κ β) (k b : κ) (v w : β) (hk : k ∈ Dict.keys d) (hn : b ≠ k) :
    Dict.set (Dict.set d b w) k v = Dict.set (Dict.set d k v) b w := by
  induction d with
  | nil => simp [Dict.keys] at hk
  | cons p d ih =>
    obtain ⟨a, x⟩ := p
    by_cases h : a = k
    · subst h
      simp [Dict.set, Ne.symm hn]
    · have hk' : k ∈ Dict.keys d := by
        simp only [Dict.keys, List.map_cons, List.mem_cons] at hk
        rcases hk with hk | hk
        · exact absurd hk.symm h
        · exact hk
      by_cases hb : a = b
      · subst hb
        simp [Dict.set, h]
      · simp [Dict.set, h, hb, ih hk']

theorem set_of_not_mem (d : Dict κ β) (k : κ) (v : β) (hk : k ∉ Dict.keys d) : Dict.set d k v = d ++ [(k, v)] := by
  induction d with
  | nil => rfl
  | cons p d ih =>
    obtain ⟨a, x⟩ := p
    simp only [Dict.keys, List.map_cons, List.mem_cons, not_or] at hk
    have : ¬ a = k := fun h => hk.1 h.symm
    simp only [Dict.set, if_neg this, ih hk.2, List.cons_append]

theorem set_of_mem (d : Dict κ β) (k : κ) (v : β) (hd : (Dict.keys d).Nodup) (hk : k ∈ Dict.keys d) :
    ∃ A B w, d = A ++ (k, w) :: B ∧ Dict.set d k v = A ++ (k, v) :: B ∧ k ∉ Dict.keys B := by
  induction d with
  | nil => simp [Dict.keys] at hk
  | cons p d ih =>
    obtain ⟨a, x⟩ := p
    simp only [Dict.keys, List.map_cons, List.nodup_cons] at hd
    by_cases h : a = k
    · subst h
      exact ⟨[], d, x, rfl, by simp [Dict.set], hd.1⟩
    · simp only [Dict.keys, List.map_cons, List.mem_cons] at hk
      rcases hk with hk | hk
      · exact absurd hk.symm h
      · obtain ⟨A, B, w, h1, h2, h3⟩ := ih hd.2 hk
        exact ⟨(a, x) :: A, B, w, by rw [h1]; rfl, by simp only [Dict.set, if_neg h, h2, List.cons_append], h3⟩
end

theorem update_cons (d : Dict PyStr Val) (k : PyStr) (v : Val) (l : List (PyStr × Val)) :
    update d ((k, v) :: l) = update (Dict.set d k v) l := rfl

theorem update_append (d : Dict PyStr Val) (a b : List (PyStr × Val)) : update d (a ++ b) = update (update d a) b := by
  unfold update; rw [List.foldl_append]

theorem update_snoc (d : Dict PyStr Val) (l : List (PyStr × Val)) (k : PyStr) (v : Val) :
    update d (l ++ [(k, v)]) = Dict.set (update d l) k v := by rw [update_append]; rfl

theorem mem_keys_update {d : Dict PyStr Val} {k : PyStr} (l : List (PyStr × Val)) (h : k ∈ Dict.keys d) :
    k ∈ Dict.keys (update d l) := by
  induction l generalizing d with
  | nil => exact h
  | cons p l ih =>
    obtain ⟨a, b⟩ := p
    rw [update_cons]
    exact ih (by rw [Dict.mem_keys_set]; simp [h])

theorem nodup_update {d : Dict PyStr Val} (l : List (PyStr × Val)) (h : (Dict.keys d).Nodup) : (Dict.keys (update d l)).Nodup := by
  induction l generalizing d with
  | nil => exact h
  | cons p l ih => exact ih (Dict.nodup_keys_set h _ _)

theorem set_update (B : List (PyStr × Val)) (k : PyStr) (v : Val) : ∀ (d : Dict PyStr Val), k ∉ Dict.keys B → k ∈ Dict.keys d →
    Dict.set (update d B) k v = update (Dict.set d k v) B := by
  induction B with
  | nil => intro d _ _; rfl
  | cons p B ih =>
    obtain ⟨a, x⟩ := p
    intro d hB hd
    simp only [Dict.keys, List.map_cons, List.mem_cons, not_or] at hB
    rw [update_cons, ih _ hB.2 (by rw [Dict.mem_keys_set]; simp [hd]), update_cons, set_comm_of_mem d k a v x hd (fun h => hB.1 h.symm)]

/-- Updating with a dictionary is the same as updating with its pairs one after the other. -/
theorem update_update (d : Dict PyStr Val) (l : List (PyStr × Val)) : update d (update [] l) = update d l := by
  suffices h : ∀ (r : List (PyStr × Val)), update d (update [] r.reverse) = update d r.reverse by
    have := h l.reverse
    rwa [List.reverse_reverse] at this
  intro r
  induction r with
  | nil => rfl
  | cons p r ih =>
    obtain ⟨k, v⟩ := p
    rw [List.reverse_cons, update_snoc, update_snoc, ← ih]
    have hnd : (Dict.keys (update [] r.reverse)).Nodup := nodup_update _ (by simp [Dict.keys])
    generalize update [] r.reverse = D at hnd
    by_cases hk : k ∈ Dict.keys D
    · obtain ⟨A, B, w, h1, h2, h3⟩ := set_of_mem D k v hnd hk
      rw [h2, h1, update_append, update_append, update_cons, update_cons]
      rw [set_update B k v _ h3 (by rw [Dict.mem_keys_set]; simp), set_set]
    · rw [set_of_not_mem D k v hk, update_snoc]

theorem update_of_nodup (l : List (PyStr × Val)) : ∀ d : Dict PyStr Val, (Dict.keys (d ++ l)).Nodup → update d l = d ++ l := by
  induction l with
  | nil => intro d _; simp [update]
  | cons p l ih =>
    obtain ⟨k, v⟩ := p
    intro d h
    rw [update_cons, set_of_not_mem d k v ?_, ih]
    · simp
    · simpa using h
    · intro hk
      simp only [Dict.keys, List.map_append, List.map_cons] at h
      exact (List.nodup_append.1 h).2.2 k hk k (by simp) rfl

theorem mem_update {l : List (PyStr × Val)} {kv : PyStr × Val} : ∀ {d : Dict PyStr Val}, kv ∈ update d l → kv ∈ d ∨ kv ∈ l := by
  induction l with
  | nil => intro d h; exact Or.inl h
  | cons p l ih =>
    obtain ⟨k, v⟩ := p
    intro d h
    have hset : ∀ (d : Dict PyStr Val), kv ∈ Dict.set d k v → kv ∈ d ∨ kv = (k, v) := by
      intro d
      induction d with
      | nil => intro h; simp [Dict.set] at h; exact Or.inr h
      | cons q d ih2 =>
        obtain ⟨a, b⟩ := q
        intro h
        unfold Dict.set at h
        split at h
        · rcases List.mem_cons.1 h with h | h
          · exact Or.inr h
          · exact Or.inl (List.mem_cons_of_mem _ h)
        · rcases List.mem_cons.1 h with h | h
          · exact Or.inl (by rw [h]; simp)
          · rcases ih2 h with h | h
            · exact Or.inl (List.mem_cons_of_mem _ h)
            · exact Or.inr h
    rcases ih h with h | h
    · rcases hset d h with h | h
      · exact Or.inl h
      · exact Or.inr (by rw [h]; simp)
    · exact Or.inr (List.mem_cons_of_mem _ h)

/-- The dictionary of pairs is what the specification says. -/
theorem isDictOf_update (l : List (PyStr × Val)) : IsDictOf (update [] l) l := by
  suffices h : ∀ (r : List (PyStr × Val)), IsDictOf (update [] r.reverse) r.reverse by
    have := h l.reverse
    rwa [List.reverse_reverse] at this
  intro r
  induction r with
  | nil => exact ⟨by simp [update, Dict.keys], fun k => by simp [update]⟩
  | cons p r ih =>
    obtain ⟨a, v⟩ := p
    rw [List.reverse_cons, update_snoc]
    refine ⟨?_, fun k => ?_⟩
    · rw [Dict.keys_set, ih.1]
      simp only [List.map_append, List.map_cons, List.map_nil, List.eraseDups_append, List.mem_eraseDups]
      by_cases h : a ∈ List.map Prod.fst r.reverse
      · have : ([a] : List PyStr).removeAll (List.map Prod.fst r.reverse) = [] := by
          unfold List.removeAll
          rw [List.filter_cons_of_neg (by simpa using h)]; rfl
        rw [if_pos h, this]; simp
      · have : ([a] : List PyStr).removeAll (List.map Prod.fst r.reverse) = [a] := by
          unfold List.removeAll
          rw [List.filter_cons_of_pos (by simpa using h)]; rfl
        rw [if_neg h, this]; rfl
    · rw [Dict.get?_set, ih.2 k]
      simp only [List.reverse_append, List.reverse_cons, List.reverse_nil, List.nil_append, List.singleton_append]
      rw [List.find?_cons]
      by_cases h : a = k <;> simp [h]

/-! ### Include keys -/

theorem filter_incl {k : PyStr} (h : k = "include".toList) (l : List PyStr) :
    (k :: l).filter (· ≠ "include".toList) = l.filter (· ≠ "include".toList) := by
  refine List.filter_cons_of_neg ?_
  rw [decide_eq_true_iff]
  exact fun hn => hn h

theorem filter_plain {k : PyStr} (h : k ≠ "include".toList) (l : List PyStr) :
    (k :: l).filter (· ≠ "include".toList) = k :: l.filter (· ≠ "include".toList) := by
  refine List.filter_cons_of_pos ?_
  rw [decide_eq_true_iff]
  exact h

theorem include_not_reserved : reserved "include".toList = false := by decide

theorem renamed_reserved (n : Nat) : reserved ("include_".toList ++ PyStr.ofNat n) = true := by
  unfold reserved; rw [List.isPrefixOf_iff_prefix]; exact List.prefix_append _ _

theorem reserved_iff (k : PyStr) : reserved k = true ↔ "include_".toList <+: k := by
  unfold reserved; exact List.isPrefixOf_iff_prefix

/-- The pairs of a file and the ones with numbered include keys. -/
inductive Ren : List (PyStr × Val) → List (PyStr × Val) → Prop
  | nil : Ren [] []
  | plain {k v l r} : k ≠ "include".toList → reserved k = false → Ren l r → Ren ((k, v) :: l) ((k, v) :: r)
  | incl {k v l r} : reserved k = true → Ren l r → Ren (("include".toList, v) :: l) ((k, v) :: r)

theorem rename_ren {l r : List (PyStr × Val)} : ∀ {n : Nat}, rename n l = .ok r → Ren l r := by
  induction l generalizing r with
  | nil => intro n h; cases h; exact .nil
  | cons p l ih =>
    obtain ⟨k, v⟩ := p
    intro n h
    unfold rename at h
    split at h
    · next hk =>
      split at h
      · exact nomatch h
      · next hr => cases h; subst hk; exact .incl (renamed_reserved n) (ih hr)
    · next hk =>
      split at h
      · exact nomatch h
      · next hres =>
        split at h
        · exact nomatch h
        · next hr => cases h; exact .plain hk (eq_false_of_ne_true hres) (ih hr)

theorem rename_ok {l : List (PyStr × Val)} (h : ∀ kv ∈ l, reserved kv.1 = false) : ∀ n, ∃ r, rename n l = .ok r := by
  induction l with
  | nil => intro n; exact ⟨[], rfl⟩
  | cons p l ih =>
    obtain ⟨k, v⟩ := p
    intro n
    have ih := ih fun kv hkv => h kv (List.mem_cons_of_mem _ hkv)
    unfold rename
    split
    · obtain ⟨r, hr⟩ := ih (n + 1)
      rw [hr]; exact ⟨_, rfl⟩
    · have := h (k, v) (by simp)
      dsimp only at this
      rw [this]
      obtain ⟨r, hr⟩ := ih n
      rw [hr]; exact ⟨_, rfl⟩

/-- The keys of the renamed pairs: the ordinary ones and numbered ones. -/
theorem rename_keys {l r : List (PyStr × Val)} : ∀ {n : Nat}, rename n l = .ok r →
    ∀ k ∈ r.map Prod.fst, (k ∈ (l.map Prod.fst).filter (· ≠ "include".toList) ∧ reserved k = false) ∨
      ∃ m, n ≤ m ∧ k = "include_".toList ++ PyStr.ofNat m := by
  induction l generalizing r with
  | nil => intro n h; cases h; simp
  | cons p l ih =>
    obtain ⟨k, v⟩ := p
    intro n h
    unfold rename at h
    split at h
    · next hk =>
      split at h
      · exact nomatch h
      · next r' hr =>
        cases h
        intro x hx
        rw [List.map_cons, List.mem_cons] at hx
        rcases hx with hx | hx
        · exact Or.inr ⟨n, Nat.le_refl _, hx⟩
        · rcases ih hr x hx with h | ⟨m, h1, h2⟩
          · refine Or.inl ⟨?_, h.2⟩
            rw [List.map_cons, filter_incl hk]
            exact h.1
          · exact Or.inr ⟨m, by omega, h2⟩
    · next hk =>
      split at h
      · exact nomatch h
      · next hres =>
        split at h
        · exact nomatch h
        · next r' hr =>
          cases h
          intro x hx
          rw [List.map_cons, List.mem_cons] at hx
          rw [List.map_cons, filter_plain hk]
          rcases hx with hx | hx
          · rw [hx]; exact Or.inl ⟨List.mem_cons_self, eq_false_of_ne_true hres⟩
          · rcases ih hr x hx with h | h
            · exact Or.inl ⟨List.mem_cons_of_mem _ h.1, h.2⟩
            · exact Or.inr h

theorem ofNat_inj {a b : Nat} (h : PyStr.ofNat a = PyStr.ofNat b) : a = b := CPUIdle.ofNat_inj h

/-- The keys of the renamed pairs are distinct if the ordinary ones are. -/
theorem rename_nodup {l r : List (PyStr × Val)} : ∀ {n : Nat}, rename n l = .ok r → Clean l → (r.map Prod.fst).Nodup := by
  induction l generalizing r with
  | nil => intro n h _; cases h; exact List.nodup_nil
  | cons p l ih =>
    obtain ⟨k, v⟩ := p
    intro n h hc
    unfold Clean at hc
    rw [List.map_cons] at hc
    unfold rename at h
    split at h
    · next hk =>
      split at h
      · exact nomatch h
      · next r' hr =>
        cases h
        rw [filter_incl hk] at hc
        rw [List.map_cons, List.nodup_cons]
        refine ⟨fun hm => ?_, ih hr hc⟩
        rcases rename_keys hr _ hm with h | ⟨m, h1, h2⟩
        · have h3 := renamed_reserved n
          rw [h.2] at h3
          exact nomatch h3
        · have := ofNat_inj (List.append_cancel_left h2)
          omega
    · next hk =>
      split at h
      · exact nomatch h
      · next hres =>
        split at h
        · exact nomatch h
        · next r' hr =>
          cases h
          rw [filter_plain hk, List.nodup_cons] at hc
          rw [List.map_cons, List.nodup_cons]
          refine ⟨fun hm => ?_, ih hr hc.2⟩
          rcases rename_keys hr _ hm with h | ⟨m, h1, h2⟩
          · exact hc.1 h.1
          · refine hres ?_
            dsimp only at h2
            rw [h2]; exact renamed_reserved m

theorem construct_clean {l : List (PyStr × Val)} {d : Dict PyStr Val} (hc : Clean l) (h : construct l = .ok d) : Ren l d := by
  unfold construct at h
  split at h
  · exact nomatch h
  · next r hr =>
    cases h
    rw [update_of_nodup r [] (rename_nodup hr hc)]
    exact rename_ren hr

theorem construct_ok {l : List (PyStr × Val)} (h : ∀ kv ∈ l, reserved kv.1 = false) : ∃ d, construct l = .ok d := by
  obtain ⟨r, hr⟩ := rename_ok h 0
  exact ⟨update [] r, by unfold construct; rw [hr]⟩

theorem ren_mem {l r : List (PyStr × Val)} (h : Ren l r) : ∀ k v, (k, v) ∈ r → reserved k = true → ("include".toList, v) ∈ l := by
  induction h with
  | nil => intro k v h; exact nomatch h
  | plain hk hr _ ih =>
    intro k v h hres
    rcases List.mem_cons.1 h with h | h
    · cases h; rw [hr] at hres; exact nomatch hres
    · exact List.mem_cons_of_mem _ (ih k v h hres)
  | incl hr _ ih =>
    intro k v h hres
    rcases List.mem_cons.1 h with h | h
    · cases h; exact List.mem_cons_self
    · exact List.mem_cons_of_mem _ (ih k v h hres)

/-! ### Paths -/

theorem resolve_iff (dir : Option YPath) (p q : YPath) : resolve dir p = some q ↔ Resolves dir p q := by
  unfold resolve
  constructor
  · intro h
    split at h
    · next ha => cases h; exact .abs dir p ha
    · next ha =>
      cases dir with
      | none => exact nomatch h
      | some d => cases h; exact .rel d p (eq_false_of_ne_true ha)
  · intro h
    cases h with
    | abs _ _ ha => rw [if_pos ha]
    | rel d _ ha => rw [if_neg (by rw [ha]; exact Bool.false_ne_true)]; rfl

theorem resolves_inj {dir : Option YPath} {p q q' : YPath} (h : Resolves dir p q) (h' : Resolves dir p q') : q = q' :=
  Option.some.inj (((resolve_iff dir p q).2 h).symm.trans ((resolve_iff dir p q').2 h'))

/-! ### Loading -/

/-- What the loop does is the expansion. -/
theorem entries_sound (fs : YPath → Except Exn Doc) (rec : YPath → List YPath → Res)
    (hrec : ∀ q inc r inc', rec q inc = some (.ok (r, inc')) → ∃ d pairs out new, fs q = .ok d ∧ pairsOf d = some pairs ∧
      Expand fs (some q.parent) pairs out new ∧ r = update [] out ∧ inc' = inc ++ new ∧ (inc.Nodup → inc'.Nodup))
    (dir : Option YPath) {l r : List (PyStr × Val)} (hren : Ren l r) : ∀ (res d : Dict PyStr Val) (inc inc' : List YPath),
    entries rec dir r res inc = some (.ok (d, inc')) →
    ∃ out new, Expand fs dir l out new ∧ d = update res out ∧ inc' = inc ++ new ∧ (inc.Nodup → inc'.Nodup) := by
  induction hren with
  | nil =>
    intro res d inc inc' h
    cases h
    exact ⟨[], [], .nil dir, rfl, by simp, id⟩
  | @plain k v l r hk hres _ ih =>
    intro res d inc inc' h
    unfold entries at h
    rw [hres] at h
    obtain ⟨out, new, h1, h2, h3, h4⟩ := ih _ _ _ _ h
    refine ⟨(k, v) :: out, new, .plain hk ?_ h1, h2, h3, h4⟩
    rw [← reserved_iff, hres]; exact Bool.false_ne_true
  | @incl k v l r hres _ ih =>
    intro res d inc inc' h
    unfold entries at h
    rw [hres] at h
    rw [if_neg (by decide)] at h
    cases hkind : kind v with
    | ignored =>
      rw [hkind] at h
      obtain ⟨out, new, h1, h2, h3, h4⟩ := ih _ _ _ _ h
      exact ⟨out, new, .skip hkind h1, h2, h3, h4⟩
    | bad => rw [hkind] at h; exact nomatch h
    | path p =>
      rw [hkind] at h
      dsimp only at h
      cases hq : resolve dir p with
      | none => rw [hq] at h; exact nomatch h
      | some q =>
        rw [hq] at h
        dsimp only at h
        by_cases hin : q ∈ inc
        · rw [if_pos hin] at h; exact nomatch h
        · rw [if_neg hin] at h
          cases hr : rec q (inc ++ [q]) with
          | none => rw [hr] at h; exact nomatch h
          | some x =>
            rw [hr] at h
            cases x with
            | error e => exact nomatch h
            | ok y =>
              obtain ⟨d1, inc1⟩ := y
              dsimp only at h
              obtain ⟨c, pairs, out1, new1, k1, k2, k3, k4, k5, k6⟩ := hrec _ _ _ _ hr
              obtain ⟨out, new, h1, h2, h3, h4⟩ := ih _ _ _ _ h
              refine ⟨out1 ++ out, q :: (new1 ++ new), .file hkind ((resolve_iff _ _ _).1 hq) k1 k2 k3 h1, ?_, ?_, ?_⟩
              · rw [h2, k4, update_update, update_append]
              · rw [h3, k5]; simp
              · intro hnd
                refine h4 (k6 ?_)
                rw [List.nodup_append]
                refine ⟨hnd, by simp, ?_⟩
                intro a ha b hb hab
                rw [List.mem_singleton] at hb
                exact hin (by rw [← hb, ← hab]; exact ha)

theorem doc_sound (fs : YPath → Except Exn Doc) (rec : YPath → List YPath → Res)
    (hrec : ∀ q inc r inc', rec q inc = some (.ok (r, inc')) → ∃ d pairs out new, fs q = .ok d ∧ pairsOf d = some pairs ∧
      Expand fs (some q.parent) pairs out new ∧ r = update [] out ∧ inc' = inc ++ new ∧ (inc.Nodup → inc'.Nodup))
    (dir : Option YPath) (c : Except Exn Doc) (hclean : ∀ l, c = .ok (.map l) → Clean l) (inc inc' : List YPath) (d : Dict PyStr Val)
    (h : doc rec dir c inc = some (.ok (d, inc'))) :
    ∃ x pairs out new, c = .ok x ∧ pairsOf x = some pairs ∧ Expand fs dir pairs out new ∧ d = update [] out ∧ inc' = inc ++ new ∧
      (inc.Nodup → inc'.Nodup) := by
  unfold doc at h
  split at h
  · exact nomatch h
  · cases h; exact ⟨.falsy, [], [], [], rfl, rfl, .nil dir, rfl, by simp, id⟩
  · exact nomatch h
  · next pairs =>
    split at h
    · exact nomatch h
    · next x hx =>
      obtain ⟨out, new, h1, h2, h3, h4⟩ := entries_sound fs rec hrec dir (construct_clean (hclean pairs rfl) hx) _ _ _ _ h
      exact ⟨.map pairs, pairs, out, new, rfl, rfl, h1, h2, h3, h4⟩

theorem load_sound (fs : YPath → Except Exn Doc) (hclean : CleanFiles fs) (n : Nat) :
    ∀ q inc r inc', load fs n q inc = some (.ok (r, inc')) → ∃ d pairs out new, fs q = .ok d ∧ pairsOf d = some pairs ∧
      Expand fs (some q.parent) pairs out new ∧ r = update [] out ∧ inc' = inc ++ new ∧ (inc.Nodup → inc'.Nodup) := by
  induction n with
  | zero => intro q inc r inc' h; exact nomatch h
  | succ n ih =>
    intro q inc r inc' h
    exact doc_sound fs (load fs n) ih (some q.parent) (fs q) (fun l hl => hclean q l hl) inc inc' r h

theorem expand_reserved {fs : YPath → Except Exn Doc} {dir : Option YPath} {l out : List (PyStr × Val)} {inc : List YPath}
    (h : Expand fs dir l out inc) : ∀ kv ∈ l, reserved kv.1 = false := by
  induction h with
  | nil => intro kv h; exact nomatch h
  | plain hk hr _ ih =>
    intro kv h
    rcases List.mem_cons.1 h with h | h
    · rw [h]
      refine eq_false_of_ne_true fun hc => hr ((reserved_iff _).1 hc)
    · exact ih kv h
  | skip _ _ ih =>
    intro kv h
    rcases List.mem_cons.1 h with h | h
    · rw [h]; exact include_not_reserved
    · exact ih kv h
  | file _ _ _ _ _ _ _ ih =>
    intro kv h
    rcases List.mem_cons.1 h with h | h
    · rw [h]; exact include_not_reserved
    · exact ih kv h

/-- The loop finds every expansion which has no file twice. -/
theorem entries_complete (fs : YPath → Except Exn Doc) (hclean : CleanFiles fs) {dir : Option YPath} {l out : List (PyStr × Val)}
    {new : List YPath} (h : Expand fs dir l out new) : ∃ n, ∀ m, n ≤ m → ∀ r, Ren l r → ∀ res inc, (inc ++ new).Nodup →
    entries (load fs m) dir r res inc = some (.ok (update res out, inc ++ new)) := by
  induction h with
  | nil =>
    refine ⟨0, fun m _ r hr res inc _ => ?_⟩
    cases hr
    simp [entries, update]
  | plain hk hres _ ih =>
    obtain ⟨n, hn⟩ := ih
    refine ⟨n, fun m hm r hr res inc hnd => ?_⟩
    cases hr with
    | plain _ hres' hr' =>
      unfold entries
      rw [hres']
      exact hn m hm _ hr' _ _ hnd
    | incl _ _ => exact absurd rfl hk
  | skip hkind _ ih =>
    obtain ⟨n, hn⟩ := ih
    refine ⟨n, fun m hm r hr res inc hnd => ?_⟩
    cases hr with
    | plain hk _ _ => exact absurd rfl hk
    | incl hres' hr' =>
      unfold entries
      rw [hres']
      rw [if_neg (by decide), hkind]
      exact hn m hm _ hr' _ _ hnd
  | @file dir v l out inc2 p q d pairs out1 inc1 hkind hq hfs hd hexp _ ih1 ih2 =>
    obtain ⟨n1, hn1⟩ := ih1
    obtain ⟨n2, hn2⟩ := ih2
    refine ⟨n1 + n2 + 1, fun m hm r hr res inc hnd => ?_⟩
    cases hr with
    | plain hk _ _ => exact absurd rfl hk
    | incl hres' hr' =>
      have hnd' : (((inc ++ [q]) ++ inc1) ++ inc2).Nodup := by
        have : ((inc ++ [q]) ++ inc1) ++ inc2 = inc ++ (q :: (inc1 ++ inc2)) := by simp
        rw [this]; exact hnd
      have hin : q ∉ inc := by
        intro hin
        exact (List.nodup_append.1 hnd).2.2 q hin q (by simp) rfl
      have hload : load fs m q (inc ++ [q]) = some (.ok (update [] out1, (inc ++ [q]) ++ inc1)) := by
        obtain ⟨k, rfl⟩ : ∃ k, m = k + 1 := ⟨m - 1, by omega⟩
        unfold load doc
        rw [hfs]
        cases d with
        | falsy =>
          cases hd
          cases hexp
          simp [update]
        | other => exact nomatch hd
        | map pairs' =>
          cases hd
          dsimp only
          obtain ⟨x, hx⟩ := construct_ok (expand_reserved hexp)
          rw [hx]
          exact hn1 k (by omega) x (construct_clean (hclean q _ hfs) hx) [] _ (List.nodup_append.1 hnd').1
      unfold entries
      rw [hres']
      rw [if_neg (by decide), hkind]
      dsimp only
      rw [(resolve_iff _ _ _).2 hq]
      dsimp only
      rw [if_neg hin, hload]
      dsimp only
      rw [hn2 m (by omega) _ hr' _ _ hnd', update_update, update_append]
      simp

/-- There is at most one expansion. -/
theorem expand_unique {fs : YPath → Except Exn Doc} {dir : Option YPath} {l out : List (PyStr × Val)} {inc : List YPath}
    (h : Expand fs dir l out inc) : ∀ {out' inc'}, Expand fs dir l out' inc' → out' = out ∧ inc' = inc := by
  induction h with
  | nil => intro out' inc' h; cases h; exact ⟨rfl, rfl⟩
  | plain hk hr _ ih =>
    intro out' inc' h
    cases h with
    | plain _ _ h => obtain ⟨h1, h2⟩ := ih h; subst h1 h2; exact ⟨rfl, rfl⟩
    | skip _ _ => exact absurd rfl hk
    | file _ _ _ _ _ _ => exact absurd rfl hk
  | skip hkind _ ih =>
    intro out' inc' h
    cases h with
    | plain hk _ _ => exact absurd rfl hk
    | skip _ h => exact ih h
    | file hkind' _ _ _ _ _ => rw [hkind] at hkind'; exact nomatch hkind'
  | file hkind hq hfs hd _ _ ih1 ih2 =>
    intro out' inc' h
    cases h with
    | plain hk _ _ => exact absurd rfl hk
    | skip hkind' _ => rw [hkind] at hkind'; exact nomatch hkind'
    | file hkind' hq' hfs' hd' h1 h2 =>
      rw [hkind] at hkind'
      cases hkind'
      have := resolves_inj hq hq'
      subst this
      rw [hfs] at hfs'
      cases hfs'
      rw [hd] at hd'
      cases hd'
      obtain ⟨e1, e2⟩ := ih1 h1
      obtain ⟨e3, e4⟩ := ih2 h2
      subst e1 e2 e3 e4
      exact ⟨rfl, rfl⟩

/-- More depth does not change the result. -/
theorem entries_mono (rec rec' : YPath → List YPath → Res) (hrec : ∀ q inc x, rec q inc = some x → rec' q inc = some x)
    (dir : Option YPath) : ∀ (l : List (PyStr × Val)) (res : Dict PyStr Val) (inc : List YPath) x,
    entries rec dir l res inc = some x → entries rec' dir l res inc = some x := by
  intro l
  induction l with
  | nil => intro res inc x h; exact h
  | cons kv l ih =>
    obtain ⟨k, v⟩ := kv
    intro res inc x h
    unfold entries at h ⊢
    split
    · next hc => rw [if_pos hc] at h; exact ih _ _ _ h
    · next hc =>
      rw [if_neg hc] at h
      cases hkind : kind v with
      | ignored => rw [hkind] at h; exact ih _ _ _ h
      | bad => rw [hkind] at h; exact h
      | path p =>
        rw [hkind] at h
        dsimp only at h ⊢
        cases hq : resolve dir p with
        | none => rw [hq] at h; exact h
        | some q =>
          rw [hq] at h
          dsimp only at h ⊢
          by_cases hin : q ∈ inc
          · rw [if_pos hin] at h ⊢; exact h
          · rw [if_neg hin] at h ⊢
            cases hr : rec q (inc ++ [q]) with
            | none => rw [hr] at h; exact nomatch h
            | some y =>
              rw [hr] at h
              rw [hrec _ _ _ hr]
              cases y with
              | error e => exact h
              | ok z => exact ih _ _ _ h

theorem doc_mono (rec rec' : YPath → List YPath → Res) (hrec : ∀ q inc x, rec q inc = some x → rec' q inc = some x)
    (dir : Option YPath) (c : Except Exn Doc) (inc : List YPath) (x) (h : doc rec dir c inc = some x) : doc rec' dir c inc = some x := by
  unfold doc at h ⊢
  split at h
  · exact h
  · exact h
  · exact h
  · split at h
    · exact h
    · exact entries_mono rec rec' hrec dir _ _ _ _ h

theorem load_mono (fs : YPath → Except Exn Doc) (n : Nat) : ∀ q inc x, load fs n q inc = some x → load fs (n + 1) q inc = some x := by
  induction n with
  | zero => intro q inc x h; exact nomatch h
  | succ n ih => intro q inc x h; exact doc_mono _ _ ih _ _ _ _ h

theorem loadTop_mono (fs : YPath → Except Exn Doc) (n m : Nat) (hm : n ≤ m) (s : Src) (x) (h : loadTop fs n s = some x) :
    loadTop fs m s = some x := by
  induction m with
  | zero => obtain rfl : n = 0 := by omega
            exact h
  | succ m ih =>
    by_cases hnm : n = m + 1
    · subst hnm; exact h
    · have hi := ih (by omega)
      unfold loadTop at hi ⊢
      cases hd : doc (load fs m) s.dir (s.contents fs) [] with
      | none => rw [hd] at hi; exact nomatch hi
      | some y => rw [hd] at hi; rw [doc_mono _ _ (load_mono fs m) _ _ _ _ hd]; exact hi

/-- A dictionary is given by its keys and its values. -/
theorem dict_ext {a b : Dict PyStr Val} (hn : (Dict.keys a).Nodup) (hk : Dict.keys a = Dict.keys b)
    (hg : ∀ k, Dict.get? a k = Dict.get? b k) : a = b := by
  induction a generalizing b with
  | nil =>
    cases b with
    | nil => rfl
    | cons _ _ => exact nomatch hk
  | cons p a ih =>
    cases b with
    | nil => exact nomatch hk
    | cons q b =>
      obtain ⟨k, v⟩ := p
      obtain ⟨k', v'⟩ := q
      simp only [Dict.keys, List.map_cons, List.cons.injEq, List.nodup_cons] at hk hn
      obtain ⟨h1, h2⟩ := hk
      subst h1
      have hv := hg k
      simp only [Dict.get?, if_true, Option.some.injEq] at hv
      subst hv
      refine congrArg _ (ih hn.2 h2 fun x => ?_)
      by_cases hx : k = x
      · subst hx
        rw [(Dict.get?_eq_none_iff a k).2 hn.1, (Dict.get?_eq_none_iff b k).2 (by unfold Dict.keys; rw [← h2]; exact hn.1)]
      · have := hg x
        simpa only [Dict.get?, if_neg hx] using this

theorem isDictOf_iff (d : Dict PyStr Val) (l : List (PyStr × Val)) : IsDictOf d l ↔ d = update [] l := by
  constructor
  · intro h
    have h' := isDictOf_update l
    have hk : Dict.keys d = Dict.keys (update [] l) := h.1.trans h'.1.symm
    refine dict_ext ?_ hk fun k => (h.2 k).trans (h'.2 k).symm
    rw [hk]; exact nodup_update l (by simp [Dict.keys])
  · intro h; rw [h]; exact isDictOf_update l

/-! ### Termination -/

theorem length_le_of_subset {a b : List YPath} (ha : a.Nodup) (h : ∀ n ∈ a, n ∈ b) : a.length ≤ b.length := by
  induction a generalizing b with
  | nil => simp
  | cons x a ih =>
    rw [List.nodup_cons] at ha
    have hx : x ∈ b := h x (by simp)
    have := ih (b := b.erase x) ha.2 (fun n hn => (List.mem_erase_of_ne (fun e => ha.1 (by rw [← e]; exact hn))).2 (h n (by simp [hn])))
    rw [List.length_erase_of_mem hx] at this
    have : 0 < b.length := List.length_pos_of_mem hx
    simp only [List.length_cons]
    omega

/-- The invariant of the paths which were included. -/
def Good (S inc : List YPath) : Prop := inc.Nodup ∧ ∀ q ∈ inc, q ∈ S

theorem entries_total (S : List YPath) (rec : YPath → List YPath → Res) (n : Nat)
    (hrec : ∀ q inc, q ∈ S → Good S inc → S.length + 1 ≤ n + inc.length →
      rec q inc ≠ none ∧ ∀ d inc', rec q inc = some (.ok (d, inc')) → Good S inc' ∧ inc.length ≤ inc'.length)
    (dir : Option YPath) : ∀ (l : List (PyStr × Val)) (res : Dict PyStr Val) (inc : List YPath),
    (∀ k v p q, (k, v) ∈ l → reserved k = true → kind v = .path p → Resolves dir p q → q ∈ S) → Good S inc →
    S.length ≤ n + inc.length →
    entries rec dir l res inc ≠ none ∧
      ∀ d inc', entries rec dir l res inc = some (.ok (d, inc')) → Good S inc' ∧ inc.length ≤ inc'.length := by
  intro l
  induction l with
  | nil =>
    intro res inc _ hg _
    refine ⟨(nomatch ·), fun d inc' h => ?_⟩
    cases h; exact ⟨hg, Nat.le_refl _⟩
  | cons kv l ih =>
    obtain ⟨k, v⟩ := kv
    intro res inc hcl hg hn
    have hcl' : ∀ k v p q, (k, v) ∈ l → reserved k = true → kind v = .path p → Resolves dir p q → q ∈ S :=
      fun k v p q h => hcl k v p q (List.mem_cons_of_mem _ h)
    unfold entries
    cases hres : reserved k with
    | false => exact ih _ _ hcl' hg hn
    | true =>
      rw [if_neg (by decide)]
      cases hkind : kind v with
      | ignored => exact ih _ _ hcl' hg hn
      | bad => exact ⟨(nomatch ·), fun d inc' h => nomatch h⟩
      | path p =>
        dsimp only
        cases hq : resolve dir p with
        | none => exact ⟨(nomatch ·), fun d inc' h => nomatch h⟩
        | some q =>
          dsimp only
          by_cases hin : q ∈ inc
          · rw [if_pos hin]; exact ⟨(nomatch ·), fun d inc' h => nomatch h⟩
          · rw [if_neg hin]
            have hqS : q ∈ S := hcl k v p q (by simp) hres hkind ((resolve_iff _ _ _).1 hq)
            have hg' : Good S (inc ++ [q]) := by
              refine ⟨?_, ?_⟩
              · rw [List.nodup_append]
                refine ⟨hg.1, by simp, ?_⟩
                intro a ha b hb hab
                rw [List.mem_singleton] at hb
                exact hin (by rw [← hb, ← hab]; exact ha)
              · intro x hx
                rcases List.mem_append.1 hx with hx | hx
                · exact hg.2 x hx
                · rw [List.mem_singleton] at hx; rw [hx]; exact hqS
            obtain ⟨r1, r2⟩ := hrec q (inc ++ [q]) hqS hg' (by simp; omega)
            cases hr : rec q (inc ++ [q]) with
            | none => exact absurd hr r1
            | some x =>
              cases x with
              | error e => exact ⟨(nomatch ·), fun d inc' h => nomatch h⟩
              | ok y =>
                obtain ⟨d1, inc1⟩ := y
                obtain ⟨g1, g2⟩ := r2 d1 inc1 hr
                dsimp only
                simp only [List.length_append, List.length_singleton] at g2
                obtain ⟨t1, t2⟩ := ih (update res d1) inc1 hcl' g1 (by omega)
                refine ⟨t1, fun d inc' h => ?_⟩
                obtain ⟨u1, u2⟩ := t2 d inc' h
                exact ⟨u1, by omega⟩

theorem construct_mem {l : List (PyStr × Val)} {d : Dict PyStr Val} (h : construct l = .ok d) :
    ∀ k v, (k, v) ∈ d → reserved k = true → ("include".toList, v) ∈ l := by
  unfold construct at h
  split at h
  · exact nomatch h
  · next r hr =>
    cases h
    intro k v hm hres
    rcases mem_update hm with h | h
    · exact nomatch h
    · exact ren_mem (rename_ren hr) k v h hres

theorem doc_total (S : List YPath) (rec : YPath → List YPath → Res) (n : Nat)
    (hrec : ∀ q inc, q ∈ S → Good S inc → S.length + 1 ≤ n + inc.length →
      rec q inc ≠ none ∧ ∀ d inc', rec q inc = some (.ok (d, inc')) → Good S inc' ∧ inc.length ≤ inc'.length)
    (dir : Option YPath) (c : Except Exn Doc) (inc : List YPath) (hcl : ∀ l, c = .ok (.map l) → Closed S dir l) (hg : Good S inc)
    (hn : S.length ≤ n + inc.length) :
    doc rec dir c inc ≠ none ∧ ∀ d inc', doc rec dir c inc = some (.ok (d, inc')) → Good S inc' ∧ inc.length ≤ inc'.length := by
  unfold doc
  split
  · exact ⟨(nomatch ·), fun d inc' h => nomatch h⟩
  · refine ⟨(nomatch ·), fun d inc' h => ?_⟩
    cases h; exact ⟨hg, Nat.le_refl _⟩
  · exact ⟨(nomatch ·), fun d inc' h => nomatch h⟩
  · next pairs =>
    split
    · exact ⟨(nomatch ·), fun d inc' h => nomatch h⟩
    · next x hx =>
      refine entries_total S rec n hrec dir x [] inc (fun k v p q hm hres hk hq => ?_) hg hn
      exact hcl pairs rfl v p q (construct_mem hx k v hm hres) hk hq

theorem load_total (fs : YPath → Except Exn Doc) (S : List YPath) (hS : ClosedFiles fs S) (n : Nat) :
    ∀ q inc, q ∈ S → Good S inc → S.length + 1 ≤ n + inc.length →
      load fs n q inc ≠ none ∧ ∀ d inc', load fs n q inc = some (.ok (d, inc')) → Good S inc' ∧ inc.length ≤ inc'.length := by
  induction n with
  | zero =>
    intro q inc _ hg hn
    have := length_le_of_subset hg.1 hg.2
    omega
  | succ n ih =>
    intro q inc hq hg hn
    exact doc_total S (load fs n) n ih (some q.parent) (fs q) inc (fun l hl => hS q l hq hl) hg (by omega)

end Verif.YamlLoad
