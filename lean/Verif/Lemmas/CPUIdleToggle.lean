import Verif.Lemmas.CPUIdle

/-!
Lemmas about the CPUIdle model: toggling C-states.
-/

namespace Verif.CPUIdle

/-- The file name. -/
def dis : PyStr := "disable".toList

/-- What is written. -/
def data (enable : Bool) : PyStr := if enable then ['0'] else ['1']

theorem dis_ne_name : dis ≠ "name".toList := by decide

theorem dis_mem : dis ∈ fnames := by decide

theorem shows_data (enable : Bool) : Shows (data enable) (.bool (!enable)) := by
  refine Or.inr ⟨!enable, rfl, ?_⟩
  cases enable <;> rfl

theorem reads_data (enable : Bool) : ∃ v, Reads (data enable) v := by
  cases enable
  · exact ⟨.num 1, Or.inl ⟨1, by decide +kernel, rfl⟩⟩
  · exact ⟨.num 0, Or.inl ⟨0, by decide +kernel, rfl⟩⟩

/-! ### Files -/

theorem content_some {files : List File} (W : WF files) (c i : Nat) (k s : PyStr) :
    content files c i k = some s ↔ Has files c i k s := by
  unfold content
  constructor
  · intro h
    cases hf : files.find? (fun f => f.cpu == c && f.idx == i && f.fname == k) with
    | none => rw [hf] at h; cases h
    | some f =>
      rw [hf] at h
      injection h with h
      have h1 := List.find?_some hf
      have h2 := List.mem_of_find?_eq_some hf
      simp only [Bool.and_eq_true, beq_iff_eq] at h1
      obtain ⟨⟨rfl, rfl⟩, rfl⟩ := h1
      subst h
      exact h2
  · intro h
    cases hf : files.find? (fun f => f.cpu == c && f.idx == i && f.fname == k) with
    | none =>
      have := List.find?_eq_none.1 hf _ h
      simp at this
    | some f =>
      have h1 := List.find?_some hf
      have h2 := List.mem_of_find?_eq_some hf
      simp only [Bool.and_eq_true, beq_iff_eq] at h1
      obtain ⟨⟨rfl, rfl⟩, rfl⟩ := h1
      rw [W.uniq _ _ _ _ _ h (has_self files f h2)]
      rfl

theorem has_setContent (files : List File) (c i : Nat) (k v : PyStr) (hex : ∃ s, Has files c i k s)
    (c' i' : Nat) (k' s : PyStr) : Has (setContent files c i k v) c' i' k' s ↔
      if c' = c ∧ i' = i ∧ k' = k then s = v else Has files c' i' k' s := by
  unfold Has setContent
  rw [List.mem_map]
  by_cases h : c' = c ∧ i' = i ∧ k' = k
  · rw [if_pos h]
    obtain ⟨rfl, rfl, rfl⟩ := h
    constructor
    · rintro ⟨f, hf, e⟩
      by_cases hk : (f.cpu == c' && f.idx == i' && f.fname == k') = true
      · rw [if_pos hk] at e
        injection e with _ _ _ e
        exact e.symm
      · rw [if_neg hk] at e
        subst e
        simp at hk
    · rintro rfl
      obtain ⟨s, hs⟩ := hex
      exact ⟨_, hs, by simp⟩
  · rw [if_neg h]
    constructor
    · rintro ⟨f, hf, e⟩
      by_cases hk : (f.cpu == c && f.idx == i && f.fname == k) = true
      · rw [if_pos hk] at e
        simp only [Bool.and_eq_true, beq_iff_eq] at hk
        injection e with e1 e2 e3
        exact absurd ⟨e1 ▸ hk.1.1, e2 ▸ hk.1.2, e3 ▸ hk.2⟩ h
      · rw [if_neg hk] at e
        rw [← e]; exact hf
    · intro hf
      refine ⟨_, hf, ?_⟩
      rw [if_neg]
      simp only [Bool.and_eq_true, beq_iff_eq]
      exact fun e => h ⟨e.1.1, e.1.2, e.2⟩

/-- The files differ in the "disable" file of state `i` of CPU `c`, which has `v`. -/
def Upd1 (files fl : List File) (c i : Nat) (v : PyStr) : Prop :=
  (∃ s, Has files c i dis s) ∧
  ∀ c' i' k s, Has fl c' i' k s ↔ if c' = c ∧ i' = i ∧ k = dis then s = v else Has files c' i' k s

theorem Upd1.other {files fl : List File} {c i : Nat} {v : PyStr} (h : Upd1 files fl c i v) {c' i' : Nat}
    {k s : PyStr} (hne : ¬ (c' = c ∧ i' = i ∧ k = dis)) : Has fl c' i' k s ↔ Has files c' i' k s := by
  rw [h.2, if_neg hne]

theorem Upd1.name {files fl : List File} {c i : Nat} {v : PyStr} (h : Upd1 files fl c i v) {c' i' : Nat}
    {s : PyStr} : Has fl c' i' "name".toList s ↔ Has files c' i' "name".toList s :=
  h.other (fun e => dis_ne_name e.2.2.symm)

theorem Upd1.self {files fl : List File} {c i : Nat} {v : PyStr} (h : Upd1 files fl c i v) :
    Has fl c i dis v := by
  rw [h.2, if_pos ⟨rfl, rfl, rfl⟩]

theorem Upd1.ex {files fl : List File} {c i : Nat} {v : PyStr} (h : Upd1 files fl c i v) {c' i' : Nat}
    {k : PyStr} : (∃ s, Has fl c' i' k s) ↔ ∃ s, Has files c' i' k s := by
  by_cases e : c' = c ∧ i' = i ∧ k = dis
  · obtain ⟨rfl, rfl, rfl⟩ := e
    exact ⟨fun _ => h.1, fun _ => ⟨v, h.self⟩⟩
  · simp only [h.other e]

theorem Upd1.wf {files fl : List File} {c i : Nat} {enable : Bool} (h : Upd1 files fl c i (data enable))
    (W : WF files) : WF fl := by
  have hcomp : ∀ f ∈ fl, ∃ f' ∈ files, f'.cpu = f.cpu ∧ f'.idx = f.idx := by
    intro f hf
    obtain ⟨s, hs⟩ := h.ex.1 ⟨f.content, has_self fl f hf⟩
    exact ⟨_, hs, rfl, rfl⟩
  have htwo : ∀ g ∈ files, ∃ g' ∈ fl, g'.cpu = g.cpu ∧ g'.idx = g.idx := by
    intro f hf
    obtain ⟨s, hs⟩ := h.ex.2 ⟨f.content, has_self files f hf⟩
    exact ⟨_, hs, rfl, rfl⟩
  constructor
  · intro c' i' k s s' h1 h2
    rw [h.2] at h1 h2
    by_cases e : c' = c ∧ i' = i ∧ k = dis
    · rw [if_pos e] at h1 h2; rw [h1, h2]
    · rw [if_neg e] at h1 h2; exact W.uniq _ _ _ _ _ h1 h2
  · intro f hf k hk
    obtain ⟨f', hf', e1, e2⟩ := hcomp f hf
    rw [h.ex, ← e1, ← e2]
    exact W.complete f' hf' k hk
  · intro f hf hk
    have hf := (h.2 _ _ _ _).1 (has_self fl f hf)
    by_cases e : f.cpu = c ∧ f.idx = i ∧ f.fname = dis
    · rw [if_pos e] at hf
      rw [hf]
      exact reads_data enable
    · rw [if_neg e] at hf
      exact W.plain _ hf hk
  · intro f hf hk
    have hf := has_self fl f hf
    rw [hk] at hf
    exact W.names ⟨f.cpu, f.idx, "name".toList, f.content⟩ (h.name.1 hf) rfl
  · intro c' i' j a b ha hb he
    exact W.distinct _ _ _ _ _ (h.name.1 ha) (h.name.1 hb) he
  · intro f hf
    obtain ⟨f', hf', e1, e2⟩ := hcomp f hf
    obtain ⟨⟨g0, a1, a2, a3⟩, g1, b1, b2, b3⟩ := W.two f' hf'
    obtain ⟨g0', a1', a2', a3'⟩ := htwo g0 a1
    obtain ⟨g1', b1', b2', b3'⟩ := htwo g1 b1
    exact ⟨⟨g0', a1', by rw [a2', a2, e1], by rw [a3', a3]⟩, g1', b1', by rw [b2', b2, e1], by rw [b3', b3]⟩

theorem toggle_spec (E : Env) (c i : Nat) (enable : Bool) (s : St) (G : Good s) :
    (∃ e, toggle E c i enable s = (s, .error e)) ∨
    (∃ fl, toggle E c i enable s = (⟨fl, s.cache⟩, .ok ()) ∧ Upd1 s.files fl c i (data enable)) := by
  unfold toggle
  cases hcont : content s.files c i "disable".toList with
  | none => exact Or.inl ⟨_, rfl⟩
  | some old =>
    have hold := (content_some G.wf _ _ _ _).1 hcont
    have hdata : (if enable = true then ['0'] else ['1']) = data enable := by cases enable <;> rfl
    simp only [hdata]
    cases hk : E.kern c i (data enable) with
    | refused => exact Or.inl ⟨_, rfl⟩
    | ignored =>
      simp only [hcont]
      by_cases e : old = data enable
      · right
        refine ⟨s.files, ?_, ⟨old, hold⟩, ?_⟩
        · rw [if_pos (by rw [e])]
        · intro c' i' k x
          by_cases h : c' = c ∧ i' = i ∧ k = dis
          · rw [if_pos h]
            obtain ⟨rfl, rfl, rfl⟩ := h
            constructor
            · intro hx; rw [← e]; exact G.wf.uniq _ _ _ _ _ hx hold
            · rintro rfl; rw [← e]; exact hold
          · rw [if_neg h]
      · left
        exact ⟨.error, by rw [if_neg (by simpa using e)]⟩
    | stored =>
      right
      have hU : Upd1 s.files (setContent s.files c i "disable".toList (data enable)) c i (data enable) :=
        ⟨⟨old, hold⟩, has_setContent _ _ _ _ _ ⟨old, hold⟩⟩
      refine ⟨_, ?_, hU⟩
      dsimp only
      rw [if_pos ((content_some (hU.wf G.wf) c i "disable".toList _).2 hU.self)]

/-- The write succeeds when the kernel takes it. -/
theorem toggle_succeeds (E : Env) (c i : Nat) (enable : Bool) (s : St) (G : Good s)
    (hex : ∃ x, Has s.files c i dis x) (hk : E.kern c i (data enable) = .stored) :
    (toggle E c i enable s).2 = .ok () := by
  obtain ⟨old, hold⟩ := hex
  have hdata : (if enable = true then ['0'] else ['1']) = data enable := by cases enable <;> rfl
  have hU : Upd1 s.files (setContent s.files c i "disable".toList (data enable)) c i (data enable) :=
    ⟨⟨old, hold⟩, has_setContent _ _ _ _ _ ⟨old, hold⟩⟩
  unfold toggle
  simp only [(content_some G.wf c i "disable".toList old).2 hold, hdata, hk]
  rw [if_pos ((content_some (hU.wf G.wf) c i "disable".toList _).2 hU.self)]

/-! ### The cache -/

theorem Upd1.describes_other {files fl : List File} {c i : Nat} {v : PyStr} (h : Upd1 files fl c i v)
    {c' i' : Nat} (hne : ¬ (c' = c ∧ i' = i)) {st : CState} (hd : Describes files c' i' st) :
    Describes fl c' i' st := by
  refine ⟨hd.1, hd.2.1, ?_⟩
  intro k hk
  obtain ⟨s, v', h1, h2⟩ := hd.2.2 k hk
  exact ⟨s, v', (h.other (fun e => hne ⟨e.1, e.2.1⟩)).2 h1, h2⟩

theorem Upd1.describes_self {files fl : List File} {c i : Nat} {enable : Bool}
    (h : Upd1 files fl c i (data enable)) {st : CState} (hd : Describes files c i st) :
    Describes fl c i { st with attrs := st.attrs.set dis (.bool (!enable)) } := by
  refine ⟨hd.1, ?_, ?_⟩
  · simp only [Dict.keys_set]
    rw [if_pos (by rw [hd.2.1]; exact dis_mem)]
    exact hd.2.1
  · intro k hk
    by_cases e : k = dis
    · subst e
      exact ⟨_, _, h.self, shows_data enable, Dict.get?_set_self ..⟩
    · obtain ⟨s, v', h1, h2, h3⟩ := hd.2.2 k hk
      refine ⟨s, v', (h.other (fun e' => e e'.2.2)).2 h1, h2, ?_⟩
      simp only [Dict.get?_set_ne _ _ (fun h => e h.symm)]
      exact h3

theorem mark_good {E : Env} (hE : E.cacheOn = true) {s : St} (G : Good s) {fl : List File} {c i : Nat}
    {enable : Bool} (h : Upd1 s.files fl c i (data enable)) {name : PyStr} {ci : CsInfo}
    (hc : s.cache c = some ci) (hn : ∃ nm, Has s.files c i "name".toList nm ∧ name = upper nm) :
    ∃ s', markCached E c name enable ⟨fl, s.cache⟩ = (s', .ok ()) ∧ s'.files = fl ∧ Good s' ∧
      (∀ c', (s'.cache c').isSome ↔ (s.cache c').isSome) := by
  have T := G.cache c ci hc
  obtain ⟨nm, hnm, rfl⟩ := hn
  obtain ⟨st, hst, hd⟩ := T.2 i nm trivial hnm
  have hcg : cacheGet E ⟨fl, s.cache⟩ c = .ok ci := by rw [cacheGet_on hE]; simp only [hc]
  refine ⟨cacheAdd E ⟨fl, s.cache⟩ c (ci.set (upper nm) { st with attrs := st.attrs.set dis (.bool (!enable)) }),
    ?_, by rw [cacheAdd_on hE], ?_, ?_⟩
  · simp only [markCached, hcg, hst]
    rfl
  · rw [cacheAdd_on hE]
    refine ⟨h.wf G.wf, ?_⟩
    intro c' ci' hc'
    simp only at hc' ⊢
    by_cases e : c' = c
    · subst e
      rw [EP.upd_self] at hc'
      injection hc' with hc'
      subst hc'
      refine ⟨?_, ?_⟩
      · intro n st' hs
        rw [Dict.get?_set] at hs
        split at hs
        · next e =>
          have e : upper nm = n := by simpa using e
          injection hs with hs
          subst hs
          exact ⟨i, nm, trivial, h.name.2 hnm, e.symm, h.describes_self hd⟩
        · next e =>
          have e : ¬ upper nm = n := by simpa using e
          obtain ⟨j, nm', _, h1, h2, h3⟩ := T.1 n st' hs
          refine ⟨j, nm', trivial, h.name.2 h1, h2, h.describes_other ?_ h3⟩
          rintro ⟨_, rfl⟩
          rw [G.wf.uniq _ _ _ _ _ hnm h1] at e
          exact e h2.symm
      · intro j nm' _ hj
        have hj := h.name.1 hj
        by_cases e : j = i
        · subst e
          rw [G.wf.uniq _ _ _ _ _ hj hnm]
          exact ⟨_, Dict.get?_set_self .., h.describes_self hd⟩
        · obtain ⟨st', h1, h2⟩ := T.2 j nm' trivial hj
          refine ⟨st', ?_, h.describes_other (fun e' => e e'.2) h2⟩
          rw [Dict.get?_set_ne _ _ (fun h' => e (G.wf.distinct _ _ _ _ _ hj hnm h'.symm))]
          exact h1
    · rw [EP.upd_ne _ _ e] at hc'
      have T' := G.cache c' ci' hc'
      refine ⟨?_, ?_⟩
      · intro n st' hs
        obtain ⟨j, nm', _, h1, h2, h3⟩ := T'.1 n st' hs
        exact ⟨j, nm', trivial, h.name.2 h1, h2, h.describes_other (fun e' => e e'.1) h3⟩
      · intro j nm' _ hj
        obtain ⟨st', h1, h2⟩ := T'.2 j nm' trivial (h.name.1 hj)
        exact ⟨st', h1, h.describes_other (fun e' => e e'.1) h2⟩
  · intro c'
    rw [cacheAdd_on hE]
    simp only
    by_cases e : c' = c
    · subst e
      rw [EP.upd_self, hc]
      simp
    · rw [EP.upd_ne _ _ e]

/-! ### Sequences of changes -/

/-- Only "disable" files of the C-states `T` changed, the new contents are `v`. -/
def Tog (files fl : List File) (T : Nat → Nat → Prop) (v : PyStr) : Prop :=
  (∀ c i k x, ¬ (T c i ∧ k = dis) → (Has fl c i k x ↔ Has files c i k x)) ∧
  (∀ c i x, Has fl c i dis x → Has files c i dis x ∨ x = v) ∧
  (∀ c i, Has files c i dis v → Has fl c i dis v)

theorem Tog.refl (files : List File) (T : Nat → Nat → Prop) (v : PyStr) : Tog files files T v :=
  ⟨fun _ _ _ _ _ => Iff.rfl, fun _ _ _ h => Or.inl h, fun _ _ h => h⟩

theorem Tog.trans {a b c : List File} {T : Nat → Nat → Prop} {v : PyStr} (h1 : Tog a b T v)
    (h2 : Tog b c T v) : Tog a c T v := by
  refine ⟨fun x i k y hn => (h2.1 x i k y hn).trans (h1.1 x i k y hn), ?_, fun x i h => h2.2.2 x i (h1.2.2 x i h)⟩
  intro x i y h
  rcases h2.2.1 x i y h with h | h
  · exact h1.2.1 x i y h
  · exact Or.inr h

theorem Tog.mono {a b : List File} {T T' : Nat → Nat → Prop} {v : PyStr} (h : Tog a b T v)
    (hT : ∀ c i, T c i → T' c i) : Tog a b T' v :=
  ⟨fun x i k y hn => h.1 x i k y (fun e => hn ⟨hT _ _ e.1, e.2⟩), h.2⟩

theorem Tog.name {a b : List File} {T : Nat → Nat → Prop} {v : PyStr} (h : Tog a b T v) {c i : Nat}
    {x : PyStr} : Has b c i "name".toList x ↔ Has a c i "name".toList x :=
  h.1 _ _ _ _ (fun e => dis_ne_name e.2.symm)

theorem Upd1.tog {files fl : List File} {c i : Nat} {v : PyStr} (h : Upd1 files fl c i v) :
    Tog files fl (fun c' i' => c' = c ∧ i' = i) v := by
  refine ⟨fun c' i' k x hn => h.other (fun e => hn ⟨⟨e.1, e.2.1⟩, e.2.2⟩), ?_, ?_⟩
  · intro c' i' x hx
    rw [h.2] at hx
    split at hx
    · exact Or.inr hx
    · exact Or.inl hx
  · intro c' i' hx
    rw [h.2]
    split
    · rfl
    · exact hx

/-- The C-state at `i` on CPU `c` has name `n`. -/
def NameAt (files : List File) (c i : Nat) (n : PyStr) : Prop :=
  ∃ nm, Has files c i "name".toList nm ∧ n = upper nm

theorem toggleStates_spec {E : Env} (hE : E.cacheOn = true) (enable : Bool) (c : Nat) (r : CsInfo) :
    ∀ s, Good s → (s.cache c).isSome → (∀ x ∈ r, NameAt s.files c x.2.index x.1) →
    let o := toggleStates E enable c r s
    Good o.1 ∧ (∀ c', (o.1.cache c').isSome ↔ (s.cache c').isSome) ∧
    Tog s.files o.1.files (fun c' i => c' = c ∧ ∃ x ∈ r, x.2.index = i) (data enable) ∧
    (o.2 = .ok () → ∀ x ∈ r, Has o.1.files c x.2.index dis (data enable)) ∧
    ((∀ x ∈ r, E.kern c x.2.index (data enable) = .stored) → o.2 = .ok ()) := by
  induction r with
  | nil =>
    intro s G _ _
    exact ⟨G, fun _ => Iff.rfl, Tog.refl .., fun _ x hx => (by cases hx), fun _ => rfl⟩
  | cons x r ih =>
    intro s G hc hn
    obtain ⟨name, st⟩ := x
    have hn0 := hn _ (List.mem_cons_self ..)
    obtain ⟨ci, hci⟩ := Option.isSome_iff_exists.1 hc
    rcases toggle_spec E c st.index enable s G with ⟨e, he⟩ | ⟨fl, ht, hU⟩
    · have ho : toggleStates E enable c ((name, st) :: r) s = (s, .error e) := by
        simp only [toggleStates, he]
      rw [ho]
      refine ⟨G, fun _ => Iff.rfl, Tog.refl .., fun h => (by cases h), fun h => ?_⟩
      have := toggle_succeeds E c st.index enable s G (by
        obtain ⟨nm, h1, _⟩ := hn0
        exact G.wf.complete _ h1 _ dis_mem) (h _ (List.mem_cons_self ..))
      rw [he] at this
      cases this
    · obtain ⟨s1, hm, hf1, G1, hc1⟩ := mark_good hE G hU hci hn0
      have ho : toggleStates E enable c ((name, st) :: r) s = toggleStates E enable c r s1 := by
        simp only [toggleStates, ht, hm]
      rw [ho]
      have hT1 : Tog s.files s1.files (fun c' i => c' = c ∧ ∃ x ∈ (name, st) :: r, x.2.index = i)
          (data enable) := by
        rw [hf1]
        exact hU.tog.mono (fun c' i h => ⟨h.1, (name, st), List.mem_cons_self .., h.2.symm⟩)
      obtain ⟨g1, g2, g3, g4, g5⟩ := ih s1 G1 ((hc1 c).2 hc) (by
        intro y hy
        obtain ⟨nm, h1, h2⟩ := hn y (List.mem_cons_of_mem _ hy)
        exact ⟨nm, hT1.name.2 h1, h2⟩)
      refine ⟨g1, fun c' => (g2 c').trans (hc1 c'), ?_, ?_, ?_⟩
      · exact hT1.trans (g3.mono (fun c' i ⟨h1, y, h2, h3⟩ => ⟨h1, y, List.mem_cons_of_mem _ h2, h3⟩))
      · intro h y hy
        rcases List.mem_cons.1 hy with rfl | hy
        · exact g3.2.2 _ _ (by rw [hf1]; exact hU.self)
        · exact g4 h y hy
      · exact fun h => g5 (fun y hy => h y (List.mem_cons_of_mem _ hy))

/-- The C-states found in `ci` under names `ns`, with keys unique. -/
theorem selected_nameAt {files : List File} {c : Nat} {N : PyStr → Prop} {r : CsInfo}
    (hnd : r.keys.Nodup) (h : Selected files c N r) : ∀ x ∈ r, NameAt files c x.2.index x.1 ∧ N x.1 := by
  rintro ⟨n, st⟩ hx
  obtain ⟨h0, i, nm, h1, h2, h3⟩ := h.1 n st (Dict.get?_of_mem hnd hx)
  refine ⟨⟨nm, ?_, h2⟩, h0⟩
  simp only
  rw [h3.1]
  exact h1

theorem pick_nodup (ci : CsInfo) (ns : List PyStr) : ∀ acc r, (Dict.keys acc).Nodup →
    pick ci ns acc = .ok r → (Dict.keys r).Nodup := by
  induction ns with
  | nil =>
    intro acc r ha h
    injection h with h
    subst h
    exact ha
  | cons n ns ih =>
    intro acc r ha h
    unfold pick at h
    split at h
    · cases h
    · exact ih _ _ (Dict.nodup_keys_set ha _ _) h

theorem toggleLoop_list {E : Env} (hE : E.cacheOn = true) (enable : Bool) (ns : List PyStr) (cpus : List Nat) :
    ∀ s, Good s →
    let o := toggleLoop E enable (.list ns) cpus s
    Good o.1 ∧ (∀ c', (o.1.cache c').isSome ↔ (s.cache c').isSome) ∧
    Tog s.files o.1.files (fun c i => c ∈ cpus ∧ ∃ n ∈ ns, NameAt s.files c i n) (data enable) ∧
    ((∃ l, o.2 = .ok l) → ∀ c ∈ cpus, ∀ n ∈ ns, ∃ i, NameAt s.files c i n ∧
      Has o.1.files c i dis (data enable)) ∧
    ((∀ c ∈ cpus, (s.cache c).isSome) → (∀ c ∈ cpus, ∀ n ∈ ns, NameOf s.files c n) →
      (∀ c ∈ cpus, ∀ i n, n ∈ ns → NameAt s.files c i n → E.kern c i (data enable) = .stored) →
      ∃ l, o.2 = .ok l) := by
  induction cpus with
  | nil =>
    intro s G
    exact ⟨G, fun _ => Iff.rfl, Tog.refl .., fun _ c hc => (by cases hc), fun _ _ _ => ⟨[], rfl⟩⟩
  | cons c cpus ih =>
    intro s G
    cases hc : s.cache c with
    | none =>
      have ho : toggleLoop E enable (.list ns) (c :: cpus) s = (s, .error .notFound) := by
        simp only [toggleLoop, cacheGet_on hE, hc]
      rw [ho]
      refine ⟨G, fun _ => Iff.rfl, Tog.refl .., fun ⟨l, h⟩ => (by cases h), fun h => ?_⟩
      have := h c (List.mem_cons_self ..)
      rw [hc] at this
      cases this
    | some ci =>
      have T := G.cache c ci hc
      cases hp : pick ci ns [] with
      | error e =>
        have ho : toggleLoop E enable (.list ns) (c :: cpus) s = (s, .error e) := by
          simp only [toggleLoop, cacheGet_on hE, hc, fixNames, hp]
        rw [ho]
        refine ⟨G, fun _ => Iff.rfl, Tog.refl .., fun ⟨l, h⟩ => (by cases h), fun _ h => ?_⟩
        obtain ⟨r, hr⟩ := (pick_ok_iff T ns).2 (h c (List.mem_cons_self ..))
        rw [hp] at hr
        cases hr
      | ok r =>
        have hsel := pick_table T hp
        have hnd := pick_nodup ci ns [] r (by simp [Dict.keys]) hp
        have hat := selected_nameAt hnd hsel
        obtain ⟨g1, g2, g3, g4, g5⟩ := toggleStates_spec hE enable c r s G (by rw [hc]; rfl)
          (fun x hx => (hat x hx).1)
        have hT : Tog s.files (toggleStates E enable c r s).1.files
            (fun c' i => c' ∈ c :: cpus ∧ ∃ n ∈ ns, NameAt s.files c' i n) (data enable) := by
          refine g3.mono ?_
          rintro c' i ⟨rfl, x, hx, rfl⟩
          exact ⟨List.mem_cons_self .., x.1, (hat x hx).2, (hat x hx).1⟩
        have hrow : ∀ n ∈ ns, ∃ x ∈ r, x.1 = n := by
          intro n hn
          obtain ⟨st, hst⟩ := Option.isSome_iff_exists.1 (hsel.2 n hn)
          exact ⟨_, Dict.mem_of_get? hst, rfl⟩
        cases hts : toggleStates E enable c r s with
        | mk s1 res =>
          rw [hts] at g1 g2 g3 g4 g5 hT
          simp only at g1 g2 g3 g4 g5 hT
          cases res with
          | error e =>
            have ho : toggleLoop E enable (.list ns) (c :: cpus) s = (s1, .error e) := by
              simp only [toggleLoop, cacheGet_on hE, hc, fixNames, hp, hts]
            rw [ho]
            refine ⟨g1, g2, hT, fun ⟨l, h⟩ => (by cases h), fun _ _ hk => ?_⟩
            have := g5 (fun x hx => hk c (List.mem_cons_self ..) _ _ (hat x hx).2 (hat x hx).1)
            cases this
          | ok u =>
            obtain ⟨f1, f2, f3, f4, f5⟩ := ih s1 g1
            have hname : ∀ c' i n, NameAt s1.files c' i n ↔ NameAt s.files c' i n := by
              intro c' i n
              exact exists_congr (fun nm => and_congr hT.name Iff.rfl)
            cases htl : toggleLoop E enable (.list ns) cpus s1 with
            | mk s2 res2 =>
              rw [htl] at f1 f2 f3 f4 f5
              simp only at f1 f2 f3 f4 f5
              have hT2 : Tog s.files s2.files
                  (fun c' i => c' ∈ c :: cpus ∧ ∃ n ∈ ns, NameAt s.files c' i n) (data enable) := by
                refine hT.trans (f3.mono ?_)
                rintro c' i ⟨h1, n, h2, h3⟩
                exact ⟨List.mem_cons_of_mem _ h1, n, h2, (hname _ _ _).1 h3⟩
              have ho : (toggleLoop E enable (.list ns) (c :: cpus) s).1 = s2 ∧
                  ((∃ l, (toggleLoop E enable (.list ns) (c :: cpus) s).2 = .ok l) ↔ ∃ l, res2 = .ok l) := by
                simp only [toggleLoop, cacheGet_on hE, hc, fixNames, hp, hts, htl]
                cases res2 with
                | error e => exact ⟨rfl, ⟨fun ⟨l, h⟩ => (by cases h), fun ⟨l, h⟩ => (by cases h)⟩⟩
                | ok l => exact ⟨rfl, ⟨fun _ => ⟨l, rfl⟩, fun _ => ⟨_, rfl⟩⟩⟩
              dsimp only
              rw [ho.1, ho.2]
              refine ⟨f1, fun c' => (f2 c').trans (g2 c'), hT2, ?_, ?_⟩
              · intro hl c' hc' n hn
                rcases List.mem_cons.1 hc' with rfl | hc'
                · obtain ⟨x, hx, rfl⟩ := hrow n hn
                  exact ⟨x.2.index, (hat x hx).1, f3.2.2 _ _ (g4 rfl x hx)⟩
                · obtain ⟨i, h1, h2⟩ := f4 hl c' hc' n hn
                  exact ⟨i, (hname _ _ _).1 h1, h2⟩
              · intro h1 h2 h3
                refine f5 ?_ ?_ ?_
                · exact fun c' hc' => (g2 c').2 (h1 c' (List.mem_cons_of_mem _ hc'))
                · intro c' hc' n hn
                  obtain ⟨i, nm, a, b⟩ := h2 c' (List.mem_cons_of_mem _ hc') n hn
                  obtain ⟨nm', a', b'⟩ := (hname c' i n).2 ⟨nm, a, b⟩
                  exact ⟨i, nm', a', b'⟩
                · exact fun c' hc' i n hn ha => h3 c' (List.mem_cons_of_mem _ hc') i n hn ((hname _ _ _).1 ha)

/-- "all" means the C-states of the first CPU. -/
theorem toggleLoop_all {E : Env} (hE : E.cacheOn = true) (enable : Bool) {s : St} {c : Nat} {ci : CsInfo}
    (hci : s.cache c = some ci) (cpus : List Nat) :
    toggleLoop E enable .all (c :: cpus) s = toggleLoop E enable (.list ci.keys) (c :: cpus) s := by
  simp only [toggleLoop, cacheGet_on hE, hci, fixNames]

theorem toggleLoop_all_none {E : Env} (hE : E.cacheOn = true) (enable : Bool) {s : St} {c : Nat}
    (hci : s.cache c = none) (cpus : List Nat) :
    toggleLoop E enable .all (c :: cpus) s = (s, .error .notFound) := by
  simp only [toggleLoop, cacheGet_on hE, hci]

end Verif.CPUIdle
