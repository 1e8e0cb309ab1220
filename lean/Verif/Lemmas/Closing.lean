import Verif.Props.ClosingSpec

/-! Lemmas about closing objects. -/

namespace Verif.Closing

open Spec

/-- Who created an object. -/
def makerOf (h : Heap) (c : Nat) : Option (Nat × PyStr) := (h c).bind fun o => o.maker

/-- The same objects, the attributes may differ. -/
def Same (h h' : Heap) : Prop := ∀ x, (h x).map (fun o => (o.cls, o.maker)) = (h' x).map (fun o => (o.cls, o.maker))

theorem Same.refl (h : Heap) : Same h h := fun _ => rfl

theorem Same.trans {a b c : Heap} (h1 : Same a b) (h2 : Same b c) : Same a c := fun x => (h1 x).trans (h2 x)

theorem Same.symm {a b : Heap} (h1 : Same a b) : Same b a := fun x => (h1 x).symm

theorem Same.mk_eq {a b : Heap} (h : Same a b) (x : Nat) : makerOf a x = makerOf b x := by
  have := h x
  unfold makerOf
  cases ha : a x <;> cases hb : b x <;> rw [ha, hb] at this <;> first | rfl | (cases this; done) | skip
  have e := Option.some.inj this
  exact congrArg Prod.snd e

theorem Same.isSome {a b : Heap} (h : Same a b) (x : Nat) : (a x).isSome = (b x).isSome := by
  have := congrArg Option.isSome (h x)
  simpa using this

theorem Same.get {a b : Heap} (h : Same a b) {x : Nat} {o : Obj} (hx : a x = some o) :
    ∃ o', b x = some o' ∧ o'.cls = o.cls ∧ o'.maker = o.maker := by
  have := h x
  rw [hx] at this
  cases hb : b x with
  | none => rw [hb] at this; cases this
  | some o' =>
    rw [hb] at this
    have e := Option.some.inj this
    exact ⟨o', rfl, (congrArg Prod.fst e).symm, (congrArg Prod.snd e).symm⟩

theorem same_clear (h : Heap) (id : Nat) (a : PyStr) : Same h (clear h id a) := by
  intro x
  unfold clear
  split
  · cases h x <;> rfl
  · rfl

/-- `x` was created by `y`, or by an object which was, and so on. -/
inductive Desc (m : Nat → Option (Nat × PyStr)) : Nat → Nat → Prop
  | refl (x) : Desc m x x
  | up {x p y a} : m x = some (p, a) → Desc m p y → Desc m x y

theorem Desc.le {m : Nat → Option (Nat × PyStr)} (hm : ∀ c p a, m c = some (p, a) → p < c) {x y : Nat}
    (h : Desc m x y) : y ≤ x := by
  induction h with
  | refl => exact Nat.le_refl _
  | up h1 _ ih => have := hm _ _ _ h1; omega

theorem Desc.trans {m : Nat → Option (Nat × PyStr)} {x y z : Nat} (h1 : Desc m x y) (h2 : Desc m y z) : Desc m x z := by
  induction h1 with
  | refl => exact h2
  | up h _ ih => exact .up h (ih h2)

/-- The last step of the chain. -/
theorem Desc.last {m : Nat → Option (Nat × PyStr)} {x y : Nat} (h : Desc m x y) :
    x = y ∨ ∃ c a, m c = some (y, a) ∧ Desc m x c := by
  induction h with
  | refl => exact .inl rfl
  | @up x p y a h1 h2 ih =>
    rcases ih with rfl | ⟨c, b, hc, hd⟩
    · exact .inr ⟨x, a, h1, .refl x⟩
    · exact .inr ⟨c, b, hc, .up h1 hd⟩

theorem Desc.linear {m : Nat → Option (Nat × PyStr)} {x y z : Nat} (h1 : Desc m x y) (h2 : Desc m x z) :
    Desc m y z ∨ Desc m z y := by
  induction h1 with
  | refl => exact .inl h2
  | @up x p y a h h' ih =>
    cases h2 with
    | refl => exact .inr (.up h h')
    | @up _ p' _ b k k' =>
      rw [h] at k
      cases k
      exact ih k'

/-- Two different objects created by the same one have no common descendants. -/
theorem Desc.disjoint {m : Nat → Option (Nat × PyStr)} (hm : ∀ c p a, m c = some (p, a) → p < c) {x c d p : Nat}
    {a b : PyStr} (hc : m c = some (p, a)) (hd : m d = some (p, b)) (h1 : Desc m x c) (h2 : Desc m x d) : c = d := by
  have key : ∀ {c d a b}, m c = some (p, a) → m d = some (p, b) → Desc m c d → c = d := by
    intro c d a b hc hd h
    cases h with
    | refl => rfl
    | up k k' =>
      rw [hc] at k
      cases k
      have := Desc.le hm k'
      have := hm _ _ _ hd
      omega
  rcases Desc.linear h1 h2 with h | h
  · exact key hc hd h
  · exact (key hd hc h).symm

/-- The flag does not forbid closing. -/
def FlagOn (o : Obj) (a : PyStr) : Prop :=
  o.attrs (flagName a) = none ∨ o.attrs (flagName a) = some (.bool true)

/-- An object which was not closed. -/
structure Open (m : Nat → Option (Nat × PyStr)) (x : Nat) (o : Obj) : Prop where
  slot : ∀ a, a ∈ closeList o.cls ∨ a ∈ unrefList o.cls → o.attrs a = some .none ∨ ∃ c, o.attrs a = some (.ref c)
  flag : ∀ a ∈ closeList o.cls, o.attrs (flagName a) = none ∨ ∃ b, o.attrs (flagName a) = some (.bool b)
  up : ∀ a ∈ closeList o.cls, ∀ c, o.attrs a = some (.ref c) → FlagOn o a → m c = some (x, a)
  down : ∀ c a, m c = some (x, a) → a ∈ closeList o.cls ∧ o.attrs a = some (.ref c) ∧ FlagOn o a
  nf : ∀ a ∈ closeList o.cls, flagName a ∉ closeList o.cls ∧ flagName a ∉ unrefList o.cls
  un : ∀ a ∈ unrefList o.cls, a ∉ closeList o.cls
  fo : ∀ a ∈ closeList o.cls, o.attrs a = some .none → FlagOn o a
  cr : ∀ a, creates o.cls a = true → a ∈ closeList o.cls

/-- An object which was closed. -/
def Shut (o : Obj) : Prop := ∀ a, a ∈ closeList o.cls ∨ a ∈ unrefList o.cls → o.attrs a = some .none

/-- The descendants of the objects of some attributes. -/
def Below (m : Nat → Option (Nat × PyStr)) (id : Nat) (done : List PyStr) (x : Nat) : Prop :=
  ∃ a ∈ done, ∃ c, m c = some (id, a) ∧ Desc m x c

/-- The attributes `done` of object `id` were handled. -/
structure Part (m : Nat → Option (Nat × PyStr)) (h0 : Heap) (id : Nat) (o : Obj) (done : List PyStr) (h : Heap)
    (l : List Nat) : Prop where
  same : Same h0 h
  self : h id = some { o with attrs := fun k => if k ∈ done then some .none else o.attrs k }
  below : ∀ x, Below m id done x → l.count x = 1 ∧ ∀ ox, h x = some ox → Shut ox
  rest : ∀ x, ¬ Below m id done x → l.count x = 0 ∧ (x ≠ id → h x = h0 x)

theorem Part.congr {m : Nat → Option (Nat × PyStr)} {h0 : Heap} {id : Nat} {o : Obj} {d d' : List PyStr} {h : Heap}
    {l : List Nat} (hp : Part m h0 id o d h l) (he : ∀ k, k ∈ d ↔ k ∈ d') : Part m h0 id o d' h l := by
  have hb : ∀ x, Below m id d x ↔ Below m id d' x := fun x =>
    ⟨fun ⟨a, ha, h⟩ => ⟨a, (he a).mp ha, h⟩, fun ⟨a, ha, h⟩ => ⟨a, (he a).mpr ha, h⟩⟩
  refine ⟨hp.same, ?_, fun x hx => hp.below x ((hb x).mpr hx), fun x hx => hp.rest x fun h => hx ((hb x).mp h)⟩
  rw [hp.self]
  congr 2
  funext k
  by_cases hk : k ∈ d
  · rw [if_pos hk, if_pos ((he k).mp hk)]
  · rw [if_neg hk, if_neg fun h => hk ((he k).mpr h)]

/-- What the recursive call does. -/
def Closes (m : Nat → Option (Nat × PyStr)) (rc : Heap → Nat → Res) (id N : Nat) : Prop :=
  ∀ h c, id < c → (∀ x, (h x).isSome → x < N) → (∀ x, makerOf h x = m x) → (h c).isSome → (∀ x ox, h x = some ox → Desc m x c → Open m x ox) →
    ∃ h' l, rc h c = (h', l, none) ∧ Same h h' ∧ (∀ x, Desc m x c → l.count x = 1) ∧
      (∀ x, ¬ Desc m x c → l.count x = 0 ∧ h' x = h x) ∧ ∀ x ox, h' x = some ox → Desc m x c → Shut ox

section
variable {m : Nat → Option (Nat × PyStr)} {h0 : Heap} {id N : Nat} {o : Obj}

theorem below_cons {a : PyStr} {done : List PyStr} {x : Nat} :
    Below m id (a :: done) x ↔ (∃ c, m c = some (id, a) ∧ Desc m x c) ∨ Below m id done x := by
  unfold Below
  constructor
  · rintro ⟨b, hb, h⟩
    rcases List.mem_cons.mp hb with rfl | hb
    · exact .inl h
    · exact .inr ⟨b, hb, h⟩
  · rintro (h | ⟨b, hb, h⟩)
    · exact ⟨a, List.mem_cons_self, h⟩
    · exact ⟨b, List.mem_cons_of_mem _ hb, h⟩

/-- An attribute without an object created for it, whose value is dropped or was none. -/
theorem part_drop {done : List PyStr} {h : Heap} {l : List Nat} (hp : Part m h0 id o done h l) (a : PyStr)
    (hn : ∀ c, m c ≠ some (id, a)) : Part m h0 id o (a :: done) (clear h id a) l := by
  have hb : ∀ x, Below m id (a :: done) x ↔ Below m id done x := fun x => by
    rw [below_cons]
    exact ⟨fun h => h.elim (fun ⟨c, hc, _⟩ => absurd hc (hn c)) (fun x => x), .inr⟩
  refine ⟨hp.same.trans (same_clear h id a), ?_, ?_, ?_⟩
  · unfold clear
    rw [if_pos rfl, hp.self]
    simp only [Option.map_some]
    congr 2
    funext k
    by_cases hk : k = a
    · simp [hk]
    · simp [hk]
  · intro x hx
    have := hp.below x ((hb x).mp hx)
    refine ⟨this.1, fun ox hox => ?_⟩
    unfold clear at hox
    split at hox
    · rename_i hxi
      cases hh : h x with
      | none => rw [hh] at hox; cases hox
      | some o' =>
        rw [hh] at hox
        cases hox
        have := this.2 o' hh
        intro k hk
        show (if k = a then some Val.none else o'.attrs k) = some .none
        split
        · rfl
        · exact this k hk
    · exact this.2 ox hox
  · intro x hx
    have := hp.rest x fun h => hx ((hb x).mpr h)
    refine ⟨this.1, fun hxi => ?_⟩
    unfold clear
    rw [if_neg hxi]
    exact this.2 hxi

theorem clear_none {h : Heap} {a : PyStr} {o' : Obj} (h1 : h id = some o') (h2 : o'.attrs a = some .none) :
    clear h id a = h := by
  funext x
  unfold clear
  split
  · rename_i hx
    subst hx
    rw [h1]
    simp only [Option.map_some]
    congr 1
    cases o' with
    | mk cls mk' attrs =>
      congr 1
      funext k
      by_cases hk : k = a
      · subst hk; rw [if_pos rfl]; exact h2.symm
      · rw [if_neg hk]
  · rfl

theorem close_step {rc : Heap → Nat → Res} (hm : ∀ c p a, m c = some (p, a) → p < c) (hrc : Closes m rc id N)
    (hN : ∀ x, (h0 x).isSome → x < N) (hmk : ∀ x, makerOf h0 x = m x) (hop : Open m id o)
    (hall : ∀ x ox, h0 x = some ox → Desc m x id → Open m x ox) {done : List PyStr} {h : Heap} {l : List Nat}
    (hp : Part m h0 id o done h l) (hd : ∀ k ∈ done, k ∈ closeList o.cls ∨ k ∈ unrefList o.cls) {a : PyStr}
    (ha : a ∈ closeList o.cls) :
    ∃ h' l', closeAttr rc id a h = (h', l', none) ∧ Part m h0 id o (a :: done) h' (l ++ l') := by
  have hval : valueOf h id a = if a ∈ done then .none else (o.attrs a).getD .none := by
    unfold valueOf
    rw [hp.self]
    show (if a ∈ done then some Val.none else o.attrs a).getD .none = _
    split <;> rfl
  by_cases hmem : a ∈ done
  · rw [if_pos hmem] at hval
    refine ⟨h, [], ?_, ?_⟩
    · unfold closeAttr
      rw [hval]
    · rw [List.append_nil]
      exact hp.congr fun k => by
        constructor
        · exact List.mem_cons_of_mem _
        · intro hk
          rcases List.mem_cons.mp hk with rfl | hk
          · exact hmem
          · exact hk
  · rw [if_neg hmem] at hval
    have hflag : ((h id).bind fun o => o.attrs (flagName a)) = o.attrs (flagName a) := by
      rw [hp.self]
      show (if flagName a ∈ done then some Val.none else o.attrs (flagName a)) = _
      rw [if_neg]
      intro hk
      have := hop.nf a ha
      rcases hd _ hk with hk | hk
      · exact this.1 hk
      · exact this.2 hk
    rcases hop.slot a (.inl ha) with hv | ⟨c, hv⟩
    · rw [hv] at hval
      refine ⟨h, [], ?_, ?_⟩
      · unfold closeAttr
        rw [hval]
        rfl
      · rw [List.append_nil]
        have := part_drop hp a (fun c hc => by
          have := (hop.down c a hc).2.1
          rw [hv] at this
          cases this)
        rwa [clear_none hp.self (by
          show (if a ∈ done then some Val.none else o.attrs a) = _
          rw [if_neg hmem, hv])] at this
    · rw [hv] at hval
      have hval : valueOf h id a = .ref c := hval
      by_cases hon : FlagOn o a
      · have hc := hop.up a ha c hv hon
        have hlt := hm _ _ _ hc
        have hnb : ∀ x, Desc m x c → ¬ Below m id done x := by
          rintro x hx ⟨b, hb, d, hdm, hxd⟩
          have : c = d := Desc.disjoint hm hc hdm hx hxd
          subst this
          rw [hc] at hdm
          cases hdm
          exact hmem hb
        have hne : ∀ x, Desc m x c → x ≠ id := by
          intro x hx he
          have := Desc.le hm hx
          omega
        have hcs : (h c).isSome := by
          have h1 := hmk c
          rw [hc] at h1
          rw [← hp.same.isSome c]
          unfold makerOf at h1
          cases hh : h0 c with
          | none => rw [hh] at h1; cases h1
          | some _ => rfl
        obtain ⟨h', l', e1, e2, e3, e4, e5⟩ := hrc h c hlt
          (fun x hx => hN x (by rw [hp.same.isSome x]; exact hx)) (fun x => (hp.same.mk_eq x).symm.trans (hmk x)) hcs (by
          intro x ox hox hx
          rw [(hp.rest x (hnb x hx)).2 (hne x hx)] at hox
          exact hall x ox hox (hx.trans (.up hc (.refl _))))
        refine ⟨clear h' id a, l', ?_, ?_⟩
        · unfold closeAttr
          rw [hval]
          dsimp only
          rw [hflag]
          rcases hon with hf | hf <;> rw [hf] <;> dsimp only <;> rw [e1]
        · have hid : h' id = h id := (e4 id fun hx => hne id hx rfl).2
          have hb : ∀ x, Below m id (a :: done) x ↔ Desc m x c ∨ Below m id done x := fun x => by
            rw [below_cons]
            constructor
            · rintro (⟨d, hd', hx⟩ | hx)
              · have : o.attrs a = some (.ref d) := (hop.down d a hd').2.1
                rw [hv] at this
                cases this
                exact .inl hx
              · exact .inr hx
            · rintro (hx | hx)
              · exact .inl ⟨c, hc, hx⟩
              · exact .inr hx
          refine ⟨(hp.same.trans e2).trans (same_clear h' id a), ?_, ?_, ?_⟩
          · unfold clear
            rw [if_pos rfl, hid, hp.self]
            simp only [Option.map_some]
            congr 2
            funext k
            by_cases hk : k = a
            · simp [hk]
            · simp [hk]
          · intro x hx
            have hxi : x ≠ id := by
              intro hxe
              rcases (hb x).mp hx with hx | ⟨b, _, d, hdm, hxd⟩
              · exact hne x hx hxe
              · have := Desc.le hm hxd
                have := hm _ _ _ hdm
                omega
            have hcx : clear h' id a x = h' x := by unfold clear; rw [if_neg hxi]
            rw [hcx, List.count_append]
            rcases (hb x).mp hx with hx | hx
            · rw [(hp.rest x (hnb x hx)).1, e3 x hx]
              exact ⟨rfl, fun ox hox => e5 x ox hox hx⟩
            · have hnd : ¬ Desc m x c := fun h => hnb x h hx
              rw [(hp.below x hx).1, (e4 x hnd).1, (e4 x hnd).2]
              exact ⟨rfl, (hp.below x hx).2⟩
          · intro x hx
            have hnd : ¬ Desc m x c := fun h => hx ((hb x).mpr (.inl h))
            have hnb' : ¬ Below m id done x := fun h => hx ((hb x).mpr (.inr h))
            rw [List.count_append, (hp.rest x hnb').1, (e4 x hnd).1]
            refine ⟨rfl, fun hxi => ?_⟩
            unfold clear
            rw [if_neg hxi, (e4 x hnd).2]
            exact (hp.rest x hnb').2 hxi
      · refine ⟨clear h id a, [], ?_, ?_⟩
        · have hf : o.attrs (flagName a) = some (.bool false) := by
            rcases hop.flag a ha with hf | ⟨b, hf⟩
            · exact absurd (.inl hf) hon
            · cases b with
              | false => exact hf
              | true => exact absurd (.inr hf) hon
          unfold closeAttr
          rw [hval]
          dsimp only
          rw [hflag, hf]
        · rw [List.append_nil]
          exact part_drop hp a fun d hd' => hon (hop.down d a hd').2.2

theorem close_loop {rc : Heap → Nat → Res} (hm : ∀ c p a, m c = some (p, a) → p < c) (hrc : Closes m rc id N)
    (hN : ∀ x, (h0 x).isSome → x < N) (hmk : ∀ x, makerOf h0 x = m x) (hop : Open m id o)
    (hall : ∀ x ox, h0 x = some ox → Desc m x id → Open m x ox) (as : List PyStr)
    (has : ∀ a ∈ as, a ∈ closeList o.cls) {done : List PyStr} {h : Heap} {l : List Nat}
    (hp : Part m h0 id o done h l) (hd : ∀ k ∈ done, k ∈ closeList o.cls ∨ k ∈ unrefList o.cls) (b : Bool) :
    ∃ h' l' b', closeAttrs rc id as h b = ((h', l', none), b') ∧ Part m h0 id o (as ++ done) h' (l ++ l') := by
  induction as generalizing done h l b with
  | nil => exact ⟨h, [], b, rfl, by rw [List.append_nil]; exact hp⟩
  | cons a as ih =>
    have ha := has a List.mem_cons_self
    obtain ⟨h1, l1, e1, p1⟩ := close_step hm hrc hN hmk hop hall hp hd ha
    obtain ⟨h2, l2, b2, e2, p2⟩ := ih (fun x hx => has x (List.mem_cons_of_mem _ hx)) p1 (by
      intro k hk
      rcases List.mem_cons.mp hk with rfl | hk
      · exact .inl ha
      · exact hd k hk) (b || (valueOf h id a).truthy)
    refine ⟨h2, l1 ++ l2, b2, ?_, ?_⟩
    · rw [closeAttrs, e1]
      dsimp only
      rw [e2]
    · rw [← List.append_assoc]
      exact p2.congr fun k => by simp [or_left_comm]

theorem unref_loop (hop : Open m id o) (as : List PyStr) (has : ∀ a ∈ as, a ∈ unrefList o.cls) {done : List PyStr}
    {h : Heap} {l : List Nat} (hp : Part m h0 id o done h l) (b : Bool) :
    ∃ h', unrefAttrs id as h b = (h', none) ∧ Part m h0 id o (as ++ done) h' l := by
  induction as generalizing done h with
  | nil => exact ⟨h, rfl, hp⟩
  | cons a as ih =>
    have ha := has a List.mem_cons_self
    have hn : ∀ c, m c ≠ some (id, a) := fun c hc => hop.un a ha (hop.down c a hc).1
    have p1 := part_drop hp a hn
    have hget : ((h id).bind fun o => o.attrs a) = if a ∈ done then some .none else o.attrs a := by
      rw [hp.self]; rfl
    have hs : ((h id).bind fun o => o.attrs a).isNone = false := by
      rw [hget]
      split
      · rfl
      · rcases hop.slot a (.inr ha) with hv | ⟨c, hv⟩ <;> rw [hv] <;> rfl
    obtain ⟨h2, e2, p2⟩ := ih (fun x hx => has x (List.mem_cons_of_mem _ hx)) p1
    refine ⟨h2, ?_, p2.congr fun k => by simp [or_left_comm]⟩
    rw [unrefAttrs, hs]
    rw [if_neg (by simp)]
    split
    · exact e2
    · rename_i ht
      have : clear h id a = h := clear_none hp.self (by
        show (if a ∈ done then some Val.none else o.attrs a) = _
        rw [← hget]
        unfold valueOf at ht
        rw [hget] at ht ⊢
        split
        · rfl
        · rename_i hnd
          rw [if_neg hnd] at ht
          rcases hop.slot a (.inr ha) with hv | ⟨c, hv⟩
          · exact hv
          · rw [hv] at ht
            exact absurd rfl ht)
      rw [← this]
      rw [this] at e2 ⊢
      exact e2

theorem stages_loop {rc : Heap → Nat → Res} (hm : ∀ c p a, m c = some (p, a) → p < c) (hrc : Closes m rc id N)
    (hN : ∀ x, (h0 x).isSome → x < N) (hmk : ∀ x, makerOf h0 x = m x) (hop : Open m id o)
    (hall : ∀ x ox, h0 x = some ox → Desc m x id → Open m x ox) (sts : List (List PyStr × List PyStr))
    (has : ∀ st ∈ sts, st ∈ o.cls.stages) {done : List PyStr} {h : Heap} {l : List Nat}
    (hp : Part m h0 id o done h l) (hd : ∀ k ∈ done, k ∈ closeList o.cls ∨ k ∈ unrefList o.cls) :
    ∃ h' l' done', closeStages rc id sts h = (h', l', none) ∧ Part m h0 id o done' h' (l ++ l') ∧
      (∀ k ∈ done', k ∈ closeList o.cls ∨ k ∈ unrefList o.cls) ∧ (∀ k ∈ done, k ∈ done') ∧
      ∀ st ∈ sts, ∀ k, k ∈ st.1 ∨ k ∈ st.2 → k ∈ done' := by
  induction sts generalizing done h l with
  | nil =>
    exact ⟨h, [], done, rfl, by rw [List.append_nil]; exact hp, hd, fun k hk => hk, fun st hst => absurd hst List.not_mem_nil⟩
  | cons st sts ih =>
    have hst := has st List.mem_cons_self
    have h1 : ∀ a ∈ st.1, a ∈ closeList o.cls := fun a ha => List.mem_flatMap.mpr ⟨st, hst, ha⟩
    have h2 : ∀ a ∈ st.2, a ∈ unrefList o.cls := fun a ha => List.mem_flatMap.mpr ⟨st, hst, ha⟩
    obtain ⟨ha, la, b, ea, pa⟩ := close_loop hm hrc hN hmk hop hall st.1 h1 hp hd false
    obtain ⟨hb, eb, pb⟩ := unref_loop hop st.2 h2 pa b
    have hd' : ∀ k ∈ st.2 ++ (st.1 ++ done), k ∈ closeList o.cls ∨ k ∈ unrefList o.cls := by
      intro k hk
      rcases List.mem_append.mp hk with hk | hk
      · exact .inr (h2 k hk)
      · rcases List.mem_append.mp hk with hk | hk
        · exact .inl (h1 k hk)
        · exact hd k hk
    obtain ⟨hc, lc, dc, ec, pc, q1, q2, q3⟩ := ih (fun x hx => has x (List.mem_cons_of_mem _ hx)) pb hd'
    refine ⟨hc, la ++ lc, dc, ?_, ?_, q1, ?_, ?_⟩
    · rw [closeStages]
      have : closeStage rc id st h = (hb, la, none) := by
        unfold closeStage
        rw [ea]
        dsimp only
        rw [eb]
      rw [this]
      dsimp only
      rw [ec]
    · rw [← List.append_assoc]; exact pc
    · exact fun k hk => q2 k (List.mem_append_right _ (List.mem_append_right _ hk))
    · intro st' hst' k hk
      rcases List.mem_cons.mp hst' with rfl | hst'
      · refine q2 k ?_
        rcases hk with hk | hk
        · exact List.mem_append_right _ (List.mem_append_left _ hk)
        · exact List.mem_append_left _ hk
      · exact q3 st' hst' k hk

end

/-- Closing an object closes it and everything created by it, once, and nothing else. -/
theorem closeObj_spec {m : Nat → Option (Nat × PyStr)} (hm : ∀ c p a, m c = some (p, a) → p < c) (N n : Nat) :
    ∀ h id, N ≤ id + n → (∀ x, (h x).isSome → x < N) → (∀ x, makerOf h x = m x) → (h id).isSome →
      (∀ x ox, h x = some ox → Desc m x id → Open m x ox) →
      ∃ h' l, closeObj n h id = (h', l, none) ∧ Same h h' ∧ (∀ x, Desc m x id → l.count x = 1) ∧
        (∀ x, ¬ Desc m x id → l.count x = 0 ∧ h' x = h x) ∧ ∀ x ox, h' x = some ox → Desc m x id → Shut ox := by
  induction n with
  | zero =>
    intro h id hn hN _ hs
    have := hN id hs
    omega
  | succ n ih =>
    intro h id hn hN hmk hs hall
    obtain ⟨o, ho⟩ := Option.isSome_iff_exists.mp hs
    have hop := hall id o ho (.refl id)
    have hp0 : Part m h id o [] h [] := by
      refine ⟨Same.refl h, ?_, ?_, ?_⟩
      · rw [ho]
        simp
      · rintro x ⟨a, ha, _⟩
        exact absurd ha List.not_mem_nil
      · intro x _
        exact ⟨rfl, fun _ => rfl⟩
    have hrc : Closes m (closeObj n) id N := fun h' c hc hN' hmk' hcs hall' => ih h' c (by omega) hN' hmk' hcs hall'
    obtain ⟨h', l', done, e, hp, q1, _, q3⟩ := stages_loop hm hrc hN hmk hop hall o.cls.stages (fun _ h => h) hp0
      (fun k hk => absurd hk List.not_mem_nil)
    rw [List.nil_append] at hp
    have hdone : ∀ k, k ∈ closeList o.cls ∨ k ∈ unrefList o.cls → k ∈ done := by
      rintro k (hk | hk) <;> obtain ⟨st, hst, hk⟩ := List.mem_flatMap.mp hk
      · exact q3 st hst k (.inl hk)
      · exact q3 st hst k (.inr hk)
    have hb : ∀ x, Desc m x id ↔ x = id ∨ Below m id done x := by
      intro x
      constructor
      · intro hx
        rcases hx.last with hx | ⟨c, a, hc, hx⟩
        · exact .inl hx
        · exact .inr ⟨a, hdone a (.inl (hop.down c a hc).1), c, hc, hx⟩
      · rintro (rfl | ⟨a, _, c, hc, hx⟩)
        · exact .refl _
        · exact hx.trans (.up hc (.refl _))
    have hni : ¬ Below m id done id := by
      rintro ⟨a, _, c, hc, hx⟩
      have := Desc.le hm hx
      have := hm _ _ _ hc
      omega
    refine ⟨h', id :: l', ?_, hp.same, ?_, ?_, ?_⟩
    · rw [closeObj, ho]
      dsimp only
      rw [e]
    · intro x hx
      rw [List.count_cons]
      rcases (hb x).mp hx with rfl | hx
      · rw [(hp.rest x hni).1]; simp
      · have : id ≠ x := fun he => hni (he ▸ hx)
        rw [(hp.below x hx).1]
        simp [this]
    · intro x hx
      have h1 : ¬ Below m id done x := fun h => hx ((hb x).mpr (.inr h))
      have h2 : x ≠ id := fun h => hx ((hb x).mpr (.inl h))
      rw [List.count_cons, (hp.rest x h1).1]
      refine ⟨?_, (hp.rest x h1).2 h2⟩
      simp [Ne.symm h2]
    · intro x ox hox hx
      rcases (hb x).mp hx with rfl | hx
      · rw [hp.self] at hox
        cases hox
        intro a ha
        exact if_pos (hdone a ha)
      · exact (hp.below x hx).2 ox hox

/-! ### Objects which were closed -/

theorem closeAttrs_shut (rc : Heap → Nat → Res) (id : Nat) (h : Heap) (as : List PyStr) (b : Bool)
    (hv : ∀ a ∈ as, valueOf h id a = .none) : closeAttrs rc id as h b = ((h, [], none), b) := by
  induction as with
  | nil => rfl
  | cons a as ih =>
    have ha := hv a List.mem_cons_self
    have e : closeAttr rc id a h = (h, [], none) := by
      unfold closeAttr
      rw [ha]
    rw [closeAttrs, e, ha]
    dsimp only
    have : (b || Val.none.truthy) = b := by cases b <;> rfl
    rw [this, ih fun x hx => hv x (List.mem_cons_of_mem _ hx)]
    rfl

theorem unrefAttrs_shut (id : Nat) (h : Heap) (as : List PyStr) (b : Bool)
    (hv : ∀ a ∈ as, ((h id).bind fun o => o.attrs a) = some .none) : unrefAttrs id as h b = (h, none) := by
  induction as with
  | nil => rfl
  | cons a as ih =>
    have ha := hv a List.mem_cons_self
    have hval : valueOf h id a = .none := by unfold valueOf; rw [ha]; rfl
    rw [unrefAttrs, ha, hval]
    rw [if_neg (by simp), if_neg (by decide)]
    exact ih fun x hx => hv x (List.mem_cons_of_mem _ hx)

theorem closeStages_shut (rc : Heap → Nat → Res) (id : Nat) (h : Heap) (o : Obj) (ho : h id = some o)
    (sts : List (List PyStr × List PyStr)) (hs : ∀ st ∈ sts, ∀ a, a ∈ st.1 ∨ a ∈ st.2 → o.attrs a = some .none) :
    closeStages rc id sts h = (h, [], none) := by
  induction sts with
  | nil => rfl
  | cons st sts ih =>
    have h1 := hs st List.mem_cons_self
    have e : closeStage rc id st h = (h, [], none) := by
      unfold closeStage
      rw [closeAttrs_shut rc id h st.1 false (fun a ha => by
        unfold valueOf
        rw [ho]
        show (o.attrs a).getD .none = _
        rw [h1 a (.inl ha)]
        rfl)]
      dsimp only
      rw [unrefAttrs_shut id h st.2 false (fun a ha => by rw [ho]; exact h1 a (.inr ha))]
    rw [closeStages, e]
    dsimp only
    rw [ih fun st' h' => hs st' (List.mem_cons_of_mem _ h')]
    rfl

theorem closeObj_shut (n : Nat) (h : Heap) (id : Nat) (o : Obj) (ho : h id = some o) (hs : Shut o) :
    closeObj (n + 1) h id = (h, [id], none) := by
  rw [closeObj, ho]
  dsimp only
  rw [closeStages_shut _ id h o ho o.cls.stages]
  intro st hst a ha
  refine hs a ?_
  rcases ha with ha | ha
  · exact .inl (List.mem_flatMap.mpr ⟨st, hst, ha⟩)
  · exact .inr (List.mem_flatMap.mpr ⟨st, hst, ha⟩)

theorem closeStages_half (rc : Heap → Nat → Res) (id : Nat) (h : Heap) (sts : List (List PyStr × List PyStr))
    (hs : ∀ st ∈ sts, (∀ a ∈ st.1, valueOf h id a = .none) ∧ st.2 = []) : closeStages rc id sts h = (h, [], none) := by
  induction sts with
  | nil => rfl
  | cons st sts ih =>
    have h1 := hs st List.mem_cons_self
    have e : closeStage rc id st h = (h, [], none) := by
      unfold closeStage
      rw [closeAttrs_shut rc id h st.1 false h1.1, h1.2]
      rfl
    rw [closeStages, e]
    dsimp only
    rw [ih fun st' h' => hs st' (List.mem_cons_of_mem _ h')]
    rfl

/-! ### New objects -/

structure WF (cls : Cls) : Prop where
  uniq : ∀ s ∈ cls.slots, ∀ t ∈ cls.slots, s.1 = t.1 → s.2 = t.2
  clash : ∀ s ∈ cls.slots, ∀ t ∈ cls.slots, flagName s.1 ≠ t.1
  inj : ∀ s ∈ cls.slots, ∀ t ∈ cls.slots, flagName s.1 = flagName t.1 → s.1 = t.1
  kind : ∀ s ∈ cls.slots, (s.2 = .arg ∧ s.1 ∈ closeList cls) ∨ (s.2 = .own ∧ s.1 ∈ closeList cls) ∨
    (s.2 = .borrowed ∧ s.1 ∉ closeList cls)
  cl : ∀ a ∈ closeList cls, ∃ s ∈ cls.slots, s.1 = a
  unr : ∀ a ∈ unrefList cls, (∃ s ∈ cls.slots, s.1 = a) ∧ a ∉ closeList cls

theorem wf_of {cls : Cls} (h : wellFormed cls = true) : WF cls := by
  unfold wellFormed at h
  rw [Bool.and_eq_true, Bool.and_eq_true, Bool.and_eq_true, Bool.and_eq_true] at h
  obtain ⟨⟨⟨⟨h1, h2⟩, h3⟩, h4⟩, h5⟩ := h
  rw [List.all_eq_true] at h1 h2 h3 h4 h5
  have h1' : ∀ s ∈ cls.slots, ∀ t ∈ cls.slots, (s.1 = t.1 → s.2 = t.2) ∧ flagName s.1 ≠ t.1 := by
    intro s hs t ht
    have := List.all_eq_true.mp (h1 s hs) t ht
    rw [Bool.and_eq_true] at this
    exact ⟨of_decide_eq_true this.1, of_decide_eq_true this.2⟩
  refine ⟨fun s hs t ht => (h1' s hs t ht).1, fun s hs t ht => (h1' s hs t ht).2, ?_, ?_, ?_, ?_⟩
  · intro s hs t ht
    exact of_decide_eq_true (List.all_eq_true.mp (h2 s hs) t ht)
  · intro s hs
    have := h3 s hs
    split at this
    · rename_i hk; exact .inl ⟨hk, of_decide_eq_true this⟩
    · rename_i hk; exact .inr (.inl ⟨hk, of_decide_eq_true this⟩)
    · rename_i hk; exact .inr (.inr ⟨hk, of_decide_eq_true this⟩)
    · cases this
  · intro a ha
    exact List.mem_map.mp (of_decide_eq_true (h4 a ha))
  · intro a ha
    have := h5 a ha
    rw [Bool.and_eq_true] at this
    exact ⟨List.mem_map.mp (of_decide_eq_true this.1), of_decide_eq_true this.2⟩

theorem WF.find {cls : Cls} (hw : WF cls) {s : PyStr × Kind} (hs : s ∈ cls.slots) :
    ∃ t, cls.slots.find? (fun t => decide (t.1 = s.1)) = some t ∧ t.1 = s.1 ∧ t.2 = s.2 := by
  cases h : cls.slots.find? (fun t => decide (t.1 = s.1)) with
  | none =>
    have := List.find?_eq_none.mp h s hs
    exact absurd (decide_eq_true rfl) this
  | some t =>
    have h1 : t.1 = s.1 := of_decide_eq_true (List.find?_some (p := fun t : PyStr × Kind => decide (t.1 = s.1)) h)
    exact ⟨t, rfl, h1, hw.uniq t (List.mem_of_find?_eq_some h) s hs h1⟩

theorem WF.flag {cls : Cls} (hw : WF cls) {s : PyStr × Kind} (hs : s ∈ cls.slots) (args : PyStr → Option Nat) :
    initAttrs cls args (flagName s.1) = if s.2 = .arg then some (.bool (args s.1).isNone) else none := by
  unfold initAttrs
  have h1 : cls.slots.find? (fun t => decide (t.1 = flagName s.1)) = none :=
    List.find?_eq_none.mpr fun t ht h => hw.clash s hs t ht (of_decide_eq_true h).symm
  rw [h1]
  dsimp only
  split
  · rename_i t ht
    have := of_decide_eq_true (List.find?_some (p := fun t : PyStr × Kind => decide (t.2 = .arg ∧ flagName t.1 = flagName s.1)) ht)
    have he := hw.inj t (List.mem_of_find?_eq_some ht) s hs this.2
    have hk := hw.uniq t (List.mem_of_find?_eq_some ht) s hs he
    rw [if_pos (hk ▸ this.1), he]
  · rename_i ht
    rw [if_neg]
    intro hk
    exact List.find?_eq_none.mp ht s hs (decide_eq_true ⟨hk, rfl⟩)

theorem open_new {m : Nat → Option (Nat × PyStr)} {x : Nat} {cls : Cls} (hw : WF cls) (mk' : Option (Nat × PyStr))
    (args : PyStr → Option Nat) (hm : ∀ c a, m c ≠ some (x, a)) : Open m x ⟨cls, mk', initAttrs cls args⟩ := by
  have hattr : ∀ s ∈ cls.slots, initAttrs cls args s.1 =
      if s.2 = .own then some .none else some (match args s.1 with
        | some x => .ref x
        | none => .none) := by
    intro s hs
    obtain ⟨t, ht, h1, h2⟩ := hw.find hs
    unfold initAttrs
    rw [ht]
    obtain ⟨t1, t2⟩ := t
    dsimp only at h1 h2
    subst h1
    rw [← h2]
    cases t2 <;> rfl
  have hslot : ∀ s ∈ cls.slots, initAttrs cls args s.1 = some .none ∨ ∃ c, initAttrs cls args s.1 = some (.ref c) := by
    intro s hs
    rw [hattr s hs]
    split
    · exact .inl rfl
    · cases args s.1 with
      | none => exact .inl rfl
      | some c => exact .inr ⟨c, rfl⟩
  refine ⟨?_, ?_, ?_, ?_, ?_, ?_, ?_, ?_⟩
  · rintro a (ha | ha)
    · obtain ⟨s, hs, rfl⟩ := hw.cl a ha
      exact hslot s hs
    · obtain ⟨s, hs, rfl⟩ := (hw.unr a ha).1
      exact hslot s hs
  · intro a ha
    obtain ⟨s, hs, rfl⟩ := hw.cl a ha
    show initAttrs cls args _ = none ∨ ∃ b, initAttrs cls args _ = _
    rw [hw.flag hs]
    split
    · exact .inr ⟨_, rfl⟩
    · exact .inl rfl
  · intro a ha c hc hf
    exfalso
    obtain ⟨s, hs, rfl⟩ := hw.cl a ha
    have hc : initAttrs cls args s.1 = some (.ref c) := hc
    have hf : initAttrs cls args (flagName s.1) = none ∨ initAttrs cls args (flagName s.1) = some (.bool true) := hf
    rw [hattr s hs] at hc
    rw [hw.flag hs] at hf
    rcases hw.kind s hs with ⟨hk, _⟩ | ⟨hk, _⟩ | ⟨_, hk⟩
    · rw [hk] at hc hf
      cases he : args s.1 with
      | none => rw [he] at hc; simp at hc
      | some d => rw [he] at hf; simp at hf
    · rw [if_pos hk] at hc
      cases hc
    · exact hk ha
  · exact fun c a hc => absurd hc (hm c a)
  · intro a ha
    obtain ⟨s, hs, rfl⟩ := hw.cl a ha
    constructor
    · intro h
      obtain ⟨t, ht, e⟩ := hw.cl _ h
      exact hw.clash s hs t ht e.symm
    · intro h
      obtain ⟨t, ht, e⟩ := (hw.unr _ h).1
      exact hw.clash s hs t ht e.symm
  · exact fun a ha => (hw.unr a ha).2
  · intro a ha hv
    obtain ⟨s, hs, rfl⟩ := hw.cl a ha
    have hv : initAttrs cls args s.1 = some .none := hv
    show initAttrs cls args (flagName s.1) = none ∨ initAttrs cls args (flagName s.1) = some (.bool true)
    rw [hw.flag hs]
    split
    · rename_i hk
      rw [hattr s hs, hk] at hv
      cases he : args s.1 with
      | none => exact .inr rfl
      | some d => rw [he] at hv; simp at hv
    · exact .inl rfl
  · intro a ha
    unfold creates at ha
    split at ha
    · cases ha
    · rename_i k hk hfd
      have hmem := List.mem_of_find?_eq_some hfd
      have he := of_decide_eq_true (List.find?_some (p := fun s : PyStr × Kind => decide (s.1 = a)) hfd)
      have he : _ = a := he
      rcases hw.kind _ hmem with ⟨_, h⟩ | ⟨_, h⟩ | ⟨h, _⟩
      · exact he ▸ h
      · exact he ▸ h
      · exact absurd h (by
          intro h
          first | exact hk _ (by rw [← h]) | exact absurd h hk | (subst h; simp_all))
    · cases ha

/-! ### The invariant -/

structure Inv (s : St) : Prop where
  bound : ∀ x, (s.heap x).isSome → x < s.size
  lt : ∀ c p a, makerOf s.heap c = some (p, a) → p < c
  logged : ∀ x, x ∈ s.log ∨ x ∈ s.calls → (s.heap x).isSome
  opened : ∀ x o, s.heap x = some o → x ∉ s.log → Open (makerOf s.heap) x o
  shut : ∀ x o, s.heap x = some o → x ∈ s.log → Shut o
  root : ∀ x o, s.heap x = some o → o.maker = none → s.log.count x = s.calls.count x
  child : ∀ x o p a, s.heap x = some o → o.maker = some (p, a) → s.log.count x = min 1 (s.log.count p)
  errs : s.errs = []

theorem inv_init : Inv ⟨0, fun _ => none, [], [], []⟩ := by
  refine ⟨?_, ?_, ?_, ?_, ?_, ?_, ?_, rfl⟩
  · intro x h; cases h
  · intro c p a h; cases h
  · rintro x (h | h) <;> cases h
  · intro x o h; cases h
  · intro x o h; cases h
  · intro x o h; cases h
  · intro x o p a h; cases h

theorem Inv.fresh {s : St} (hi : Inv s) : s.heap s.size = none := by
  cases h : s.heap s.size with
  | none => rfl
  | some o =>
    have := hi.bound s.size (by rw [h]; rfl)
    omega

theorem Inv.fresh_log {s : St} (hi : Inv s) : s.size ∉ s.log ∧ s.size ∉ s.calls := by
  constructor <;> intro h
  · have := hi.logged _ (.inl h)
    rw [hi.fresh] at this
    cases this
  · have := hi.logged _ (.inr h)
    rw [hi.fresh] at this
    cases this

theorem Inv.mk_fresh {s : St} (hi : Inv s) : makerOf s.heap s.size = none := by
  unfold makerOf
  rw [hi.fresh]
  rfl

theorem inv_new {s : St} (hi : Inv s) (cls : Cls) (args : PyStr → Option Nat) (hw : WF cls) :
    Inv (step s (.new cls args)) := by
  have hsz : ∀ x, x ≠ s.size → alloc s cls none args x = s.heap x := fun x hx => if_neg hx
  have hnew : alloc s cls none args s.size = some _ := if_pos rfl
  have hmk : ∀ x, makerOf (alloc s cls none args) x = makerOf s.heap x := by
    intro x
    by_cases hx : x = s.size
    · subst hx
      rw [hi.mk_fresh]
      unfold makerOf
      rw [hnew]
      rfl
    · unfold makerOf
      rw [hsz x hx]
  have hmk' : makerOf (alloc s cls none args) = makerOf s.heap := funext hmk
  show Inv { s with size := s.size + 1, heap := alloc s cls none args }
  refine ⟨?_, ?_, ?_, ?_, ?_, ?_, ?_, hi.errs⟩
  · intro x hx
    by_cases he : x = s.size
    · exact he ▸ Nat.lt_succ_self _
    · have := hi.bound x (by rw [← hsz x he]; exact hx)
      show x < s.size + 1
      omega
  · intro c p a h
    exact hi.lt c p a (by rw [← hmk c]; exact h)
  · intro x hx
    have := hi.logged x hx
    show (alloc s cls none args x).isSome
    rw [hsz x (by rintro rfl; rw [hi.fresh] at this; cases this)]
    exact this
  · intro x o hx hl
    show Open (makerOf (alloc s cls none args)) x o
    rw [hmk']
    by_cases he : x = s.size
    · subst he
      have hx : alloc s cls none args s.size = some o := hx
      rw [hnew] at hx
      cases hx
      refine open_new hw none _ fun c a hc => ?_
      have h1 := hi.lt c _ a hc
      have h2 := hi.bound c (by
        unfold makerOf at hc
        cases hh : s.heap c with
        | none => rw [hh] at hc; cases hc
        | some _ => rfl)
      omega
    · exact hi.opened x o (by rw [← hsz x he]; exact hx) hl
  · intro x o hx hl
    exact hi.shut x o (by rw [← hsz x (by rintro rfl; exact hi.fresh_log.1 hl)]; exact hx) hl
  · intro x o hx ho
    by_cases he : x = s.size
    · subst he
      show s.log.count s.size = s.calls.count s.size
      rw [List.count_eq_zero_of_not_mem hi.fresh_log.1, List.count_eq_zero_of_not_mem hi.fresh_log.2]
    · exact hi.root x o (by rw [← hsz x he]; exact hx) ho
  · intro x o p a hx ho
    by_cases he : x = s.size
    · subst he
      have hx : alloc s cls none args s.size = some o := hx
      rw [hnew] at hx
      cases hx
      cases ho
    · exact hi.child x o p a (by rw [← hsz x he]; exact hx) ho

theorem inv_make {s : St} (hi : Inv s) (p : Nat) (a : PyStr) (cls : Cls) (args : PyStr → Option Nat) (hw : WF cls) :
    Inv (step s (.make p a cls args)) := by
  unfold step
  dsimp only
  cases hp : s.heap p with
  | none => exact hi
  | some o =>
    dsimp only
    by_cases hc : creates o.cls a = true ∧ o.attrs a = some .none ∧ p ∉ s.log
    case neg => rw [if_neg hc]; exact hi
    rw [if_pos hc]
    obtain ⟨hcr, hval, hlog⟩ := hc
    have hop := hi.opened p o hp hlog
    have hcl := hop.cr a hcr
    have hps : p < s.size := hi.bound p (by rw [hp]; rfl)
    have hpne : p ≠ s.size := by omega
    generalize hH : setRef (alloc s cls (some (p, a)) args) p a s.size = H
    have hself : H p = some { o with attrs := fun k => if k = a then some (.ref s.size) else o.attrs k } := by
      rw [← hH]
      unfold setRef
      rw [if_pos rfl]
      unfold alloc
      rw [if_neg hpne, hp]
      rfl
    have hnew : H s.size = some ⟨cls, some (p, a), initAttrs cls fun k => (args k).filter (fun n => decide (n < s.size))⟩ := by
      rw [← hH]
      unfold setRef
      rw [if_neg hpne.symm]
      unfold alloc
      rw [if_pos rfl]
    have hsz : ∀ x, x ≠ p → x ≠ s.size → H x = s.heap x := by
      intro x h1 h2
      rw [← hH]
      unfold setRef
      rw [if_neg h1]
      unfold alloc
      rw [if_neg h2]
    have hmkn : makerOf H s.size = some (p, a) := by
      unfold makerOf
      rw [hnew]
      rfl
    have hmk : ∀ x, x ≠ s.size → makerOf H x = makerOf s.heap x := by
      intro x hx
      by_cases he : x = p
      · subst he
        unfold makerOf
        rw [hself, hp]
        rfl
      · unfold makerOf
        rw [hsz x he hx]
    have hmks : ∀ c q b, makerOf s.heap c = some (q, b) → makerOf H c = some (q, b) := by
      intro c q b h
      rw [hmk c (by rintro rfl; rw [hi.mk_fresh] at h; cases h)]
      exact h
    have hold : ∀ x, x ≠ p → x ≠ s.size → ∀ ox, H x = some ox → s.heap x = some ox := fun x h1 h2 ox h => by
      rw [← hsz x h1 h2]; exact h
    refine ⟨?_, ?_, ?_, ?_, ?_, ?_, ?_, hi.errs⟩
    · intro x hx
      show x < s.size + 1
      by_cases h1 : x = s.size
      · omega
      · by_cases h2 : x = p
        · omega
        · have := hi.bound x (by rw [← hsz x h2 h1]; exact hx)
          omega
    · intro c q b h
      have h : makerOf H c = some (q, b) := h
      by_cases h1 : c = s.size
      · subst h1
        rw [hmkn] at h
        cases h
        exact hps
      · rw [hmk c h1] at h
        exact hi.lt c q b h
    · intro x hx
      show (H x).isSome
      by_cases h2 : x = p
      · subst h2; rw [hself]; rfl
      · by_cases h1 : x = s.size
        · subst h1; rw [hnew]; rfl
        · rw [hsz x h2 h1]; exact hi.logged x hx
    · intro x ox hx hl
      have hx : H x = some ox := hx
      show Open (makerOf H) x ox
      by_cases h2 : x = p
      · subst h2
        rw [hself] at hx
        cases hx
        have hfl : ∀ b ∈ closeList o.cls, flagName b ≠ a := fun b hb he => (hop.nf b hb).1 (he ▸ hcl)
        refine ⟨?_, ?_, ?_, ?_, hop.nf, hop.un, ?_, hop.cr⟩
        · intro b hb
          show (if b = a then some (Val.ref s.size) else o.attrs b) = _ ∨ ∃ c, (if b = a then some (Val.ref s.size) else o.attrs b) = _
          split
          · exact .inr ⟨_, rfl⟩
          · exact hop.slot b hb
        · intro b hb
          show (if flagName b = a then some (Val.ref s.size) else o.attrs (flagName b)) = _ ∨
            ∃ c, (if flagName b = a then some (Val.ref s.size) else o.attrs (flagName b)) = _
          rw [if_neg (hfl b hb)]
          exact hop.flag b hb
        · intro b hb c hv hf
          have hv : (if b = a then some (Val.ref s.size) else o.attrs b) = some (.ref c) := hv
          have hf : (if flagName b = a then some (Val.ref s.size) else o.attrs (flagName b)) = none ∨
            (if flagName b = a then some (Val.ref s.size) else o.attrs (flagName b)) = some (.bool true) := hf
          rw [if_neg (hfl b hb)] at hf
          by_cases hba : b = a
          · rw [if_pos hba] at hv
            cases hv
            rw [hba]
            exact hmkn
          · rw [if_neg hba] at hv
            exact hmks _ _ _ (hop.up b hb c hv hf)
        · intro c b hcb
          have key : b ∈ closeList o.cls ∧ (if b = a then some (Val.ref s.size) else o.attrs b) = some (.ref c) ∧
              FlagOn o b := by
            by_cases h1 : c = s.size
            · subst h1
              rw [hmkn] at hcb
              cases hcb
              exact ⟨hcl, if_pos rfl, hop.fo a hcl hval⟩
            · rw [hmk c h1] at hcb
              have := hop.down c b hcb
              refine ⟨this.1, ?_, this.2.2⟩
              rw [if_neg]
              · exact this.2.1
              · rintro rfl
                rw [hval] at this
                cases this.2.1
          refine ⟨key.1, key.2.1, ?_⟩
          show (if flagName b = a then some (Val.ref s.size) else o.attrs (flagName b)) = none ∨
            (if flagName b = a then some (Val.ref s.size) else o.attrs (flagName b)) = some (.bool true)
          rw [if_neg (hfl b key.1)]
          exact key.2.2
        · intro b hb hv
          have hv : (if b = a then some (Val.ref s.size) else o.attrs b) = some .none := hv
          show (if flagName b = a then some (Val.ref s.size) else o.attrs (flagName b)) = none ∨
            (if flagName b = a then some (Val.ref s.size) else o.attrs (flagName b)) = some (.bool true)
          rw [if_neg (hfl b hb)]
          by_cases hba : b = a
          · rw [if_pos hba] at hv; cases hv
          · rw [if_neg hba] at hv
            exact hop.fo b hb hv
      · by_cases h1 : x = s.size
        · subst h1
          rw [hnew] at hx
          cases hx
          refine open_new hw _ _ fun c b hcb => ?_
          by_cases h1 : c = s.size
          · subst h1
            rw [hmkn] at hcb
            cases hcb
            exact hpne rfl
          · rw [hmk c h1] at hcb
            have h3 := hi.lt c _ b hcb
            have h4 := hi.bound c (by
              unfold makerOf at hcb
              cases hh : s.heap c with
              | none => rw [hh] at hcb; cases hcb
              | some _ => rfl)
            omega
        · have hox := hi.opened x ox (hold x h2 h1 ox hx) hl
          refine ⟨hox.slot, hox.flag, ?_, ?_, hox.nf, hox.un, hox.fo, hox.cr⟩
          · exact fun b hb c hv hf => hmks _ _ _ (hox.up b hb c hv hf)
          · intro c b hcb
            by_cases h3 : c = s.size
            · subst h3
              rw [hmkn] at hcb
              cases hcb
              exact absurd rfl h2
            · rw [hmk c h3] at hcb
              exact hox.down c b hcb
    · intro x ox hx hl
      have h2 : x ≠ p := by rintro rfl; exact hlog hl
      have h1 : x ≠ s.size := by rintro rfl; exact hi.fresh_log.1 hl
      exact hi.shut x ox (hold x h2 h1 ox hx) hl
    · intro x ox hx ho
      have hx : H x = some ox := hx
      by_cases h2 : x = p
      · subst h2
        rw [hself] at hx
        cases hx
        exact hi.root x o hp ho
      · by_cases h1 : x = s.size
        · subst h1
          rw [hnew] at hx
          cases hx
          cases ho
        · exact hi.root x ox (hold x h2 h1 ox hx) ho
    · intro x ox q b hx ho
      have hx : H x = some ox := hx
      by_cases h2 : x = p
      · subst h2
        rw [hself] at hx
        cases hx
        exact hi.child x o q b hp ho
      · by_cases h1 : x = s.size
        · subst h1
          rw [hnew] at hx
          cases hx
          cases ho
          show s.log.count s.size = min 1 (s.log.count p)
          rw [List.count_eq_zero_of_not_mem hi.fresh_log.1, List.count_eq_zero_of_not_mem hlog]
          rfl
        · exact hi.child x ox q b (hold x h2 h1 ox hx) ho

theorem inv_close {s : St} (hi : Inv s) (id : Nat) : Inv (step s (.close id)) := by
  unfold step
  dsimp only
  cases hid : s.heap id with
  | none => exact hi
  | some o =>
    dsimp only
    by_cases hr : o.maker = none
    case neg => rw [if_neg hr]; exact hi
    rw [if_pos hr]
    have hsz : id < s.size := hi.bound id (by rw [hid]; rfl)
    have hmk : ∀ x ox, s.heap x = some ox → makerOf s.heap x = ox.maker := by
      intro x ox h
      unfold makerOf
      rw [h]
      rfl
    by_cases hl : id ∈ s.log
    · obtain ⟨n, hn⟩ : ∃ n, s.size = n + 1 := ⟨s.size - 1, by omega⟩
      have e : closeObj s.size s.heap id = (s.heap, [id], none) := by
        rw [hn]; exact closeObj_shut n s.heap id o hid (hi.shut id o hid hl)
      rw [e]
      have hmem : ∀ x, x ∈ s.log ++ [id] ↔ x ∈ s.log := by
        intro x
        rw [List.mem_append]
        constructor
        · rintro (h | h)
          · exact h
          · rw [List.mem_singleton.mp h]; exact hl
        · exact .inl
      refine ⟨hi.bound, hi.lt, ?_, ?_, ?_, ?_, ?_, ?_⟩
      · rintro x (h | h)
        · exact hi.logged x (.inl ((hmem x).mp h))
        · rcases List.mem_append.mp h with h | h
          · exact hi.logged x (.inr h)
          · rw [List.mem_singleton.mp h]
            show (s.heap id).isSome
            rw [hid]; rfl
      · exact fun x ox hx h => hi.opened x ox hx fun h' => h ((hmem x).mpr h')
      · exact fun x ox hx h => hi.shut x ox hx ((hmem x).mp h)
      · intro x ox hx hm
        show (s.log ++ [id]).count x = (s.calls ++ [id]).count x
        rw [List.count_append, List.count_append, hi.root x ox hx hm]
      · intro x ox p a hx hm
        show (s.log ++ [id]).count x = min 1 ((s.log ++ [id]).count p)
        have hne : id ≠ x := by
          rintro rfl
          rw [hid] at hx
          cases hx
          rw [hr] at hm
          cases hm
        rw [List.count_append, List.count_append, hi.child x ox p a hx hm]
        have h0 : List.count x [id] = 0 := List.count_eq_zero_of_not_mem (by
          rw [List.mem_singleton]; exact Ne.symm hne)
        rw [h0]
        by_cases hp : p = id
        · subst hp
          have := List.count_pos_iff.mpr hl
          omega
        · have h0 : List.count p [id] = 0 := List.count_eq_zero_of_not_mem (by
            rw [List.mem_singleton]; exact hp)
          rw [h0]
          rfl
      · show s.errs ++ [] = []
        rw [hi.errs]
        rfl
    · have hdesc : ∀ x, Desc (makerOf s.heap) x id → x ∉ s.log := by
        intro x hx
        induction hx with
        | refl => exact hl
        | @up x p y a h1 h2 ih =>
          cases hh : s.heap x with
          | none => unfold makerOf at h1; rw [hh] at h1; cases h1
          | some ox =>
            have := hi.child x ox p a hh (by rw [← hmk x ox hh]; exact h1)
            rw [List.count_eq_zero_of_not_mem (ih hid hsz hl)] at this
            exact List.count_eq_zero.mp this
      obtain ⟨h', l, e, e1, e2, e3, e4⟩ := closeObj_spec hi.lt s.size s.size s.heap id (by omega) hi.bound
        (fun _ => rfl) (by rw [hid]; rfl) (fun x ox hx hd => hi.opened x ox hx (hdesc x hd))
      rw [e]
      have hmem : ∀ x, x ∈ s.log ++ l ↔ x ∈ s.log ∨ Desc (makerOf s.heap) x id := by
        intro x
        rw [List.mem_append]
        by_cases hd : Desc (makerOf s.heap) x id
        · have : x ∈ l := List.count_pos_iff.mp (by rw [e2 x hd]; exact Nat.one_pos)
          exact ⟨fun _ => .inr hd, fun _ => .inr this⟩
        · have : x ∉ l := List.count_eq_zero.mp (e3 x hd).1
          exact ⟨fun h => h.elim .inl fun h => absurd h this, fun h => h.elim .inl fun h => absurd h hd⟩
      have hsome : ∀ x, (h' x).isSome = (s.heap x).isSome := fun x => (e1.isSome x).symm
      have hmk' : makerOf h' = makerOf s.heap := funext fun x => (e1.mk_eq x).symm
      have hdl : ∀ x, Desc (makerOf s.heap) x id → (s.heap x).isSome := by
        intro x hx
        cases hx with
        | refl => rw [hid]; rfl
        | up h1 _ =>
          unfold makerOf at h1
          cases hh : s.heap x with
          | none => rw [hh] at h1; cases h1
          | some _ => rfl
      refine ⟨?_, ?_, ?_, ?_, ?_, ?_, ?_, ?_⟩
      · intro x hx
        exact hi.bound x (by rw [← hsome x]; exact hx)
      · intro c p a h
        have h : makerOf h' c = _ := h
        rw [hmk'] at h
        exact hi.lt c p a h
      · intro x hx
        show (h' x).isSome
        rw [hsome x]
        rcases hx with hx | hx
        · rcases (hmem x).mp hx with hx | hx
          · exact hi.logged x (.inl hx)
          · exact hdl x hx
        · rcases List.mem_append.mp hx with hx | hx
          · exact hi.logged x (.inr hx)
          · rw [List.mem_singleton.mp hx, hid]; rfl
      · intro x ox hx hn
        show Open (makerOf h') x ox
        rw [hmk']
        have hn : x ∉ s.log ++ l := hn
        rw [hmem] at hn
        have hx : h' x = some ox := hx
        rw [(e3 x fun h => hn (.inr h)).2] at hx
        exact hi.opened x ox hx fun h => hn (.inl h)
      · intro x ox hx hn
        by_cases hd : Desc (makerOf s.heap) x id
        · exact e4 x ox hx hd
        · have hx : h' x = some ox := hx
          rw [(e3 x hd).2] at hx
          exact hi.shut x ox hx (((hmem x).mp hn).elim (fun h => h) fun h => absurd h hd)
      · intro x ox hx hm
        show (s.log ++ l).count x = (s.calls ++ [id]).count x
        obtain ⟨o2, ho2, _, hm2⟩ := e1.symm.get hx
        rw [List.count_append, List.count_append, hi.root x o2 ho2 (hm2.trans hm)]
        congr 1
        by_cases he : x = id
        · subst he
          rw [e2 x (.refl x)]
          simp
        · rw [(e3 x (by
            intro hd
            cases hd with
            | refl => exact he rfl
            | up h1 _ => rw [hmk x o2 ho2, hm2.trans hm] at h1; cases h1)).1]
          exact (List.count_eq_zero_of_not_mem (by rw [List.mem_singleton]; exact he)).symm
      · intro x ox p a hx hm
        show (s.log ++ l).count x = min 1 ((s.log ++ l).count p)
        obtain ⟨o2, ho2, _, hm2⟩ := e1.symm.get hx
        have hxp : makerOf s.heap x = some (p, a) := by rw [hmk x o2 ho2]; exact hm2.trans hm
        rw [List.count_append, List.count_append, hi.child x o2 p a ho2 (hm2.trans hm)]
        by_cases hd : Desc (makerOf s.heap) p id
        · rw [e2 p hd, e2 x (.up hxp hd), List.count_eq_zero_of_not_mem (hdesc p hd)]
          rfl
        · rw [(e3 p hd).1, (e3 x (by
            intro hdx
            cases hdx with
            | refl =>
              rw [hmk id o hid, hr] at hxp
              cases hxp
            | up h1 h2 =>
              rw [hxp] at h1
              cases h1
              exact hd h2)).1]
          rfl
      · show s.errs ++ [] = []
        rw [hi.errs]
        rfl

theorem inv_run (ops : List Op) (hw : ∀ op ∈ ops, ∀ cls, opCls op = some cls → wellFormed cls = true) :
    Inv (run ops) := by
  unfold run
  have : ∀ s, Inv s → Inv (ops.foldl step s) := by
    induction ops with
    | nil => exact fun s h => h
    | cons op ops ih =>
      intro s hs
      refine ih (fun o ho => hw o (List.mem_cons_of_mem _ ho)) (step s op) ?_
      have h1 := hw op List.mem_cons_self
      cases op with
      | new cls args => exact inv_new hs cls args (wf_of (h1 cls rfl))
      | make p a cls args => exact inv_make hs p a cls args (wf_of (h1 cls rfl))
      | close id => exact inv_close hs id
  exact this _ inv_init

end Verif.Closing
