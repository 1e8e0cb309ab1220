import Verif.Props.SetOrderSpec

/-! Lemmas for C123. -/

namespace Verif.SetOrder

open Verif.Dict

variable {K : Type}

/-- What is in the buffers at the end. -/
def fill : List Op → Bufs → Bufs
  | [], b => b
  | .direct _ _ :: ops, b => fill ops b
  | .sysfs p v :: ops, b => fill ops { b with sysfs := b.sysfs.set p v }
  | .msr c a v :: ops, b => fill ops { b with msr := b.msr.set c (((b.msr.get? c).getD []).set a v) }

theorem writes_append (kern : Kernel K) (a b : List Op) (k : K) :
    writes kern (a ++ b) k = match writes kern a k with
      | (k', true) => writes kern b k'
      | (k', false) => (k', false) := by
  induction a generalizing k with
  | nil => rfl
  | cons o a ih =>
    rw [List.cons_append, writes, writes]
    cases kern k o with
    | none => rfl
    | some k' => exact ih k'

theorem setting_eq (kern : Kernel K) (ops : List Op) (b : Bufs) (k : K) :
    setting kern ops b k = match writes kern (ops.filter Op.isDirect) k with
      | (k', true) => (k', some (fill ops b))
      | (k', false) => (k', none) := by
  induction ops generalizing b k with
  | nil => rfl
  | cons o ops ih =>
    cases o with
    | direct p v =>
      have hf : (Op.direct p v :: ops).filter Op.isDirect = Op.direct p v :: ops.filter Op.isDirect := rfl
      rw [hf, writes, setting, fill]
      cases kern k (.direct p v) with
      | none => rfl
      | some k' => exact ih b k'
    | sysfs p v =>
      have hf : (Op.sysfs p v :: ops).filter Op.isDirect = ops.filter Op.isDirect := rfl
      rw [hf, setting, fill]
      exact ih _ k
    | msr c a v =>
      have hf : (Op.msr c a v :: ops).filter Op.isDirect = ops.filter Op.isDirect := rfl
      rw [hf, setting, fill]
      exact ih _ k

theorem setProps_eq (kern : Kernel K) (ops : List Op) (k : K) :
    setProps kern ops k = writes kern (ops.filter Op.isDirect ++ (msrWrites (fill ops ⟨[], []⟩).msr ++
      sysfsWrites (fill ops ⟨[], []⟩).sysfs)) k := by
  unfold setProps
  rw [setting_eq, writes_append]
  generalize writes kern (ops.filter Op.isDirect) k = r
  obtain ⟨k', b⟩ := r
  cases b with
  | false => rfl
  | true =>
    dsimp only
    rw [writes_append]
    generalize writes kern (msrWrites (fill ops ⟨[], []⟩).msr) k' = r
    obtain ⟨k2, b2⟩ := r
    cases b2 <;> rfl

theorem inOrder_iff (kern : Kernel K) (ops : List Op) (k r : K) (b : Bool) :
    InOrder kern ops k r b ↔ writes kern ops k = (r, b) := by
  constructor
  · intro h
    induction h with
    | done k => rfl
    | step h _ ih => rw [writes, h]; exact ih
    | refused h => rw [writes, h]
  · intro h
    induction ops generalizing k with
    | nil =>
      rw [writes] at h
      injection h with h1 h2
      subst h1 h2
      exact .done k
    | cons o ops ih =>
      rw [writes] at h
      cases ho : kern k o with
      | none =>
        rw [ho] at h
        injection h with h1 h2
        subst h1 h2
        exact .refused ho
      | some k' =>
        rw [ho] at h
        exact .step ho (ih k' h)

theorem writes_plain (ops : List Op) (k : Loc → PyStr ⊕ Nat) :
    writes plain ops k = (fun l => lastOf l (k l) ops, true) := by
  induction ops generalizing k with
  | nil => rfl
  | cons o ops ih =>
    rw [writes]
    unfold plain
    dsimp only
    exact ih _

theorem lastOf_append (l : Loc) (d : PyStr ⊕ Nat) (a b : List Op) :
    lastOf l d (a ++ b) = lastOf l (lastOf l d a) b := by
  induction a generalizing d with
  | nil => rfl
  | cons o a ih => exact ih _

theorem lastOf_none (l : Loc) (d : PyStr ⊕ Nat) (ops : List Op) (h : ∀ o ∈ ops, o.loc ≠ l) : lastOf l d ops = d := by
  induction ops generalizing d with
  | nil => rfl
  | cons o ops ih =>
    have h1 : ¬l = o.loc := fun e => h o (List.mem_cons_self ..) e.symm
    rw [lastOf, if_neg h1]
    exact ih d fun x hx => h x (List.mem_cons_of_mem _ hx)

/-- Changes of other things can be left out. -/
theorem lastOf_filter (l : Loc) (d : PyStr ⊕ Nat) (p : Op → Bool) (ops : List Op)
    (h : ∀ o ∈ ops, p o = false → o.loc ≠ l) : lastOf l d (ops.filter p) = lastOf l d ops := by
  induction ops generalizing d with
  | nil => rfl
  | cons o ops ih =>
    have hr := fun d' => ih d' fun x hx => h x (List.mem_cons_of_mem _ hx)
    cases hp : p o with
    | true => rw [List.filter_cons_of_pos hp, lastOf, lastOf]; exact hr _
    | false =>
      have h1 : ¬l = o.loc := fun e => h o (List.mem_cons_self ..) hp e.symm
      rw [List.filter_cons_of_neg (by rw [hp]; decide), lastOf, if_neg h1]
      exact hr d

/-- The value of a file in the buffer. -/
def sval (b : Bufs) (p : PyStr) (d : PyStr ⊕ Nat) : PyStr ⊕ Nat := ((b.sysfs.get? p).map .inl).getD d

/-- The value of a register in the buffer. -/
def mval (b : Bufs) (c a : Nat) (d : PyStr ⊕ Nat) : PyStr ⊕ Nat := ((((b.msr.get? c).getD []).get? a).map .inr).getD d

theorem fill_sval (p : PyStr) (d : PyStr ⊕ Nat) (ops : List Op) (b : Bufs)
    (h : ∀ o ∈ ops, o.isDirect = true → o.loc ≠ .file p) :
    lastOf (.file p) (sval b p d) ops = sval (fill ops b) p d := by
  induction ops generalizing b with
  | nil => rfl
  | cons o ops ih =>
    have hr := fun b' => ih b' fun x hx => h x (List.mem_cons_of_mem _ hx)
    cases o with
    | direct q v =>
      have h1 : ¬Loc.file p = (Op.direct q v).loc := fun e => h _ (List.mem_cons_self ..) rfl e.symm
      rw [lastOf, if_neg h1, fill]
      exact hr b
    | sysfs q v =>
      rw [lastOf, fill, ← hr]
      congr 1
      unfold sval Op.loc Op.val
      dsimp only
      rw [get?_set]
      by_cases e : q = p
      · subst e; rw [if_pos rfl, if_pos rfl]; rfl
      · have e2 : ¬Loc.file p = Loc.file q := by intro x; injection x with x; exact e x.symm
        rw [if_neg e, if_neg e2]
    | msr c a v =>
      have h1 : ¬Loc.file p = (Op.msr c a v).loc := by intro e; cases e
      rw [lastOf, if_neg h1, fill, ← hr]
      rfl

theorem fill_mval (c a : Nat) (d : PyStr ⊕ Nat) (ops : List Op) (b : Bufs) :
    lastOf (.reg c a) (mval b c a d) ops = mval (fill ops b) c a d := by
  induction ops generalizing b with
  | nil => rfl
  | cons o ops ih =>
    cases o with
    | direct q v =>
      have h1 : ¬Loc.reg c a = (Op.direct q v).loc := by intro e; cases e
      rw [lastOf, if_neg h1, fill]
      exact ih b
    | sysfs q v =>
      have h1 : ¬Loc.reg c a = (Op.sysfs q v).loc := by intro e; cases e
      rw [lastOf, if_neg h1, fill, ← ih]
      rfl
    | msr c' a' v =>
      rw [lastOf, fill, ← ih]
      congr 1
      unfold mval Op.loc Op.val
      dsimp only
      rw [get?_set]
      by_cases e : c' = c
      · subst e
        rw [if_pos rfl, Option.getD_some, get?_set]
        by_cases e2 : a' = a
        · subst e2; rw [if_pos rfl, if_pos rfl]; rfl
        · have e3 : ¬Loc.reg c' a = Loc.reg c' a' := by intro x; injection x with _ x; exact e2 x.symm
          rw [if_neg e2, if_neg e3]
      · have e3 : ¬Loc.reg c a = Loc.reg c' a' := by intro x; injection x with x; exact e x.symm
        rw [if_neg e, if_neg e3]

/-- Every key is there once. -/
def Good (b : Bufs) : Prop :=
  (keys b.sysfs).Nodup ∧ (keys b.msr).Nodup ∧ ∀ c d, b.msr.get? c = some d → (keys d).Nodup

theorem fill_good (ops : List Op) (b : Bufs) (h : Good b) : Good (fill ops b) := by
  induction ops generalizing b with
  | nil => exact h
  | cons o ops ih =>
    cases o with
    | direct q v => exact ih b h
    | sysfs q v => exact ih _ ⟨nodup_keys_set h.1 q v, h.2.1, h.2.2⟩
    | msr c a v =>
      refine ih _ ⟨h.1, nodup_keys_set h.2.1 c _, ?_⟩
      intro c' d hd
      dsimp only at hd
      rw [get?_set] at hd
      by_cases e : c = c'
      · rw [if_pos e] at hd
        injection hd with hd
        subst hd
        refine nodup_keys_set ?_ a v
        cases hx : b.msr.get? c with
        | none => exact List.nodup_nil
        | some x => exact h.2.2 c x hx
      · rw [if_neg e] at hd
        exact h.2.2 c' d hd

theorem lastOf_sysfsWrites (p : PyStr) (d : PyStr ⊕ Nat) (b : Dict PyStr PyStr) (h : (keys b).Nodup) :
    lastOf (.file p) d (sysfsWrites b) = ((b.get? p).map .inl).getD d := by
  induction b generalizing d with
  | nil => rfl
  | cons x b ih =>
    obtain ⟨q, v⟩ := x
    have hn : q ∉ keys b ∧ (keys b).Nodup := List.nodup_cons.1 h
    have : sysfsWrites ((q, v) :: b) = .sysfs q v :: sysfsWrites b := rfl
    rw [this, lastOf, ih _ hn.2, get?]
    by_cases e : q = p
    · subst e
      rw [if_pos rfl, (get?_eq_none_iff b q).2 hn.1]
      have e2 : Loc.file q = (Op.sysfs q v).loc := rfl
      rw [if_pos e2]
      rfl
    · have e2 : ¬Loc.file p = (Op.sysfs q v).loc := by intro x; injection x with x; exact e x.symm
      rw [if_neg e, if_neg e2]

theorem lastOf_regs (c a : Nat) (d : PyStr ⊕ Nat) (b : Dict Nat Nat) (h : (keys b).Nodup) :
    lastOf (.reg c a) d (b.map fun y => .msr c y.1 y.2) = ((b.get? a).map .inr).getD d := by
  induction b generalizing d with
  | nil => rfl
  | cons x b ih =>
    obtain ⟨q, v⟩ := x
    have hn : q ∉ keys b ∧ (keys b).Nodup := List.nodup_cons.1 h
    rw [List.map_cons, lastOf, ih _ hn.2, get?]
    by_cases e : q = a
    · subst e
      rw [if_pos rfl, (get?_eq_none_iff b q).2 hn.1]
      have e2 : Loc.reg c q = (Op.msr c q v).loc := rfl
      rw [if_pos e2]
      rfl
    · have e2 : ¬Loc.reg c a = (Op.msr c q v).loc := by intro x; injection x with _ x; exact e x.symm
      rw [if_neg e, if_neg e2]

theorem lastOf_msrWrites (c a : Nat) (d : PyStr ⊕ Nat) (b : Dict Nat (Dict Nat Nat)) (h : (keys b).Nodup)
    (hi : ∀ c d, b.get? c = some d → (keys d).Nodup) :
    lastOf (.reg c a) d (msrWrites b) = ((((b.get? c).getD []).get? a).map .inr).getD d := by
  induction b generalizing d with
  | nil => rfl
  | cons x b ih =>
    obtain ⟨q, r⟩ := x
    have hn : q ∉ keys b ∧ (keys b).Nodup := List.nodup_cons.1 h
    have hi2 : ∀ c d, Dict.get? b c = some d → (keys d).Nodup := by
      intro c' d' hd
      refine hi c' d' ?_
      rw [get?, if_neg]
      · exact hd
      · intro e; subst e
        rw [(get?_eq_none_iff b q).2 hn.1] at hd
        cases hd
    have : msrWrites ((q, r) :: b) = (r.map fun y => .msr q y.1 y.2) ++ msrWrites b := rfl
    rw [this, lastOf_append, ih _ hn.2 hi2, get?]
    by_cases e : q = c
    · subst e
      have hr : (keys r).Nodup := hi q r (by rw [get?, if_pos rfl])
      rw [if_pos rfl, (get?_eq_none_iff b q).2 hn.1, lastOf_regs q a d r hr]
      rfl
    · rw [if_neg e, lastOf_none]
      intro o ho
      obtain ⟨y, _, rfl⟩ := List.mem_map.1 ho
      intro x; injection x with x; exact e x

theorem set_new (d : Dict PyStr PyStr) (p v : PyStr) (h : p ∉ keys d) : d.set p v = d ++ [(p, v)] := by
  induction d with
  | nil => rfl
  | cons x d ih =>
    obtain ⟨q, w⟩ := x
    have hq : ¬q = p := fun e => h (by subst e; exact List.mem_cons_self ..)
    rw [Dict.set, if_neg hq, ih fun hx => h (List.mem_cons_of_mem _ hx)]
    rfl

theorem fill_append (a b : List Op) (s : Bufs) : fill (a ++ b) s = fill b (fill a s) := by
  induction a generalizing s with
  | nil => rfl
  | cons o a ih => cases o <;> exact ih _

theorem fill_directs (a : List Op) (s : Bufs) (h : ∀ o ∈ a, o.isDirect = true) : fill a s = s := by
  induction a generalizing s with
  | nil => rfl
  | cons o a ih =>
    have h1 := h o (List.mem_cons_self ..)
    cases o with
    | direct p v => exact ih s fun x hx => h x (List.mem_cons_of_mem _ hx)
    | sysfs p v => cases h1
    | msr c a v => cases h1

theorem fill_sysfs (ss : List Op) (s : Bufs) (h : ∀ o ∈ ss, o.isSysfs = true) (hn : (ss.map Op.loc).Nodup)
    (hk : ∀ o ∈ ss, ∀ p ∈ keys s.sysfs, o.loc ≠ .file p) :
    (fill ss s).msr = s.msr ∧ sysfsWrites (fill ss s).sysfs = sysfsWrites s.sysfs ++ ss := by
  induction ss generalizing s with
  | nil => exact ⟨rfl, (List.append_nil _).symm⟩
  | cons o ss ih =>
    have h1 := h o (List.mem_cons_self ..)
    rw [List.map_cons, List.nodup_cons] at hn
    cases o with
    | direct p v => cases h1
    | msr c a v => cases h1
    | sysfs p v =>
      have hp : p ∉ keys s.sysfs := fun hx => hk _ (List.mem_cons_self ..) p hx rfl
      obtain ⟨i1, i2⟩ := ih { s with sysfs := s.sysfs.set p v } (fun x hx => h x (List.mem_cons_of_mem _ hx)) hn.2 (by
        intro x hx q hq
        dsimp only at hq
        rcases (mem_keys_set s.sysfs p q v).1 hq with e | e
        · subst e
          intro e2
          exact hn.1 (List.mem_map.2 ⟨x, hx, e2⟩)
        · exact hk x (List.mem_cons_of_mem _ hx) q e)
      refine ⟨i1, ?_⟩
      rw [fill, i2]
      dsimp only
      rw [set_new _ _ _ hp]
      unfold sysfsWrites
      rw [List.map_append, List.append_assoc]
      rfl

theorem fill_buffered (ops : List Op) (s : Bufs) : fill (ops.filter fun x => !x.isDirect) s = fill ops s := by
  induction ops generalizing s with
  | nil => rfl
  | cons o ops ih => cases o <;> exact ih _

end Verif.SetOrder
