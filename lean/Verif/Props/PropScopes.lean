import Verif.Model.PropScopes
import Verif.Props.CStates

/-!
C83: the scopes of C-state properties in a process with several objects.
C84: changing C-state properties of packages.
-/

namespace Verif.PropScopes

open Verif.CStates
open Verif.PropsBase
open Verif.CPUInfo (Scope WF SameUnit CpuWith InPackage NA)
open Verif.FeaturedMSR (Val)

/-! ### C83 -/

/-- The object knows the right scope of a property, or nothing yet. -/
def Right (o : Obj) (H : Host) : Prop :=
  o.host = H ∧ ∀ p, (o.sname p = initial p ∧ o.iosname p = initial p) ∨
    ∃ sn ios, scopes H p = some (sn, ios) ∧ o.sname p = some sn ∧ o.iosname p = some ios

theorem initial_right {H : Host} {p : Name} {sc : Scope} (h : initial p = some sc) :
    scopes H p = some (sc, sc) := by
  cases p <;> simp [initial] at h <;> subst h <;> rfl

theorem initial_none {H : Host} {p : Name} (h : scopes H p = none) : initial p = none := by
  cases hi : initial p with
  | none => rfl
  | some sc => rw [initial_right hi] at h; cases h

theorem right_create (H : Host) : Right (create H initial) H := ⟨rfl, fun _ => .inl ⟨rfl, rfl⟩⟩

theorem right_setSname {o : Obj} {H : Host} (h : Right o H) (p : Name) (g : Scopes) :
    Right (setSname p o g).1 H ∧ descOf (setSname p o g).1 p = desc H p := by
  have hfin : ∀ {o' : Obj}, o'.sname p = (scopes H p).map Prod.fst → o'.iosname p = (scopes H p).map Prod.snd →
      descOf o' p = desc H p := by
    intro o' h1 h2
    unfold descOf desc
    rw [h1, h2]
  unfold setSname
  cases hs : o.sname p with
  | some sc =>
    refine ⟨h, ?_⟩
    show descOf o p = _
    apply hfin
    · rcases h.2 p with ⟨h1, _⟩ | ⟨sn, ios, h1, h2, h3⟩
      · rw [h1] at hs
        rw [h1, initial_right hs, hs]; rfl
      · rw [h2, h1]; rfl
    · rcases h.2 p with ⟨h1, h2⟩ | ⟨sn, ios, h1, h2, h3⟩
      · rw [h1] at hs
        rw [h2, initial_right hs, hs]; rfl
      · rw [h3, h1]; rfl
  | none =>
    rw [h.1]
    have hio : o.iosname p = none := by
      rcases h.2 p with ⟨h1, h2⟩ | ⟨_, _, _, h2, _⟩
      · rw [h2, ← h1, hs]
      · rw [hs] at h2; cases h2
    cases hsc : scopes H p with
    | none =>
      refine ⟨h, hfin ?_ ?_⟩
      · show o.sname p = _; rw [hs, hsc]; rfl
      · show o.iosname p = _; rw [hio, hsc]; rfl
    | some x =>
      obtain ⟨sn, ios⟩ := x
      refine ⟨⟨rfl, fun q => ?_⟩, hfin ?_ ?_⟩
      · by_cases hq : q = p
        · subst hq
          exact .inr ⟨sn, ios, hsc, if_pos rfl, if_pos rfl⟩
        · show (put o.sname p _ q = _ ∧ put o.iosname p _ q = _) ∨ ∃ a b, _ ∧ put o.sname p _ q = _ ∧
            put o.iosname p _ q = _
          unfold put
          rw [if_neg hq, if_neg hq]
          exact h.2 q
      · show put o.sname p _ p = _
        unfold put
        rw [if_pos rfl, hsc]; rfl
      · show put o.iosname p _ p = _
        unfold put
        rw [if_pos rfl, hsc]; rfl

theorem run_append (P : Proc) (a b : List Op) :
    run P (a ++ b) = ((run (run P a).1 b).1, (run P a).2 ++ (run (run P a).1 b).2) := by
  induction a generalizing P with
  | nil => rfl
  | cons o a ih =>
    rw [List.cons_append]
    show ((run (step P o).1 (a ++ b)).1, (step P o).2 :: (run (step P o).1 (a ++ b)).2) = _
    rw [ih]
    rfl

theorem run_new (hosts : List Host) (g : Scopes) (objs : List Obj) :
    run ⟨g, objs⟩ (hosts.map .new) =
      (⟨g, objs ++ hosts.map fun H => create H g⟩, hosts.map fun _ => none) := by
  induction hosts generalizing objs with
  | nil => simp [run]
  | cons H hs ih =>
    show ((run (step ⟨g, objs⟩ (.new H)).1 (hs.map .new)).1, (step ⟨g, objs⟩ (.new H)).2 ::
      (run (step ⟨g, objs⟩ (.new H)).1 (hs.map .new)).2) = _
    unfold step
    dsimp only
    rw [ih]
    simp

theorem run_calls (hosts : List Host) (calls : List (Nat × Name)) (P : Proc)
    (h : P.objs.length = hosts.length ∧ ∀ (k : Nat) o H, P.objs[k]? = some o → hosts[k]? = some H → Right o H) :
    (run P (calls.map fun c => .call c.1 c.2)).2 =
      calls.map fun c => (hosts[c.1]?).map fun H => desc H c.2 := by
  induction calls generalizing P with
  | nil => rfl
  | cons c cs ih =>
    obtain ⟨k, p⟩ := c
    show (step P (.call k p)).2 :: (run (step P (.call k p)).1 (cs.map fun c => .call c.1 c.2)).2 = _
    cases ho : P.objs[k]? with
    | none =>
      have hk : hosts[k]? = none := by
        rw [List.getElem?_eq_none_iff] at ho ⊢
        omega
      have hst : step P (.call k p) = (P, none) := by unfold step; simp only [ho]
      rw [hst, ih P h]
      simp [hk]
    | some o =>
      have hlt : k < P.objs.length := by
        rw [List.getElem?_eq_some_iff] at ho
        exact ho.1
      have hk : hosts[k]? = some hosts[k] := List.getElem?_eq_getElem (by omega)
      have hr := h.2 k o _ ho hk
      have h2 := right_setSname hr p P.props
      have hst : step P (.call k p) = (⟨(setSname p o P.props).2.1, P.objs.set k (setSname p o P.props).1⟩,
          some (descOf (setSname p o P.props).1 p)) := by unfold step; simp only [ho]
      rw [hst, ih]
      · simp only [List.map_cons, hk, Option.map_some]
        rw [h2.2]
      · refine ⟨by simp [h.1], ?_⟩
        intro k' o' H' ho' hH'
        dsimp only at ho'
        rw [List.getElem?_set] at ho'
        split at ho'
        · rename_i heq
          subst heq
          injection ho' with ho'
          subst ho'
          rw [hk] at hH'
          injection hH' with hH'
          rw [← hH']
          exact h2.1
        · exact h.2 k' o' H' ho' hH'

/-- C83: if all the objects of the process are created before the first method is called, in particular if
there is one object, then every method uses the scope and the I/O scope which the property has on the host
of the object, and knows if it is not supported. -/
theorem C83_scopes_partial (hosts : List Host) (calls : List (Nat × Name)) :
    (run ⟨initial, []⟩ (hosts.map .new ++ calls.map fun c => .call c.1 c.2)).2 =
      (hosts.map fun _ => none) ++ calls.map fun c => (hosts[c.1]?).map fun H => desc H c.2 := by
  rw [run_append, run_new]
  dsimp only
  rw [run_calls hosts calls]
  refine ⟨by simp, ?_⟩
  intro k o H ho hH
  simp only [List.nil_append, List.getElem?_map] at ho
  rw [hH] at ho
  injection ho with ho
  rw [← ho]
  exact right_create H

/-- A host with a Cascade Lake AP CPU. -/
def exClx : Host := { exHost with clxAp := true }

/-- A host of another vendor. -/
def exOther : Host := { exHost with intel := false }

/-- C83 is false of the code if an object is created after the scope was used by another one: on the same
host the package C-state limit gets the I/O scope "package" instead of "core"; on another host the scope of
the first host is used; a property which the other host does not have gets a scope. -/
theorem C83_scopes_counterexample :
    let outs := (run ⟨initial, []⟩ [.new exHost, .call 0 .limit, .new exHost, .call 1 .limit, .new exClx,
      .call 2 .limit, .new exOther, .call 3 .limit]).2
    outs = [none, some ⟨[.msr], some (.lvl .package), .lvl .core, true⟩,
      none, some ⟨[.msr], some (.lvl .package), .lvl .package, true⟩,
      none, some ⟨[.msr], some (.lvl .package), .lvl .package, true⟩,
      none, some ⟨[.msr], some (.lvl .package), .lvl .package, true⟩] ∧
    desc exHost .limit = ⟨[.msr], some (.lvl .package), .lvl .core, true⟩ ∧
    desc exClx .limit = ⟨[.msr], some (.lvl .die), .lvl .core, true⟩ ∧
    (desc exOther .limit).sname = none :=
  ⟨rfl, rfl, rfl, rfl⟩

/-- The hypothesis of C83_scopes_partial on three hosts. -/
example : (run ⟨initial, []⟩ ([exHost, exClx, exOther].map .new ++
    [(1, Name.limit), (0, .limit), (2, .c1e), (1, .c1e)].map fun c => .call c.1 c.2)).2 =
    [none, none, none, some ⟨[.msr], some (.lvl .die), .lvl .core, true⟩,
      some ⟨[.msr], some (.lvl .package), .lvl .core, true⟩, some ⟨[.msr], none, .global, true⟩,
      some ⟨[.msr], some (.lvl .die), .lvl .die, true⟩] :=
  rfl

/-! ### C84 -/

/-- CPU `c` belongs to one of the packages. -/
def Target (H : Host) (packages : List Nat) (c : Nat) : Prop :=
  ∃ k ∈ packages, CpuWith H.info (InPackage k) c

/-- CPUs of the same I/O unit share the register. -/
structure Shared (H : Host) : Prop where
  pcst : ∀ c d, SameUnit H.info (unitOf H .c1Demotion) c d → H.ePcst.same c d = true
  pctl : ∀ c d, SameUnit H.info (unitOf H .c1e) c d → H.ePctl.same c d = true

theorem value_shared {H : Host} {s : St} (hs : StWF H s) {p : Name}
    (hp : p = .limit ∨ p = .c1e ∨ p = .prewake) {c d : Nat}
    (h : if p = .limit then H.ePcst.same c d = true else H.ePctl.same c d = true) {x : PVal}
    (hx : Value H s p d x) : Value H s p c x := by
  rcases hp with rfl | rfl | rfl
  · have he : s.pcst c = s.pcst d := hs.pcst.1 c d h
    unfold Value at hx ⊢
    dsimp only at hx ⊢
    rw [he]; exact hx
  · have he : s.pctl c = s.pctl d := hs.pctl.1 c d h
    unfold Value at hx ⊢
    dsimp only at hx ⊢
    rw [he]; exact hx
  · have he : s.pctl c = s.pctl d := hs.pctl.1 c d h
    unfold Value at hx ⊢
    dsimp only at hx ⊢
    rw [he]; exact hx

/-- The loop with one mechanism. -/
theorem loop_one {σ : Type} (set : Mech → List Nat → σ → σ × Except Exn Unit) (m : Mech) (l : List Nat)
    (s s1 : σ) (r1 : Except Exn Unit) (h : set m l s = (s1, r1)) :
    ∃ r, setLoop (fun m => oneMech (set m) l) [m] false s = (s1, r) ∧ (r1 = .ok () → r = .ok m) ∧
      ∀ m', r = .ok m' → r1 = .ok () ∧ m' = m := by
  have h1 : ∃ r2, oneMech (set m) l s = (s1, r2) ∧ (r1 = .ok () → r2 = .ok ()) ∧ (r2 = .ok () → r1 = .ok ()) := by
    unfold oneMech
    rw [h]
    cases r1 with
    | ok u => exact ⟨_, rfl, fun _ => rfl, fun _ => rfl⟩
    | error e => exact ⟨_, rfl, fun h => (by cases h), fun h => (by cases h)⟩
  obtain ⟨r2, h1, h2, h3⟩ := h1
  unfold setLoop
  rw [h1]
  cases r2 with
  | ok u => exact ⟨_, rfl, fun _ => rfl, fun m' h => ⟨h3 rfl, by injection h with h; exact h.symm⟩⟩
  | error e =>
    have hno : ¬ r1 = .ok () := fun h => by have := h2 h; cases this
    dsimp only
    split
    · rw [setLoop]
      exact ⟨_, rfl, fun h => absurd h hno, fun m' h => (by cases h)⟩
    · exact ⟨_, rfl, fun h => absurd h hno, fun m' h => (by cases h)⟩

/-- C84: setting the package C-state limit, C1E autopromotion or C-state prewake of packages, with an object
which knows the scopes: whether it succeeds or fails, only this property of CPUs of these packages changes;
after success every CPU of these packages has the requested value; and it succeeds if no CPU of the packages
is locked and neither the hardware nor the kernel refuses. The other properties cannot be set for packages,
except for the governor. -/
theorem C84_set_packages_partial (H : Host) (hH : HostWF H) (hsh : Shared H) (s : St) (hs : StWF H s)
    (p : Name) (hp : p = .limit ∨ p = .c1e ∨ p = .prewake) (hap : H.clxAp = false)
    (hfam : H.family ≠ .silvermont) (v0 : Val) (w : PVal) (hv : Asks H s p v0 w)
    (hsup : ∃ c x, Value H s p c x) (packages : List Nat)
    (hpk : ∀ k ∈ packages, k ≠ NA ∧ ∃ c, CpuWith H.info (InPackage k) c) (hne : packages ≠ [])
    (mnames : Option (List Mech)) (hm : ∀ ml, mnames = some ml → ∀ m ∈ ml, m = .msr)
    (s' : St) (r : Except Exn Mech)
    (hr : setPackages H (desc H p) p (some v0) packages mnames s = (s', r)) :
    StWF H s' ∧
    (∀ q c x, c ∈ H.info.online → (q ≠ p ∨ ¬ Target H packages c) →
      (Value H s' q c x ↔ Value H s q c x)) ∧
    (∀ c x, Value H s' p c x → Value H s p c x ∨ x = w) ∧
    (∀ m, r = .ok m → m = .msr ∧ ∀ c, Target H packages c → Value H s' p c w) ∧
    ((p = .limit → ∀ c, Target H packages c → ¬ PCStateConfigCtl.Locked s.pcst c) →
      (∀ l, (∀ c ∈ l, Target H packages c) → NoFail H p w l) → r = .ok .msr) := by
  have hwr : writable p = true := asks_writable hv
  obtain ⟨v1, hn, hna⟩ := (norm_asks hwr).1 hv
  obtain ⟨c0, x0, hx0⟩ := hsup
  have hsrc : mech p = .msr := by rcases hp with rfl | rfl | rfl <;> rfl
  have hsn := sname_has hx0
  have hun : unitOf H p = .lvl .package := by
    unfold unitOf
    rcases hp with rfl | rfl | rfl <;> simp [hap]
  have hint : H.intel = true := by rcases hp with rfl | rfl | rfl <;> exact hx0.1
  have hios : (desc H p).iosname = if p = .limit then unitOf H .c1Demotion else unitOf H .c1e := by
    rcases hp with rfl | rfl | rfl
    · rw [if_pos rfl]
      unfold desc scopes
      dsimp only
      rw [hint]
      rfl
    · rw [if_neg (by decide)]
      unfold desc scopes
      dsimp only
      rw [hint]
      rfl
    · rw [if_neg (by decide)]
      unfold desc scopes
      dsimp only
      rw [hint]
      rfl
  have hio : (desc H p).iosname ∈ [Scope.lvl .CPU, .lvl .core, .lvl .die, .lvl .package] := by
    rw [hios]
    unfold unitOf
    rcases hp with rfl | rfl | rfl
    · cases hf : H.family
      · exact absurd hf hfam
      · simp
      · simp
    · simp [hap]
    · simp [hap]
  have hmm : ∀ ml, mnames = some ml → ∀ m ∈ ml, m ∈ (desc H p).mnames ∧ m.writable = true := by
    intro ml h m hml
    rw [hm ml h m hml]
    refine ⟨?_, rfl⟩
    show Mech.msr ∈ [mech p]
    rw [hsrc]; simp
  obtain ⟨l, ⟨hnd, hl1, hl2⟩, heq⟩ := C28_set_prop_packages_partial H.info hH.info (desc H p) (norm p)
    (setCpus H p) v0 v1 packages mnames s hmm hwr hn
    (fun k hk => ⟨(hpk k hk).1, by obtain ⟨c, _, t, h1, _, h2⟩ := (hpk k hk).2; exact ⟨t, h1, h2⟩⟩) hne
    (.inl (by rw [hsn, hun])) (within_package hH.info hio)
  have hlne : l ≠ [] := by
    obtain ⟨k, hk⟩ := List.exists_mem_of_ne_nil packages hne
    obtain ⟨c, hc⟩ := (hpk k hk).2
    obtain ⟨d, hd, _⟩ := hl2 c ⟨k, hk, hc⟩
    exact List.ne_nil_of_mem hd
  have hon : ∀ c ∈ l, c ∈ H.info.online := by
    intro c hc
    obtain ⟨k, _, h1, t, h2, h3, _⟩ := hl1 c hc
    exact (hH.info.online c).2 ⟨h1, t, h2, h3⟩
  have hz : (s', r) = setLoop (fun m => oneMech (setCpus H p m v1) l) [mech p] false s := by
    rw [← hr, ← toTry_desc (H := H) (p := p) (mn := mnames)
      (fun ml h m hml => by rw [hm ml h m hml, ← mech_source, hsrc])]
    exact heq
  rcases setCpus_cases hH hs hwr v1 (fun h => norm_not_str h hn) l hlne with ⟨hng, e, hf⟩ | ⟨hg, w', hw, hf⟩
  · obtain ⟨r', h1, _, h3⟩ := loop_one (fun m => setCpus H p m v1) (mech p) l s s _ hf
    rw [h1] at hz
    injection hz with ha hb
    subst ha hb
    refine ⟨hs, fun _ _ _ _ _ => Iff.rfl, fun _ _ h => .inl h, fun m h => (by cases (h3 m h).1), ?_⟩
    intro hul _
    exact absurd ⟨⟨w, hna⟩, ⟨c0, x0, hx0⟩, fun h c hc => hul h c (hl1 c hc)⟩ hng
  · have hww : w' = w := asks_unique hH ((norm_asks hwr).2 ⟨v1, hn, hw⟩) hv
    subst hww
    revert hf hz
    cases hq : setCpus H p (mech p) v1 l s with
    | mk s1 r1 =>
      intro hz hf
      dsimp only at hf
      obtain ⟨r', h1, h2, h3⟩ := loop_one (fun m => setCpus H p m v1) (mech p) l s s1 r1 hq
      rw [h1] at hz
      injection hz with ha hb
      subst ha hb
      rw [hsrc] at h2 h3
      refine ⟨hf.wf, ?_, ?_, ?_, ?_⟩
      · intro q c x hc hq'
        by_cases hqp : q = p
        · subst hqp
          rcases hf.each c with h | ⟨h, _⟩
          · exact h x
          · refine absurd ?_ (hq'.resolve_left fun h => h rfl)
            have hsame : ∃ a ∈ l, SameUnit H.info (.lvl .package) a c := by
              rw [← hun]
              rcases hp with rfl | rfl | rfl
              · obtain ⟨a, ha, h⟩ := h
                exact ⟨a, ha, (hH.sharePcst a c (hon a ha) h).2⟩
              · obtain ⟨a, ha, h⟩ := h
                exact ⟨a, ha, hH.sharePctl a c (hon a ha) h⟩
              · obtain ⟨a, ha, h⟩ := h
                exact ⟨a, ha, hH.sharePctl a c (hon a ha) h⟩
            obtain ⟨a, ha, ta, hta, tc, htc, e1, e2, n1, n2, hid⟩ := hsame
            obtain ⟨k, hk, _, t, ht, e3, hin⟩ := hl1 a ha
            have : t = ta := hH.info.unique t ht ta hta (by rw [e3, e1]) (by rw [e3]; exact n1)
            subst this
            refine ⟨k, hk, n2, tc, htc, e2, ?_⟩
            have hid : [t.package] = [tc.package] := hid
            injection hid with hid
            show tc.package = k
            rw [← hid]; exact hin
        · exact hf.other q hqp c x
      · intro c x hx
        rcases hf.each c with h | ⟨_, h⟩
        · exact .inl ((h x).1 hx)
        · exact .inr (value_unique hH hx h)
      · intro m h
        obtain ⟨h4, h5⟩ := h3 m h
        refine ⟨h5, fun c hc => ?_⟩
        obtain ⟨d, hd, hcd, _⟩ := hl2 c hc
        rw [hios] at hcd
        refine value_shared hf.wf hp (d := d) ?_ (hf.all h4 d (.inl hd))
        by_cases hpl : p = .limit
        · rw [if_pos hpl] at hcd ⊢
          exact hsh.pcst c d hcd
        · rw [if_neg hpl] at hcd ⊢
          exact hsh.pctl c d hcd
      · intro _ hnf
        exact h2 (hf.works (hnf l hl1))

/-- The example host shares the registers as the I/O scopes say. -/
theorem exHost_shared : Shared exHost := by
  have key : ∀ (u : Scope) (f : Nat → Nat → Bool),
      (CPUInfo.exInfo.topology.all fun tc => CPUInfo.exInfo.topology.all fun td =>
        decide (tc.cpu = NA) || decide (td.cpu = NA) || !decide (CPUInfo.ident u tc = CPUInfo.ident u td) ||
          f tc.cpu td.cpu) = true → ∀ c d, SameUnit CPUInfo.exInfo u c d → f c d = true := by
    intro u f h c d ⟨tc, htc, td, htd, e1, e2, n1, n2, hid⟩
    have := List.all_eq_true.1 (List.all_eq_true.1 h tc htc) td htd
    rw [← e1] at n1 ⊢
    rw [← e2] at n2 ⊢
    simpa [n1, n2, hid] using this
  exact ⟨key (.lvl .core) _ (by decide +kernel), key (.lvl .package) _ (by decide +kernel)⟩

/-- C84 on a concrete case, with an object which knows the scopes and with the second object of the process
(see C83): the second one says that the limit of package 0 is set, but the CPUs of all cores except for the
first one keep their limit. -/
theorem C84_second_object_counterexample :
    let bad : PropDesc := ⟨[.msr], some (.lvl .package), .lvl .package, true⟩
    let z := setPackages exHost (desc exHost .limit) .limit (some (.str "PC2".toList)) [0] none exSt
    let z' := setPackages exHost bad .limit (some (.str "PC2".toList)) [0] none exSt
    (run ⟨initial, []⟩ [.new exHost, .call 0 .limit, .new exHost, .call 1 .limit]).2 =
      [none, some (desc exHost .limit), none, some bad] ∧
    z.2 = .ok .msr ∧ (∀ c ∈ [0, 1, 4, 5], z.1.pcst c = 1) ∧ (∀ c ∈ [2, 3, 6, 7], z.1.pcst c = 0) ∧
    z'.2 = .ok .msr ∧ (∀ c ∈ [0, 4], z'.1.pcst c = 1) ∧ (∀ c ∈ [1, 5], z'.1.pcst c = 0) := by
  refine ⟨rfl, ?_⟩
  decide +kernel

/-- The hypotheses of C84 on this case. -/
example : HostWF exHost ∧ Shared exHost ∧ StWF exHost exSt ∧ exHost.clxAp = false ∧
    exHost.family ≠ .silvermont ∧ Asks exHost exSt .limit (.str "PC2".toList) (.str "PC2".toList) ∧
    (∃ c x, Value exHost exSt .limit c x) ∧ (∀ c, ¬ PCStateConfigCtl.Locked exSt.pcst c) := by
  refine ⟨exHost_wf, exHost_shared, exSt_wf, rfl, by decide, ?_, ?_, ?_⟩
  · exact ⟨_, _, rfl, .inl ⟨⟨1, by decide⟩, rfl⟩, rfl⟩
  · exact ⟨0, _, rfl, _, 0, "PC0".toList, rfl, by decide +kernel, .inl (by decide), rfl⟩
  · intro c h
    have h : (0 : Int).testBit 15 = true := h
    exact absurd h (by decide +kernel)

end Verif.PropScopes
