import Verif.Props.ASPMCmdSpec
import Verif.Lemmas.CStatesCmd

/-!
C96: the 'aspm' commands.
-/

namespace Verif.ASPMCmd

open ASPM (File Devs Dev shown Name getPolicy getPolicies setPolicy isL1Enabled toggleL1)
open CStatesCmd (Step andThen_ok andThen_of_ok)

/-! ### Lemmas -/

theorem dev_some {device : Option PyStr} {d : PyStr} (h : dev device = some d) : device = some d ∧ d ≠ [] := by
  unfold dev at h
  cases device with
  | none => cases h
  | some d' =>
    cases d' with
    | nil => cases h
    | cons c d' => cases h; exact ⟨rfl, List.cons_ne_nil _ _⟩

theorem dev_of_ne {d : PyStr} (h : d ≠ []) : dev (some d) = some d := by
  cases d with
  | nil => exact absurd rfl h
  | cons c d => rfl

theorem dev_none {device : Option PyStr} (h : NoDevice device) : dev device = none := by
  rcases h with rfl | rfl <;> rfl

theorem noDevice_of_none {device : Option PyStr} (h : dev device = none) : NoDevice device := by
  cases device with
  | none => exact Or.inl rfl
  | some d =>
    cases d with
    | nil => exact Or.inr rfl
    | cons c d => cases h

/-- What `set_policy()` leaves in the file. -/
theorem setPolicy_cases {E : Env} {names : List PyStr} (hK : Kernel E names) {a : Nat} (ha : a < names.length) (n : PyStr) :
    ((setPolicy E.Kp (.ok (shown names a)) n).2 = .ok () →
      ∃ k, k < names.length ∧ (setPolicy E.Kp (.ok (shown names a)) n).1 = .ok (shown names k)) ∧
    ((setPolicy E.Kp (.ok (shown names a)) n).2 ≠ .ok () →
      (setPolicy E.Kp (.ok (shown names a)) n).1 = .ok (shown names a)) := by
  have hne : names ≠ [] := by rintro rfl; cases ha
  have hp := ASPM.C55_policies names a hK.good hne
  by_cases hn : n ∈ names
  · unfold setPolicy
    rw [show ASPM.policyList (.ok (shown names a)) true = .ok names from hp]
    dsimp only
    rw [if_pos (List.contains_iff_mem.2 hn)]
    cases hk : E.Kp n with
    | ok text =>
      obtain ⟨k, h1, rfl⟩ := hK.shows n hn text hk
      exact ⟨fun _ => ⟨k, h1, rfl⟩, fun h => absurd rfl h⟩
    | error e =>
      refine ⟨fun h => ?_, fun _ => ?_⟩
      · cases e <;> cases h
      · cases e <;> rfl
  · rw [ASPM.C55_refuses E.Kp _ n names hp hn]
    exact ⟨fun h => (by cases h), fun _ => rfl⟩

theorem handlePolicy_devs (E : Env) (oargs : Dict PyStr (Option PyStr)) (device name : Option PyStr) (s : St) :
    (handlePolicy E oargs device name s).1.devs = s.devs := by
  unfold handlePolicy
  split
  · rfl
  · split
    · rfl
    · dsimp only
      split
      · rfl
      · split
        · rfl
        · split
          · rfl
          · split
            · rfl
            · split <;> rfl

/-- What the '--policy' option does. -/
theorem handlePolicy_spec {E : Env} {names : List PyStr} (hK : Kernel E names) {a : Nat} (ha : a < names.length)
    (oargs : Dict PyStr (Option PyStr)) (device name : Option PyStr) {s : St} (hs : s.policy = .ok (shown names a)) :
    ((handlePolicy E oargs device name s).2.2 = .ok () →
      PolicyDone E.host names a (some name) (handlePolicy E oargs device name s).1.policy
        (handlePolicy E oargs device name s).2.1) ∧
    ∃ k, k < names.length ∧ (handlePolicy E oargs device name s).1.policy = .ok (shown names k) ∧
      (name.getD [] = [] → k = a) := by
  have hcur := ASPM.C55_active names a hK.good ha
  have ha' : names[a]? = some names[a] := List.getElem?_eq_getElem ha
  unfold handlePolicy
  split
  · exact ⟨fun h => (by cases h), a, ha, hs, fun _ => rfl⟩
  · rw [hs, hcur]
    dsimp only
    cases hn : name.getD [] with
    | nil =>
      refine ⟨fun _ => ?_, a, ha, hs, fun _ => rfl⟩
      have : name = none ∨ name = some [] := by
        cases name with
        | none => exact Or.inl rfl
        | some t => exact Or.inr (by rw [show t = [] from hn])
      have h := PolicyDone.print (host := E.host) this ha'
      rw [← hs] at h
      exact h
    | cons c n =>
      have hname : name = some (c :: n) := by
        cases name with
        | none => cases hn
        | some t => exact congrArg some hn
      obtain ⟨q1, q2⟩ := setPolicy_cases hK ha (c :: n)
      dsimp only [List.isEmpty_cons]
      rw [if_neg (fun h => nomatch h)]
      rcases hsp : setPolicy E.Kp (.ok (shown names a)) (c :: n) with ⟨f, r⟩
      rw [hsp] at q1 q2
      cases r with
      | error e =>
        exact ⟨fun h => (by cases h), a, ha, q2 (fun h => nomatch h), fun h => nomatch h⟩
      | ok u =>
        obtain ⟨k, hk, rfl⟩ := q1 rfl
        dsimp only
        rw [ASPM.C55_active names k hK.good hk]
        dsimp only
        have hk' : names[k]? = some names[k] := List.getElem?_eq_getElem hk
        split
        · exact ⟨fun h => (by cases h), k, hk, rfl, fun h => nomatch h⟩
        · rename_i h1
          have h1' : c :: n = names[k] := Classical.not_not.1 h1
          split
          · rename_i h2
            refine ⟨fun _ => ?_, k, hk, rfl, fun h => nomatch h⟩
            rw [hname]
            exact PolicyDone.change (List.cons_ne_nil _ _) ha' h2 (by rw [hk', h1'])
          · rename_i h2
            have h2' : c :: n = names[a] := Classical.not_not.1 h2
            refine ⟨fun _ => ?_, k, hk, rfl, fun h => nomatch h⟩
            rw [hname]
            exact PolicyDone.again (List.cons_ne_nil _ _) (by rw [ha', h2']) (by rw [hk', h1'])

theorem isL1_strip {t : PyStr} {b : Bool} (h : PyStr.strip t = if b then ['1'] else ['0']) :
    Trivial.strToInt t = .ok (if b then 1 else 0) := by
  have : Trivial.strToInt t = Trivial.strToInt (PyStr.strip t) := by
    unfold Trivial.strToInt
    rw [PyStr.strip_idem]
  rw [this, h]
  cases b <;> decide +kernel

theorem printL1_spec (E : Env) (d : PyStr) (s : St) :
    (printL1 E d s).1 = s ∧ ((printL1 E d s).2.2 = .ok () → TellsL1 s.devs d (printL1 E d s).2.1) := by
  unfold printL1 isL1Enabled
  cases ht : (s.devs d).l1 with
  | none => exact ⟨rfl, fun h => (by cases h)⟩
  | some t =>
    dsimp only
    cases hv : Trivial.strToInt t with
    | error e => exact ⟨rfl, fun h => (by cases h)⟩
    | ok v =>
      refine ⟨rfl, fun _ => ⟨t, ht, fun h => ?_, fun h => ?_⟩⟩
      · rw [isL1_strip (b := false) h] at hv
        cases hv
        rfl
      · rw [isL1_strip (b := true) h] at hv
        cases hv
        rfl

theorem handleL1_policy (E : Env) (device state : Option PyStr) (s : St) :
    (handleL1 E device state s).1.policy = s.policy := by
  unfold handleL1
  split
  · rfl
  · rename_i d _
    split
    · rw [(printL1_spec E d s).1]
    · dsimp only
      split
      · rfl
      · split <;> rfl

/-- What the '--l1-aspm' option does. -/
theorem handleL1_spec (E : Env) (device state : Option PyStr) (s : St)
    (hK : ∀ d v text, device = some d → E.Kd d v = .ok text → PyStr.strip text = v) :
    ((handleL1 E device state s).2.2 = .ok () →
      L1Done E.host s.devs device (some state) (handleL1 E device state s).1.devs (handleL1 E device state s).2.1) ∧
    ((handleL1 E device state s).2.2 ≠ .ok () → (handleL1 E device state s).1.devs = s.devs) := by
  unfold handleL1
  cases hd : dev device with
  | none => exact ⟨fun h => (by cases h), fun _ => rfl⟩
  | some d =>
    obtain ⟨rfl, hd'⟩ := dev_some hd
    dsimp only
    cases hn : state.getD [] with
    | nil =>
      have hst : state = none ∨ state = some [] := by
        cases state with
        | none => exact Or.inl rfl
        | some t => exact Or.inr (by rw [show t = [] from hn])
      obtain ⟨p1, p2⟩ := printL1_spec E d s
      rw [show (List.isEmpty ([] : PyStr)) = true from rfl, if_pos rfl, p1]
      exact ⟨fun h => .print hd' hst (p2 h), fun _ => rfl⟩
    | cons c t =>
      have hname : state = some (c :: t) := by
        cases state with
        | none => cases hn
        | some t => exact congrArg some hn
      rw [if_neg (fun h => nomatch h)]
      split
      · exact ⟨fun h => (by cases h), fun _ => rfl⟩
      · rename_i hval
        have hmem : FeaturedMSR.lower (c :: t) ∈
            ["false".toList, "true".toList, "off".toList, "on".toList, "disable".toList, "enable".toList] := by
          rw [Bool.not_eq_true, Bool.not_eq_false'] at hval
          exact List.contains_iff_mem.1 hval
        have hmeans : MeansState (c :: t)
            (["true".toList, "on".toList, "enable".toList].contains (FeaturedMSR.lower (c :: t))) := by
          unfold MeansState
          show FeaturedMSR.lower (c :: t) ∈ _
          revert hmem
          generalize FeaturedMSR.lower (c :: t) = x
          revert x
          decide +kernel
        revert hmeans
        generalize ["true".toList, "on".toList, "enable".toList].contains (FeaturedMSR.lower (c :: t)) = en
        intro hmeans
        unfold toggleL1
        cases hl : (s.devs d).l1 with
        | none => exact ⟨fun h => (by cases h), fun _ => rfl⟩
        | some old =>
          dsimp only
          cases hk : E.Kd d (if en = true then ['1'] else ['0']) with
          | error e => exact ⟨fun h => (by cases h), fun _ => rfl⟩
          | ok text =>
            refine ⟨fun _ => ?_, fun h => absurd rfl h⟩
            rw [hname]
            exact .change hd' hmeans (if_pos rfl) (hK d _ _ rfl hk) (fun a ha => if_neg ha)

/-! ### C96 -/

/-- C96 (what is asked for is done and told): if 'aspm config' succeeds, then the policy given is the active one, whether or
not the kernel obeys all writes; the L1 state given is that of the device; other devices have not changed; an option without
an argument changes nothing; and the lines say what the policy was and is, and what the L1 state is. -/
theorem C96_config {E : Env} {names : List PyStr} (hK : Kernel E names) {a : Nat} (ha : a < names.length)
    (oargs : Dict PyStr (Option PyStr)) (device : Option PyStr)
    (hKd : ∀ d v text, device = some d → E.Kd d v = .ok text → PyStr.strip text = v)
    {s : St} (hs : s.policy = .ok (shown names a)) (hok : (configCmd E (some oargs) device s).2.2 = .ok ()) :
    ∃ l1 l2, (configCmd E (some oargs) device s).2.1 = l1 ++ l2 ∧
      PolicyDone E.host names a (oargs.get? "policy".toList) (configCmd E (some oargs) device s).1.policy l1 ∧
      L1Done E.host s.devs device (oargs.get? "l1_aspm".toList) (configCmd E (some oargs) device s).1.devs l2 := by
  unfold configCmd at hok ⊢
  dsimp only at hok ⊢
  obtain ⟨k1, k2, k3, k4⟩ := andThen_ok hok
  rw [k3, k4]
  refine ⟨_, _, rfl, ?_, ?_⟩
  · have h2 : ∀ s' : St, (l1Step E device (oargs.get? "l1_aspm".toList) s').1.policy = s'.policy := by
      intro s'
      cases oargs.get? "l1_aspm".toList with
      | none => rfl
      | some state => exact handleL1_policy E device state s'
    rw [h2]
    revert k1
    cases oargs.get? "policy".toList with
    | none =>
      intro _
      show PolicyDone E.host names a none s.policy []
      rw [hs]
      exact .notGiven
    | some name =>
      intro k1
      exact (handlePolicy_spec hK ha oargs device name hs).1 k1
  · have h1 : (policyStep E oargs device (oargs.get? "policy".toList) s).1.devs = s.devs := by
      cases oargs.get? "policy".toList with
      | none => rfl
      | some name => exact handlePolicy_devs E oargs device name s
    revert k2
    cases oargs.get? "l1_aspm".toList with
    | none =>
      intro _
      show L1Done E.host s.devs device none (policyStep E oargs device (oargs.get? "policy".toList) s).1.devs []
      rw [h1]
      exact .notGiven
    | some state =>
      intro k2
      have := (handleL1_spec E device state _ hKd).1 k2
      rw [h1] at this
      exact this

/-- C96 (failures): if 'aspm config' fails, no device has changed, and the policy may only have changed if a policy was
given. -/
theorem C96_failure {E : Env} {names : List PyStr} (hK : Kernel E names) {a : Nat} (ha : a < names.length)
    (oargs : Option (Dict PyStr (Option PyStr))) (device : Option PyStr)
    (hKd : ∀ d v text, device = some d → E.Kd d v = .ok text → PyStr.strip text = v)
    {s : St} (hs : s.policy = .ok (shown names a)) (hok : (configCmd E oargs device s).2.2 ≠ .ok ()) :
    (configCmd E oargs device s).1.devs = s.devs ∧
    ((configCmd E oargs device s).1.policy ≠ s.policy →
      ∃ o n k, oargs = some o ∧ o.get? "policy".toList = some (some n) ∧ n ≠ [] ∧
        (configCmd E oargs device s).1.policy = .ok (shown names k)) := by
  cases oargs with
  | none => exact ⟨rfl, fun h => absurd rfl h⟩
  | some oargs =>
  unfold configCmd at hok ⊢
  dsimp only at hok ⊢
  have h1 : (policyStep E oargs device (oargs.get? "policy".toList) s).1.devs = s.devs ∧
      ((policyStep E oargs device (oargs.get? "policy".toList) s).1.policy ≠ s.policy →
      ∃ n k, oargs.get? "policy".toList = some (some n) ∧ n ≠ [] ∧ (policyStep E oargs device (oargs.get? "policy".toList) s).1.policy = .ok (shown names k)) := by
    cases oargs.get? "policy".toList with
    | none => exact ⟨rfl, fun h => absurd rfl h⟩
    | some name =>
      refine ⟨handlePolicy_devs E oargs device name s, fun h => ?_⟩
      obtain ⟨k, hk, hk', hk''⟩ := (handlePolicy_spec hK ha oargs device name hs).2
      cases name with
      | none =>
        have := hk'' rfl
        subst this
        exact absurd (hk'.trans hs.symm) h
      | some n =>
        refine ⟨n, k, rfl, fun hn => ?_, hk'⟩
        have := hk'' hn
        subst this
        exact absurd (hk'.trans hs.symm) h
  revert hok h1
  generalize policyStep E oargs device (oargs.get? "policy".toList) = A
  intro hok h1
  unfold Step.andThen at hok ⊢
  rcases hA : A s with ⟨s', lines, r⟩
  rw [hA] at hok h1
  cases r with
  | error e =>
    exact ⟨h1.1, fun h => by
      obtain ⟨n, k, e1, e2, e3⟩ := h1.2 h
      exact ⟨oargs, n, k, rfl, e1, e2, e3⟩⟩
  | ok u =>
    dsimp only at hok h1 ⊢
    revert hok
    cases oargs.get? "l1_aspm".toList with
    | none => intro hok; exact absurd rfl hok
    | some state =>
      intro hok
      rw [show l1Step E device (some state) = handleL1 E device state from rfl] at hok ⊢
      rw [handleL1_policy, (handleL1_spec E device state s' hKd).2 hok]
      exact ⟨h1.1, fun h => by
        obtain ⟨n, k, e1, e2, e3⟩ := h1.2 h
        exact ⟨oargs, n, k, rfl, e1, e2, e3⟩⟩

/-- C96 (refusals): nothing changes without options; with a device and nothing but '--policy'; and, if there is no '--policy',
when '--l1-aspm' has no device, or an argument which is not a state. -/
theorem C96_refuses (E : Env) (oargs : Option (Dict PyStr (Option PyStr))) (device : Option PyStr) (s : St)
    (h : oargs = none ∨
      (∃ o d, oargs = some [("policy".toList, o)] ∧ device = some d ∧ d ≠ []) ∨
      (∃ o st, oargs = some o ∧ o.get? "policy".toList = none ∧ o.get? "l1_aspm".toList = some st ∧
        (NoDevice device ∨ ∃ t, st = some t ∧ t ≠ [] ∧ ∀ en, ¬ MeansState t en))) :
    ∃ e, configCmd E oargs device s = (s, [], .error e) := by
  rcases h with rfl | ⟨o, d, rfl, rfl, hd⟩ | ⟨o, st, rfl, h1, h2, h⟩
  · exact ⟨_, rfl⟩
  · refine ⟨.error, ?_⟩
    have e1 : Dict.get? [("policy".toList, o)] "policy".toList = some o := by
      unfold Dict.get?
      rw [if_pos rfl]
    have e2 : Dict.get? [("policy".toList, o)] "l1_aspm".toList = none := by
      unfold Dict.get?
      rw [if_neg (by decide +kernel)]
      rfl
    have e3 : (Dict.erase [("policy".toList, o)] "policy".toList).isEmpty = true := by
      unfold Dict.erase
      rw [if_pos rfl]
      rfl
    have e4 : handlePolicy E [("policy".toList, o)] (some d) o s = (s, [], .error .error) := by
      unfold handlePolicy
      rw [if_pos ⟨by rw [dev_of_ne hd]; rfl, e3⟩]
    unfold configCmd
    dsimp only
    rw [e1]
    unfold Step.andThen
    dsimp only
    rw [show policyStep E [("policy".toList, o)] (some d) (some o) s = (s, [], .error .error) from e4]
  · unfold configCmd
    dsimp only
    rw [h1, h2, andThen_of_ok rfl]
    suffices hh : ∃ e, handleL1 E device st s = (s, [], .error e) by
      obtain ⟨e, he⟩ := hh
      refine ⟨e, ?_⟩
      show ((handleL1 E device st s).1, [] ++ (handleL1 E device st s).2.1, (handleL1 E device st s).2.2) = _
      rw [he]
      rfl
    unfold handleL1
    rcases h with h | ⟨t, rfl, ht, hm⟩
    · rw [dev_none h]
      exact ⟨_, rfl⟩
    · cases hd : dev device with
      | none => exact ⟨_, rfl⟩
      | some d =>
        dsimp only
        have hne : ¬ ((some t).getD []).isEmpty = true := by
          cases t with
          | nil => exact absurd rfl ht
          | cons c t => exact fun h => nomatch h
        rw [if_neg hne, if_pos]
        · exact ⟨_, rfl⟩
        · rw [Bool.not_eq_true', ← Bool.not_eq_true]
          intro hc
          have hmem := List.contains_iff_mem.1 hc
          have : ∀ x ∈ ["false".toList, "true".toList, "off".toList, "on".toList, "disable".toList, "enable".toList],
              ∃ en : Bool, x ∈ (if en then ["true".toList, "on".toList, "enable".toList]
                else ["false".toList, "off".toList, "disable".toList]) := by decide +kernel
          obtain ⟨en, hen⟩ := this _ hmem
          exact hm en hen

/-- C96 (it works): with a kernel which obeys, a listed policy, and a device which has the file, the command succeeds. -/
theorem C96_works {E : Env} {names : List PyStr} (hK : Kernel E names) {a : Nat} (ha : a < names.length)
    {oargs : Dict PyStr (Option PyStr)} {device : Option PyStr} {s : St} (hs : s.policy = .ok (shown names a))
    (hKp : ∀ k (hk : k < names.length), E.Kp names[k] = .ok (shown names k))
    (hp : ∀ o, oargs.get? "policy".toList = some o →
      (NoDevice device ∨ (oargs.get? "l1_aspm".toList).isSome = true) ∧ ∀ n, o = some n → n = [] ∨ n ∈ names)
    (hl : ∀ o, oargs.get? "l1_aspm".toList = some o → ∃ (d text : PyStr) (b : Bool), device = some d ∧ d ≠ [] ∧ (s.devs d).l1 = some text ∧
      (PyStr.strip text = if b then ['1'] else ['0']) ∧ (∀ v, ∃ t, E.Kd d v = .ok t) ∧
      ∀ t, o = some t → t = [] ∨ ∃ en, MeansState t en) :
    (configCmd E (some oargs) device s).2.2 = .ok () := by
  have h1 : (policyStep E oargs device (oargs.get? "policy".toList) s).2.2 = .ok () := by
    cases hpo : oargs.get? "policy".toList with
    | none => rfl
    | some o =>
      obtain ⟨g1, g2⟩ := hp o hpo
      show (handlePolicy E oargs device o s).2.2 = _
      unfold handlePolicy
      rw [if_neg]
      · rw [hs, ASPM.C55_active names a hK.good ha]
        dsimp only
        split
        · rfl
        · rename_i hne
          have hmem : o.getD [] ∈ names := by
            cases o with
            | none => exact absurd rfl hne
            | some n =>
              rcases g2 n rfl with rfl | h
              · exact absurd rfl hne
              · exact h
          obtain ⟨k, hk, hk'⟩ := List.getElem_of_mem hmem
          rw [← hk']
          have hset := (ASPM.C55_set E.Kp names a k hK.good hk (Or.inl (hKp k hk)))
          have hr := hset.2.2 (hKp k hk)
          rcases hsp : setPolicy E.Kp (.ok (shown names a)) names[k] with ⟨f, r⟩
          rw [hsp] at hset hr
          dsimp only at hset hr
          subst hr
          dsimp only
          rw [(hset.1 rfl).1]
          dsimp only
          rw [if_neg (fun h => h rfl)]
          split <;> rfl
      · rintro ⟨hd, he⟩
        rcases g1 with h | h
        · rw [dev_none h] at hd
          cases hd
        · have hne : "l1_aspm".toList ≠ "policy".toList := by decide +kernel
          obtain ⟨v, hv⟩ := Option.isSome_iff_exists.1 h
          have : (oargs.erase "policy".toList).get? "l1_aspm".toList = some v := by
            rw [Dict.get?_erase, if_neg hne.symm, hv]
          rw [List.isEmpty_iff.1 he] at this
          cases this
  unfold configCmd
  dsimp only
  rw [andThen_of_ok h1]
  dsimp only
  have hdev : (policyStep E oargs device (oargs.get? "policy".toList) s).1.devs = s.devs := by
    cases oargs.get? "policy".toList with
    | none => rfl
    | some name => exact handlePolicy_devs E oargs device name s
  revert hdev
  generalize (policyStep E oargs device (oargs.get? "policy".toList) s).1 = s'
  intro hdev
  cases hlo : oargs.get? "l1_aspm".toList with
  | none => rfl
  | some o =>
    obtain ⟨d, text, b, rfl, hd, hf, hb, hkd, ho⟩ := hl o hlo
    show (handleL1 E (some d) o s').2.2 = _
    unfold handleL1
    rw [dev_of_ne hd]
    dsimp only
    split
    · unfold printL1 isL1Enabled
      rw [hdev, hf]
      dsimp only
      rw [isL1_strip hb]
    · rename_i hne
      obtain ⟨t, rfl, en, hen⟩ : ∃ t, o = some t ∧ ∃ en, MeansState t en := by
        cases o with
        | none => exact absurd rfl hne
        | some t =>
          rcases ho t rfl with rfl | h
          · exact absurd rfl hne
          · exact ⟨t, rfl, h⟩
      rw [if_neg]
      · unfold toggleL1
        rw [hdev, hf]
        dsimp only
        obtain ⟨new, hnew⟩ := hkd (if ["true".toList, "on".toList, "enable".toList].contains
          (FeaturedMSR.lower ((some t).getD [])) then ['1'] else ['0'])
        rw [hnew]
      · rw [Bool.not_eq_true', Bool.not_eq_false]
        have : ∀ (en : Bool) x, x ∈ (if en then ["true".toList, "on".toList, "enable".toList]
            else ["false".toList, "off".toList, "disable".toList]) →
            ["false".toList, "true".toList, "off".toList, "on".toList, "disable".toList, "enable".toList].contains x
              = true := by
          intro en
          cases en <;> decide +kernel
        exact this en _ hen

/-- C96 ('aspm info'): it changes nothing, and if it succeeds, it prints, in this order: the L1 state of the device, if there
is one; the active policy, and all the policies, if they are asked for or if nothing is asked for. '--l1-aspm' without a device
is an error, and nothing is printed. -/
theorem C96_info {E : Env} {names : List PyStr} (hK : Kernel E names) {a : Nat} (ha : a < names.length)
    (opts : List PyStr) (device : Option PyStr) {s : St} (hs : s.policy = .ok (shown names a)) :
    (infoCmd E opts device s).1 = s ∧
    (NoDevice device → "l1_aspm".toList ∈ opts → (infoCmd E opts device s).2 = ([], .error .error)) ∧
    ((infoCmd E opts device s).2.2 = .ok () →
      ∃ l0, (infoCmd E opts device s).2.1 = l0 ++
          ((if "policy".toList ∈ opts ∨ opts = [] then ["ASPM policy: ".toList ++ names[a]] else []) ++
          (if "policies".toList ∈ opts ∨ opts = [] then
            ["Available policies: ".toList ++ (names.intersperse ", ".toList).flatten] else [])) ∧
        (NoDevice device → l0 = []) ∧ ∀ d, device = some d → d ≠ [] → TellsL1 s.devs d l0) := by
  have hne : names ≠ [] := by rintro rfl; cases ha
  have hjoin : ∀ l : List PyStr, commaJoin l = (l.intersperse ", ".toList).flatten := by
    intro l
    induction l with
    | nil => rfl
    | cons x l ih =>
      cases l with
      | nil => simp [commaJoin]
      | cons y l =>
        show x ++ ", ".toList ++ commaJoin (y :: l) = _
        rw [ih]
        generalize ", ".toList = sep
        simp
  have hA : ((if "policy".toList ∈ opts ∨ opts = [] then printPolicy else Step.skip) s) =
      (s, (if "policy".toList ∈ opts ∨ opts = [] then ["ASPM policy: ".toList ++ names[a]] else []), .ok ()) := by
    split
    · unfold printPolicy
      rw [hs, ASPM.C55_active names a hK.good ha]
    · rfl
  have hB : ((if "policies".toList ∈ opts ∨ opts = [] then printPolicies else Step.skip) s) =
      (s, (if "policies".toList ∈ opts ∨ opts = [] then
            ["Available policies: ".toList ++ (names.intersperse ", ".toList).flatten] else []), .ok ()) := by
    split
    · unfold printPolicies
      rw [hs, ASPM.C55_policies names a hK.good hne]
      dsimp only
      rw [hjoin]
    · rfl
  unfold infoCmd
  have hrest : Step.andThen (if "policy".toList ∈ opts ∨ opts = [] then printPolicy else Step.skip)
      (if "policies".toList ∈ opts ∨ opts = [] then printPolicies else Step.skip) s =
      (s, (if "policy".toList ∈ opts ∨ opts = [] then ["ASPM policy: ".toList ++ names[a]] else []) ++
          (if "policies".toList ∈ opts ∨ opts = [] then
            ["Available policies: ".toList ++ (names.intersperse ", ".toList).flatten] else []), .ok ()) := by
    rw [andThen_of_ok (by rw [hA]), hA]
    dsimp only
    rw [hB]
  revert hrest
  generalize Step.andThen (if "policy".toList ∈ opts ∨ opts = [] then printPolicy else Step.skip)
      (if "policies".toList ∈ opts ∨ opts = [] then printPolicies else Step.skip) = R
  intro hrest
  cases hd : dev device with
  | none =>
    have hnd := noDevice_of_none hd
    by_cases hl : "l1_aspm".toList ∈ opts
    · rw [if_pos (Or.inl hl)]
      exact ⟨rfl, fun _ _ => rfl, fun h => (by cases h)⟩
    · rw [if_neg (by rintro (h | h); exact hl h; cases h), andThen_of_ok rfl]
      show (R s).1 = s ∧ _
      rw [show (Step.skip s : St × (List PyStr × Except Exn Unit)).1 = s from rfl, hrest]
      refine ⟨rfl, fun _ h => absurd h hl, fun _ => ⟨[], rfl, fun _ => rfl, fun d h h' => ?_⟩⟩
      rw [h, dev_of_ne h'] at hd
      cases hd
  | some d =>
    obtain ⟨rfl, hd'⟩ := dev_some hd
    have hnn : ¬ NoDevice (some d) := by
      rintro (h | h)
      · cases h
      · cases h; exact hd' rfl
    rw [show (some d).isSome = true from rfl, if_pos (Or.inr rfl)]
    dsimp only
    obtain ⟨p1, p2⟩ := printL1_spec E d s
    refine ⟨?_, fun h => absurd h hnn, fun hok => ?_⟩
    · unfold Step.andThen
      rcases hp : printL1 E d s with ⟨s', lines, r⟩
      rw [hp] at p1
      dsimp only at p1
      subst p1
      cases r with
      | error e => rfl
      | ok u =>
        dsimp only
        rw [hrest]
    · obtain ⟨k1, k2, k3, k4⟩ := andThen_ok hok
      rw [k4, p1, hrest]
      refine ⟨_, rfl, fun h => absurd h hnn, fun d' h _ => ?_⟩
      cases h
      exact p2 k1

/-! ### Examples -/

def exNames : List PyStr := ["default".toList, "performance".toList, "powersave".toList]

/-- A kernel which obeys; one device with L1 disabled. -/
def exE : Env where
  Kp n := if n = "default".toList then .ok (shown exNames 0) else if n = "performance".toList then .ok (shown exNames 1)
    else if n = "powersave".toList then .ok (shown exNames 2) else .error .error
  Kd _ v := .ok (v ++ ['\n'])
  kver := .ok "6.1.0".toList
  host := []

def exS : St where
  policy := .ok (shown exNames 1)
  devs a := if a = "0000:00:1c.0".toList then ⟨true, some "0\n".toList⟩ else ⟨false, none⟩

theorem exE_kernel : Kernel exE exNames := by
  refine ⟨?_, ?_⟩
  · unfold Name
    decide +kernel
  · intro n hn text h
    have : ∀ n ∈ exNames, exE.Kp n = .ok (shown exNames 0) ∨ exE.Kp n = .ok (shown exNames 1) ∨
        exE.Kp n = .ok (shown exNames 2) := by decide +kernel
    rcases this n hn with h' | h' | h' <;> rw [h'] at h <;> cases h
    · exact ⟨0, by decide, rfl⟩
    · exact ⟨1, by decide, rfl⟩
    · exact ⟨2, by decide, rfl⟩

/-- "aspm config --policy powersave --l1-aspm ON --device 0000:00:1c.0". -/
example : Kernel exE exNames ∧ exS.policy = .ok (shown exNames 1) ∧
    (configCmd exE (some [("policy".toList, some "powersave".toList), ("l1_aspm".toList, some "ON".toList)])
      (some "0000:00:1c.0".toList) exS).2 =
      (["Changed ASPM policy from 'performance' to 'powersave'".toList,
        "Changed L1 ASPM to 'on' for device '0000:00:1c.0'".toList], .ok ()) ∧
    (infoCmd exE ["l1_aspm".toList, "policies".toList] (some "0000:00:1c.0".toList)
      (configCmd exE (some [("policy".toList, some "powersave".toList), ("l1_aspm".toList, some "ON".toList)])
        (some "0000:00:1c.0".toList) exS).1).2 =
      (["L1 ASPM: enabled for device '0000:00:1c.0'".toList,
        "Available policies: default, performance, powersave".toList], .ok ()) :=
  ⟨exE_kernel, rfl, by decide +kernel, by decide +kernel⟩

/-- Options without arguments, and a policy which is not listed. -/
example : (configCmd exE (some [("policy".toList, none), ("l1_aspm".toList, none)]) (some "0000:00:1c.0".toList) exS).2 =
      (["ASPM policy: 'performance'".toList, "L1 ASPM: disabled for device '0000:00:1c.0'".toList], .ok ()) ∧
    (configCmd exE (some [("policy".toList, some "fast".toList)]) none exS).2 = ([], .error .error) ∧
    (configCmd exE (some [("policy".toList, some "performance".toList)]) none exS).2 =
      (["ASPM policy was 'performance', set it to 'performance' again".toList], .ok ()) ∧
    (configCmd exE (some [("policy".toList, some "performance".toList)]) (some "0000:00:1c.0".toList) exS).2 =
      ([], .error .error) := by decide +kernel

/-- The command is not atomic: without '--device' (which is checked late) it fails, and the policy has changed. -/
theorem C96_atomic_counterexample :
    (configCmd exE (some [("policy".toList, some "powersave".toList), ("l1_aspm".toList, some "on".toList)]) none exS).2 =
      (["Changed ASPM policy from 'performance' to 'powersave'".toList], .error .error) ∧
    (configCmd exE (some [("policy".toList, some "powersave".toList), ("l1_aspm".toList, some "on".toList)]) none exS).1.policy
      = .ok (shown exNames 2) := by decide +kernel

/-- Unlike the policy, the L1 state is not read back: with a kernel which accepts the write and stays with "0" (so the
hypothesis of `C96_config` does not hold), the command says that it was changed. -/
theorem C96_unverified_counterexample :
    let E := { exE with Kd := fun _ _ => .ok "0\n".toList }
    (configCmd E (some [("l1_aspm".toList, some "on".toList)]) (some "0000:00:1c.0".toList) exS).2 =
      (["Changed L1 ASPM to 'on' for device '0000:00:1c.0'".toList], .ok ()) ∧
    (infoCmd E ["l1_aspm".toList] (some "0000:00:1c.0".toList)
      (configCmd E (some [("l1_aspm".toList, some "on".toList)]) (some "0000:00:1c.0".toList) exS).1).2 =
      (["L1 ASPM: disabled for device '0000:00:1c.0'".toList], .ok ()) := by decide +kernel

end Verif.ASPMCmd
