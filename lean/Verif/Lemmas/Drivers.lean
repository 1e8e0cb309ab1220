import Verif.Props.DriversSpec
import Verif.Lemmas.FreqInfo
import Verif.Lemmas.Trivial

namespace Verif.Drivers

/-! ### /proc/modules -/

theorem pyInt_ofNat (n : Nat) : pyInt (PyStr.ofNat n) = .ok (n : Int) := by
  have hs : PyStr.strip (PyStr.ofNat n) = PyStr.ofNat n :=
    PyStr.stripBy_of_stripped (PyStr.stripped_of_all (Trivial.ofNat_not_space n))
  unfold pyInt
  rw [hs]
  have hd := PyStr.ofNat_digits n
  have hp := Trivial.parseDigits_ofNat n
  generalize PyStr.ofNat n = w at hd hp
  clear hs
  dsimp only
  split <;> rename_i heq
  · split at heq
    · have := hd '-' (List.mem_cons_self ..)
      exact absurd this (by decide)
    · have := hd '+' (List.mem_cons_self ..)
      exact absurd this (by decide)
    · rw [hp] at heq; cases heq; rfl
  · split at heq
    · have := hd '-' (List.mem_cons_self ..)
      exact absurd this (by decide)
    · have := hd '+' (List.mem_cons_self ..)
      exact absurd this (by decide)
    · rw [hp] at heq; cases heq

theorem ofNat_word (n : Nat) : IsWord (PyStr.ofNat n) :=
  ⟨PyStr.ofNat_ne_nil n, Trivial.ofNat_not_space n⟩

theorem splitWs_mod {m : Mod} (h : m.Proper) : FreqInfo.splitWs m.line = [m.name, m.size, m.users, m.rest] := by
  obtain ⟨h1, h2, h3, n, h4⟩ := h
  have hu : IsWord m.users := h4 ▸ ofNat_word n
  unfold Mod.line
  rw [FreqInfo.splitWs_append h1.1 h1.2, FreqInfo.splitWs_append h2.1 h2.2, FreqInfo.splitWs_append hu.1 hu.2,
    FreqInfo.splitWs_word h3.1 h3.2]

theorem usageCount_lines (name : PyStr) (ms : List Mod) (h : ∀ m ∈ ms, m.Proper) :
    ∃ c, usageCount name (ms.map Mod.line) = .ok c ∧ (c.isSome = true ↔ ∃ m ∈ ms, m.name = name) := by
  induction ms with
  | nil => exact ⟨none, rfl, by simp⟩
  | cons m ms ih =>
    have hm := h m (List.mem_cons_self ..)
    obtain ⟨c, hc, hi⟩ := ih fun x hx => h x (List.mem_cons_of_mem _ hx)
    rw [List.map_cons, usageCount, splitWs_mod hm]
    dsimp only
    by_cases hn : m.name = name
    · rw [if_pos hn]
      obtain ⟨_, _, _, n, h4⟩ := hm
      rw [h4, pyInt_ofNat]
      exact ⟨_, rfl, by simp [hn]⟩
    · rw [if_neg hn]
      refine ⟨c, hc, hi.trans ?_⟩
      constructor
      · rintro ⟨x, hx, e⟩; exact ⟨x, List.mem_cons_of_mem _ hx, e⟩
      · rintro ⟨x, hx, e⟩
        cases hx with
        | head => exact absurd e hn
        | tail _ hx => exact ⟨x, hx, e⟩

theorem isLoaded_ok {env : Env} (K : Kernel env) {h : Host} (hp : h.Proper) {name : PyStr} {b : Bool}
    (hb : isLoaded env name h = .ok b) : b = true ↔ h.Loaded name := by
  unfold isLoaded at hb
  cases hr : env.readModules h with
  | error e => rw [hr] at hb; cases hb
  | ok lines =>
    rw [hr] at hb
    dsimp only at hb
    have := K.modules h lines hr
    subst this
    obtain ⟨c, hc, hi⟩ := usageCount_lines name h.modules hp
    rw [hc] at hb
    cases hb
    exact hi

/-! ### Commands -/

theorem runVerify_eq (env : Env) (cmd : PyStr) (h : Host) :
    runVerify env cmd h = ({ (env.run cmd h).host with ran := h.ran ++ [cmd] },
      if (env.run cmd h).ok then .ok (env.run cmd h).out else .error .error) := by
  unfold runVerify exec
  dsimp only
  cases hk : (env.run cmd h).ok <;> rfl

theorem runVerify_dmesg {env : Env} (K : Kernel env) (h : Host) :
    (runVerify env "dmesg".toList h).1.modules = h.modules ∧ (runVerify env "dmesg".toList h).1.mounts = h.mounts := by
  rw [runVerify_eq]; exact K.dmesg h

/-- The command has been run with success on a host with the same modules, or it had no effect. -/
inductive Ran (env : Env) (cmd : PyStr) (h h1 : Host) (ok : Bool) : Prop
  | none (hf : ok = false) (hm : h1.modules = h.modules) (ht : h1.mounts = h.mounts)
  | some (h0 : Host) (hm : h0.modules = h.modules) (ht : h0.mounts = h.mounts) (hk : (env.run cmd h0).ok = true)
      (hm1 : h1.modules = (env.run cmd h0).host.modules) (ht1 : h1.mounts = (env.run cmd h0).host.mounts)

theorem runModCmd_ran {env : Env} (K : Kernel env) {cmd : PyStr} {km km1 : KM} {h h1 : Host} {r : Except Exn Unit}
    (he : runModCmd env cmd km h = (h1, km1, r)) : Ran env cmd h h1 (Except.isOk' r) ∧ km1.name = km.name ∧
      (∀ e, r = .error e → e = .error) := by
  unfold runModCmd at he
  dsimp only at he
  -- the first dmesg
  have hfirst : ∃ h0 r0, (if km.captured = [] then runVerify env "dmesg".toList h else (h, .ok km.captured)) = (h0, r0) ∧
      h0.modules = h.modules ∧ h0.mounts = h.mounts ∧ ∀ e, r0 = .error e → e = .error := by
    by_cases hc : km.captured = []
    · rw [if_pos hc]
      refine ⟨(runVerify env "dmesg".toList h).1, (runVerify env "dmesg".toList h).2, rfl, (runVerify_dmesg K h).1,
        (runVerify_dmesg K h).2, ?_⟩
      intro e he
      rw [runVerify_eq] at he
      dsimp only at he
      split at he <;> cases he
      rfl
    · rw [if_neg hc]
      exact ⟨_, _, rfl, rfl, rfl, fun e he => by cases he⟩
  obtain ⟨h0, r0, hf, hm0, ht0, hr0⟩ := hfirst
  rw [hf] at he
  cases r0 with
  | error e =>
    dsimp only at he
    cases he
    exact ⟨.none rfl hm0 ht0, rfl, fun e he => by cases he; exact hr0 _ rfl⟩
  | ok out =>
    dsimp only at he
    rw [runVerify_eq] at he
    cases hk : (env.run cmd h0).ok with
    | false =>
      rw [hk] at he
      dsimp only at he
      cases he
      have hd := runVerify_dmesg K { (env.run cmd h0).host with ran := h0.ran ++ [cmd] }
      have hfl := K.failed cmd h0 hk
      exact ⟨.none rfl (hd.1.trans (hfl.1.trans hm0)) (hd.2.trans (hfl.2.trans ht0)), rfl, fun e he => by cases he; rfl⟩
    | true =>
      rw [hk] at he
      dsimp only [if_true] at he
      rw [if_pos rfl] at he
      dsimp only at he
      by_cases hd : env.debug = true
      · rw [if_pos hd] at he
        have hdm := runVerify_dmesg K { (env.run cmd h0).host with ran := h0.ran ++ [cmd] }
        rw [runVerify_eq] at he
        rw [runVerify_eq] at hdm
        split at he
        · rename_i heq
          cases he
          refine ⟨.some h0 hm0 ht0 hk ?_ ?_, rfl, ?_⟩
          · have := congrArg (fun p => p.1.modules) heq; exact this.symm.trans hdm.1
          · have := congrArg (fun p => p.1.mounts) heq; exact this.symm.trans hdm.2
          · intro e he
            cases he
            have := congrArg (fun p => p.2) heq
            dsimp only at this
            split at this <;> cases this
            rfl
        · rename_i heq
          cases he
          refine ⟨.some h0 hm0 ht0 hk ?_ ?_, rfl, fun e he => by cases he⟩
          · have := congrArg (fun p => p.1.modules) heq; exact this.symm.trans hdm.1
          · have := congrArg (fun p => p.1.mounts) heq; exact this.symm.trans hdm.2
      · rw [if_neg hd] at he
        cases he
        exact ⟨.some h0 hm0 ht0 hk rfl rfl, rfl, fun e he => by cases he⟩

/-! ### Load and unload -/

theorem loadCmd_mem (debug : Bool) (name : PyStr) : loadCmd debug name ∈ modprobeCmd name := by
  have e : (" ".toList ++ " dyndbg=+pf".toList : PyStr) = "  dyndbg=+pf".toList := by decide
  unfold loadCmd modprobeCmd
  cases debug with
  | false => exact List.mem_cons.mpr (.inl (List.append_nil _))
  | true =>
    refine List.mem_cons_of_mem _ (List.mem_cons.mpr (.inl ?_))
    rw [if_pos rfl, List.append_assoc, List.append_assoc, List.append_assoc, e]

theorem proper_of_eq {h h' : Host} (e : h'.modules = h.modules) (hp : h.Proper) : h'.Proper := by
  intro m hm; rw [e] at hm; exact hp m hm

theorem loaded_of_eq {h h' : Host} (e : h'.modules = h.modules) {n : PyStr} : h'.Loaded n ↔ h.Loaded n := by
  unfold Host.Loaded; rw [e]

/-- What `load()` does: nothing, or the module is added. -/
theorem load_spec {env : Env} (K : Kernel env) {h h1 : Host} (hp : h.Proper) {km km1 : KM} {r : Except Exn Unit}
    (hw : IsWord km.name)
    (he : load env km h = (h1, km1, r)) :
    h1.Proper ∧ h1.mounts = h.mounts ∧ km1.name = km.name ∧
    ((h1.modules = h.modules ∧ (r = .ok () → h.Loaded km.name)) ∨
     (¬ h.Loaded km.name ∧ ∃ new, h1.modules = new ++ h.modules ∧ (new = [] ∨ ∃ m ∈ new, m.name = km.name) ∧
        (Alone env km.name → new.length ≤ 1))) := by
  unfold load at he
  cases hl : isLoaded env km.name h with
  | error e =>
    rw [hl] at he; cases he
    exact ⟨hp, rfl, rfl, .inl ⟨rfl, fun h => by cases h⟩⟩
  | ok b =>
    have hb := isLoaded_ok K hp hl
    rw [hl] at he
    cases b with
    | true => cases he; exact ⟨hp, rfl, rfl, .inl ⟨rfl, fun _ => hb.mp rfl⟩⟩
    | false =>
      have hn : ¬ h.Loaded km.name := fun h => by cases hb.mpr h
      dsimp only at he
      obtain ⟨hr, hname, _⟩ := runModCmd_ran K he
      cases hr with
      | none hf hm ht =>
        refine ⟨proper_of_eq hm hp, ht, hname, .inl ⟨hm, ?_⟩⟩
        rintro rfl; cases hf
      | some h0 hm ht hk hm1 ht1 =>
        have hmem := loadCmd_mem env.debug km.name
        obtain ⟨new, e1, e2, e3⟩ := K.modprobe km.name h0 _ hw hmem (fun h => hn ((loaded_of_eq hm).mp h)) hk
        refine ⟨proper_of_eq hm1 (K.proper _ _ (proper_of_eq hm hp)), ht1.trans (e3.trans ht), hname, .inr ⟨hn, new, ?_, e2, ?_⟩⟩
        · rw [hm1, e1, hm]
        · intro ha
          have := ha h0 _ hmem hk
          rw [e1, List.length_append] at this
          omega

/-- What a successful `unload()` does: the module is not there any more. -/
theorem unload_spec {env : Env} (K : Kernel env) {h h1 : Host} (hp : h.Proper) {km km1 : KM}
    (hw : IsWord km.name) (he : unload env km h = (h1, km1, .ok ())) :
    h1.modules = h.modules.filter (fun m => m.name ≠ km.name) ∧ h1.mounts = h.mounts := by
  unfold unload at he
  cases hl : isLoaded env km.name h with
  | error e => rw [hl] at he; cases he
  | ok b =>
    have hb := isLoaded_ok K hp hl
    rw [hl] at he
    cases b with
    | false =>
      cases he
      refine ⟨(List.filter_eq_self.mpr ?_).symm, rfl⟩
      intro m hm
      refine decide_eq_true fun e => ?_
      cases hb.mpr ⟨m, hm, e⟩
    | true =>
      dsimp only at he
      obtain ⟨hr, hname, _⟩ := runModCmd_ran K he
      cases hr with
      | none hf hm ht => cases hf
      | some h0 hm ht hk hm1 ht1 =>
        have := K.rmmod km.name h0 hw hk
        exact ⟨by rw [hm1, this.1, hm], by rw [ht1, this.2, ht]⟩

/-- A failing `unload()` leaves the modules, or takes the module out. -/
theorem unload_fail {env : Env} (K : Kernel env) {h h1 : Host} {km km1 : KM} {r : Except Exn Unit}
    (hw : IsWord km.name) (he : unload env km h = (h1, km1, r)) :
    h1.modules = h.modules ∨ h1.modules = h.modules.filter (fun m => m.name ≠ km.name) := by
  unfold unload at he
  cases hl : isLoaded env km.name h with
  | error e => rw [hl] at he; cases he; exact .inl rfl
  | ok b =>
    rw [hl] at he
    cases b with
    | false => cases he; exact .inl rfl
    | true =>
      dsimp only at he
      obtain ⟨hr, _, _⟩ := runModCmd_ran K he
      cases hr with
      | none hf hm ht => exact .inl hm
      | some h0 hm ht hk hm1 ht1 => exact .inr (by rw [hm1, (K.rmmod km.name h0 hw hk).1, hm])

/-! ### Waiting -/

theorem waitLoop_host (env : Env) (path : PyStr) (start interval timeout : Nat) (h : Host) :
    ∃ t, h.now ≤ t ∧ (waitLoop env path start interval timeout h).1 = { h with now := t } := by
  fun_induction waitLoop env path start interval timeout h with
  | case1 h h1 h2 => exact ⟨h.now, Nat.le_refl _, rfl⟩
  | case2 h h1 h2 ih =>
    obtain ⟨t, ht, e⟩ := ih
    exact ⟨t, by simp only at ht; omega, e⟩
  | case3 h h1 => exact ⟨h.now, Nat.le_refl _, rfl⟩

theorem waitLoop_ok (env : Env) (path : PyStr) (start interval timeout : Nat) (h : Host)
    (hk : (waitLoop env path start interval timeout h).2 = .ok ()) :
    env.present path (waitLoop env path start interval timeout h).1 = true ∧
      (waitLoop env path start interval timeout h).1.now - start < timeout := by
  fun_induction waitLoop env path start interval timeout h with
  | case1 h h1 h2 => exact ⟨h2, h1⟩
  | case2 h h1 h2 ih => exact ih hk
  | case3 h h1 => cases hk

theorem waitLoop_err (env : Env) (path : PyStr) (start interval timeout : Nat) (h : Host) (e : Exn)
    (hk : (waitLoop env path start interval timeout h).2 = .error e) : e = .error := by
  fun_induction waitLoop env path start interval timeout h with
  | case1 h h1 h2 => cases hk
  | case2 h h1 h2 ih => exact ih hk
  | case3 h h1 => cases hk; rfl

theorem waitLoop_found (env : Env) (path : PyStr) (start interval timeout : Nat) (h : Host) (t c : Nat)
    (ha : AppearsAt env path h t) (hc : ∀ h', env.cost h' ≤ c) (hs : start ≤ h.now)
    (hb : (t ≤ h.now → h.now < start + timeout) ∧ t + interval + c + 1 ≤ start + timeout) :
    (waitLoop env path start interval timeout h).2 = .ok () := by
  fun_induction waitLoop env path start interval timeout h with
  | case1 h h1 h2 => rfl
  | case2 h h1 h2 ih =>
    have hn : env.present path { h with now := h.now } = decide (t ≤ h.now) := ha h.now
    have hlt : ¬ t ≤ h.now := by
      intro hle
      rw [decide_eq_true hle] at hn
      exact h2 hn
    have hcost := hc h
    refine ih (fun now => ha now) (by simp only; omega) ⟨?_, hb.2⟩
    simp only
    omega
  | case3 h h1 => omega

/-! ### Opening -/

/-- What the constructors do. -/
structure Opened (env : Env) (name : PyStr) (h h1 : Host) (o : Obj) : Prop where
  mounts : h1.mounts = h.mounts
  later : h.now ≤ h1.now ∨ o.unload = true
  cases : (o = ⟨none, false⟩ ∧ h1 = h) ∨
    (∃ km : KM, o = ⟨some km, true⟩ ∧ km.name = name ∧ ¬ h.Loaded name ∧ h1.Proper ∧
      ∃ new, h1.modules = new ++ h.modules ∧ (new = [] ∨ ∃ m ∈ new, m.name = name) ∧ (Alone env name → new.length ≤ 1))

theorem closed_after {env : Env} (K : Kernel env) {name : PyStr} {h h1 h2 h3 : Host} {o : Obj}
    (hw : IsWord name) (ho : Opened env name h h1 o) (hm : h2.modules = h1.modules) (hc : objClose env o h2 = (h3, .ok ())) :
    ∃ extra, h3.modules = extra ++ h.modules ∧ (¬ ∃ m ∈ extra, m.name = name) ∧ (Alone env name → extra = []) ∧
      h3.mounts = h2.mounts := by
  rcases ho.cases with ⟨rfl, rfl⟩ | ⟨km, rfl, hname, hn, hp, new, hnew, hin, hal⟩
  · cases hc
    exact ⟨[], by rw [hm]; rfl, by simp, fun _ => rfl, rfl⟩
  · unfold objClose at hc
    rw [if_pos rfl] at hc
    dsimp only at hc
    cases hu : unload env km h2 with
    | mk h' p =>
      obtain ⟨km', r⟩ := p
      rw [hu] at hc
      cases hc
      obtain ⟨e1, e2⟩ := unload_spec K (proper_of_eq hm hp) (hname ▸ hw) hu
      refine ⟨new.filter (fun m => m.name ≠ name), ?_, ?_, ?_, e2⟩
      · rw [e1, hm, hnew, hname, List.filter_append]
        congr 1
        refine List.filter_eq_self.mpr fun m hm => decide_eq_true fun e => hn ⟨m, hm, e⟩
      · rintro ⟨m, hm, e⟩
        have := (List.mem_filter.mp hm).2
        exact of_decide_eq_true this e
      · intro ha
        have hl := hal ha
        match new, hl, hin with
        | [], _, _ => rfl
        | [m], _, hin =>
          rcases hin with hin | ⟨x, hx, e⟩
          · cases hin
          cases List.mem_singleton.mp hx
          rw [List.filter_cons, if_neg (by simp [e])]
          rfl

theorem msr_word : IsWord "msr".toList := ⟨by decide, by decide⟩

theorem msrOpen_ok {env : Env} (K : Kernel env) {cpu : Nat} {h h1 : Host} (hp : h.Proper) {o : Obj}
    (he : msrOpen env cpu h = (h1, .ok o)) :
    Opened env "msr".toList h h1 o ∧ env.present (msrDev cpu) h1 = true := by
  unfold msrOpen at he
  by_cases hd : env.present (msrDev cpu) h = true
  · rw [if_pos hd] at he
    cases he
    exact ⟨⟨rfl, .inl (Nat.le_refl _), .inl ⟨rfl, rfl⟩⟩, hd⟩
  rw [if_neg hd] at he
  dsimp only at he
  cases hl : isLoaded env "msr".toList h with
  | error e => rw [hl] at he; cases he
  | ok b =>
    rw [hl] at he
    have hb := isLoaded_ok K hp hl
    cases b with
    | true => cases he
    | false =>
      dsimp only at he
      cases hld : load env ⟨"msr".toList, []⟩ h with
      | mk h' p =>
        obtain ⟨km, r⟩ := p
        rw [hld] at he
        obtain ⟨hp', hmt, hname, hcase⟩ := load_spec K hp msr_word hld
        cases r with
        | error e => cases he
        | ok u =>
          dsimp only at he
          obtain ⟨t, ht, hh⟩ := waitLoop_host env (msrDev cpu) h'.now second second h'
          have hok := waitLoop_ok env (msrDev cpu) h'.now second second h'
          unfold waitForFile at he
          cases hw : waitLoop env (msrDev cpu) h'.now second second h' with
          | mk h2 r2 =>
            rw [hw] at he hh hok
            cases r2 with
            | error e => cases he
            | ok u =>
              cases he
              dsimp only at hh hok
              refine ⟨⟨by rw [hh]; exact hmt, .inr rfl, .inr ⟨km, rfl, hname, ?_, ?_, ?_⟩⟩, (hok rfl).1⟩
              · intro h; cases hb.mpr h
              · rw [hh]; exact proper_of_eq rfl hp'
              · rcases hcase with ⟨_, h2⟩ | ⟨_, new, h1, h2, h3⟩
                · have := hb.mpr (h2 rfl); cases this
                · exact ⟨new, by rw [hh]; exact h1, h2, h3⟩

theorem probeDriver_ok {env : Env} (K : Kernel env) {drv : PyStr} (hwd : IsWord drv) {h h1 : Host} (hp : h.Proper) {o : Obj}
    (he : probeDriver env drv h = (h1, .ok o)) : Opened env drv h h1 o ∧ env.present uncoreDir h1 = true := by
  unfold probeDriver at he
  dsimp only at he
  cases hl : isLoaded env drv h with
  | error e =>
    rw [hl] at he
    dsimp only at he
    by_cases hi : isError e = true
    · rw [if_pos hi] at he
      dsimp only at he
      cases hld : load env ⟨drv, []⟩ h with
      | mk h' p =>
        obtain ⟨km, r⟩ := p
        rw [hld] at he
        cases r with
        | error e => cases he
        | ok u =>
          dsimp only at he
          cases hw : waitForFile env uncoreDir second second h' with
          | mk h2 r2 =>
            rw [hw] at he
            cases r2 <;> cases he
    · rw [if_neg hi] at he; cases he
  | ok b =>
    rw [hl] at he
    have hb := isLoaded_ok K hp hl
    cases b with
    | true => cases he
    | false =>
      dsimp only at he
      cases hld : load env ⟨drv, []⟩ h with
      | mk h' p =>
        obtain ⟨km, r⟩ := p
        rw [hld] at he
        obtain ⟨hp', hmt, hname, hcase⟩ := load_spec K hp hwd hld
        cases r with
        | error e => cases he
        | ok u =>
          dsimp only at he
          obtain ⟨t, ht, hh⟩ := waitLoop_host env uncoreDir h'.now second second h'
          have hok := waitLoop_ok env uncoreDir h'.now second second h'
          unfold waitForFile at he
          cases hw : waitLoop env uncoreDir h'.now second second h' with
          | mk h2 r2 =>
            rw [hw] at he hh hok
            cases r2 with
            | error e => cases he
            | ok u =>
              dsimp only at he
              rw [if_neg (by decide)] at he
              cases he
              dsimp only at hh hok
              refine ⟨⟨by rw [hh]; exact hmt, .inr rfl, .inr ⟨km, rfl, hname, ?_, ?_, ?_⟩⟩, (hok rfl).1⟩
              · intro h; cases hb.mpr h
              · rw [hh]; exact proper_of_eq rfl hp'
              · rcases hcase with ⟨_, h2⟩ | ⟨_, new, h1, h2, h3⟩
                · have := hb.mpr (h2 rfl); cases this
                · exact ⟨new, by rw [hh]; exact h1, h2, h3⟩

/-- What failing constructors do. -/
theorem msrOpen_err {env : Env} (K : Kernel env) {cpu : Nat} {h h1 : Host} (hp : h.Proper) {e : Exn}
    (he : msrOpen env cpu h = (h1, .error e)) :
    ∃ extra, h1.modules = extra ++ h.modules ∧ h1.mounts = h.mounts ∧ (h.Loaded "msr".toList → h1 = h) := by
  unfold msrOpen at he
  by_cases hd : env.present (msrDev cpu) h = true
  · rw [if_pos hd] at he; cases he
  rw [if_neg hd] at he
  dsimp only at he
  cases hl : isLoaded env "msr".toList h with
  | error e => rw [hl] at he; cases he; exact ⟨[], rfl, rfl, fun _ => rfl⟩
  | ok b =>
    rw [hl] at he
    have hb := isLoaded_ok K hp hl
    cases b with
    | true => cases he; exact ⟨[], rfl, rfl, fun _ => rfl⟩
    | false =>
      dsimp only at he
      have hno : h.Loaded "msr".toList → h1 = h := fun h => by cases hb.mpr h
      cases hld : load env ⟨"msr".toList, []⟩ h with
      | mk h' p =>
        obtain ⟨km, r⟩ := p
        rw [hld] at he
        obtain ⟨_, hmt, _, hcase⟩ := load_spec K hp msr_word hld
        have hext : ∃ extra, h'.modules = extra ++ h.modules := by
          rcases hcase with ⟨h2, _⟩ | ⟨_, new, h1, _⟩
          · exact ⟨[], h2⟩
          · exact ⟨new, h1⟩
        obtain ⟨extra, hext⟩ := hext
        cases r with
        | error e => cases he; exact ⟨extra, hext, hmt, hno⟩
        | ok u =>
          dsimp only at he
          obtain ⟨t, ht, hh⟩ := waitLoop_host env (msrDev cpu) h'.now second second h'
          unfold waitForFile at he
          cases hw : waitLoop env (msrDev cpu) h'.now second second h' with
          | mk h2 r2 =>
            rw [hw] at he hh
            dsimp only at hh
            cases r2 with
            | error e => cases he; exact ⟨extra, by rw [hh]; exact hext, by rw [hh]; exact hmt, hno⟩
            | ok u => cases he

theorem probeDriver_err {env : Env} (K : Kernel env) {drv : PyStr} (hwd : IsWord drv) {h h1 : Host} (hp : h.Proper) {e : Exn}
    (he : probeDriver env drv h = (h1, .error e)) :
    ∃ extra, h1.modules = extra ++ h.modules ∧ h1.mounts = h.mounts ∧ (h.Loaded drv → h1.modules = h.modules) := by
  have key : ∀ (failed : Bool), (match load env ⟨drv, []⟩ h with
      | (h, _, .error e) => ((h, .error (rewrap .notSupported e)) : Host × Except Exn Obj)
      | (h, km, .ok ()) =>
        match waitForFile env uncoreDir second second h with
        | (h, .error e) => (h, .error (rewrap .notSupported e))
        | (h, .ok ()) => if failed then (h, .error .notSupported) else (h, .ok ⟨some km, true⟩)).1 = h1 →
      ∃ extra, h1.modules = extra ++ h.modules ∧ h1.mounts = h.mounts ∧ (h.Loaded drv → h1.modules = h.modules) := by
    intro failed he
    cases hld : load env ⟨drv, []⟩ h with
    | mk h' p =>
      obtain ⟨km, r⟩ := p
      rw [hld] at he
      obtain ⟨_, hmt, _, hcase⟩ := load_spec K hp hwd hld
      have hext : ∃ extra, h'.modules = extra ++ h.modules ∧ (h.Loaded drv → h'.modules = h.modules) := by
        rcases hcase with ⟨h2, _⟩ | ⟨hn, new, h1, _⟩
        · exact ⟨[], h2, fun _ => h2⟩
        · exact ⟨new, h1, fun h => absurd h hn⟩
      obtain ⟨extra, hext, hno⟩ := hext
      cases r with
      | error e => cases he; exact ⟨extra, hext, hmt, hno⟩
      | ok u =>
        dsimp only at he
        obtain ⟨t, ht, hh⟩ := waitLoop_host env uncoreDir h'.now second second h'
        unfold waitForFile at he
        cases hw : waitLoop env uncoreDir h'.now second second h' with
        | mk h2 r2 =>
          rw [hw] at he hh
          dsimp only at hh
          have : h2 = h1 := by
            cases r2 with
            | error e => exact he
            | ok u => cases failed <;> exact he
          subst this
          exact ⟨extra, by rw [hh]; exact hext, by rw [hh]; exact hmt, fun hl => by rw [hh]; exact hno hl⟩
  unfold probeDriver at he
  dsimp only at he
  cases hl : isLoaded env drv h with
  | error e =>
    rw [hl] at he
    dsimp only at he
    by_cases hi : isError e = true
    · rw [if_pos hi] at he
      exact key true (congrArg Prod.fst he)
    · rw [if_neg hi] at he
      cases he
      exact ⟨[], rfl, rfl, fun _ => rfl⟩
  | ok b =>
    rw [hl] at he
    cases b with
    | true => cases he; exact ⟨[], rfl, rfl, fun _ => rfl⟩
    | false => exact key false (congrArg Prod.fst he)

/-! ### Commands which are run -/

/-- Only commands of the list are run between the two states. -/
def Adds (S : List PyStr) (h h1 : Host) : Prop := ∃ l, h1.ran = h.ran ++ l ∧ ∀ c ∈ l, c ∈ S

theorem Adds.refl (S : List PyStr) (h : Host) : Adds S h h := ⟨[], (List.append_nil _).symm, fun _ h => by cases h⟩

theorem Adds.trans {S : List PyStr} {h h1 h2 : Host} (a : Adds S h h1) (b : Adds S h1 h2) : Adds S h h2 := by
  obtain ⟨l, e1, i1⟩ := a
  obtain ⟨k, e2, i2⟩ := b
  refine ⟨l ++ k, by rw [e2, e1, List.append_assoc], fun c hc => ?_⟩
  rcases List.mem_append.mp hc with h | h
  · exact i1 c h
  · exact i2 c h

theorem runVerify_adds {S : List PyStr} (env : Env) {cmd : PyStr} (hc : cmd ∈ S) (h : Host) :
    Adds S h (runVerify env cmd h).1 := by
  rw [runVerify_eq]
  exact ⟨[cmd], rfl, fun c h => by cases List.mem_singleton.mp h; exact hc⟩

theorem runModCmd_adds {S : List PyStr} (env : Env) {cmd : PyStr} (hd : "dmesg".toList ∈ S) (hc : cmd ∈ S) (km : KM) (h : Host) :
    Adds S h (runModCmd env cmd km h).1 := by
  have hfirst : Adds S h (if km.captured = [] then runVerify env "dmesg".toList h else (h, .ok km.captured)).1 := by
    by_cases hk : km.captured = []
    · rw [if_pos hk]; exact runVerify_adds env hd h
    · rw [if_neg hk]; exact Adds.refl S h
  unfold runModCmd
  dsimp only
  generalize (if km.captured = [] then runVerify env "dmesg".toList h else (h, .ok km.captured)) = p at hfirst
  obtain ⟨h0, r0⟩ := p
  cases r0 with
  | error e => exact hfirst
  | ok out =>
    dsimp only at hfirst ⊢
    have h2 := runVerify_adds env hc h0
    generalize runVerify env cmd h0 = p at h2
    obtain ⟨h1, r1⟩ := p
    have h3 := runVerify_adds env hd h1
    cases r1 with
    | error e => exact (hfirst.trans h2).trans h3
    | ok out =>
      dsimp only at h2 ⊢
      by_cases hdb : env.debug = true
      · rw [if_pos hdb]
        generalize runVerify env "dmesg".toList h1 = p at h3
        obtain ⟨h4, r4⟩ := p
        cases r4 <;> exact (hfirst.trans h2).trans h3
      · rw [if_neg hdb]; exact hfirst.trans h2

theorem load_adds {S : List PyStr} (env : Env) {km : KM} (hd : "dmesg".toList ∈ S) (hc : ∀ c ∈ modprobeCmd km.name, c ∈ S)
    (h : Host) : Adds S h (load env km h).1 := by
  unfold load
  cases isLoaded env km.name h with
  | error e => exact Adds.refl S h
  | ok b =>
    cases b with
    | true => exact Adds.refl S h
    | false => exact runModCmd_adds env hd (hc _ (loadCmd_mem _ _)) km h

theorem load_name (env : Env) (km : KM) (h : Host) : (load env km h).2.1.name = km.name := by
  unfold load
  cases isLoaded env km.name h with
  | error e => rfl
  | ok b =>
    cases b with
    | true => rfl
    | false =>
      dsimp only
      unfold runModCmd
      dsimp only
      split
      · rfl
      · split
        · rfl
        · split
          · split <;> rfl
          · rfl

theorem unload_adds {S : List PyStr} (env : Env) {km : KM} (hd : "dmesg".toList ∈ S) (hc : "rmmod ".toList ++ km.name ∈ S)
    (h : Host) : Adds S h (unload env km h).1 := by
  unfold unload
  cases isLoaded env km.name h with
  | error e => exact Adds.refl S h
  | ok b =>
    cases b with
    | false => exact Adds.refl S h
    | true => exact runModCmd_adds env hd hc km h

theorem wait_adds (S : List PyStr) (env : Env) (path : PyStr) (i t : Nat) (h : Host) : Adds S h (waitForFile env path i t h).1 := by
  obtain ⟨t', _, e⟩ := waitLoop_host env path h.now i t h
  unfold waitForFile
  rw [e]
  exact ⟨[], (List.append_nil _).symm, fun _ h => by cases h⟩

theorem msrOpen_adds {S : List PyStr} (env : Env) (cpu : Nat) (h : Host) (hd : "dmesg".toList ∈ S)
    (hc : ∀ c ∈ modprobeCmd "msr".toList, c ∈ S) :
    Adds S h (msrOpen env cpu h).1 ∧ ∀ o, (msrOpen env cpu h).2 = .ok o → ∀ km, o.drv = some km → km.name = "msr".toList := by
  unfold msrOpen
  split
  · exact ⟨Adds.refl S h, fun o ho km hk => by cases ho; cases hk⟩
  · dsimp only
    cases isLoaded env "msr".toList h with
    | error e => exact ⟨Adds.refl S h, fun o ho => by cases ho⟩
    | ok b =>
      cases b with
      | true => exact ⟨Adds.refl S h, fun o ho => by cases ho⟩
      | false =>
        dsimp only
        have h1 := load_adds env (km := ⟨"msr".toList, []⟩) hd hc h
        have hn := load_name env ⟨"msr".toList, []⟩ h
        generalize load env ⟨"msr".toList, []⟩ h = p at h1 hn
        obtain ⟨h', km, r⟩ := p
        cases r with
        | error e => exact ⟨h1, fun o ho => by cases ho⟩
        | ok u =>
          dsimp only at h1 hn ⊢
          have h2 := wait_adds S env (msrDev cpu) second second h'
          generalize waitForFile env (msrDev cpu) second second h' = q at h2
          obtain ⟨h2', r2⟩ := q
          cases r2 with
          | error e => exact ⟨h1.trans h2, fun o ho => by cases ho⟩
          | ok u => exact ⟨h1.trans h2, fun o ho km' hk => by cases ho; cases hk; exact hn⟩

theorem objClose_adds {S : List PyStr} (env : Env) (o : Obj) (h : Host) (hd : "dmesg".toList ∈ S)
    (hc : ∀ km, o.drv = some km → "rmmod ".toList ++ km.name ∈ S) : Adds S h (objClose env o h).1 := by
  unfold objClose
  split
  · cases hk : o.drv with
    | none => exact Adds.refl S h
    | some km => exact unload_adds env hd (hc km hk) h
  · exact Adds.refl S h

/-! ### /proc/mounts -/

theorem mnt_split {m : Mnt} (h : m.Proper) :
    m.line ≠ [] ∧ FreqInfo.splitWs m.line = [m.device, m.mntpoint, m.fstype, m.options, m.rest] := by
  obtain ⟨h1, h2, h3, h4, h5⟩ := h
  constructor
  · intro e
    unfold Mnt.line at e
    exact h1.1 (List.append_eq_nil_iff.mp e).1
  · unfold Mnt.line
    rw [FreqInfo.splitWs_append h1.1 h1.2, FreqInfo.splitWs_append h2.1 h2.2, FreqInfo.splitWs_append h3.1 h3.2,
      FreqInfo.splitWs_append h4.1 h4.2, FreqInfo.splitWs_word h5.1 h5.2]

theorem debugfsMounted_eq (mnt : PyStr) (ms : List Mnt) (hp : ∀ m ∈ ms, m.Proper) :
    debugfsMounted mnt (ms.map Mnt.line) = .ok (ms.any fun m => m.fstype = "debugfs".toList && m.mntpoint = mnt) := by
  induction ms with
  | nil => rfl
  | cons m ms ih =>
    obtain ⟨h1, h2⟩ := mnt_split (hp m (List.mem_cons_self ..))
    rw [List.map_cons, debugfsMounted, if_neg h1, h2, List.any_cons]
    dsimp only
    cases hb : (decide (m.fstype = "debugfs".toList) && decide (m.mntpoint = mnt)) with
    | true => rw [if_pos rfl, Bool.true_or]
    | false => rw [if_neg (by decide), Bool.false_or]; exact ih fun x hx => hp x (List.mem_cons_of_mem _ hx)

theorem debugfsMounted_lines {h : Host} (hp : ∀ m ∈ h.mounts, m.Proper) (hd : h.Debugfs) :
    debugfsMounted debugfsDir (h.mounts.map Mnt.line) = .ok true := by
  rw [debugfsMounted_eq _ _ hp]
  congr 1
  obtain ⟨m, hm, h1, h2⟩ := hd
  refine List.any_eq_true.mpr ⟨m, hm, ?_⟩
  rw [decide_eq_true h1, Bool.true_and]
  exact decide_eq_true h2

theorem debugfsMounted_none {h : Host} (hp : ∀ m ∈ h.mounts, m.Proper) (hd : ¬ h.Debugfs) :
    debugfsMounted debugfsDir (h.mounts.map Mnt.line) = .ok false := by
  rw [debugfsMounted_eq _ _ hp]
  congr 1
  refine List.any_eq_false.mpr fun m hm e => ?_
  rw [Bool.and_eq_true, decide_eq_true_eq, decide_eq_true_eq] at e
  exact hd ⟨m, hm, e.1, e.2⟩

/-! ### Several objects -/

theorem lookup_mem {l : List (Nat × Obj)} {i : Nat} {o : Obj} (h : l.lookup i = some o) : (i, o) ∈ l := by
  induction l with
  | nil => cases h
  | cons p l ih =>
    obtain ⟨a, b⟩ := p
    rw [List.lookup_cons] at h
    split at h
    · rename_i e
      cases h
      rw [beq_iff_eq] at e
      subst e
      exact List.mem_cons_self ..
    · exact List.mem_cons_of_mem _ (ih h)

theorem unique_key {l : List (Nat × Obj)} (hn : (l.map (·.1)).Nodup) {i : Nat} {a b : Obj} (ha : (i, a) ∈ l) (hb : (i, b) ∈ l) :
    a = b := by
  induction l with
  | nil => cases ha
  | cons p l ih =>
    rw [List.map_cons, List.nodup_cons] at hn
    cases ha with
    | head =>
      cases hb with
      | head => rfl
      | tail _ hb => exact absurd (List.mem_map.mpr ⟨_, hb, rfl⟩) hn.1
    | tail _ ha =>
      cases hb with
      | head => exact absurd (List.mem_map.mpr ⟨_, ha, rfl⟩) hn.1
      | tail _ hb => exact ih hn.2 ha hb

/-- The invariant: the modules are the ones at the start, or the driver was added by an object which is still there. -/
structure Inv (base : List Mod) (st : Host × List (Nat × Obj)) : Prop where
  proper : st.1.Proper
  keys : (st.2.map (·.1)).Nodup
  owners : ∀ p ∈ st.2, p.2.unload = true →
    (∃ km : KM, p.2.drv = some km ∧ km.name = "msr".toList) ∧ ¬ ∃ x ∈ base, x.name = "msr".toList
  mods : st.1.modules = base ∨
    ∃ m : Mod, m.name = "msr".toList ∧ st.1.modules = m :: base ∧ ∃ p ∈ st.2, p.2.unload = true

theorem step_inv {env : Env} (K : Kernel env) (ha : Alone env "msr".toList) {cpu : Nat} {base : List Mod}
    {st st1 : Host × List (Nat × Obj)} {op : Op} (hi : Inv base st) (hq : ∀ f, op = .other f → Quiet f)
    (hs : step env cpu st op = some st1) : Inv base st1 := by
  cases op with
  | other f =>
    cases hs
    exact ⟨proper_of_eq (hq f rfl st.1).1 hi.proper, hi.keys, hi.owners, by dsimp only; rw [(hq f rfl st.1).1]; exact hi.mods⟩
  | new id =>
    unfold step at hs
    dsimp only at hs
    by_cases hk : (st.2.map (·.1)).contains id = true
    · rw [if_pos hk] at hs; cases hs
    rw [if_neg hk] at hs
    have hkey : (((id, (⟨none, false⟩ : Obj)) :: st.2).map (·.1)).Nodup := by
      rw [List.map_cons, List.nodup_cons]
      exact ⟨fun h => hk (List.contains_iff_mem.mpr h), hi.keys⟩
    cases ho : msrOpen env cpu st.1 with
    | mk h r =>
      rw [ho] at hs
      cases r with
      | error e => cases hs
      | ok o =>
        cases hs
        obtain ⟨op, _⟩ := msrOpen_ok K hi.proper ho
        rcases op.cases with ⟨rfl, rfl⟩ | ⟨km, rfl, hname, hn, hp, new, hnew, hin, hal⟩
        · refine ⟨hi.proper, hkey, ?_, ?_⟩
          · intro p hp hu
            cases hp with
            | head => cases hu
            | tail _ hp => exact hi.owners p hp hu
          · rcases hi.mods with h | ⟨m, h1, h2, p, hp, hu⟩
            · exact .inl h
            · exact .inr ⟨m, h1, h2, p, List.mem_cons_of_mem _ hp, hu⟩
        · have hb : st.1.modules = base := by
            rcases hi.mods with h | ⟨m, h1, h2, _⟩
            · exact h
            · exact absurd ⟨m, by rw [h2]; exact List.mem_cons_self .., h1⟩ hn
          have hnb : ¬ ∃ x ∈ base, x.name = "msr".toList := by rw [← hb]; exact hn
          refine ⟨hp, hkey, ?_, ?_⟩
          · intro p hp hu
            cases hp with
            | head => exact ⟨⟨km, rfl, hname⟩, hnb⟩
            | tail _ hp => exact hi.owners p hp hu
          · have hl := hal ha
            match new, hl, hin with
            | [], _, _ => exact .inl (hnew.trans hb)
            | [m], _, hin =>
              rcases hin with hin | ⟨x, hx, e⟩
              · cases hin
              cases List.mem_singleton.mp hx
              exact .inr ⟨m, e, by dsimp only; rw [hnew, hb]; rfl, _, List.mem_cons_self .., rfl⟩
  | close id =>
    unfold step at hs
    dsimp only at hs
    cases hl : st.2.lookup id with
    | none => rw [hl] at hs; cases hs
    | some o =>
      rw [hl] at hs
      dsimp only at hs
      have hmem := lookup_mem hl
      have hkeys : ((st.2.filter fun p => p.1 ≠ id).map (·.1)).Nodup :=
        List.Nodup.sublist (List.Sublist.map _ List.filter_sublist) hi.keys
      cases hc : objClose env o st.1 with
      | mk h r =>
        rw [hc] at hs
        cases r with
        | error e => cases hs
        | ok u =>
          cases hs
          have howners : ∀ p ∈ st.2.filter (fun p => p.1 ≠ id), p.2.unload = true →
              (∃ km : KM, p.2.drv = some km ∧ km.name = "msr".toList) ∧ ¬ ∃ x ∈ base, x.name = "msr".toList :=
            fun p hp hu => hi.owners p (List.mem_filter.mp hp).1 hu
          by_cases hu : o.unload = true
          · obtain ⟨⟨km, hd, hkm⟩, hnb⟩ := hi.owners _ hmem hu
            dsimp only at hd
            unfold objClose at hc
            rw [if_pos hu, hd] at hc
            dsimp only at hc
            cases hul : unload env km st.1 with
            | mk h' p =>
              obtain ⟨km', r⟩ := p
              rw [hul] at hc
              cases hc
              obtain ⟨e1, e2⟩ := unload_spec K hi.proper (hkm ▸ msr_word) hul
              have hself : base.filter (fun m => m.name ≠ "msr".toList) = base :=
                List.filter_eq_self.mpr fun x hx => decide_eq_true fun e => hnb ⟨x, hx, e⟩
              have hbase : h'.modules = base := by
                rcases hi.mods with hb | ⟨m, h1, h2, _⟩
                · rw [e1, hb, hkm, hself]
                · rw [e1, h2, hkm, List.filter_cons, if_neg (by simp [h1]), hself]
              refine ⟨?_, hkeys, howners, .inl hbase⟩
              intro x hx
              dsimp only at hx
              rw [e1] at hx
              exact hi.proper x (List.mem_filter.mp hx).1
          · unfold objClose at hc
            rw [if_neg hu] at hc
            cases hc
            refine ⟨hi.proper, hkeys, howners, ?_⟩
            rcases hi.mods with hb | ⟨m, h1, h2, p, hp, hpu⟩
            · exact .inl hb
            · refine .inr ⟨m, h1, h2, p, List.mem_filter.mpr ⟨hp, decide_eq_true ?_⟩, hpu⟩
              rintro rfl
              have := unique_key hi.keys hmem hp
              subst this
              exact hu hpu

theorem steps_inv {env : Env} (K : Kernel env) (ha : Alone env "msr".toList) {cpu : Nat} {base : List Mod}
    (ops : List Op) (hq : ∀ f, .other f ∈ ops → Quiet f) {st st1 : Host × List (Nat × Obj)} (hi : Inv base st)
    (hs : steps env cpu ops st = some st1) : Inv base st1 := by
  induction ops generalizing st with
  | nil => cases hs; exact hi
  | cons op ops ih =>
    unfold steps at hs
    cases h1 : step env cpu st op with
    | none => rw [h1] at hs; cases hs
    | some st' =>
      rw [h1] at hs
      exact ih (fun f hf => hq f (List.mem_cons_of_mem _ hf))
        (step_inv K ha hi (fun f hf => hq f (hf ▸ List.mem_cons_self ..)) h1) hs

/-- The invariant while the first object is open. -/
structure Open (env : Env) (cpu i : Nat) (st : Host × List (Nat × Obj)) : Prop where
  dev : env.present (msrDev cpu) st.1 = true
  key : i ∈ st.2.map (·.1)
  others : ∀ p ∈ st.2, p.1 ≠ i → p.2.unload = false

theorem step_open {env : Env} {cpu i : Nat} (hst : Stays env (msrDev cpu)) {st st1 : Host × List (Nat × Obj)} {op : Op}
    (hi : Open env cpu i st) (hq : ∀ f, op = .other f → Quiet f) (hc : op ≠ .close i)
    (hs : step env cpu st op = some st1) : Open env cpu i st1 ∧ (st1.1 = st.1 ∨ ∃ f, op = .other f ∧ st1.1 = f st.1) := by
  cases op with
  | other f =>
    cases hs
    have hf := hq f rfl st.1
    exact ⟨⟨hst st.1 _ hi.dev hf.1 hf.2, hi.key, hi.others⟩, .inr ⟨f, rfl, rfl⟩⟩
  | new id =>
    unfold step at hs
    dsimp only at hs
    by_cases hk : (st.2.map (·.1)).contains id = true
    · rw [if_pos hk] at hs; cases hs
    rw [if_neg hk] at hs
    have ho : msrOpen env cpu st.1 = (st.1, .ok ⟨none, false⟩) := by unfold msrOpen; rw [if_pos hi.dev]
    rw [ho] at hs
    cases hs
    refine ⟨⟨hi.dev, List.mem_cons_of_mem _ hi.key, ?_⟩, .inl rfl⟩
    intro p hp hne
    cases hp with
    | head => rfl
    | tail _ hp => exact hi.others p hp hne
  | close id =>
    have hne : id ≠ i := fun h => hc (h ▸ rfl)
    unfold step at hs
    dsimp only at hs
    cases hl : st.2.lookup id with
    | none => rw [hl] at hs; cases hs
    | some o =>
      rw [hl] at hs
      dsimp only at hs
      have hu := hi.others _ (lookup_mem hl) hne
      dsimp only at hu
      have ho : objClose env o st.1 = (st.1, .ok ()) := by unfold objClose; rw [if_neg (by rw [hu]; decide)]
      rw [ho] at hs
      cases hs
      refine ⟨⟨hi.dev, ?_, fun p hp hne => hi.others p (List.mem_filter.mp hp).1 hne⟩, .inl rfl⟩
      obtain ⟨p, hp, e⟩ := List.mem_map.mp hi.key
      exact List.mem_map.mpr ⟨p, List.mem_filter.mpr ⟨hp, decide_eq_true (by rw [e]; exact fun h => hne h.symm)⟩, e⟩

theorem steps_open {env : Env} {cpu i : Nat} (hst : Stays env (msrDev cpu)) (ops : List Op)
    (hq : ∀ f, .other f ∈ ops → Quiet f) (hc : .close i ∉ ops) {st st1 : Host × List (Nat × Obj)}
    (hi : Open env cpu i st) (hs : steps env cpu ops st = some st1) : Open env cpu i st1 := by
  induction ops generalizing st with
  | nil => cases hs; exact hi
  | cons op ops ih =>
    unfold steps at hs
    cases h1 : step env cpu st op with
    | none => rw [h1] at hs; cases hs
    | some st' =>
      rw [h1] at hs
      exact ih (fun f hf => hq f (List.mem_cons_of_mem _ hf)) (fun h => hc (List.mem_cons_of_mem _ h))
        (step_open hst hi (fun f hf => hq f (hf ▸ List.mem_cons_self ..)) (fun h => hc (h ▸ List.mem_cons_self ..)) h1).1 hs

end Verif.Drivers
