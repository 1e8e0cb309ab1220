import Verif.Lemmas.RaplLimits

/-!
C88: the RAPL switches and time windows on top of the `MSR` object. Setting "ppl1_enable", "ppl1_clamp", "ppl2_enable" or
"ppl2_clamp" reports success only if the hardware has it, whatever happened before, inside and outside of transactions.
-/

namespace Verif.RaplLimits

open Verif.MSR (St)
open CPUInfo (Nums)

/-- C88: reachable states are closed under the operations, but for a switch which failed in a transaction. -/
theorem C88_reachable {P : Plat} {st st' : St} {o : Op} {r : Except Exn Unit} (h : Reachable P st)
    (hs : step P st o = (st', r)) (hr : r = .ok () ∨ st.inTransaction = false ∨ o.isSwitch = false) : Reachable P st' := by
  obtain ⟨st0, ops, h0, hrun⟩ := h
  refine ⟨st0, ops ++ [o], h0, ?_⟩
  rw [run_append, hrun]
  show run P [o] st = some st'
  unfold run
  rw [hs]
  cases r with
  | ok u => rfl
  | error e =>
    simp only
    rw [if_neg]
    · rfl
    · rcases hr with h | h | h
      · cases h
      · simp [h]
      · simp [h]

/-- C88: if setting a switch reported success, the value was "on" or "off" in any case, or a boolean, and the bit of the switch
has this value in the hardware, for all the CPUs asked for. -/
theorem C88_set_switch {P : Plat} (H : Hardware P) {st st' : St} (h : Reachable P st) {s : Switch} {val : FeaturedMSR.Val}
    {cpus : Nums} (hs : setSwitch P s val cpus st = (st', .ok ())) :
    ∃ on, Means val on ∧ ∀ c, Asked P cpus c → c ∈ P.msr.T.online ∧ (st'.hw 0x610 c).testBit s.bit = on := by
  rcases setSwitch_cases hs with ⟨-, e, he⟩ | ⟨l, on, hl, hm, hw⟩
  · cases he
  · have V := writeVerified_bit (honest H) (reachable_inv H h) s.bit_le s.bit_not hl hw
    refine ⟨on, hm, fun c hc => ?_⟩
    have hcl := (asked_iff hl c).2 hc
    exact ⟨(normCpus_ok hl).2 c hcl, V.done rfl c hcl⟩

/-- C88: setting a switch, successful or not, changes no bit but the bit of the switch, and bits of the limits which are going
to be written. The switch of packages which were not asked for does not change, either. -/
theorem C88_set_switch_keeps {P : Plat} (H : Hardware P) {st st' : St} (h : Reachable P st) {s : Switch}
    {val : FeaturedMSR.Val} {cpus : Nums} {r : Except Exn Unit} (hs : setSwitch P s val cpus st = (st', r))
    {x : Nat} (hx : x ∈ P.msr.T.online) {i : Nat} (hi : ¬ LimitBit i)
    (hd : i ≠ s.bit ∨ ∀ c, Asked P cpus c → ¬ SamePkg P c x) :
    (st'.hw 0x610 x).testBit i = (st.hw 0x610 x).testBit i := by
  rcases setSwitch_cases hs with ⟨rfl, -⟩ | ⟨l, on, hl, hm, hw⟩
  · rfl
  · have V := writeVerified_bit (honest H) (reachable_inv H h) s.bit_le s.bit_not hl hw
    rcases hd with hd | hd
    · exact V.keeps x hx i ⟨hi, hd⟩
    · refine V.others x hx (fun ⟨c, hc, hxc⟩ => hd c ((asked_iff hl c).1 hc) hxc) i hi

/-- C88: if one of the CPUs asked for is offline or does not have the register, every getter and setter fails and nothing
changes, not even for the other CPUs. -/
theorem C88_refused {P : Plat} {cpus : Nums} {c : Nat} (hc : Asked P cpus c) (hn : c ∉ P.msr.T.online ∨ P.supported c = false)
    (st : St) : ∃ e, (∀ s val, setSwitch P s val cpus st = (st, .error e)) ∧ (∀ s, getSwitch P s cpus st = (st, .error e)) ∧
      (∀ f, getWindow P f cpus st = (st, .error e)) ∧ (∀ f, getLimit P f cpus st = (st, .error e)) ∧
      ∀ f val, setLimit P f val cpus st = (st, .error e) := by
  rcases validateSupported_cases (P := P) (cpus := cpus) with ⟨e, he⟩ | ⟨l, hl, -, hs⟩
  · refine ⟨e, ?_, ?_, ?_, ?_, ?_⟩
    · intro s val; unfold setSwitch; rw [he]
    · intro s; unfold getSwitch; rw [he]
    · intro f; unfold getWindow; rw [he]
    · intro f; unfold getLimit; rw [he]
    · intro f val; unfold setLimit; rw [he]
  · exfalso
    have hcl := (asked_iff hl c).2 hc
    rcases hn with hn | hn
    · exact hn ((normCpus_ok hl).2 c hcl)
    · rw [hs c hcl] at hn; cases hn

/-- C88: setting a switch works, if the hardware stores what is written and can be read. -/
theorem C88_set_switch_works {P : Plat} (H : Hardware P) {st : St} (h : Reachable P st) (s : Switch)
    {val : FeaturedMSR.Val} {on : Bool} (hm : Means val on) {cpus : Nums}
    (hc : ∀ c, Asked P cpus c → c ∈ P.msr.T.online ∧ P.supported c = true)
    (hst : ∀ o v, P.msr.store 0x610 o v = v) (hrf : ∀ c ∈ P.msr.T.online, P.msr.rfail 0x610 c = false) :
    (setSwitch P s val cpus st).2 = .ok () := by
  obtain ⟨l, hl, hv⟩ := validateSupported_asked hc
  cases hs : setSwitch P s val cpus st with
  | mk st' r =>
    have hs' := hs
    unfold setSwitch at hs'
    rw [hv] at hs'
    simp only [means_normalize hm] at hs'
    rw [s.bits_eq] at hs'
    exact (writeVerified_bit (honest H) (reachable_inv H h) s.bit_le s.bit_not hl hs').works hst hrf

/-- C88: getting a switch shows what the hardware holds, for the CPUs asked for and no other, and changes nothing in the
hardware. -/
theorem C88_get_switch {P : Plat} (H : Hardware P) {st st' : St} (h : Reachable P st) {s : Switch} {cpus : Nums}
    {vals : List (Nat × FeaturedMSR.Val)} (hg : getSwitch P s cpus st = (st', .ok vals)) :
    (∀ c v, (c, v) ∈ vals ↔ Asked P cpus c ∧ v = shown ((st.hw 0x610 c).testBit s.bit)) ∧
      (vals.map Prod.fst).Nodup ∧ st'.hw = st.hw := by
  have hinv := reachable_inv H h
  refine ⟨?_, ?_, (get_inv H hinv s.bits cpus (FeaturedMSR.decodeAll (s.feature P.supported)) hg).2.1⟩ <;>
  · unfold getSwitch at hg
    rcases validateSupported_cases (P := P) (cpus := cpus) with ⟨e, he⟩ | ⟨l, hl, he, -⟩
    · rw [he] at hg; cases hg
    · rw [he] at hg
      have hf : RegFile.Field s.bits := by rw [s.bits_eq]; exact CStates.bit_field s.bit_le
      obtain ⟨h1, -⟩ := readBits_bits H hinv hf (fun i hi => by
        rw [s.bits_eq] at hi
        have : i = s.bit := by dsimp only at hi; omega
        rw [this]; exact s.bit_not) hl
      cases hb : MSR.readBits P.msr st regaddr s.bits cpus scope with
      | mk st1 r1 =>
        rw [hb] at hg h1
        cases r1 with
        | error e => cases hg
        | ok q =>
          simp only at hg
          rw [h1 q rfl, decode_switch] at hg
          cases hg
          first
          | intro c v
            simp only [List.mem_map, Prod.mk.injEq]
            constructor
            · rintro ⟨c', hc', rfl, rfl⟩
              exact ⟨(asked_iff hl _).1 hc', rfl⟩
            · rintro ⟨hc, rfl⟩
              exact ⟨c, (asked_iff hl c).2 hc, rfl, rfl⟩
          | rw [List.map_map]
            exact (List.map_id' l).symm ▸ (normCpus_ok hl).1

/-- C88: getting a switch works if the registers can be read. -/
theorem C88_get_switch_works {P : Plat} (H : Hardware P) {st : St} (h : Reachable P st) (s : Switch) {cpus : Nums}
    (hc : ∀ c, Asked P cpus c → c ∈ P.msr.T.online ∧ P.supported c = true ∧ P.msr.rfail 0x610 c = false) :
    ∃ vals, (getSwitch P s cpus st).2 = .ok vals := by
  obtain ⟨l, hl, hv⟩ := validateSupported_asked fun c h => ⟨(hc c h).1, (hc c h).2.1⟩
  have hf : RegFile.Field s.bits := by rw [s.bits_eq]; exact CStates.bit_field s.bit_le
  obtain ⟨h1, h2⟩ := readBits_bits H (reachable_inv H h) hf (fun i hi => by
    rw [s.bits_eq] at hi
    have : i = s.bit := by dsimp only at hi; omega
    rw [this]; exact s.bit_not) hl
  obtain ⟨r, hr⟩ := h2 fun c h => (hc c ((asked_iff hl c).1 h)).2.2
  unfold getSwitch
  rw [hv]
  simp only
  cases hb : MSR.readBits P.msr st regaddr s.bits cpus scope with
  | mk st1 r1 =>
    rw [hb] at hr h1
    simp only at hr
    subst hr
    simp only
    rw [h1 r rfl, decode_switch]
    exact ⟨_, rfl⟩

theorem window_field (first : Bool) : RegFile.Field (windowBits first) := by
  unfold RegFile.Field; cases first <;> decide

theorem window_not (first : Bool) (i : Nat) (hi : (windowBits first).2 ≤ (i : Int) ∧ (i : Int) ≤ (windowBits first).1) :
    ¬ LimitBit i := by
  unfold LimitBit
  cases first <;> simp only [windowBits] at hi <;> omega

/-- C88: the time window which is shown is that of the hardware, in seconds. -/
theorem C88_get_window {P : Plat} (H : Hardware P) {st st' : St} (h : Reachable P st) {first : Bool} {cpus : Nums}
    {vals : List (Nat × Power.Float)} (hg : getWindow P first cpus st = (st', .ok vals)) :
    (∀ c v, (c, v) ∈ vals ↔ Asked P cpus c ∧ v = windowOf P.time (st.hw 0x610 c) first) ∧
      (vals.map Prod.fst).Nodup ∧ st'.hw = st.hw := by
  have hinv := reachable_inv H h
  refine ⟨?_, ?_, (get_inv H hinv (windowBits first) cpus (mapVals (window P)) hg).2.1⟩ <;>
  · unfold getWindow at hg
    rcases validateSupported_cases (P := P) (cpus := cpus) with ⟨e, he⟩ | ⟨l, hl, he, -⟩
    · rw [he] at hg; cases hg
    · rw [he] at hg
      obtain ⟨h1, -⟩ := readBits_bits H hinv (window_field first) (window_not first) hl
      cases hb : MSR.readBits P.msr st regaddr (windowBits first) cpus scope with
      | mk st1 r1 =>
        rw [hb] at hg h1
        cases r1 with
        | error e => cases hg
        | ok q =>
          simp only at hg
          rw [h1 q rfl, mapVals_ok (g := fun c => windowOf P.time (st.hw regaddr c) first) l fun c hc =>
            window_eq (hinv.hwFits c ((normCpus_ok hl).2 c hc)).1 first] at hg
          cases hg
          first
          | intro c v
            simp only [List.mem_map, Prod.mk.injEq]
            constructor
            · rintro ⟨c', hc', rfl, rfl⟩
              exact ⟨(asked_iff hl _).1 hc', rfl⟩
            · rintro ⟨hc, rfl⟩
              exact ⟨c, (asked_iff hl c).2 hc, rfl, rfl⟩
          | rw [List.map_map]
            exact (List.map_id' l).symm ▸ (normCpus_ok hl).1

/-- C88: getting the time window works if the registers can be read. -/
theorem C88_get_window_works {P : Plat} (H : Hardware P) {st : St} (h : Reachable P st) (first : Bool) {cpus : Nums}
    (hc : ∀ c, Asked P cpus c → c ∈ P.msr.T.online ∧ P.supported c = true ∧ P.msr.rfail 0x610 c = false) :
    ∃ vals, (getWindow P first cpus st).2 = .ok vals := by
  have hinv := reachable_inv H h
  obtain ⟨l, hl, hv⟩ := validateSupported_asked fun c h => ⟨(hc c h).1, (hc c h).2.1⟩
  obtain ⟨h1, h2⟩ := readBits_bits H hinv (window_field first) (window_not first) hl
  obtain ⟨r, hr⟩ := h2 fun c h => (hc c ((asked_iff hl c).1 h)).2.2
  unfold getWindow
  rw [hv]
  simp only
  cases hb : MSR.readBits P.msr st regaddr (windowBits first) cpus scope with
  | mk st1 r1 =>
    rw [hb] at hr h1
    simp only at hr
    subst hr
    simp only
    rw [h1 r rfl, mapVals_ok (g := fun c => windowOf P.time (st.hw regaddr c) first) l fun c hc =>
      window_eq (hinv.hwFits c ((normCpus_ok hl).2 c hc)).1 first]
    exact ⟨_, rfl⟩

/-- C88: setting limits, and writing them at the end of a transaction, does not change the switches and the time windows. -/
theorem C88_others_keep {P : Plat} (H : Hardware P) {st st' : St} (h : Reachable P st) {o : Op} (ho : o.isSwitch = false)
    {r : Except Exn Unit} (hs : step P st o = (st', r)) {x : Nat} (hx : x ∈ P.msr.T.online) {i : Nat} (hi : ¬ LimitBit i) :
    (st'.hw 0x610 x).testBit i = (st.hw 0x610 x).testBit i := by
  have hinv := reachable_inv H h
  cases o with
  | getSwitch s cpus =>
    simp only [step, Prod.mk.injEq] at hs
    have h1 : (getSwitch P s cpus st).1.hw = st.hw :=
      (get_inv H hinv s.bits cpus (FeaturedMSR.decodeAll (s.feature P.supported)) rfl).2.1
    rw [← hs.1, h1]
  | getWindow f cpus =>
    simp only [step, Prod.mk.injEq] at hs
    have h1 : (getWindow P f cpus st).1.hw = st.hw := (get_inv H hinv (windowBits f) cpus (mapVals (window P)) rfl).2.1
    rw [← hs.1, h1]
  | getLimit f cpus =>
    simp only [step, Prod.mk.injEq] at hs
    have h1 : (getLimit P f cpus st).1.hw = st.hw := (get_inv H hinv (limitBits f) cpus
      (fun l => .ok (l.map fun p : Nat × Int => (p.1, Power.Float.num p.2 P.units))) rfl).2.1
    rw [← hs.1, h1]
  | setSwitch s v cpus => cases ho
  | setLimit f v cpus =>
    have := (setLimit_inv H (fun _ h => h) hinv f v cpus).2.1
    rw [show setLimit P f v cpus st = (st', r) from hs] at this
    exact this x hx i hi
  | start =>
    have := (start_inv hinv).2
    rw [show MSR.startTransaction st = (st', r) from hs] at this
    rw [this]
  | flush =>
    simp only [step, Prod.mk.injEq] at hs
    obtain ⟨st1, b, h1, -, h2, -⟩ := flush_inv (honest H) hinv
    rw [h1] at hs
    rw [← hs.1]
    exact h2 x hx i hi
  | commit =>
    have := (commit_inv (honest H) hinv).2
    rw [show MSR.commitTransaction P.msr st = (st', r) from hs] at this
    exact this x hx i hi

/-! ### Examples and counterexamples -/

/-- Two packages with two CPUs each, and a given way to store values. -/
def exPlat (store : Int → Int → Int) : Plat where
  msr := {
    T := ⟨[0, 1, 2, 3], fun _ c => if c < 2 then [0, 1] else [2, 3]⟩
    share := fun _ c d => (decide (c < 2)) == (decide (d < 2))
    store := fun a o v => if a = 0x610 then store o v else v
    rfail := fun _ _ => false
    wfail := fun _ _ => false }
  supported := fun _ => true
  units := 3
  time := 10

/-- Nothing is cached. The limits are 100 and 125 Watts, the TDP is 100 Watts, the time windows are 28 and 0.001 seconds.
The second package has more bits. -/
def exSt (more : Int) : St where
  cache := .empty true
  inTransaction := false
  buf := []
  hw := fun a c => if a = 0x610 then 800 + 110 * 2 ^ 17 + 1000 * 2 ^ 32 + (if c < 2 then 0 else more) else 800
  log := []

/-- The register stores what is written. -/
def plain (_ v : Int) : Int := v

/-- The register is locked. -/
def locked (o _ : Int) : Int := o

/-- The limits cannot be changed. -/
def fixed (o v : Int) : Int :=
  v - bitsOf v 0 15 + bitsOf o 0 15 - bitsOf v 32 15 * 2 ^ 32 + bitsOf o 32 15 * 2 ^ 32

theorem ex_hardware {store : Int → Int → Int}
    (hs : ∀ (o v : Int) (i : Nat), (store o v).testBit i = o.testBit i ∨ (store o v).testBit i = v.testBit i) :
    Hardware (exPlat store) where
  refl := by
    intro s c hc
    simp only [exPlat, List.mem_cons, List.not_mem_nil, or_false] at hc ⊢
    rcases hc with rfl | rfl | rfl | rfl <;> decide
  sub := by
    intro s c d hc hd
    simp only [exPlat, List.mem_cons, List.not_mem_nil, or_false] at hc hd ⊢
    rcases hc with rfl | rfl | rfl | rfl <;> simp at hd <;> omega
  eqv := by
    intro s c d hc hd
    simp only [exPlat, List.mem_cons, List.not_mem_nil, or_false] at hc hd ⊢
    rcases hc with rfl | rfl | rfl | rfl <;> simp at hd <;> rcases hd with rfl | rfl <;> rfl
  share := by
    intro c hc d hd
    simp only [SamePkg, exPlat, List.mem_cons, List.not_mem_nil, or_false] at hc hd ⊢
    rcases hc with rfl | rfl | rfl | rfl <;> rcases hd with rfl | rfl | rfl | rfl <;> decide
  keeps := fun o v i => by simpa [exPlat] using hs o v i
  writes := fun _ _ => rfl

theorem ex_fresh (store : Int → Int → Int) {more : Int} (h0 : 0 ≤ more) (h1 : more ≤ 2 ^ 63) :
    Fresh (exPlat store) (exSt more) where
  cache := fun _ _ => rfl
  noTrans := rfl
  buf := rfl
  bits64 := fun c _ => by simp only [exSt, if_true]; split <;> omega
  pkg := by
    intro c hc d hd
    simp only [SamePkg, exPlat, List.mem_cons, List.not_mem_nil, or_false] at hc hd
    rcases hc with rfl | rfl | rfl | rfl <;> simp at hd <;> rcases hd with rfl | rfl <;> rfl

/-- Operations before: a limit is set in a transaction, and it was not flushed yet. -/
def exOps : List Op :=
  [.getSwitch (.enable true) .all, .setSwitch (.enable false) (.bool true) (.nums [2]), .start,
    .setLimit true (.num 90 0) (.nums [0])]

/-- A CPU which is offline was asked for together with one which is not: the refusal. -/
example : Asked (exPlat plain) (.nums [0, 9]) 9 ∧ 9 ∉ (exPlat plain).msr.T.online ∧
    (setSwitch (exPlat plain) (.enable true) (.bool true) (.nums [0, 9]) (exSt 0)).2 = .error .error := by
  refine ⟨by simp [Asked], by decide, by decide +kernel⟩

/-- The hypotheses hold: in the transaction, a switch of the first package is set, which flushes the limit too. -/
example :
    Hardware (exPlat plain) ∧ (∀ st, run (exPlat plain) exOps (exSt 0) = some st → Reachable (exPlat plain) st) ∧
    ((run (exPlat plain) exOps (exSt 0)).map fun st =>
      let res := setSwitch (exPlat plain) (.clamp true) (.str "On".toList) (.nums [1]) st
      (res.2.isOk, [0, 1, 2, 3].map (st.hw 0x610), [0, 1, 2, 3].map (res.1.hw 0x610), st.inTransaction)) =
      some (true, [4294981714720, 4294981714720, 145032470070048, 145032470070048],
        [4294981780176, 4294981780176, 145032470070048, 145032470070048], true) :=
  ⟨ex_hardware fun _ _ _ => .inr rfl, fun st h => ⟨_, _, ex_fresh plain (Int.le_refl _) (by decide), h⟩, by decide +kernel⟩

/-- What is shown: the first switch is off, the window is 28 seconds. -/
example :
    (getSwitch (exPlat plain) (.enable true) (.nums [2]) (exSt 0)).2 = .ok [(2, .str "off".toList)] ∧
    (getWindow (exPlat plain) true (.nums [2, 0]) (exSt 0)).2 = .ok [(2, .num (28 * 2 ^ 12) 12), (0, .num (28 * 2 ^ 12) 12)] := by
  decide +kernel

/-- C88: a limit is not verified. The register is locked, setting the limit to 50 Watts reports success, and 50 Watts are
shown, while the hardware still has 100 Watts. -/
theorem C88_limit_counterexample :
    Hardware (exPlat locked) ∧ Fresh (exPlat locked) (exSt 0) ∧
    (let res := setLimit (exPlat locked) true (.num 50 0) (.nums [0]) (exSt 0)
     res.2 = .ok () ∧ (getLimit (exPlat locked) true (.nums [0]) res.1).2 = .ok [(0, .num (50 * 2 ^ 3) 3)] ∧
       bitsOf (res.1.hw 0x610 0) 0 15 = 100 * 2 ^ 3) :=
  ⟨ex_hardware fun _ _ _ => .inl rfl, ex_fresh locked (Int.le_refl _) (by decide), by decide +kernel⟩

/-- C88: after a limit which the hardware did not take, setting a switch reports a failure even though it was set: the new
value of the register has the limit which is in the cache. -/
theorem C88_false_failure_counterexample :
    let res := setLimit (exPlat fixed) true (.num 50 0) (.nums [0]) (exSt 0)
    let res2 := setSwitch (exPlat fixed) (.enable true) (.bool true) (.nums [0]) res.1
    res.2 = .ok () ∧ res2.2 = .error .verifyFailed ∧ res2.1.hw 0x610 0 = (exSt 0).hw 0x610 0 + 2 ^ 15 := by
  decide +kernel

/-- C88: why a switch which failed in a transaction is excluded: the registers of both packages are locked and differ, the
failure is found in the first one, and "on" is shown for the second one. -/
theorem C88_transaction_counterexample :
    let st := (MSR.startTransaction (exSt (2 ^ 16))).1
    let res := setSwitch (exPlat locked) (.enable true) (.bool true) .all st
    res.2 = .error .verifyFailed ∧ (res.1.hw 0x610 2).testBit 15 = false ∧
      (getSwitch (exPlat locked) (.enable true) (.nums [2]) res.1).2 = .ok [(2, .str "on".toList)] := by
  decide +kernel

end Verif.RaplLimits
