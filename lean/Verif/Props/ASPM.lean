import Verif.Model.ASPM
import Verif.Lemmas.Trivial

/-!
C55, C63: PCI ASPM.
-/

namespace Verif.ASPM

/-- A policy name: not empty, no white space and no brackets. -/
def Name (s : PyStr) : Prop := s ≠ [] ∧ ∀ c ∈ s, PyStr.isSpace c = false ∧ c ≠ '[' ∧ c ≠ ']'

/-- What the kernel puts into the policy file: every name is followed by a space, the active one is in
brackets. -/
def shown (names : List PyStr) (active : Nat) : PyStr :=
  (names.mapIdx fun k n => (if k = active then '[' :: n ++ [']'] else n) ++ [' ']).flatten ++ ['\n']

/-! ### Lemmas -/

theorem isSpace_space : PyStr.isSpace ' ' = true := by decide +kernel

theorem stripBy_plain {s : PyStr} (h : ∀ c ∈ s, c ≠ '[' ∧ c ≠ ']') : PyStr.stripBy isBracket s = s :=
  PyStr.stripBy_of_stripped (PyStr.stripped_of_all fun c hc => by
    simp [isBracket, (h c hc).1, (h c hc).2])

theorem dropWhile_brackets {s : PyStr} (h : ∀ c ∈ s, c ≠ '[' ∧ c ≠ ']') :
    s.dropWhile isBracket = s := PyStr.dropWhile_eq_self fun c hc => by
  have := h c (List.mem_of_mem_head? hc)
  simp [isBracket, this.1, this.2]

theorem stripBy_bracketed {s : PyStr} (hne : s ≠ []) (h : ∀ c ∈ s, c ≠ '[' ∧ c ≠ ']') :
    PyStr.stripBy isBracket ('[' :: s ++ [']']) = s := by
  unfold PyStr.stripBy PyStr.lstripBy PyStr.rstripBy
  have h1 : ('[' :: s ++ [']']).dropWhile isBracket = s ++ [']'] := by
    rw [List.cons_append, List.dropWhile_cons_of_pos (by decide)]
    cases s with
    | nil => exact absurd rfl hne
    | cons c s =>
      have := h c List.mem_cons_self
      rw [List.cons_append, List.dropWhile_cons_of_neg]
      simp [isBracket, this.1, this.2]
  rw [h1, List.reverse_append]
  show ((']' :: s.reverse).dropWhile isBracket).reverse = s
  rw [List.dropWhile_cons_of_pos (by decide), dropWhile_brackets (by simpa using h), List.reverse_reverse]

/-- The entry of a name. -/
def entry (active : Nat) (k : Nat) (n : PyStr) : PyStr := if k = active then '[' :: n ++ [']'] else n

theorem entry_word {active k : Nat} {n : PyStr} (h : Name n) :
    entry active k n ≠ [] ∧ ∀ c ∈ entry active k n, PyStr.isSpace c = false := by
  unfold entry
  split
  · refine ⟨by simp, fun c hc => ?_⟩
    rw [List.cons_append, List.mem_cons, List.mem_append, List.mem_singleton] at hc
    rcases hc with rfl | hc | rfl
    · decide
    · exact (h.2 c hc).1
    · decide
  · exact ⟨h.1, fun c hc => (h.2 c hc).1⟩

theorem strip_words {w : List PyStr} (h : ∀ e ∈ w, e ≠ [] ∧ ∀ c ∈ e, PyStr.isSpace c = false) (hne : w ≠ []) :
    PyStr.strip ((w.map (· ++ [' '])).flatten ++ ['\n']) = PyStr.joinC ' ' w := by
  have hj : (w.map (· ++ [' '])).flatten = PyStr.joinC ' ' w ++ [' '] := by
    clear h
    induction w with
    | nil => exact absurd rfl hne
    | cons a w ih =>
      cases w with
      | nil => simp [PyStr.joinC]
      | cons b w =>
        rw [List.map_cons, List.flatten_cons, ih (by simp)]
        simp [PyStr.joinC]
  rw [hj]
  have hst : PyStr.Stripped PyStr.isSpace (PyStr.joinC ' ' w) := by
    have key : ∀ w : List PyStr, (∀ e ∈ w, e ≠ [] ∧ ∀ c ∈ e, PyStr.isSpace c = false) → w ≠ [] →
        (∃ c, (PyStr.joinC ' ' w).head? = some c ∧ PyStr.isSpace c = false) ∧
        ∃ c, (PyStr.joinC ' ' w).getLast? = some c ∧ PyStr.isSpace c = false := by
      intro w h hne
      induction w with
      | nil => exact absurd rfl hne
      | cons a w ih =>
        obtain ⟨h1, h2⟩ := h a List.mem_cons_self
        have hhead : ∃ c, a.head? = some c ∧ PyStr.isSpace c = false := by
          cases a with
          | nil => exact absurd rfl h1
          | cons c a => exact ⟨c, rfl, h2 c List.mem_cons_self⟩
        cases w with
        | nil =>
          refine ⟨hhead, ?_⟩
          show ∃ c, a.getLast? = some c ∧ _
          rw [List.getLast?_eq_some_getLast h1]
          exact ⟨_, rfl, h2 _ (List.getLast_mem h1)⟩
        | cons b w =>
          obtain ⟨-, c, i1, i2⟩ := ih (fun e he => h e (List.mem_cons_of_mem _ he)) (by simp)
          show (∃ c, (a ++ ' ' :: PyStr.joinC ' ' (b :: w)).head? = some c ∧ _) ∧
            ∃ c, (a ++ ' ' :: PyStr.joinC ' ' (b :: w)).getLast? = some c ∧ _
          constructor
          · obtain ⟨c, hc, hc'⟩ := hhead
            refine ⟨c, ?_, hc'⟩
            rw [List.head?_append, hc]
            rfl
          · refine ⟨c, ?_, i2⟩
            rw [List.getLast?_append, List.getLast?_cons, i1]
            rfl
    obtain ⟨⟨c, h1, h2⟩, ⟨d, h3, h4⟩⟩ := key w h hne
    refine ⟨fun c' hc' => ?_, fun c' hc' => ?_⟩
    · rw [h1] at hc'; cases hc'; exact h2
    · rw [h3] at hc'; cases hc'; exact h4
  generalize PyStr.joinC ' ' w = s at hst
  unfold PyStr.strip PyStr.stripBy PyStr.rstripBy PyStr.lstripBy
  cases hs : s with
  | nil => decide +kernel
  | cons c t =>
    have h1 : PyStr.isSpace c = false := hst.1 c (by rw [hs]; rfl)
    have : (c :: t ++ [' '] ++ ['\n']).dropWhile PyStr.isSpace = c :: t ++ [' '] ++ ['\n'] := by
      simp [h1]
    rw [this, List.reverse_append, List.reverse_append]
    show (('\n' :: ' ' :: (c :: t).reverse).dropWhile PyStr.isSpace).reverse = c :: t
    rw [List.dropWhile_cons_of_pos (by decide), List.dropWhile_cons_of_pos isSpace_space]
    have := PyStr.stripBy_of_stripped hst
    unfold PyStr.stripBy PyStr.rstripBy PyStr.lstripBy at this
    rw [hs] at this
    rw [List.dropWhile_cons_of_neg (by simp [h1])] at this
    exact this

theorem splitCsv_words {w : List PyStr} (h : ∀ e ∈ w, e ≠ [] ∧ ∀ c ∈ e, PyStr.isSpace c = false)
    (hne : w ≠ []) : Trivial.splitCsvLine (PyStr.joinC ' ' w) ' ' false = w := by
  rw [Trivial.splitCsvLine_eq, PyStr.splitC_joinC hne]
  · have h1 : w.filter (fun v => !v.isEmpty) = w :=
      List.filter_eq_self.2 fun e he => by simpa using (h e he).1
    rw [h1]
    have : ∀ e ∈ w, PyStr.strip e = id e := fun e he =>
      PyStr.stripBy_of_stripped (PyStr.stripped_of_all (h e he).2)
    rw [List.map_congr_left this, List.map_id]
  · intro e he hmem
    have := (h e he).2 ' ' hmem
    rw [isSpace_space] at this
    cases this

theorem policyList_shown {names : List PyStr} {active : Nat} (hn : ∀ n ∈ names, Name n) (hne : names ≠ []) :
    policyList (.ok (shown names active)) false = .ok (names.mapIdx (entry active)) := by
  unfold policyList shown
  have hw : ∀ e ∈ names.mapIdx (entry active), e ≠ [] ∧ ∀ c ∈ e, PyStr.isSpace c = false := by
    intro e he
    obtain ⟨k, hk, rfl⟩ := List.mem_mapIdx.1 he
    exact entry_word (hn _ (List.getElem_mem hk))
  have hne' : names.mapIdx (entry active) ≠ [] := by
    intro h
    rw [List.mapIdx_eq_nil_iff] at h
    exact hne h
  have e : (names.mapIdx fun k n => (if k = active then '[' :: n ++ [']'] else n) ++ [' ']) =
      (names.mapIdx (entry active)).map (· ++ [' ']) := by
    apply List.ext_getElem <;> simp [entry]
  rw [e]
  dsimp only
  rw [strip_words hw hne', splitCsv_words hw hne']
  rfl

/-! ### C55 -/

/-- **C55.** The names are returned in order and without brackets. -/
theorem C55_policies (names : List PyStr) (active : Nat) (hn : ∀ n ∈ names, Name n) (hne : names ≠ []) :
    getPolicies (.ok (shown names active)) = .ok names := by
  have h := policyList_shown (active := active) hn hne
  unfold getPolicies
  have e : policyList (.ok (shown names active)) true =
      .ok ((names.mapIdx (entry active)).map (PyStr.stripBy isBracket)) := by
    unfold policyList at h ⊢
    dsimp only at h ⊢
    rw [if_neg (by decide)] at h
    rw [if_pos rfl, Except.ok.inj h]
  rw [e]
  congr 1
  apply List.ext_getElem
  · simp
  · intro k h1 h2
    rw [List.getElem_map, List.getElem_mapIdx]
    have hk := hn _ (List.getElem_mem h2)
    unfold entry
    split
    · exact stripBy_bracketed hk.1 fun c hc => (hk.2 c hc).2
    · exact stripBy_plain fun c hc => (hk.2 c hc).2

theorem filter_entry {active : Nat} {names : List PyStr} (hn : ∀ n ∈ names, Name n)
    (ha : active < names.length) :
    (names.mapIdx (entry active)).filter (fun p => p.head? == some '[' && p.getLast? == some ']') =
      ['[' :: names[active] ++ [']']] := by
  induction names generalizing active with
  | nil => cases ha
  | cons n names ih =>
    rw [List.mapIdx_cons]
    have hplain : ∀ m, Name m → (m.head? == some '[' && m.getLast? == some ']') = false := by
      intro m hm
      rw [Bool.and_eq_false_iff]
      left
      rw [beq_eq_false_iff_ne]
      intro h
      exact (hm.2 '[' (List.mem_of_mem_head? h)).2.1 rfl
    cases active with
    | zero =>
      have h0 : entry 0 0 n = '[' :: n ++ [']'] := rfl
      rw [h0, List.filter_cons_of_pos (by rw [List.getLast?_append]; rfl)]
      have : (names.mapIdx fun k => entry 0 (k + 1)) = names.mapIdx fun _ m => m := by
        congr 1
      rw [this]
      have : (names.mapIdx fun _ m => m) = names := by
        apply List.ext_getElem <;> simp
      rw [this]
      rw [List.filter_eq_nil_iff.2]
      · rfl
      · intro m hm
        rw [hplain m (hn m (List.mem_cons_of_mem _ hm))]
        decide
    | succ a =>
      have h0 : entry (a + 1) 0 n = n := if_neg (by omega)
      rw [h0, List.filter_cons_of_neg (by rw [hplain n (hn n List.mem_cons_self)]; decide)]
      have : (names.mapIdx fun k => entry (a + 1) (k + 1)) = names.mapIdx (entry a) := by
        congr 1
        funext k m
        simp [entry]
      rw [this, ih (fun m hm => hn m (List.mem_cons_of_mem _ hm)) (by simpa using ha)]
      rfl

/-- **C55.** The active policy is the one in brackets. -/
theorem C55_active (names : List PyStr) (active : Nat) (hn : ∀ n ∈ names, Name n)
    (ha : active < names.length) : getPolicy (.ok (shown names active)) = .ok names[active] := by
  have hne : names ≠ [] := by rintro rfl; cases ha
  unfold getPolicy
  rw [policyList_shown hn hne]
  dsimp only
  rw [filter_entry hn ha]
  dsimp only
  rw [stripBy_bracketed]
  · exact (hn _ (List.getElem_mem ha)).1
  · exact fun c hc => ((hn _ (List.getElem_mem ha)).2 c hc).2

/-- **C55.** A name which is not listed is refused, and nothing is written. -/
theorem C55_refuses (K : PyStr → Except Exn PyStr) (f : File) (policy : PyStr) (l : List PyStr)
    (hl : getPolicies f = .ok l) (h : policy ∉ l) : setPolicy K f policy = (f, .error .error) := by
  unfold setPolicy
  rw [show policyList f true = .ok l from hl]
  dsimp only
  rw [if_neg (by simpa using h)]

/-- **C55.** Setting a listed policy succeeds and makes it the active one, with a kernel that activates the
policy written; if the kernel refuses, there is an error and the active policy stays. -/
theorem C55_set (K : PyStr → Except Exn PyStr) (names : List PyStr) (active k : Nat)
    (hn : ∀ n ∈ names, Name n) (hk : k < names.length)
    (hK : K names[k] = .ok (shown names k) ∨ ∃ e, K names[k] = .error e) :
    let r := setPolicy K (.ok (shown names active)) names[k]
    (r.2 = .ok () → getPolicy r.1 = .ok names[k] ∧ getPolicies r.1 = .ok names) ∧
    (r.2 ≠ .ok () → r.1 = .ok (shown names active)) ∧
    (K names[k] = .ok (shown names k) → r.2 = .ok ()) := by
  have hne : names ≠ [] := by rintro rfl; cases hk
  have hp := C55_policies names active hn hne
  unfold getPolicies at hp
  unfold setPolicy
  rw [hp]
  dsimp only
  rw [if_pos (by simp)]
  rcases hK with hK | ⟨e, hK⟩
  · rw [hK]
    exact ⟨fun _ => ⟨C55_active names k hn hk, C55_policies names k hn hne⟩, fun h => absurd rfl h, fun _ => rfl⟩
  · rw [hK]
    refine ⟨fun h => ?_, fun _ => ?_, fun h => by cases h⟩
    · cases e <;> cases h
    · cases e <;> rfl

-- The policy file of a Linux kernel; a name that is not listed.
example : "default performance [powersave] powersupersave \n".toList =
      shown ["default".toList, "performance".toList, "powersave".toList, "powersupersave".toList] 2 ∧
    getPolicy (.ok "default performance [powersave] powersupersave \n".toList) = .ok "powersave".toList ∧
    (setPolicy (fun _ => .error .permissionDenied) (.ok "default [powersave] \n".toList)
      "[powersave]".toList).2 = .error .error ∧
    (∀ n ∈ ["default".toList, "powersave".toList], n ≠ [] ∧
      ∀ c ∈ n, PyStr.isSpace c = false ∧ c ≠ '[' ∧ c ≠ ']') :=
  ⟨by decide +kernel, by decide +kernel, by decide +kernel, by decide +kernel⟩

/-! ### C63 -/

/-- **C63.** After enabling or disabling L1 ASPM of a device has succeeded, the device has that state, if the
kernel shows what was written. Other devices are not affected, and an error changes nothing. -/
theorem C63_toggle (K : PyStr → PyStr → Except Exn PyStr) (kver : Except Exn PyStr) (D : Devs) (addr : PyStr)
    (enable : Bool)
    (hK : ∀ v text, K addr v = .ok text → PyStr.strip text = v) :
    let r := toggleL1 K kver D addr enable
    (r.2 = .ok () → isL1Enabled kver r.1 addr = .ok enable) ∧
    (r.2 ≠ .ok () → r.1 = D) ∧
    (∀ a, a ≠ addr → r.1 a = D a) := by
  unfold toggleL1
  cases hd : (D addr).l1 with
  | none => exact ⟨fun h => (by cases h), fun _ => rfl, fun _ _ => rfl⟩
  | some old =>
    dsimp only
    cases hk : K addr (if enable then ['1'] else ['0']) with
    | error e => exact ⟨fun h => (by cases h), fun _ => rfl, fun _ _ => rfl⟩
    | ok text =>
      refine ⟨fun _ => ?_, fun h => absurd rfl h, fun a ha => if_neg ha⟩
      have hs := hK _ _ hk
      unfold isL1Enabled
      simp only [if_true]
      have : Trivial.strToInt text = Trivial.strToInt (PyStr.strip text) := by
        unfold Trivial.strToInt
        rw [PyStr.strip_idem]
      rw [this, hs]
      cases enable <;> decide +kernel

/-- **C63.** A device without the file is reported as not supporting L1 ASPM, a device that does not exist is an
error of a different kind. Nothing is written. -/
theorem C63_missing (K : PyStr → PyStr → Except Exn PyStr) (kver : Except Exn PyStr) (D : Devs) (addr : PyStr)
    (enable : Bool) (h : (D addr).l1 = none) :
    ∃ e, isL1Enabled kver D addr = .error e ∧ toggleL1 K kver D addr enable = (D, .error e) ∧
      ((D addr).present = false → e = .error) ∧
      ((D addr).present = true → (∀ v, kver = .ok v → v ≠ [] → ∃ k, KernelVersion.splitKver v = .ok k) →
        e = .notSupported) := by
  refine ⟨l1NotFound kver (D addr), ?_, ?_, fun hp => ?_, fun hp hv => ?_⟩
  · unfold isL1Enabled; rw [h]
  · unfold toggleL1; rw [h]
  · unfold l1NotFound; rw [hp]; rfl
  · unfold l1NotFound
    rw [hp, if_neg (by decide)]
    cases hk : kver with
    | error e => rfl
    | ok v =>
      cases v with
      | nil => rfl
      | cons c v =>
        obtain ⟨k, hk'⟩ := hv (c :: v) hk (by simp)
        dsimp only
        unfold KernelVersion.kverLt
        rw [hk']
        dsimp only
        have : ∃ b, KernelVersion.splitKver "5.5".toList = .ok b := ⟨_, rfl⟩
        obtain ⟨b, hb⟩ := this
        rw [hb]

-- A device with L1 disabled, one without support, and no other devices.
example : let D : Devs := fun a => if a = "0000:00:1c.0".toList then ⟨true, some "0\n".toList⟩
      else ⟨decide (a = "0000:00:1f.0".toList), none⟩
    (toggleL1 (fun _ v => .ok (v ++ ['\n'])) (.ok "6.1.0".toList) D "0000:00:1c.0".toList true).2 = .ok () ∧
    isL1Enabled (.ok "6.1.0".toList) D "0000:00:1f.0".toList = .error .notSupported ∧
    isL1Enabled (.ok "6.1.0".toList) D "0000:00:02.0".toList = .error .error :=
  ⟨by decide +kernel, by decide +kernel, by decide +kernel⟩

end Verif.ASPM
