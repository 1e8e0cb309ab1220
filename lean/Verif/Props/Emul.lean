import Verif.Lemmas.Emul
import Verif.Props.EmulSpec
import Verif.Props.SysfsRefine
import Verif.Model.MSR

/-!
C103: the emulated files which the commands run on with the `-D` option behave like the files of a real system.
-/

namespace Verif.Emul

variable {enc : PyStr → Bytes} {dec : Bytes → PyStr}

/-! ### Sysfs files -/

theorem dec_plainWrite (E : Encoding enc dec) (f : Bytes) (data : PyStr) : dec (plainWrite enc f data) = data := by
  unfold plainWrite
  rw [write_all _ _ _ (E.size data), E.back]

/-- C103: the files with a special behaviour are the EPB files of all CPUs and the ASPM policy file; all other files, whose paths do not end
like theirs, are plain ones. -/
theorem C103_files :
    (∀ cpu, kindOf ("/sys/devices/system/cpu/cpu".toList ++ PyStr.ofNat cpu ++ "/power/energy_perf_bias".toList) = .epb) ∧
    kindOf "/sys/module/pcie_aspm/parameters/policy".toList = .aspm ∧
    ∀ p, ¬ "/energy_perf_bias".toList <:+ p → ¬ "pcie_aspm/parameters/policy".toList <:+ p → kindOf p = .plain := by
  refine ⟨fun cpu => ?_, by decide +kernel, fun p h1 h2 => ?_⟩
  · have h : ∀ a : PyStr, kindOf (a ++ "/energy_perf_bias".toList) = .epb := by
      intro a
      unfold kindOf
      rw [if_neg, if_pos]
      · exact List.isSuffixOf_iff_suffix.2 (List.suffix_append _ _)
      · intro hs
        have hs := List.isSuffixOf_iff_suffix.1 hs
        have h1 : ['y'] <:+ a ++ "/energy_perf_bias".toList :=
          List.IsSuffix.trans ⟨"pcie_aspm/parameters/polic".toList, by decide⟩ hs
        have h2 : ['s'] <:+ a ++ "/energy_perf_bias".toList :=
          List.IsSuffix.trans (⟨"/energy_perf_bia".toList, by decide⟩ : ['s'] <:+ "/energy_perf_bias".toList) (List.suffix_append _ _)
        have h3 := (List.suffix_of_suffix_length_le h1 h2 (Nat.le_refl _))
        exact absurd h3 (by decide)
    have := h ("/sys/devices/system/cpu/cpu".toList ++ PyStr.ofNat cpu ++ "/power".toList)
    rw [List.append_assoc, show "/power".toList ++ "/energy_perf_bias".toList = "/power/energy_perf_bias".toList by decide] at this
    exact this
  · unfold kindOf
    rw [if_neg (fun h => h2 (List.isSuffixOf_iff_suffix.1 h)), if_neg (fun h => h1 (List.isSuffixOf_iff_suffix.1 h))]

/-- C103: after writing to a sysfs file, it has exactly the text which was written, whatever was in it, be it longer or
shorter. -/
theorem C103_sysfs (E : Encoding enc dec) {p : PyStr} (hp : kindOf p = .plain) (f : Bytes) (data : PyStr) :
    dec (sysWrite enc dec p f data) = data := by
  unfold sysWrite
  rw [hp]
  exact dec_plainWrite E f data

/-- An encoding with one byte per character. -/
theorem plainEncoding : Encoding (fun s => s.map Char.toNat) (fun b => b.map Char.ofNat) :=
  ⟨fun s => by
    rw [List.map_map]
    conv => rhs; rw [← List.map_id s]
    exact List.map_congr_left fun c _ => Char.ofNat_toNat c, fun s => Nat.le_of_eq (List.length_map _).symm⟩

example : kindOf "/sys/devices/system/cpu/cpu0/cpufreq/scaling_governor".toList = .plain ∧
    sysWrite (fun s => s.map Char.toNat) (fun b => b.map Char.ofNat) "/sys/x".toList ("performance\n".toList.map Char.toNat)
      "powersave".toList = "powersave".toList.map Char.toNat := by decide +kernel

theorem epb_lookup {name : PyStr} {n : Int} (h : (name, n) ∈ epbNumber) :
    ∃ t, epbPolicies.lookup name = some t ∧ Trivial.strToInt t = .ok n := by
  simp only [epbNumber, List.mem_cons, List.not_mem_nil, or_false, Prod.mk.injEq] at h
  rcases h with ⟨rfl, rfl⟩ | ⟨rfl, rfl⟩ | ⟨rfl, rfl⟩ | ⟨rfl, rfl⟩ | ⟨rfl, rfl⟩
  · exact ⟨"0\n".toList, by decide +kernel, by decide +kernel⟩
  · exact ⟨"4\n".toList, by decide +kernel, by decide +kernel⟩
  · exact ⟨"6\n".toList, by decide +kernel, by decide +kernel⟩
  · exact ⟨"8\n".toList, by decide +kernel, by decide +kernel⟩
  · exact ⟨"15\n".toList, by decide +kernel, by decide +kernel⟩

theorem epb_lookup_none {name : PyStr} (h : ∀ n, (name, n) ∉ epbNumber) : epbPolicies.lookup name = none := by
  have hne : ∀ m, m ∈ epbNumber.map Prod.fst → name ≠ m := by
    intro m hm e
    obtain ⟨⟨a, b⟩, hb, rfl⟩ := List.mem_map.1 hm
    exact h b (by rw [e]; exact hb)
  have e : epbPolicies.map Prod.fst = epbNumber.map Prod.fst := rfl
  rw [← e] at hne
  generalize epbPolicies = l at hne
  induction l with
  | nil => rfl
  | cons x l ih =>
    obtain ⟨a, b⟩ := x
    have h1 : (name == a) = false := beq_eq_false_iff_ne.2 (hne a (List.mem_cons_self ..))
    rw [List.lookup_cons, h1]
    exact ih fun m hm => hne m (List.mem_cons_of_mem _ hm)

/-- C103: the name of a policy which is written to an 'energy_perf_bias' file is read back as its number; anything else as it
is. -/
theorem C103_epb (E : Encoding enc dec) {p : PyStr} (hp : kindOf p = .epb) (f : Bytes) (data : PyStr) :
    (∀ n, (PyStr.strip data, n) ∈ epbNumber → Trivial.strToInt (dec (sysWrite enc dec p f data)) = .ok n) ∧
      ((∀ n, (PyStr.strip data, n) ∉ epbNumber) → dec (sysWrite enc dec p f data) = data) := by
  unfold sysWrite
  rw [hp]
  show (∀ n, _ → Trivial.strToInt (dec (epbWrite enc f data)) = .ok n) ∧ (_ → dec (epbWrite enc f data) = data)
  unfold epbWrite
  rw [dec_plainWrite E]
  constructor
  · intro n hn
    obtain ⟨t, h1, h2⟩ := epb_lookup hn
    rw [h1]
    exact h2
  · intro h
    rw [epb_lookup_none h]
    rfl

example : kindOf "/sys/devices/system/cpu/cpu0/power/energy_perf_bias".toList = .epb ∧
    (PyStr.strip "balance-power".toList, 8) ∈ epbNumber ∧ ∀ n, (PyStr.strip "7".toList, n) ∉ epbNumber := by
  refine ⟨by decide +kernel, by decide +kernel, fun n h => ?_⟩
  have : PyStr.strip "7".toList ∈ epbNumber.map Prod.fst := List.mem_map_of_mem h
  exact absurd this (by decide +kernel)

/-- C103: setting a listed ASPM policy makes it the active one, and the list stays the same, as on a real system; again and
again.

Missing from the full statement: a policy whose name is a part of the name of another one (`C103_aspm_counterexample`; the
policies of Linux are fine, see the example). -/
theorem C103_aspm_partial (E : Encoding enc dec) {p : PyStr} (hp : kindOf p = .aspm) (names : List PyStr)
    (hn : ∀ n ∈ names, ASPM.Name n) (k : Nat) (hk : k < names.length)
    (ho : ∀ i (h : i < names.length), i ≠ k → ¬ names[k] <:+: names[i]) (f : Bytes) (active : Nat)
    (hf : dec f = ASPM.shown names active ∨ dec f = PyStr.joinC ' ' (names.mapIdx (ASPM.entry active))) :
    let t := dec (sysWrite enc dec p f names[k])
    t = PyStr.joinC ' ' (names.mapIdx (ASPM.entry k)) ∧ ASPM.getPolicy (.ok t) = .ok names[k] ∧
      ASPM.getPolicies (.ok t) = .ok names := by
  have hne : names ≠ [] := by rintro rfl; exact absurd hk (by simp)
  have hw := entries_words hn
  have hne' : ∀ a, names.mapIdx (ASPM.entry a) ≠ [] := by
    intro a h
    rw [List.mapIdx_eq_nil_iff] at h
    exact hne h
  have hshown : ∀ a, PyStr.strip (ASPM.shown names a) = PyStr.joinC ' ' (names.mapIdx (ASPM.entry a)) := by
    intro a
    have h := ASPM.strip_words (hw a) (hne' a)
    rw [← h]
    unfold ASPM.shown
    have e : (names.mapIdx fun k n => (if k = a then '[' :: n ++ [']'] else n) ++ [' ']) =
        (names.mapIdx (ASPM.entry a)).map (· ++ [' ']) := by
      apply List.ext_getElem <;> simp [ASPM.entry]
    rw [e]
  have hs : PyStr.strip (dec f) = PyStr.joinC ' ' (names.mapIdx (ASPM.entry active)) := by
    rcases hf with h | h
    · rw [h]; exact hshown active
    · rw [h]; exact strip_join (hw active) (hne' active)
  have ht : dec (sysWrite enc dec p f names[k]) = PyStr.joinC ' ' (names.mapIdx (ASPM.entry k)) := by
    unfold sysWrite
    rw [hp]
    show dec (aspmWrite enc (dec f) f names[k]) = _
    unfold aspmWrite
    dsimp only
    rw [policiesOf_shown hn active hs, replace_policy hn k hk ho, write_all, E.back]
    refine Nat.le_trans ?_ (E.size _)
    have hl : k < (names.mapIdx (ASPM.entry k)).length := by rw [List.length_mapIdx]; exact hk
    refine Nat.le_trans ?_ (join_length hl)
    rw [List.getElem_mapIdx]
    unfold ASPM.entry
    rw [if_pos rfl, List.length_append, List.length_cons]
    omega
  have hpl : ∀ b, ASPM.policyList (.ok (PyStr.joinC ' ' (names.mapIdx (ASPM.entry k)))) b =
      ASPM.policyList (.ok (ASPM.shown names k)) b := by
    intro b
    unfold ASPM.policyList
    dsimp only
    rw [hshown k, strip_join (hw k) (hne' k)]
  refine ⟨ht, ?_, ?_⟩
  · rw [ht, ← ASPM.C55_active names k hn hk]
    unfold ASPM.getPolicy
    rw [hpl]
  · rw [ht, ← ASPM.C55_policies names k hn hne]
    unfold ASPM.getPolicies
    rw [hpl]

example : kindOf "/sys/module/pcie_aspm/parameters/policy".toList = .aspm ∧
    (∀ k : Fin 4, ∀ i : Fin 4, i ≠ k → ¬ ["default".toList, "performance".toList, "powersave".toList, "powersupersave".toList][k] <:+:
      ["default".toList, "performance".toList, "powersave".toList, "powersupersave".toList][i]) := by
  decide +kernel

/-! ### The sysfs stack on emulated files -/

/-- The emulated sysfs files, without the special ones: a missing file cannot be opened. -/
def world (enc : PyStr → Bytes) (dec : Bytes → PyStr) : SysfsIO.World where
  σ := SysfsIO.Path → Option Bytes
  readF := fun s p =>
    match s p with
    | none => (s, .openErr .notFound)
    | some f => if kindOf p = .plain then (s, .ok (dec f)) else (s, .openErr .notFound)
  writeF := fun s p v =>
    match s p with
    | none => (s, .openErr .notFound)
    | some f =>
      if kindOf p = .plain then ((fun q => if q = p then some (sysWrite enc dec p f v) else s q), .ok ())
      else (s, .openErr .notFound)

/-- The text in a file. -/
def contents (dec : Bytes → PyStr) (s : SysfsIO.Path → Option Bytes) (p : SysfsIO.Path) : Option PyStr :=
  match s p with
  | none => none
  | some f => if kindOf p = .plain then some (PyStr.strip (dec f)) else none

theorem contents_none {s : SysfsIO.Path → Option Bytes} {p : SysfsIO.Path} (h : contents dec s p = none) :
    s p = none ∨ kindOf p ≠ .plain := by
  unfold contents at h
  cases hs : s p with
  | none => exact .inl rfl
  | some f =>
    rw [hs] at h
    refine .inr fun hk => ?_
    dsimp only at h
    rw [if_pos hk] at h
    exact nomatch h

theorem contents_some {s : SysfsIO.Path → Option Bytes} {p : SysfsIO.Path} (h : contents dec s p ≠ none) :
    ∃ f, s p = some f ∧ kindOf p = .plain := by
  unfold contents at h
  cases hs : s p with
  | none => rw [hs] at h; exact absurd rfl h
  | some f =>
    rw [hs] at h
    dsimp only at h
    by_cases hk : kindOf p = .plain
    · exact ⟨f, rfl, hk⟩
    · rw [if_neg hk] at h; exact absurd rfl h

theorem readF_none {s : SysfsIO.Path → Option Bytes} {p : SysfsIO.Path} (h : s p = none ∨ kindOf p ≠ .plain) :
    (world enc dec).readF s p = (s, .openErr .notFound) := by
  unfold world
  dsimp only
  rcases h with h | h
  · rw [h]
  · cases s p with
    | none => rfl
    | some f => exact if_neg h

theorem readF_some {s : SysfsIO.Path → Option Bytes} {p : SysfsIO.Path} {f : Bytes} (h : s p = some f)
    (hk : kindOf p = .plain) : (world enc dec).readF s p = (s, .ok (dec f)) := by
  unfold world
  dsimp only
  rw [h]
  exact if_pos hk

theorem writeF_none {s : SysfsIO.Path → Option Bytes} {p : SysfsIO.Path} (v : PyStr) (h : s p = none ∨ kindOf p ≠ .plain) :
    (world enc dec).writeF s p v = (s, .openErr .notFound) := by
  unfold world
  dsimp only
  rcases h with h | h
  · rw [h]
  · cases s p with
    | none => rfl
    | some f => exact if_neg h

theorem writeF_some {s : SysfsIO.Path → Option Bytes} {p : SysfsIO.Path} {f : Bytes} (v : PyStr) (h : s p = some f)
    (hk : kindOf p = .plain) :
    (world enc dec).writeF s p v = ((fun q => if q = p then some (sysWrite enc dec p f v) else s q), .ok ()) := by
  unfold world
  dsimp only
  rw [h]
  exact if_pos hk

/-- C103: the emulated sysfs files are plain files, so that everything which is proved for code on top of the `SysfsIO` class
(C71) holds on an emulated system. -/
theorem C103_plain_files (E : Encoding enc dec) :
    SysfsIO.PlainFiles (world enc dec) (contents dec) ⟨fun _ _ => none⟩ where
  read_cont := by
    intro s p
    by_cases h : s p = none ∨ kindOf p ≠ .plain
    · rw [readF_none h]
    · cases hs : s p with
      | none => exact absurd (.inl hs) h
      | some f => rw [readF_some hs (Classical.byContradiction fun hk => h (.inr hk))]
  read_some := by
    intro s p c hc
    obtain ⟨f, h1, h2⟩ := contents_some (dec := dec) (s := s) (p := p) (by rw [hc]; exact (nomatch ·))
    refine ⟨dec f, by rw [readF_some h1 h2], ?_⟩
    unfold contents at hc
    rw [h1] at hc
    dsimp only at hc
    rw [if_pos h2] at hc
    exact Option.some.inj hc
  read_none := by
    intro s p h raw
    rw [readF_none (contents_none h)]
    exact (nomatch ·)
  write_other := by
    intro s p v q hq
    by_cases h : s p = none ∨ kindOf p ≠ .plain
    · rw [writeF_none v h]
    · cases hs : s p with
      | none => exact absurd (.inl hs) h
      | some f =>
        rw [writeF_some v hs (Classical.byContradiction fun hk => h (.inr hk))]
        unfold contents
        dsimp only
        rw [if_neg hq]
  write_ok := by
    intro s p v h
    by_cases h0 : s p = none ∨ kindOf p ≠ .plain
    · rw [writeF_none v h0] at h; exact nomatch h
    · cases hs : s p with
      | none => exact absurd (.inl hs) h0
      | some f =>
        have hk := Classical.byContradiction fun hk => h0 (.inr hk)
        rw [writeF_some v hs hk]
        unfold contents
        dsimp only
        rw [if_pos rfl]
        dsimp only
        rw [if_pos hk, C103_sysfs E hk]
  write_err := by
    intro s p v h
    by_cases h0 : s p = none ∨ kindOf p ≠ .plain
    · rw [writeF_none v h0]
    · cases hs : s p with
      | none => exact absurd (.inl hs) h0
      | some f =>
        rw [writeF_some v hs (Classical.byContradiction fun hk => h0 (.inr hk))] at h
        exact absurd rfl h
  read_missing := by
    intro s p h
    rw [readF_none (contents_none h)]
  write_missing := by
    intro s p v h
    rw [writeF_none v (contents_none h)]
  write_good := by
    intro s p v h _
    obtain ⟨f, h1, h2⟩ := contents_some h
    rw [writeF_some v h1 h2]
  write_fail := by
    intro s p v e _ h
    exact nomatch h

/-! ### MSRs -/

/-- Do some accesses to the emulated device node of a CPU. -/
def accesses : List Access → Bytes → List Nat
  | [], _ => []
  | .read a :: l, f => readReg f a :: accesses l f
  | .write a v :: l, f => accesses l (writeReg f a v)

/-- C103: the emulated device node of a CPU is a set of independent 64-bit registers, for all sequences of reads and writes. -/
theorem C103_msr (l : List Access) (hl : ∀ a v, Access.write a v ∈ l → v < 2 ^ 64) (f : Bytes) :
    accesses l f = registers l (readReg f) := by
  induction l generalizing f with
  | nil => rfl
  | cons x l ih =>
    have ih' := ih fun a v h => hl a v (List.mem_cons_of_mem _ h)
    cases x with
    | read a =>
      show readReg f a :: accesses l f = readReg f a :: registers l (readReg f)
      rw [ih']
    | write a v =>
      show accesses l (writeReg f a v) = registers l fun b => if b = a then v else readReg f b
      rw [ih']
      congr 1
      funext b
      exact readReg_writeReg f a b v (hl a v (List.mem_cons_self ..))

/-- C103: at the start, the registers have the values of the dataset; other registers are 0. -/
theorem C103_msr_initial (pairs : List (Nat × Nat)) (hp : ∀ p ∈ pairs, p.2 < 2 ^ 64) (a : Nat) :
    readReg (populate (msrData pairs)) a = initial pairs a := by
  have h := msrFold_keys pairs [] ⟨fun _ h => absurd h List.not_mem_nil, List.nodup_nil⟩
  unfold populate
  rw [populate_spec (msrData pairs) [] h.1 h.2 a]
  unfold msrData
  rw [msrFold_get]
  have key : ∀ (l : List (Nat × Nat)) (o : Option Bytes) (v : Nat), (∀ p ∈ l, p.2 < 2 ^ 64) →
      (match o with | some b => fromBytes b | none => readReg [] a) = v →
      (match l.foldl (fun o p => if p.1 = a then some (toBytes 8 p.2) else o) o with
        | some b => fromBytes b
        | none => readReg [] a) =
      match (l.filter fun p => p.1 = a).getLast? with
        | some p => p.2
        | none => v := by
    intro l
    induction l with
    | nil => exact fun o v _ h => h
    | cons p l ih =>
      intro o v hl h
      rw [List.foldl_cons]
      have hl' := fun p h => hl p (List.mem_cons_of_mem _ h)
      by_cases e : p.1 = a
      · rw [if_pos e, ih (some (toBytes 8 p.2)) p.2 hl' (by
          dsimp only
          rw [fromBytes_toBytes]
          exact Nat.mod_eq_of_lt (by simpa using hl p (List.mem_cons_self ..))),
          List.filter_cons_of_pos (by simpa using e), List.getLast?_cons]
        cases (l.filter fun p => decide (p.1 = a)).getLast? <;> rfl
      · rw [if_neg e, ih o v hl' h, List.filter_cons_of_neg (by simpa using e)]
  exact key pairs none 0 hp (readReg_nil a)

example : readReg (populate (msrData [(0x1ad, 0x2222), (0x1fc, 7), (0x1ad, 0x1f1f)])) 0x1ad = 0x1f1f ∧
    accesses [.write 0x1fc 5, .read 0x1ad, .read 0x1fc] (populate (msrData [(0x1ad, 3)])) = [3, 5] := by decide +kernel

/-- The hardware of an emulated system: every CPU has its own registers, all the bits can be written. -/
def emulEnv (T : Topo) : MSR.Env :=
  ⟨T, fun _ c d => decide (c = d), fun _ _ new => new, fun _ _ => false, fun _ _ => false⟩

/-- C103: the emulated device nodes do what the hardware of the `MSR` model does (so its claims hold on an emulated system):
writing a register of a CPU. -/
theorem C103_msr_hardware (T : Topo) (st : MSR.St) (dev : Nat → Bytes) (hd : ∀ a c, (readReg (dev c) a : Int) = st.hw a c)
    (addr cpu val : Nat) (hv : val < 2 ^ 64) :
    ∃ st', MSR.hwWrite (emulEnv T) st addr val cpu = (st', .ok ()) ∧
      ∀ a c, (readReg ((fun d => if d = cpu then writeReg (dev cpu) addr val else dev d) c) a : Int) = st'.hw a c := by
  refine ⟨{ st with
        hw := fun a c => if a = addr ∧ (emulEnv T).share addr cpu c = true then (val : Int) else st.hw a c
        log := st.log ++ [(cpu, addr, (val : Int))] }, ?_, ?_⟩
  · unfold MSR.hwWrite
    have h1 : ¬ ((val : Int) < 0 ∨ (val : Int) ≥ 2 ^ 64) := by omega
    rw [if_neg h1]
    rfl
  · intro a c
    dsimp only
    show _ = if a = addr ∧ decide (cpu = c) = true then (val : Int) else st.hw a c
    by_cases hc : c = cpu
    · subst hc
      rw [if_pos rfl, readReg_writeReg _ _ _ _ hv]
      by_cases ha : a = addr
      · rw [if_pos ha, if_pos ⟨ha, decide_eq_true rfl⟩]
      · rw [if_neg ha, if_neg (fun h => ha h.1)]
        exact hd a c
    · rw [if_neg hc, if_neg (fun h => hc (of_decide_eq_true h.2).symm)]
      exact hd a c

/-! ### Online CPUs -/

/-- C103: the emulated list of online CPUs has exactly the CPUs whose own file says so (or which have no such file), whatever the
order of the directories. -/
theorem C103_online (file : PyStr → Option PyStr) (cpus : List Nat) (others names : List PyStr)
    (hnames : names.Perm (cpus.map (fun c => "cpu".toList ++ PyStr.ofNat c) ++ others))
    (ho : ∀ o ∈ others, "cpu".toList.isPrefixOf o = false ∨ ∃ e, Trivial.strToInt (o.drop 3) = .error e) :
    ∃ r : List Nat, Trivial.splitCsvLineInt (PyStr.strip (onlineText file names)) ',' false = .ok (r.map Int.ofNat) ∧
      r.Pairwise (· ≤ ·) ∧ r.Perm (cpus.filter fun c =>
        match file ("cpu".toList ++ PyStr.ofNat c) with
        | none => true
        | some d => PyStr.strip d = "1".toList) := by
  have h1 := (onlineCpus_perm file hnames)
  rw [onlineCpus_spec file cpus others ho] at h1
  obtain ⟨l, hl⟩ : ∃ l : List Nat, onlineCpus file names = l.map Int.ofNat := by
    refine ⟨(onlineCpus file names).map Int.toNat, ?_⟩
    rw [List.map_map]
    conv => lhs; rw [← List.map_id (onlineCpus file names)]
    refine List.map_congr_left fun x hx => ?_
    obtain ⟨n, -, rfl⟩ := List.mem_map.1 (h1.mem_iff.1 hx)
    rfl
  unfold onlineText
  rw [hl] at h1 ⊢
  rw [strip_rangify]
  obtain ⟨r, h2, h3, h4⟩ := Trivial.C23_rangify_roundtrip l
  refine ⟨r, h2, h4, h3.trans ?_⟩
  have := h1.map Int.toNat
  rw [List.map_map, List.map_map] at this
  have hid : (Int.toNat ∘ Int.ofNat) = id := rfl
  rw [hid, List.map_id, List.map_id] at this
  exact this

/-- C103: taking a CPU offline (or online) through its file takes this CPU, and no other, off (or onto) the emulated list. -/
theorem C103_hotplug (E : Encoding enc dec) (file : PyStr → Option Bytes) (cpus : List Nat)
    (others names : List PyStr)
    (hnames : names.Perm (cpus.map (fun c => "cpu".toList ++ PyStr.ofNat c) ++ others))
    (ho : ∀ o ∈ others, "cpu".toList.isPrefixOf o = false ∨ ∃ e, Trivial.strToInt (o.drop 3) = .error e)
    (cpu : Nat) (hcpu : cpu ∈ cpus) (online : Bool) (path : PyStr) (hp : kindOf path = .plain) (f : Bytes) :
    let after : PyStr → Option PyStr := fun n =>
      if n = "cpu".toList ++ PyStr.ofNat cpu then some (dec (sysWrite enc dec path f (if online then "1".toList else "0".toList)))
      else (file n).map dec
    ∃ before now : List Nat,
      Trivial.splitCsvLineInt (PyStr.strip (onlineText (fun n => (file n).map dec) names)) ',' false = .ok (before.map Int.ofNat) ∧
      Trivial.splitCsvLineInt (PyStr.strip (onlineText after names)) ',' false = .ok (now.map Int.ofNat) ∧
      (cpu ∈ now ↔ online = true) ∧ ∀ c, c ≠ cpu → (c ∈ now ↔ c ∈ before) := by
  intro after
  obtain ⟨b, b1, -, b3⟩ := C103_online (fun n => (file n).map dec) cpus others names hnames ho
  obtain ⟨r, r1, -, r3⟩ := C103_online after cpus others names hnames ho
  refine ⟨b, r, b1, r1, ?_, ?_⟩
  · rw [r3.mem_iff, List.mem_filter]
    have hafter : after ("cpu".toList ++ PyStr.ofNat cpu) = some (if online then "1".toList else "0".toList) := by
      show (if _ then _ else _) = _
      rw [if_pos rfl, C103_sysfs E hp]
    rw [hafter]
    cases online
    · exact ⟨fun h => absurd h.2 (by decide +kernel), (nomatch ·)⟩
    · exact ⟨fun _ => rfl, fun _ => ⟨hcpu, by decide +kernel⟩⟩
  · intro c hne
    rw [r3.mem_iff, b3.mem_iff, List.mem_filter, List.mem_filter]
    have hafter : after ("cpu".toList ++ PyStr.ofNat c) = (file ("cpu".toList ++ PyStr.ofNat c)).map dec := by
      show (if _ then _ else _) = _
      refine if_neg fun h => hne ?_
      have h2 := List.append_cancel_left h
      have h3 : Trivial.strToInt (PyStr.ofNat c) = Trivial.strToInt (PyStr.ofNat cpu) := by rw [h2]
      rw [Trivial.strToInt_ofNat, Trivial.strToInt_ofNat] at h3
      have := Except.ok.inj h3
      omega
    rw [hafter]

example : onlineText (fun n => if n = "cpu2".toList then some "0\n".toList else if n = "cpu0".toList then none else some "1\n".toList)
    (["cpu10", "cpufreq", "cpu2", "power", "cpu1", "cpu0", "cpu3"].map String.toList) = "0,1,3,10".toList ∧
    kindOf "/sys/devices/system/cpu/cpu2/online".toList = .plain := by decide +kernel

/-! ### What differs from a real system -/

/-- A policy whose name is a part of another name: two policies are active. -/
theorem C103_aspm_counterexample :
    sysWrite (fun s => s.map Char.toNat) (fun b => b.map Char.ofNat) "/sys/module/pcie_aspm/parameters/policy".toList
      ("[power] powersave".toList.map Char.toNat) "power".toList = "[power] [power]save".toList.map Char.toNat := by
  decide +kernel

/-- Writing to a read-only file is not an error which the commands handle, but a crash. -/
theorem C103_readonly_counterexample (data : PyStr) : roWrite data = .error .pyTypeError := rfl

/-- A file which is not below '/sys' keeps the end of a longer text. -/
theorem C103_proc_counterexample :
    procWrite (fun s => s.map Char.toNat) ("performance".toList.map Char.toNat) "power".toList =
      "powerrmance".toList.map Char.toNat := by decide +kernel

end Verif.Emul
