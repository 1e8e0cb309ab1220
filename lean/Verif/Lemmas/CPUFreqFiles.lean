import Verif.Lemmas.CPUIdle
import Verif.Lemmas.UncoreFreq
import Verif.Props.CPUFreqFilesSpec

/-! Lemmas about the files. -/

namespace Verif.CPUFreqFiles

open Spec
open SysFiles (Files)

/-! ### Texts of paths -/

/-- The text of components. -/
def text (l : List PyStr) : PyStr := l.flatMap ('/' :: ·)

theorem text_nil : text [] = [] := rfl
theorem text_cons (c : PyStr) (l : List PyStr) : text (c :: l) = '/' :: (c ++ text l) := rfl
theorem text_append (a b : List PyStr) : text (a ++ b) = text a ++ text b := List.flatMap_append
theorem file_eq (s : Setting) : s.file = text s.comps := rfl

theorem div_eq (p c : PyStr) : div p c = p ++ text [c] := by
  rw [text_cons, text_nil, List.append_nil]; rfl

theorem text_head (l : List PyStr) : text l = [] ∨ ∃ r, text l = '/' :: r := by
  cases l with
  | nil => exact .inl rfl
  | cons c l => exact .inr ⟨_, rfl⟩

theorem split_eq : ∀ {a b x y : PyStr}, '/' ∉ a → '/' ∉ b → (x = [] ∨ ∃ r, x = '/' :: r) → (y = [] ∨ ∃ r, y = '/' :: r) →
    a ++ x = b ++ y → a = b ∧ x = y
  | [], [], _, _, _, _, _, _, h => ⟨rfl, h⟩
  | [], c :: b, x, y, _, hb, hx, _, h => by
    exfalso
    rcases hx with rfl | ⟨r, rfl⟩
    · exact absurd h (by simp)
    · simp only [List.nil_append, List.cons_append, List.cons.injEq] at h
      exact hb (h.1 ▸ List.mem_cons_self)
  | c :: a, [], x, y, ha, _, _, hy, h => by
    exfalso
    rcases hy with rfl | ⟨r, rfl⟩
    · exact absurd h (by simp)
    · simp only [List.nil_append, List.cons_append, List.cons.injEq] at h
      exact ha (h.1 ▸ List.mem_cons_self)
  | c :: a, d :: b, x, y, ha, hb, hx, hy, h => by
    simp only [List.cons_append, List.cons.injEq] at h
    obtain ⟨h1, h2⟩ := split_eq (fun m => ha (List.mem_cons_of_mem _ m)) (fun m => hb (List.mem_cons_of_mem _ m)) hx hy h.2
    exact ⟨by rw [h.1, h1], h2⟩

theorem text_inj : ∀ {l r : List PyStr}, (∀ c ∈ l, '/' ∉ c) → (∀ c ∈ r, '/' ∉ c) → text l = text r → l = r
  | [], [], _, _, _ => rfl
  | [], _ :: _, _, _, h => nomatch h
  | _ :: _, [], _, _, h => nomatch h
  | c :: l, d :: r, hl, hr, h => by
    rw [text_cons, text_cons] at h
    injection h with _ h
    obtain ⟨h1, h2⟩ := split_eq (hl c List.mem_cons_self) (hr d List.mem_cons_self) (text_head l) (text_head r) h
    rw [h1, text_inj (fun c m => hl c (List.mem_cons_of_mem _ m)) (fun c m => hr c (List.mem_cons_of_mem _ m)) h2]

/-! ### Components -/

theorem slash_pre {w : PyStr} (h : '/' ∉ w) (n : Nat) : '/' ∉ w ++ PyStr.ofNat n := fun m =>
  (List.mem_append.1 m).elim h (CPUIdle.slash_not_mem n)

/-- `cpu<N>` is none of the names of directories and files next to it. -/
theorem cpuN_ne (n : Nat) (c : Char) (w : PyStr) (hc : ¬ (48 ≤ c.toNat ∧ c.toNat ≤ 57)) :
    "cpu".toList ++ PyStr.ofNat n ≠ "cpu".toList ++ c :: w := by
  intro h
  have h := List.append_cancel_left h
  exact PyStr.ofNat_not_mem n (c := c) (by omega) (h ▸ List.mem_cons_self)

/-- The kind of the setting, from the components. -/
def cls (l : List PyStr) : Nat :=
  if l.length = 8 then 0
  else if l.length = 4 then 1
  else if l.length = 2 ∨ l.length = 5 then 2
  else if l.length = 6 then
    (if l[4]? = some "cpufreq".toList ∨ l[4]? = some "cpuidle".toList ∨ l[4]? = some "intel_pstate".toList then 2 else 3)
  else if l[1]? = some "bus".toList then 4
  else if l[4]? = some "cpufreq".toList then 5
  else if l[4]? = some "intel_uncore_frequency".toList then 6
  else 3

def kind : Setting → Nat
  | .idle .. => 0
  | .msr .. => 1
  | .sys .. => 2
  | .cpu .. => 3
  | .l1 .. => 4
  | .policy .. => 5
  | .uncore .. => 6

theorem cpuN_names (n : Nat) : "cpu".toList ++ PyStr.ofNat n ≠ "cpufreq".toList ∧
    "cpu".toList ++ PyStr.ofNat n ≠ "cpuidle".toList ∧ "cpu".toList ++ PyStr.ofNat n ≠ "intel_pstate".toList ∧
    "cpu".toList ++ PyStr.ofNat n ≠ "intel_uncore_frequency".toList := by
  have hh : ∀ t : PyStr, ("cpu".toList ++ t).head? = some 'c' := fun t => rfl
  refine ⟨cpuN_ne n 'f' "req".toList (by decide), cpuN_ne n 'i' "dle".toList (by decide), fun h => ?_, fun h => ?_⟩
  · have := congrArg List.head? h
    rw [hh] at this
    exact absurd this (by decide)
  · have := congrArg List.head? h
    rw [hh] at this
    exact absurd this (by decide)

theorem cls_cpu6 (x a : PyStr) (h1 : x ≠ "cpufreq".toList) (h2 : x ≠ "cpuidle".toList) (h3 : x ≠ "intel_pstate".toList) :
    cls ["sys".toList, "devices".toList, "system".toList, "cpu".toList, x, a] = 3 := by
  show (if some x = some "cpufreq".toList ∨ some x = some "cpuidle".toList ∨ some x = some "intel_pstate".toList then 2 else 3) = 3
  rw [if_neg]
  rintro (h | h | h)
  · exact h1 (Option.some.inj h)
  · exact h2 (Option.some.inj h)
  · exact h3 (Option.some.inj h)

theorem cls_cpu7 (x a b : PyStr) (h1 : x ≠ "cpufreq".toList) (h2 : x ≠ "intel_uncore_frequency".toList) :
    cls ["sys".toList, "devices".toList, "system".toList, "cpu".toList, x, a, b] = 3 := by
  show (if some "devices".toList = some "bus".toList then 4 else if some x = some "cpufreq".toList then 5
    else if some x = some "intel_uncore_frequency".toList then 6 else 3) = 3
  rw [if_neg (by decide), if_neg fun h => h1 (Option.some.inj h), if_neg fun h => h2 (Option.some.inj h)]

theorem cls_comps (s : Setting) : cls s.comps = kind s := by
  cases s with
  | idle n i => rfl
  | msr n => rfl
  | sys f => cases f <;> decide
  | l1 addr => rfl
  | policy f n => rfl
  | uncore dir key limit => rfl
  | cpu f n =>
    obtain ⟨h1, h2, h3, h4⟩ := cpuN_names n
    cases f with
    | online => exact cls_cpu6 _ _ h1 h2 h3
    | biosLimit => exact cls_cpu7 _ _ _ h1 h4
    | epb => exact cls_cpu7 _ _ _ h1 h4
    | latency => exact cls_cpu7 _ _ _ h1 h4
    | cppc fname => exact cls_cpu7 _ _ _ h1 h4

theorem fmt02_slash (n : Nat) : '/' ∉ UncoreFreq.fmt02 n := fun h =>
  absurd ((UncoreFreq.fmt02_digits n).1 _ h) (by decide)

theorem legacyDir_slash (p d : Nat) : '/' ∉ UncoreFreq.legacyDir p d := by
  unfold UncoreFreq.legacyDir
  intro h
  rcases List.mem_append.1 h with h | h
  · rcases List.mem_append.1 h with h | h
    · rcases List.mem_append.1 h with h | h
      · exact absurd h (by decide)
      · exact fmt02_slash p h
    · exact absurd h (by decide)
  · exact fmt02_slash d h

theorem dir_slash {d : UncoreDir} {k : UncoreFreq.Key} {b : Bool} (h : (Setting.uncore d k b).Valid) : '/' ∉ d.name := by
  cases d with
  | legacy p d => exact legacyDir_slash p d
  | new name =>
    obtain ⟨t, rfl, -, ht⟩ := (UncoreFreq.isUncoreDir_iff name).1 h
    intro hm
    rcases List.mem_append.1 hm with hm | hm
    · exact absurd hm (by decide)
    · exact absurd (ht _ hm) (by decide)

theorem name_slash (f : PolicyFile) : '/' ∉ f.name := by cases f <;> decide

theorem comps_slash {s : Setting} (h : s.Valid) : ∀ c ∈ s.comps, '/' ∉ c := by
  have hall : ∀ l : List PyStr, (l.all fun c => !(c.contains '/')) = true → ∀ c ∈ l, '/' ∉ c := by
    intro l hl c hc hm
    have := List.all_eq_true.1 hl c hc
    rw [List.contains_iff_mem.2 hm] at this
    cases this
  have hbase := hall ["sys".toList, "devices".toList, "system".toList, "cpu".toList] (by decide)
  have happ : ∀ {a b : List PyStr}, (∀ c ∈ a, '/' ∉ c) → (∀ c ∈ b, '/' ∉ c) → ∀ c ∈ a ++ b, '/' ∉ c :=
    fun ha hb c hc => (List.mem_append.1 hc).elim (ha c) (hb c)
  have hone : ∀ {a : PyStr}, '/' ∉ a → ∀ c ∈ [a], '/' ∉ c := fun ha c hc => List.mem_singleton.1 hc ▸ ha
  cases s with
  | idle n i =>
    exact happ hbase (happ (hone (slash_pre (by decide) n)) (happ (hall ["cpuidle".toList] (by decide))
      (happ (hone (slash_pre (by decide) i)) (hall ["disable".toList] (by decide)))))
  | msr n => exact happ (hall ["dev".toList, "cpu".toList] (by decide)) (happ (hone (CPUIdle.slash_not_mem n))
      (hall ["msr".toList] (by decide)))
  | sys f => exact hall _ (by cases f <;> decide)
  | l1 addr =>
    exact happ (hall ["sys".toList, "bus".toList, "pci".toList, "devices".toList] (by decide))
      (happ (hone h) (hall ["link".toList, "l1_aspm".toList] (by decide)))
  | policy f n => exact happ hbase (happ (hall ["cpufreq".toList] (by decide)) (happ (hone (slash_pre (by decide) n))
      (hone (name_slash f))))
  | uncore dir key limit =>
    refine happ hbase (happ (hall ["intel_uncore_frequency".toList] (by decide)) (happ (hone (dir_slash h)) (hone ?_)))
    cases key <;> cases limit <;> decide
  | cpu f n =>
    refine happ (happ hbase (hone (slash_pre (by decide) n))) ?_
    cases f with
    | online => exact hall _ (by decide)
    | biosLimit => exact hall _ (by decide)
    | epb => exact hall _ (by decide)
    | latency => exact hall _ (by decide)
    | cppc fname => exact happ (hall ["acpi_cppc".toList] (by decide)) (hone h)

theorem pre_inj {w : PyStr} {a b : Nat} (h : w ++ PyStr.ofNat a = w ++ PyStr.ofNat b) : a = b :=
  CPUIdle.ofNat_inj (List.append_cancel_left h)

theorem name_inj {f g : PolicyFile} (h : f.name = g.name) : f = g := by
  cases f <;> cases g <;> first | rfl | exact absurd h (by decide)

theorem tail_inj {f g : CpuFile} (h : f.tail = g.tail) : f = g := by
  cases f <;> cases g <;> first | rfl | exact absurd h (by decide) | skip
  case online.cppc x => exact absurd (congrArg List.length h) (by simp [CpuFile.tail])
  case cppc.online x => exact absurd (congrArg List.length h) (by simp [CpuFile.tail])
  case cppc.cppc x y => injection h with _ h; injection h with h _; rw [h]
  all_goals
    injection h with h _
    exact absurd h (by decide)

theorem sys_inj {f g : SysFile} (h : f.comps = g.comps) : f = g := by
  cases f <;> cases g <;> first | rfl | exact absurd h (by decide)

theorem dir_inj {d e : UncoreDir} {k k' : UncoreFreq.Key} {b b' : Bool} (hd : (Setting.uncore d k b).Valid)
    (he : (Setting.uncore e k' b').Valid) (h : d.name = e.name) : d = e := by
  cases d with
  | legacy p x =>
    cases e with
    | legacy p' x' =>
      obtain ⟨h1, h2⟩ := UncoreFreq.legacyDir_inj (by omega) (by omega) (by omega) (by omega) h
      rw [Int.ofNat_inj.1 h1, Int.ofNat_inj.1 h2]
    | new name =>
      have he : UncoreFreq.isUncoreDir name = true := he
      have h : UncoreFreq.legacyDir p x = name := h
      rw [← h, UncoreFreq.legacyDir_not_uncore] at he
      cases he
  | new name =>
    cases e with
    | legacy p' x' =>
      have hd : UncoreFreq.isUncoreDir name = true := hd
      have h : name = UncoreFreq.legacyDir p' x' := h
      rw [h, UncoreFreq.legacyDir_not_uncore] at hd
      cases hd
    | new name' => exact congrArg UncoreDir.new h

theorem fname_inj {k k' : UncoreFreq.Key} {b b' : Bool}
    (h : (if b then "initial_".toList else []) ++ k.str ++ "_freq_khz".toList =
      (if b' then "initial_".toList else []) ++ k'.str ++ "_freq_khz".toList) : k = k' ∧ b = b' := by
  revert h
  cases k <;> cases k' <;> cases b <;> cases b' <;> decide

theorem comps_inj {s t : Setting} (hs : s.Valid) (ht : t.Valid) (h : s.comps = t.comps) : s = t := by
  have hk : kind s = kind t := by rw [← cls_comps, ← cls_comps, h]
  cases s with
  | idle n i =>
    cases t <;> first | (simp [kind] at hk; done) | skip
    injection h with _ h; injection h with _ h; injection h with _ h; injection h with _ h; injection h with h1 h
    injection h with _ h; injection h with h2 h
    rw [pre_inj h1, pre_inj h2]
  | msr n =>
    cases t <;> first | (simp [kind] at hk; done) | skip
    injection h with _ h; injection h with _ h; injection h with h1 h
    rw [CPUIdle.ofNat_inj h1]
  | sys f =>
    cases t <;> first | (simp [kind] at hk; done) | skip
    rw [sys_inj h]
  | l1 addr =>
    cases t <;> first | (simp [kind] at hk; done) | skip
    injection h with _ h; injection h with _ h; injection h with _ h; injection h with _ h; injection h with h1 h
    rw [h1]
  | policy f n =>
    cases t <;> first | (simp [kind] at hk; done) | skip
    injection h with _ h; injection h with _ h; injection h with _ h; injection h with _ h; injection h with _ h
    injection h with h1 h; injection h with h2 h
    rw [pre_inj h1, name_inj h2]
  | uncore dir key limit =>
    cases t <;> first | (simp [kind] at hk; done) | skip
    injection h with _ h; injection h with _ h; injection h with _ h; injection h with _ h; injection h with _ h
    injection h with h1 h; injection h with h2 h
    obtain ⟨h3, h4⟩ := fname_inj h2
    rw [dir_inj hs ht h1, h3, h4]
  | cpu f n =>
    cases t <;> first | (simp [kind] at hk; done) | skip
    injection h with _ h; injection h with _ h; injection h with _ h; injection h with _ h; injection h with h1 h
    rw [pre_inj h1, tail_inj h]

theorem file_inj {s t : Setting} (hs : s.Valid) (ht : t.Valid) (h : s.file = t.file) : s = t :=
  comps_inj hs ht (text_inj (comps_slash hs) (comps_slash ht) h)

/-! ### The paths of the code -/

theorem base_eq : sysfsBase = text ["sys".toList, "devices".toList, "system".toList, "cpu".toList] := by decide

theorem policyPath_eq (n : Nat) (c : PyStr) : policyPath n c = text ["sys".toList, "devices".toList, "system".toList,
    "cpu".toList, "cpufreq".toList, "policy".toList ++ PyStr.ofNat n, c] := by
  unfold policyPath
  rw [div_eq, div_eq, div_eq, base_eq, ← text_append, ← text_append, ← text_append]
  rfl

theorem cpuPath_eq (n : Nat) (l : List PyStr) : sysfsBase ++ text (("cpu".toList ++ PyStr.ofNat n) :: l) =
    text (["sys".toList, "devices".toList, "system".toList, "cpu".toList, "cpu".toList ++ PyStr.ofNat n] ++ l) := by
  rw [base_eq, ← text_append]
  rfl

theorem method_path (m : Method) (cpu : Nat) : freqPath m.args.1 cpu m.args.2 = (Setting.policy (setting m) cpu).file := by
  unfold freqPath
  rw [policyPath_eq]
  cases m <;> rfl

theorem max_path (max : Bool) (cpu : Nat) : freqPath (if max then "max".toList else "min".toList) cpu false =
    (Setting.policy (if max then .maxFreq else .minFreq) cpu).file := by
  unfold freqPath
  rw [policyPath_eq]
  cases max <;> rfl

/-! ### The object -/

/-- What the cache holds. -/
def look (o : Obj) (key : PyStr) (cpu : Nat) (limit : Bool) : Option PyStr :=
  ((((o.paths.get? key).getD []).get? cpu).getD []).get? limit

/-- The cache is right. -/
def Coh (o : Obj) : Prop := ∀ key cpu limit path, look o key cpu limit = some path → path = freqPath key cpu limit

theorem look_init (key : PyStr) (cpu : Nat) (limit : Bool) : look {} key cpu limit = none := rfl

theorem coh_init : Coh {} := fun key cpu limit path h => by rw [look_init] at h; cases h

theorem cachedPath_spec {o : Obj} (h : Coh o) (key : PyStr) (cpu : Nat) (limit : Bool) :
    (cachedPath o key cpu limit).2 = freqPath key cpu limit ∧ Coh (cachedPath o key cpu limit).1 ∧
      (cachedPath o key cpu limit).1.check = o.check := by
  unfold cachedPath
  dsimp only
  cases hl : ((((o.paths.get? key).getD []).get? cpu).getD []).get? limit with
  | some path => exact ⟨h key cpu limit path hl, h, rfl⟩
  | none =>
    refine ⟨rfl, ?_, rfl⟩
    intro k c l path hp
    unfold look at hp
    dsimp only at hp
    by_cases hk : key = k
    · subst hk
      rw [Dict.get?_set_self, Option.getD_some] at hp
      by_cases hc : cpu = c
      · subst hc
        rw [Dict.get?_set_self, Option.getD_some] at hp
        by_cases hl : limit = l
        · subst hl
          rw [Dict.get?_set_self] at hp
          exact (Option.some.inj hp).symm
        · rw [Dict.get?_set_ne _ _ hl] at hp
          exact h key cpu l path hp
      · rw [Dict.get?_set_ne _ _ hc] at hp
        exact h key c l path hp
    · rw [Dict.get?_set_ne _ _ hk] at hp
      exact h k c l path hp

theorem getLoop_spec (T : Files PyStr) (m : Method) : ∀ (cpus : List Nat) (o : Obj), Coh o →
    (getLoop T m.args.1 m.args.2 cpus o).2 = values T (setting m) cpus ∧ Coh (getLoop T m.args.1 m.args.2 cpus o).1 ∧
      (getLoop T m.args.1 m.args.2 cpus o).1.check = o.check
  | [], o, h => ⟨rfl, h, rfl⟩
  | cpu :: cpus, o, h => by
    obtain ⟨h1, h2, h3⟩ := cachedPath_spec h m.args.1 cpu m.args.2
    rw [method_path] at h1
    unfold getLoop values
    generalize cachedPath o m.args.1 cpu m.args.2 = r at h1 h2 h3
    obtain ⟨o1, path⟩ := r
    dsimp only at h1 h2 h3 ⊢
    subst h1
    unfold SysFiles.readInt SysFiles.read
    cases hT : T (Setting.policy (setting m) cpu).file with
    | none => exact ⟨rfl, h2, h3⟩
    | some v =>
      dsimp only
      cases hv : Trivial.strToInt v with
      | error e => exact ⟨rfl, h2, h3⟩
      | ok khz =>
        obtain ⟨h4, h5, h6⟩ := getLoop_spec T m cpus o1 h2
        dsimp only
        generalize getLoop T m.args.1 m.args.2 cpus o1 = q at h4 h5 h6
        obtain ⟨o2, vs, r⟩ := q
        dsimp only at h4 h5 h6 ⊢
        rw [← h4]
        exact ⟨rfl, h5, h6.trans h3⟩

/-- What setting does. -/
def SetResult (E : SysFiles.Env PyStr) (f : Nat → PyStr) (v : PyStr) (cpus : List Nat) (T T' : Files PyStr)
    (r : Except Exn Unit) : Prop :=
  ∃ done rest, cpus = done ++ rest ∧ T' = (fun p => if p ∈ done.map f then some v else T p) ∧
    ((rest = [] ∧ r = .ok ()) ∨ ∃ cpu rest' e, rest = cpu :: rest' ∧ r = .error e ∧
      ((T (f cpu) = none ∧ e = .notSupported) ∨ (T (f cpu) ≠ none ∧ E.wfail (f cpu) v = some e)))

theorem setLoop_spec (E : SysFiles.Env PyStr) (freq : Int) (key : PyStr) : ∀ (cpus : List Nat) (o : Obj) (T : Files PyStr), Coh o →
    SetResult E (freqPath key · false) (PyStr.ofInt (freq.fdiv 1000)) cpus T (setLoop E freq key cpus o T).2.1
      (setLoop E freq key cpus o T).2.2 ∧ Coh (setLoop E freq key cpus o T).1 ∧ (setLoop E freq key cpus o T).1.check = o.check
  | [], o, T, h => ⟨⟨[], [], rfl, by simp [setLoop], .inl ⟨rfl, rfl⟩⟩, h, rfl⟩
  | cpu :: cpus, o, T, h => by
    obtain ⟨h1, h2, h3⟩ := cachedPath_spec h key cpu false
    unfold setLoop
    generalize cachedPath o key cpu false = r at h1 h2 h3
    obtain ⟨o1, path⟩ := r
    dsimp only at h1 h2 h3 ⊢
    subst h1
    generalize hv : PyStr.ofInt (freq.fdiv 1000) = v
    unfold SysFiles.write
    cases hT : T (freqPath key cpu false) with
    | none =>
      exact ⟨⟨[], cpu :: cpus, rfl, by simp, .inr ⟨cpu, cpus, .notSupported, rfl, rfl, .inl ⟨hT, rfl⟩⟩⟩, h2, h3⟩
    | some u =>
      dsimp only
      cases hw : E.wfail (freqPath key cpu false) v with
      | some e =>
        exact ⟨⟨[], cpu :: cpus, rfl, by simp, .inr ⟨cpu, cpus, e, rfl, rfl, .inr ⟨by rw [hT]; exact nofun, hw⟩⟩⟩, h2, h3⟩
      | none =>
        dsimp only
        obtain ⟨h4, h5, h6⟩ := setLoop_spec E freq key cpus o1
          (fun q => if q = freqPath key cpu false then some v else T q) h2
        refine ⟨?_, h5, h6.trans h3⟩
        rw [hv] at h4
        obtain ⟨done, rest, h7, h8, h9⟩ := h4
        refine ⟨cpu :: done, rest, by rw [h7]; rfl, ?_, ?_⟩
        · rw [h8]
          funext p
          simp only [List.map_cons, List.mem_cons]
          by_cases hp : p = freqPath key cpu false
          · simp [hp]
          · simp [hp]
        · rcases h9 with h9 | ⟨c, rest', e, h9, h10, h11⟩
          · exact .inl h9
          · refine .inr ⟨c, rest', e, h9, h10, ?_⟩
            dsimp only at h11 ⊢
            by_cases hc : freqPath key c false = freqPath key cpu false
            · rw [hc] at h11 ⊢
              rcases h11 with ⟨h11, -⟩ | ⟨-, h11⟩
              · simp at h11
              · exact absurd (hw ▸ h11) nofun
            · simpa only [if_neg hc] using h11

theorem ecoresKver_spec (H : Host) (o : Obj) (kver : PyStr) : (ecoresKver H o kver).1.paths = o.paths ∧
    ((ecoresKver H o kver).2.1 = [] ∨ ((ecoresKver H o kver).1.check = false ∧ (ecoresKver H o kver).2.1.length = 1)) := by
  unfold ecoresKver
  split
  · exact ⟨rfl, .inl rfl⟩
  · exact ⟨rfl, .inl rfl⟩
  · split
    · exact ⟨rfl, .inl rfl⟩
    · exact ⟨rfl, .inl rfl⟩
    · exact ⟨rfl, .inr ⟨rfl, rfl⟩⟩

theorem ecoresBug_paths (H : Host) (o : Obj) : (ecoresBug H o).1.paths = o.paths := by
  unfold ecoresBug
  split
  · rfl
  · split
    · rfl
    · split
      · rfl
      · split
        · rfl
        · split
          · exact (ecoresKver_spec H o o.kver).1
          · split
            · rfl
            · exact (ecoresKver_spec H _ _).1

theorem ecoresBug_off (H : Host) {o : Obj} (h : o.check = false) : ecoresBug H o = (o, [], .ok ()) := by
  unfold ecoresBug
  rw [if_pos (by rw [h]; decide)]

theorem ecoresBug_warn (H : Host) (o : Obj) : (ecoresBug H o).2.1 = [] ∨
    ((ecoresBug H o).1.check = false ∧ (ecoresBug H o).2.1.length = 1) := by
  unfold ecoresBug
  split
  · exact .inl rfl
  · split
    · exact .inl rfl
    · split
      · exact .inl rfl
      · split
        · exact .inl rfl
        · split
          · exact (ecoresKver_spec H o o.kver).2
          · split
            · exact .inr ⟨rfl, rfl⟩
            · exact (ecoresKver_spec H _ _).2

theorem ecoresBug_populated {H : Host} (h : Populated H) (o : Obj) : ecoresBug H o = (o, [], .ok ()) := by
  unfold ecoresBug
  split
  · rfl
  · split
    · rfl
    · next hh =>
      have hh : H.hybrid = true := by simpa using hh
      obtain ⟨⟨es, h1⟩, ⟨ps, h2⟩, h3⟩ := h hh
      have : hybridCpus H = .ok (es, ps) := by
        unfold hybridCpus
        rw [hh, h1, h2]
        rfl
      rw [this]
      dsimp only
      rw [if_pos]
      rw [h1, h2] at h3
      rcases h3 with h3 | h3
      · exact .inl fun h => h3 (h ▸ rfl)
      · exact .inr fun h => h3 (h ▸ rfl)

theorem coh_ecores (H : Host) {o : Obj} (h : Coh o) : Coh (ecoresBug H o).1 := by
  intro key cpu limit path hp
  unfold look at hp
  rw [ecoresBug_paths] at hp
  exact h key cpu limit path hp

theorem getMethod_eq (H : Host) (T : Files PyStr) (m : Method) (cpus : List Nat) {o : Obj} (h : Coh o) :
    (getMethod H T m cpus o).2.2 = (match (ecoresBug H o).2.2 with
      | .error e => ([], .error e)
      | .ok () => values T (setting m) cpus) ∧
    (getMethod H T m cpus o).2.1 = (ecoresBug H o).2.1 ∧ Coh (getMethod H T m cpus o).1 ∧
    (getMethod H T m cpus o).1.check = (ecoresBug H o).1.check := by
  unfold getMethod getFreq
  have hc := coh_ecores H h
  generalize ecoresBug H o = q at hc
  obtain ⟨o1, ws, r⟩ := q
  cases r with
  | error e => exact ⟨rfl, rfl, hc, rfl⟩
  | ok u =>
    obtain ⟨h1, h2, h3⟩ := getLoop_spec T m cpus o1 hc
    exact ⟨h1, rfl, h2, h3⟩

theorem setMethod_eq (H : Host) (E : SysFiles.Env PyStr) (max : Bool) (freq : Int) (cpus : List Nat) {o : Obj} (h : Coh o)
    (T : Files PyStr) :
    (match (ecoresBug H o).2.2 with
      | .error e => (setMethod H E max freq cpus o T).2.2 = (T, .error e)
      | .ok () => SetResult E (fun cpu => (Setting.policy (if max then .maxFreq else .minFreq) cpu).file)
          (PyStr.ofInt (freq.fdiv 1000)) cpus T (setMethod H E max freq cpus o T).2.2.1 (setMethod H E max freq cpus o T).2.2.2) ∧
    (setMethod H E max freq cpus o T).2.1 = (ecoresBug H o).2.1 ∧ Coh (setMethod H E max freq cpus o T).1 ∧
    (setMethod H E max freq cpus o T).1.check = (ecoresBug H o).1.check := by
  unfold setMethod setFreq
  have hc := coh_ecores H h
  generalize ecoresBug H o = q at hc
  obtain ⟨o1, ws, r⟩ := q
  cases r with
  | error e => exact ⟨rfl, rfl, hc, rfl⟩
  | ok u =>
    obtain ⟨h1, h2, h3⟩ := setLoop_spec E freq (if max then "max".toList else "min".toList) cpus o1 T hc
    have hf : (freqPath (if max then "max".toList else "min".toList) · false) =
        fun cpu => (Setting.policy (if max then .maxFreq else .minFreq) cpu).file := funext (max_path max)
    rw [hf] at h1
    exact ⟨h1, rfl, h2, h3⟩

theorem coh_run (E : SysFiles.Env PyStr) : ∀ (ops : List Op) (o : Obj) (T : Files PyStr), Coh o → Coh (run E ops o T).1
  | [], _, _, h => h
  | .get H m cpus :: ops, _, T, h => coh_run E ops _ _ (getMethod_eq H T m cpus h).2.2.1
  | .set H max freq cpus :: ops, _, T, h => coh_run E ops _ _ (setMethod_eq H E max freq cpus h T).2.2.1
  | .other T :: ops, o, _, h => coh_run E ops o T h

theorem run_off (E : SysFiles.Env PyStr) : ∀ (ops : List Op) (o : Obj) (T : Files PyStr), Coh o → o.check = false →
    (run E ops o T).2.2 = []
  | [], _, _, _, _ => rfl
  | .get H m cpus :: ops, o, T, h, hc => by
    obtain ⟨-, h1, h2, h3⟩ := getMethod_eq H T m cpus h
    rw [ecoresBug_off H hc] at h1 h3
    have := run_off E ops _ T h2 (h3.trans hc)
    show (getMethod H T m cpus o).2.1 ++ (run E ops (getMethod H T m cpus o).1 T).2.2 = []
    rw [h1, this]
    rfl
  | .set H max freq cpus :: ops, o, T, h, hc => by
    obtain ⟨-, h1, h2, h3⟩ := setMethod_eq H E max freq cpus h T
    rw [ecoresBug_off H hc] at h1 h3
    have := run_off E ops _ (setMethod H E max freq cpus o T).2.2.1 h2 (h3.trans hc)
    show (setMethod H E max freq cpus o T).2.1 ++
      (run E ops (setMethod H E max freq cpus o T).1 (setMethod H E max freq cpus o T).2.2.1).2.2 = []
    rw [h1, this]
    rfl
  | .other T :: ops, o, _, h, hc => run_off E ops o T h hc

theorem run_once (E : SysFiles.Env PyStr) : ∀ (ops : List Op) (o : Obj) (T : Files PyStr), Coh o → (run E ops o T).2.2.length ≤ 1
  | [], _, _, _ => Nat.zero_le _
  | .get H m cpus :: ops, o, T, h => by
    obtain ⟨-, h1, h2, h3⟩ := getMethod_eq H T m cpus h
    show ((getMethod H T m cpus o).2.1 ++ (run E ops (getMethod H T m cpus o).1 T).2.2).length ≤ 1
    rw [h1]
    rcases ecoresBug_warn H o with hw | ⟨hw, hl⟩
    · rw [hw]
      exact run_once E ops _ T h2
    · rw [run_off E ops _ T h2 (h3.trans hw), List.append_nil, hl]
  | .set H max freq cpus :: ops, o, T, h => by
    obtain ⟨-, h1, h2, h3⟩ := setMethod_eq H E max freq cpus h T
    show ((setMethod H E max freq cpus o T).2.1 ++
      (run E ops (setMethod H E max freq cpus o T).1 (setMethod H E max freq cpus o T).2.2.1).2.2).length ≤ 1
    rw [h1]
    rcases ecoresBug_warn H o with hw | ⟨hw, hl⟩
    · rw [hw]
      exact run_once E ops _ _ h2
    · rw [run_off E ops _ _ h2 (h3.trans hw), List.append_nil, hl]
  | .other T :: ops, o, _, h => run_once E ops o T h

theorem run_populated (E : SysFiles.Env PyStr) : ∀ (ops : List Op) (o : Obj) (T : Files PyStr), Coh o →
    (∀ op ∈ ops, OpPopulated op) → (run E ops o T).2.2 = []
  | [], _, _, _, _ => rfl
  | .get H m cpus :: ops, o, T, h, hp => by
    obtain ⟨-, h1, h2, -⟩ := getMethod_eq H T m cpus h
    rw [ecoresBug_populated (hp _ List.mem_cons_self)] at h1
    show (getMethod H T m cpus o).2.1 ++ (run E ops (getMethod H T m cpus o).1 T).2.2 = []
    rw [h1, run_populated E ops _ T h2 fun op ho => hp op (List.mem_cons_of_mem _ ho)]
    rfl
  | .set H max freq cpus :: ops, o, T, h, hp => by
    obtain ⟨-, h1, h2, -⟩ := setMethod_eq H E max freq cpus h T
    rw [ecoresBug_populated (hp _ List.mem_cons_self)] at h1
    show (setMethod H E max freq cpus o T).2.1 ++
      (run E ops (setMethod H E max freq cpus o T).1 (setMethod H E max freq cpus o T).2.2.1).2.2 = []
    rw [h1, run_populated E ops _ _ h2 fun op ho => hp op (List.mem_cons_of_mem _ ho)]
    rfl
  | .other T :: ops, o, _, h, hp => run_populated E ops o T h fun op ho => hp op (List.mem_cons_of_mem _ ho)

end Verif.CPUFreqFiles
