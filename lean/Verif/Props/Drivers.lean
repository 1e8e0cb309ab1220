import Verif.Lemmas.Drivers

/-!
C105: drivers and file systems which are needed only for a while are left as they were found.
-/

namespace Verif.Drivers

/-! ### An example system -/

def exMod (name : PyStr) (since : Nat) : Mod := ⟨name, "45056".toList, "0".toList, "-".toList, since⟩

/-- Commands of the example system: the MSR driver can be loaded and unloaded, debugfs can be mounted. -/
def exRun (cmd : PyStr) (h : Host) : Outcome :=
  if cmd ∈ modprobeCmd "msr".toList then ⟨true, [], { h with modules := exMod "msr".toList h.now :: h.modules }⟩
  else if cmd = "rmmod msr".toList then ⟨true, [], { h with modules := h.modules.filter fun m => m.name ≠ "msr".toList }⟩
  else if cmd = "dmesg".toList then ⟨true, ["[    0.000000] Linux".toList], h⟩
  else if cmd = "mount -t debugfs none '/sys/kernel/debug'".toList then
    ⟨true, [], { h with mounts := ⟨"none".toList, "/sys/kernel/debug".toList, "debugfs".toList, "rw".toList, "0 0".toList⟩ :: h.mounts }⟩
  else if cmd = "umount /sys/kernel/debug".toList then
    ⟨true, [], { h with mounts := h.mounts.filter fun m => m.mntpoint ≠ "/sys/kernel/debug".toList }⟩
  else ⟨false, [], h⟩

/-- The device file of CPU 0 appears `delay` nanoseconds after the driver was loaded. -/
def exEnv (delay : Nat) : Env where
  present path h := path = "/dev/cpu/0/msr".toList && h.modules.any fun m => m.name = "msr".toList && m.since + delay ≤ h.now
  run := exRun
  readModules h := .ok (h.modules.map Mod.line)
  readMounts h := .ok (h.mounts.map Mnt.line)
  cost _ := 0
  debug := false

def exHost : Host :=
  ⟨[exMod "ext4".toList 0], [⟨"proc".toList, "/proc".toList, "proc".toList, "rw".toList, "0 0".toList⟩], [], 5⟩

theorem exHost_proper : exHost.Proper := by
  intro m hm
  cases List.mem_singleton.mp hm
  exact ⟨⟨by decide, by decide⟩, ⟨by decide, by decide⟩, ⟨by decide, by decide⟩, 0, by decide +kernel⟩

theorem exMod_msr (t : Nat) : (exMod "msr".toList t).Proper :=
  ⟨⟨by show "msr".toList ≠ []; decide, by show ∀ c ∈ "msr".toList, _; decide⟩,
   ⟨by show "45056".toList ≠ []; decide, by show ∀ c ∈ "45056".toList, _; decide⟩,
   ⟨by show "-".toList ≠ []; decide, by show ∀ c ∈ "-".toList, _; decide⟩, 0, by show "0".toList = _; decide +kernel⟩

theorem modprobe_inj {name : PyStr} {cmd : PyStr} (h1 : cmd ∈ modprobeCmd name) (h2 : cmd ∈ modprobeCmd "msr".toList)
    (hw : IsWord name) : name = "msr".toList := by
  have hsp : ' ' ∉ name := fun h => by have := hw.2 _ h; revert this; decide
  have e1 : ∀ s t : PyStr, ' ' ∉ s → ∀ u v, "modprobe ".toList ++ s ++ ' ' :: u = "modprobe ".toList ++ t ++ ' ' :: v → ' ' ∉ t → s = t := by
    intro s t hs u v h ht
    rw [List.append_assoc, List.append_assoc] at h
    have h := List.append_cancel_left h
    have := congrArg (PyStr.splitC ' ') h
    rw [PyStr.splitC_append hs, PyStr.splitC_append ht] at this
    injection this
  have e2 : " ".toList = ' ' :: [] := by decide
  have e3 : "  dyndbg=+pf".toList = ' ' :: " dyndbg=+pf".toList := by decide
  unfold modprobeCmd at h1 h2
  rw [e2, e3] at h1 h2
  rcases List.mem_cons.mp h1 with h1 | h1
  · rcases List.mem_cons.mp h2 with h2 | h2
    · exact e1 _ _ hsp _ _ (h1.symm.trans h2) (by decide)
    · exact e1 _ _ hsp _ _ (h1.symm.trans (List.mem_singleton.mp h2)) (by decide)
  · have h1 := List.mem_singleton.mp h1
    rcases List.mem_cons.mp h2 with h2 | h2
    · exact e1 _ _ hsp _ _ (h1.symm.trans h2) (by decide)
    · exact e1 _ _ hsp _ _ (h1.symm.trans (List.mem_singleton.mp h2)) (by decide)

theorem modprobe_first {name cmd : PyStr} (h : cmd ∈ modprobeCmd name) : cmd.take 3 = "mod".toList := by
  unfold modprobeCmd at h
  rcases List.mem_cons.mp h with rfl | h
  · rw [List.append_assoc]; rfl
  · cases List.mem_singleton.mp h; rw [List.append_assoc]; rfl

theorem exKernel (delay : Nat) : Kernel (exEnv delay) where
  proper cmd h hp := by
    show (exRun cmd h).host.Proper
    unfold exRun
    split
    · intro m hm
      cases hm with
      | head => exact exMod_msr _
      | tail _ hm => exact hp m hm
    · split
      · exact fun m hm => hp m (List.mem_filter.mp hm).1
      · split
        · exact hp
        · split
          · exact hp
          · split <;> exact hp
  failed cmd h hf := by
    change (exRun cmd h).ok = false at hf
    show (exRun cmd h).host.modules = _ ∧ (exRun cmd h).host.mounts = _
    unfold exRun at hf ⊢
    split at hf
    · cases hf
    · split at hf
      · cases hf
      · split at hf
        · cases hf
        · split at hf
          · cases hf
          · split at hf
            · cases hf
            · rename_i h1 h2 h3 h4 h5
              rw [if_neg h1, if_neg h2, if_neg h3, if_neg h4, if_neg h5]
              exact ⟨rfl, rfl⟩
  dmesg h := by
    show (exRun _ h).host.modules = _ ∧ (exRun _ h).host.mounts = _
    unfold exRun
    rw [if_neg (by decide), if_neg (by decide), if_pos rfl]
    exact ⟨rfl, rfl⟩
  modprobe name h cmd hw hc hn hk := by
    have hf := modprobe_first hc
    change (exRun cmd h).ok = true at hk
    show ∃ new, (exRun cmd h).host.modules = _ ∧ _ ∧ (exRun cmd h).host.mounts = _
    unfold exRun at hk ⊢
    by_cases h1 : cmd ∈ modprobeCmd "msr".toList
    · cases modprobe_inj hc h1 hw
      rw [if_pos h1]
      exact ⟨[exMod "msr".toList h.now], rfl, .inr ⟨_, List.mem_singleton.mpr rfl, rfl⟩, rfl⟩
    · rw [if_neg h1, if_neg (by rintro rfl; revert hf; decide), if_neg (by rintro rfl; revert hf; decide),
        if_neg (by rintro rfl; revert hf; decide), if_neg (by rintro rfl; revert hf; decide)] at hk
      cases hk
  rmmod name h hw hk := by
    have hf : ("rmmod ".toList ++ name).take 3 = "rmm".toList := rfl
    generalize hc : "rmmod ".toList ++ name = cmd at hk hf
    change (exRun cmd h).ok = true at hk
    show (exRun cmd h).host.modules = _ ∧ (exRun cmd h).host.mounts = _
    unfold exRun at hk ⊢
    have h1 : cmd ∉ modprobeCmd "msr".toList := fun h => by
      have := modprobe_first h
      rw [hf] at this
      revert this
      decide
    rw [if_neg h1] at hk ⊢
    by_cases h2 : cmd = "rmmod msr".toList
    · have e : "rmmod msr".toList = "rmmod ".toList ++ "msr".toList := by decide
      rw [← hc, e] at h2
      have := List.append_cancel_left h2
      subst this
      rw [if_pos (by rw [← hc]; decide)]
      exact ⟨rfl, rfl⟩
    · rw [if_neg h2, if_neg (by rintro rfl; revert hf; decide), if_neg (by rintro rfl; revert hf; decide),
        if_neg (by rintro rfl; revert hf; decide)] at hk
      cases hk
  modules h lines hl := by cases hl; rfl

theorem exAlone (delay : Nat) : Alone (exEnv delay) "msr".toList := by
  intro h cmd hc _
  show (exRun cmd h).host.modules.length ≤ _
  unfold exRun
  rw [if_pos hc]
  exact Nat.le_refl _

theorem exStays (delay : Nat) (cpu : Nat) : Stays (exEnv delay) (msrDev cpu) := by
  intro h h' hp hm hn
  simp only [exEnv, Bool.and_eq_true, List.any_eq_true, decide_eq_true_eq] at hp ⊢
  obtain ⟨h1, m, h2, h3, h4⟩ := hp
  exact ⟨h1, m, by rw [hm]; exact h2, h3, by omega⟩

/-! ### /proc/modules -/

/-- C105: a driver counts as loaded exactly if it is listed in /proc/modules; only a failure to read the file is an error. -/
theorem C105_is_loaded (env : Env) (K : Kernel env) (h : Host) (hp : h.Proper) (name : PyStr) :
    (∀ lines, env.readModules h = .ok lines → ∃ b, isLoaded env name h = .ok b ∧ (b = true ↔ ∃ m ∈ h.modules, m.name = name)) ∧
    (∀ e, env.readModules h = .error e → isLoaded env name h = .error e) := by
  constructor
  · intro lines hr
    have := K.modules h lines hr
    subst this
    obtain ⟨c, hc, hi⟩ := usageCount_lines name h.modules hp
    exact ⟨c.isSome, by unfold isLoaded; rw [hr]; dsimp only; rw [hc], hi⟩
  · intro e hr
    unfold isLoaded; rw [hr]

example : isLoaded (exEnv 0) "ext4".toList exHost = .ok true ∧ isLoaded (exEnv 0) "msr".toList exHost = .ok false := by
  decide +kernel

/-- C105: a kernel which cannot unload modules shows "-" in place of the usage count, and the check crashes. -/
theorem C105_usage_counterexample :
    usageCount "msr".toList ["msr 45056 - - Live 0x0000000000000000".toList] = .error .pyValueError := by
  decide +kernel

/-! ### Waiting for a file -/

/-- C105: waiting ends with success only if the file is there before the timeout, and the only effect is that time passes; the
only error is Error. -/
theorem C105_wait (env : Env) (path : PyStr) (interval timeout : Nat) (h : Host) :
    (∃ t, h.now ≤ t ∧ (waitForFile env path interval timeout h).1 = { h with now := t }) ∧
    ((waitForFile env path interval timeout h).2 = .ok () →
      env.present path (waitForFile env path interval timeout h).1 = true ∧
      (waitForFile env path interval timeout h).1.now < h.now + timeout) ∧
    (∀ e, (waitForFile env path interval timeout h).2 = .error e → e = .error) := by
  unfold waitForFile
  obtain ⟨t, h1, h2⟩ := waitLoop_host env path h.now interval timeout h
  refine ⟨⟨t, h1, h2⟩, ?_, waitLoop_err env path h.now interval timeout h⟩
  intro hk
  obtain ⟨h3, h4⟩ := waitLoop_ok env path h.now interval timeout h hk
  refine ⟨h3, ?_⟩
  rw [h2] at h4 ⊢
  simp only at h4 ⊢
  omega

/-- C105: a file which appears early enough, one interval and one check before the timeout, is found. -/
theorem C105_wait_found_partial (env : Env) (path : PyStr) (interval timeout c : Nat) (h : Host) (t : Nat)
    (ha : AppearsAt env path h t) (hc : ∀ h', env.cost h' ≤ c) (h0 : 0 < timeout) (ht : t + interval + c + 1 ≤ h.now + timeout) :
    (waitForFile env path interval timeout h).2 = .ok () :=
  waitLoop_found env path h.now interval timeout h t c ha hc (Nat.le_refl _) ⟨by omega, ht⟩

/-- The file of the example is there 3 s after the start, it is found with the default timeout of 60 s. -/
example : (waitForFile { exEnv 0 with present := fun _ h => decide (3 * second ≤ h.now) } "/x".toList second (60 * second)
    { exHost with now := 0 }).2 = .ok () :=
  C105_wait_found_partial _ _ _ _ 0 _ (3 * second) (fun _ => rfl) (fun _ => Nat.le_refl _) (by decide) (by decide)

/-- C105: the drivers are given one second, and the file is checked every second: it is checked only once, right after the driver
was loaded. A file which appears a nanosecond later is not found. -/
theorem C105_wait_counterexample (env : Env) (path : PyStr) (h : Host) (t : Nat) (ha : AppearsAt env path h t) (ht : h.now < t) :
    (waitForFile env path 1000000000 1000000000 h).2 = .error .error := by
  have h0 : env.present path h = false := by
    have : env.present path { h with now := h.now } = decide (t ≤ h.now) := ha h.now
    rw [decide_eq_false (by omega)] at this
    exact this
  unfold waitForFile
  rw [waitLoop, if_pos (by omega), if_neg (by rw [h0]; decide), waitLoop, if_neg (by simp only; omega)]

example : AppearsAt { exEnv 0 with present := fun _ h => decide (7 ≤ h.now) } "/x".toList exHost 7 ∧ exHost.now < 7 :=
  ⟨fun _ => rfl, by decide⟩

/-! ### Drivers -/

/-- C105: if the device file, the sysfs directory or debugfs is there, nothing is done to the host, neither at the start nor at
the end. -/
theorem C105_untouched (env : Env) (h : Host) :
    (∀ cpu, env.present ("/dev/cpu/".toList ++ PyStr.ofNat cpu ++ "/msr".toList) h = true →
      ∃ o, msrOpen env cpu h = (h, .ok o) ∧ ∀ h', objClose env o h' = (h', .ok ())) ∧
    (∀ model, env.present "/sys/devices/system/cpu/intel_uncore_frequency".toList h = true →
      ∃ o, uncoreOpen env "GenuineIntel".toList model h = (h, .ok o) ∧ ∀ h', objClose env o h' = (h', .ok ())) ∧
    (env.readMounts h = .ok (h.mounts.map Mnt.line) → (∀ m ∈ h.mounts, m.Proper) → h.Debugfs →
      mountDebugfs env h = (h, .ok false) ∧ ∀ h', tpmiClose env false h' = h') := by
  refine ⟨fun cpu hd => ⟨⟨none, false⟩, ?_, fun h' => rfl⟩, fun model hd => ⟨⟨none, false⟩, ?_, fun h' => rfl⟩, ?_⟩
  · exact if_pos hd
  · exact (if_neg (fun h => h rfl)).trans (if_pos hd)
  · intro hr hp hd
    refine ⟨?_, fun h' => rfl⟩
    have : debugfsMounted debugfsDir (h.mounts.map Mnt.line) = .ok true := debugfsMounted_lines hp hd
    unfold mountDebugfs
    rw [hr]
    dsimp only
    rw [this]

example : (exEnv 0).present ("/dev/cpu/".toList ++ PyStr.ofNat 0 ++ "/msr".toList)
    { exHost with modules := [exMod "msr".toList 0] } = true := by decide +kernel

/-- C105: a created and closed MSR object leaves the list of modules as it was, whatever is done in between with other things.
Modules which the driver depends on stay loaded; there are none if the driver depends on nothing. -/
theorem C105_restored (env : Env) (K : Kernel env) (cpu : Nat) (h h1 h2 h3 : Host) (o : Obj) (hp : h.Proper)
    (ho : msrOpen env cpu h = (h1, .ok o)) (hm : h2.modules = h1.modules) (hc : objClose env o h2 = (h3, .ok ())) :
    (∃ extra, h3.modules = extra ++ h.modules ∧ ¬ ∃ m ∈ extra, m.name = "msr".toList) ∧
    (Alone env "msr".toList → h3.modules = h.modules) ∧ h1.mounts = h.mounts ∧ h3.mounts = h2.mounts ∧
    env.present ("/dev/cpu/".toList ++ PyStr.ofNat cpu ++ "/msr".toList) h1 = true := by
  obtain ⟨hop, hdev⟩ := msrOpen_ok K hp ho
  obtain ⟨extra, h1, h2, h3, h4⟩ := closed_after K msr_word hop hm hc
  refine ⟨⟨extra, h1, h2⟩, fun ha => ?_, hop.mounts, h4, hdev⟩
  rw [h1, h3 ha]; rfl

/-- The driver is loaded at the start of the example and unloaded at the end. -/
example : let a := msrOpen (exEnv 0) 0 exHost
    a.1.modules = [exMod "msr".toList 5, exMod "ext4".toList 0] ∧
    a.1.ran = ["dmesg".toList, "modprobe msr ".toList] ∧
    a.2 = .ok ⟨some ⟨"msr".toList, ["[    0.000000] Linux".toList]⟩, true⟩ ∧
    (objClose (exEnv 0) ⟨some ⟨"msr".toList, ["[    0.000000] Linux".toList]⟩, true⟩ a.1).1 =
      { exHost with ran := ["dmesg".toList, "modprobe msr ".toList, "rmmod msr".toList] } := by
  decide +kernel

/-- C105: the same for the uncore frequency driver, which depends on the processor model. -/
theorem C105_uncore_restored (env : Env) (K : Kernel env) (vendor : PyStr) (model : Nat) (h h1 h2 h3 : Host) (o : Obj)
    (hp : h.Proper) (ho : uncoreOpen env vendor model h = (h1, .ok o)) (hm : h2.modules = h1.modules)
    (hc : objClose env o h2 = (h3, .ok ())) :
    ∃ drv, drv ∈ ["intel_uncore_frequency".toList, "intel_uncore_frequency_tpmi".toList] ∧
    (∃ extra, h3.modules = extra ++ h.modules ∧ ¬ ∃ m ∈ extra, m.name = drv) ∧
    (Alone env drv → h3.modules = h.modules) ∧ h1.mounts = h.mounts ∧ h3.mounts = h2.mounts ∧
    vendor = "GenuineIntel".toList ∧
    env.present "/sys/devices/system/cpu/intel_uncore_frequency".toList h1 = true := by
  have hd : uncoreDriver model ∈ ["intel_uncore_frequency".toList, "intel_uncore_frequency_tpmi".toList] := by
    unfold uncoreDriver
    split
    · exact List.mem_cons_self ..
    · exact List.mem_cons_of_mem _ (List.mem_cons_self ..)
  have hw : IsWord (uncoreDriver model) := by
    unfold uncoreDriver
    split
    · exact ⟨by decide, by decide⟩
    · exact ⟨by decide, by decide⟩
  unfold uncoreOpen at ho
  by_cases hv : vendor = "GenuineIntel".toList
  · rw [if_neg (fun h => h hv)] at ho
    have hop : Opened env (uncoreDriver model) h h1 o ∧ env.present uncoreDir h1 = true := by
      by_cases hd : env.present uncoreDir h = true
      · rw [if_pos hd] at ho
        cases ho
        exact ⟨⟨rfl, .inl (Nat.le_refl _), .inl ⟨rfl, rfl⟩⟩, hd⟩
      · rw [if_neg hd] at ho
        exact probeDriver_ok K hw hp ho
    obtain ⟨extra, h1, h2, h3, h4⟩ := closed_after K hw hop.1 hm hc
    refine ⟨_, hd, ⟨extra, h1, h2⟩, fun ha => ?_, hop.1.mounts, h4, hv, hop.2⟩
    rw [h1, h3 ha]; rfl
  · rw [if_pos hv] at ho; cases ho

/-- The example: a Granite Rapids system needs the TPMI driver, it is loaded and unloaded. -/
example :
    let run (cmd : PyStr) (h : Host) : Outcome :=
      if cmd = "dmesg".toList then ⟨true, ["[    0.000000] Linux".toList], h⟩
      else if cmd = "modprobe intel_uncore_frequency_tpmi ".toList then
        ⟨true, [], { h with modules := exMod "intel_uncore_frequency_tpmi".toList h.now :: h.modules }⟩
      else if cmd = "rmmod intel_uncore_frequency_tpmi".toList then ⟨true, [], { h with modules := h.modules.drop 1 }⟩
      else ⟨false, [], h⟩
    let env := { exEnv 0 with run := run, present := fun _ h => h.modules.length == 2 }
    let a := uncoreOpen env "GenuineIntel".toList 0xAD exHost
    a.2 = .ok ⟨some ⟨"intel_uncore_frequency_tpmi".toList, ["[    0.000000] Linux".toList]⟩, true⟩ ∧
    a.1.modules.length = 2 ∧
    (objClose env ⟨some ⟨"intel_uncore_frequency_tpmi".toList, ["[    0.000000] Linux".toList]⟩, true⟩ a.1).1.modules =
      exHost.modules := by
  decide +kernel

/-- C105: processors with the MSR for uncore frequency limits need the MSR driver, others need the TPMI driver; on other vendors
nothing is done. -/
theorem C105_uncore_driver (env : Env) (vendor : PyStr) (model : Nat) (h : Host) :
    (vendor ≠ "GenuineIntel".toList → uncoreOpen env vendor model h = (h, .error .notSupported)) ∧
    (vendor = "GenuineIntel".toList → env.present "/sys/devices/system/cpu/intel_uncore_frequency".toList h = false →
      uncoreOpen env vendor model h = probeDriver env
        (if model ∈ MSRFeatures.UncoreRatioLimit.cpus then "intel_uncore_frequency".toList
         else "intel_uncore_frequency_tpmi".toList) h) := by
  constructor
  · intro hv; unfold uncoreOpen; rw [if_pos hv]
  · intro hv hd
    unfold uncoreOpen
    rw [if_neg (fun h => h hv), if_neg (by change env.present uncoreDir h = false at hd; rw [hd]; decide)]
    rfl

/-- C105: a constructor which fails never unloads a module, and it does not touch anything if the driver is loaded already. -/
theorem C105_failed (env : Env) (K : Kernel env) (h h1 : Host) (e : Exn) (hp : h.Proper) :
    (∀ cpu, msrOpen env cpu h = (h1, .error e) →
      ∃ extra, h1.modules = extra ++ h.modules ∧ h1.mounts = h.mounts ∧ (h.Loaded "msr".toList → h1 = h)) ∧
    (∀ drv, IsWord drv → probeDriver env drv h = (h1, .error e) →
      ∃ extra, h1.modules = extra ++ h.modules ∧ h1.mounts = h.mounts ∧ (h.Loaded drv → h1.modules = h.modules)) :=
  ⟨fun _ he => msrOpen_err K hp he, fun _ hw he => probeDriver_err K hw hp he⟩

/-- C105: if the device file appears a moment after the driver was loaded, the constructor fails, and the driver stays loaded. -/
theorem C105_failed_counterexample :
    let r := msrOpen (exEnv 10) 0 exHost
    r.2 = .error .error ∧ r.1.modules = [exMod "msr".toList 5, exMod "ext4".toList 0] ∧ exHost.modules = [exMod "ext4".toList 0] := by
  decide +kernel

/-- C105: only these commands are run for the MSR driver. -/
theorem C105_commands (env : Env) (cpu : Nat) (h : Host) (o : Obj) :
    (∃ l, (msrOpen env cpu h).1.ran = h.ran ++ l ∧
      ∀ c ∈ l, c ∈ ["dmesg".toList, "modprobe msr ".toList, "modprobe msr  dyndbg=+pf".toList]) ∧
    ((msrOpen env cpu h).2 = .ok o → ∀ h', ∃ l, (objClose env o h').1.ran = h'.ran ++ l ∧
      ∀ c ∈ l, c ∈ ["dmesg".toList, "rmmod msr".toList]) := by
  have hs : modprobeCmd "msr".toList = ["modprobe msr ".toList, "modprobe msr  dyndbg=+pf".toList] := by decide
  constructor
  · refine (msrOpen_adds env cpu h (List.mem_cons_self ..) ?_).1
    rw [hs]
    exact fun c hc => List.mem_cons_of_mem _ hc
  · intro ho h'
    refine objClose_adds env o h' (List.mem_cons_self ..) fun km hk => ?_
    have := (msrOpen_adds (S := "dmesg".toList :: modprobeCmd "msr".toList) env cpu h (List.mem_cons_self ..)
      (fun c hc => List.mem_cons_of_mem _ hc)).2 o ho km hk
    rw [this]
    exact List.mem_cons_of_mem _ (List.mem_cons.mpr (.inl (by decide)))

/-! ### Several objects -/

/-- C105: MSR objects may be created and closed in any order: when all are closed, the list of modules is the one from the start. -/
theorem C105_sessions (env : Env) (K : Kernel env) (ha : Alone env "msr".toList) (cpu : Nat) (h h1 : Host) (hp : h.Proper)
    (ops : List Op) (hq : ∀ f, .other f ∈ ops → Quiet f) (hs : steps env cpu ops (h, []) = some (h1, [])) :
    h1.modules = h.modules := by
  have hi : Inv h.modules (h1, []) := by
    refine steps_inv K ha ops hq (st := (h, [])) ⟨hp, List.nodup_nil, fun p hp => ?_, .inl rfl⟩ hs
    cases hp
  rcases hi.mods with h | ⟨_, _, _, p, hp, _⟩
  · exact h
  · cases hp

/-- The second object of the example outlives the first one, the third one loads the driver again. -/
example : ((steps (exEnv 0) 0 [.new 1, .new 2, .close 1, .new 3, .close 2, .close 3] (exHost, [])).map fun st => (st.1.ran, st.2)) =
    some (["dmesg".toList, "modprobe msr ".toList, "rmmod msr".toList, "dmesg".toList, "modprobe msr ".toList,
      "rmmod msr".toList], []) := by
  decide +kernel

/-- C105: the device file is there as long as the first object is open. -/
theorem C105_available_partial (env : Env) (K : Kernel env) (cpu i : Nat) (hst : Stays env (msrDev cpu)) (h h1 : Host) (hp : h.Proper)
    (objs : List (Nat × Obj)) (ops : List Op) (hq : ∀ f, .other f ∈ ops → Quiet f) (hc : .close i ∉ ops)
    (hs : steps env cpu (.new i :: ops) (h, []) = some (h1, objs)) :
    env.present ("/dev/cpu/".toList ++ PyStr.ofNat cpu ++ "/msr".toList) h1 = true := by
  unfold steps at hs
  cases h2 : step env cpu (h, []) (.new i) with
  | none => rw [h2] at hs; cases hs
  | some st =>
    rw [h2] at hs
    dsimp only at hs
    have hi : Open env cpu i st := by
      unfold step at h2
      dsimp only at h2
      rw [if_neg (by simp)] at h2
      cases ho : msrOpen env cpu h with
      | mk h' r =>
        rw [ho] at h2
        cases r with
        | error e => cases h2
        | ok o =>
          cases h2
          refine ⟨(msrOpen_ok K hp ho).2, List.mem_cons_self .., fun p hp hne => ?_⟩
          cases List.mem_singleton.mp hp
          exact absurd rfl hne
    exact (steps_open hst ops hq hc hi hs).dev

/-- C105: if the first object is closed, the others cannot be used any more. -/
theorem C105_available_counterexample :
    ((steps (exEnv 0) 0 [.new 1, .new 2, .close 1] (exHost, [])).map fun st =>
      (st.2.map (·.1), (exEnv 0).present (msrDev 0) st.1)) = some ([2], false) := by
  decide +kernel

/-! ### Debugfs -/

/-- C105: debugfs is mounted, with this command and no other, exactly if it is not mounted yet. -/
theorem C105_debugfs (env : Env) (h : Host) (hr : env.readMounts h = .ok (h.mounts.map Mnt.line)) (hp : ∀ m ∈ h.mounts, m.Proper) :
    (h.Debugfs → mountDebugfs env h = (h, .ok false)) ∧
    (¬ h.Debugfs → (mountDebugfs env h).1.ran = h.ran ++ ["mount -t debugfs none '/sys/kernel/debug'".toList] ∧
      (mountDebugfs env h).2 = (if (env.run "mount -t debugfs none '/sys/kernel/debug'".toList h).ok then .ok true else .error .error)) := by
  constructor
  · intro hd
    unfold mountDebugfs
    rw [hr]
    dsimp only
    rw [debugfsMounted_lines hp hd]
  · intro hd
    have hm : mountCmd debugfsDir = "mount -t debugfs none '/sys/kernel/debug'".toList := by decide
    unfold mountDebugfs
    rw [hr]
    dsimp only
    rw [debugfsMounted_none hp hd]
    dsimp only
    rw [runVerify_eq, hm]
    cases (env.run "mount -t debugfs none '/sys/kernel/debug'".toList h).ok <;> exact ⟨rfl, rfl⟩

/-- C105: `close()` of 'Tpmi' runs "unmount", which is not a program: debugfs stays mounted. -/
theorem C105_debugfs_counterexample (env : Env) (K : Kernel env) (h : Host) (mounted : Bool)
    (hn : (env.run "unmount /sys/kernel/debug".toList h).ok = false) : (tpmiClose env mounted h).mounts = h.mounts := by
  unfold tpmiClose
  cases mounted with
  | false => rfl
  | true =>
    have e : "unmount ".toList ++ debugfsDir = "unmount /sys/kernel/debug".toList := by decide
    rw [if_pos rfl, e]
    exact (K.failed _ _ hn).2

example : let r := tpmiOpen (exEnv 0) (fun _ => .ok ()) { exHost with mounts := [] }
    r.2 = .ok true ∧ (tpmiClose (exEnv 0) true r.1).mounts.length = 1 ∧
    (tpmiClose (exEnv 0) true r.1).ran =
      ["mount -t debugfs none '/sys/kernel/debug'".toList, "unmount /sys/kernel/debug".toList] := by
  decide +kernel

end Verif.Drivers
