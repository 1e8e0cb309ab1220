import Verif.Lemmas.Dispatch

/-!
C125: every property name leads to a setting of its own.
-/

namespace Verif.Dispatch

/-- Every property can be read by CPU and by die with each of its mechanisms, and an object of this mechanism is used. -/
theorem C125_served (c : Cls) (p m : PyStr) (h : Has c p m) :
    ∃ s, getCpus c p m = .ok s ∧ getDies c p m = .ok s ∧ ofMech m s.obj = true := by
  obtain ⟨w, hw⟩ := mem_pairs h
  have key : ∀ x ∈ pairs c, (match getCpus c x.1 x.2.1 with
      | .ok s => decide (getDies c x.1 x.2.1 = .ok s) && ofMech x.2.1 s.obj
      | .error _ => false) = true := by
    cases c <;> decide +kernel
  have k := key _ hw
  dsimp only at k
  split at k
  · rename_i s hs
    rw [Bool.and_eq_true, decide_eq_true_eq] at k
    exact ⟨s, hs, k⟩
  · exact nomatch k

/-- For any two names and mechanisms, known or not: what is read for different property names of P-states, C-states and PM
QoS is never the same setting. -/
theorem C125_distinct (c : Cls) (hc : c ≠ .power) (p q m m' : PyStr) (s : Setting) (hp : getCpus c p m = .ok s)
    (hq : getCpus c q m' = .ok s) : p = q := by
  cases c with
  | pstates => exact (pstatesGet_name hp).symm.trans (pstatesGet_name hq)
  | cstates => exact (cstatesGet_name hp).symm.trans (cstatesGet_name hq)
  | power => exact absurd rfl hc
  | pmqos => exact (pmqosGet_name (m := m) hp).symm.trans (pmqosGet_name (m := m') hq)

/-- The properties of power have different settings, too. -/
theorem C125_distinct_power (p q m m' : PyStr) (s : Setting) (h : Has .power p m) (h' : Has .power q m')
    (hp : getCpus .power p m = .ok s) (hq : getCpus .power q m' = .ok s) : p = q := by
  obtain ⟨w, hw⟩ := mem_pairs h
  obtain ⟨w', hw'⟩ := mem_pairs h'
  have key : ∀ x ∈ pairs .power, ∀ y ∈ pairs .power,
      getCpus .power x.1 x.2.1 = getCpus .power y.1 y.2.1 → x.1 = y.1 := by decide +kernel
  exact key _ hw _ hw' (hp.trans hq.symm)

/-- A property is set where it is read: with each mechanism of a writable property, setting it by die, and setting it by
CPU unless it is an uncore frequency, writes exactly the setting which reading it reads. -/
theorem C125_set_where_read_partial (c : Cls) (p m : PyStr) (h : HasWritable c p m) :
    setDies c p m = getDies c p m ∧ (¬ PerDie p → setCpus c p m = getCpus c p m) := by
  have key : ∀ x ∈ pairs c, x.2.2 = true → setDies c x.1 x.2.1 = getDies c x.1 x.2.1 ∧
      (setCpus c x.1 x.2.1 = getCpus c x.1 x.2.1 ∨ x.1 = "min_uncore_freq".toList ∨
        x.1 = "max_uncore_freq".toList) := by
    cases c <;> decide +kernel
  have k := key _ (mem_pairs_w h) rfl
  exact ⟨k.1, fun hn => k.2.resolve_right hn⟩

/-- Setting never changes the setting of another property: whatever name is given to the setting methods, if something is
written, then it is not what is read for another name. -/
theorem C125_set_own (c : Cls) (hc : c ≠ .power) (p q m m' : PyStr) (s : Setting)
    (hs : setCpus c p m = .ok s ∨ setDies c p m = .ok s) (hg : getCpus c q m' = .ok s) : p = q := by
  have hq : nameOf s = q := by
    cases c with
    | pstates => exact pstatesGet_name hg
    | cstates => exact cstatesGet_name hg
    | power => exact absurd rfl hc
    | pmqos => exact pmqosGet_name (m := m') hg
  have hcpu : setCpus c p m = .ok s → nameOf s = p := by
    intro hs
    cases c with
    | pstates => exact pstatesSet_name hs
    | cstates => exact cstatesSet_name hs
    | power => exact absurd rfl hc
    | pmqos => exact pmqosSet_name (m := m) hs
  have hp : nameOf s = p := by
    rcases hs with hs | hs
    · exact hcpu hs
    · unfold setDies at hs
      exact ite_case hs (fun _ h => uncoreSet_name h) (fun _ h => hcpu h)
  exact hp.symm.trans hq

/-- A name which is not a name of a property of P-states or PM QoS is refused, whatever the mechanism. -/
theorem C125_unknown (c : Cls) (hc : c = .pstates ∨ c = .pmqos) (p m : PyStr) (h : p ∉ (props c).map Prop'.name) :
    getCpus c p m = .error .error ∧ setCpus c p m = .error .error := by
  rcases hc with rfl | rfl
  · exact ⟨(pstatesGet_known p m).resolve_right h, (pstatesSet_known p m).resolve_right h⟩
  · exact ⟨(pmqosGet_known p m).resolve_right h, (pmqosSet_known p m).resolve_right h⟩

/-- The uncore frequency limits are writable properties, but setting them by CPU is always refused, with a message about a
bug in the program. It is what 'pepc pstates restore' does for an entry with CPU numbers. Reading them by CPU works. -/
theorem C125_uncore_counterexample : ∃ p m s, HasWritable .pstates p m ∧ getCpus .pstates p m = .ok s ∧
    setDies .pstates p m = .ok s ∧ setCpus .pstates p m = .error .error :=
  ⟨"min_uncore_freq".toList, "sysfs".toList, ⟨.uncore, "min_freq".toList⟩,
    ⟨prop "min_uncore_freq" ["sysfs"] true, by decide +kernel⟩, by decide +kernel⟩

/-- The method for features of registers serves the feature "ltr", although it is not a property: the dispatch methods for
C-states rely on the check of the name before them. -/
theorem C125_ltr_counterexample : ∃ p m s, p ∉ (props .cstates).map Prop'.name ∧ getCpus .cstates p m = .ok s ∧
    setCpus .cstates p m = .ok s :=
  ⟨"ltr".toList, "msr".toList, ⟨.powerCtl, "ltr".toList⟩, by decide +kernel⟩

/-! ### Satisfiability -/

example : Has .power "ppl2_clamp".toList "msr".toList := ⟨prop "ppl2_clamp" ["msr"] true, by decide +kernel⟩

example : getCpus .power "ppl2_clamp".toList "msr".toList = .ok ⟨.powerLimit, "limit2_clamp".toList⟩ := by decide +kernel

example : HasWritable .cstates "governor".toList "sysfs".toList ∧ ¬ PerDie "governor".toList :=
  ⟨⟨prop "governor" ["sysfs"] true, by decide +kernel⟩, by unfold PerDie; decide +kernel⟩

example : getCpus .pstates "max_turbo_freq".toList "cppc".toList = .ok ⟨.cppc, "max_freq_limit".toList⟩ ∧
    getCpus .pstates "max_freq_limit".toList "sysfs".toList = .ok ⟨.cpufreqSysfs, "max_freq_limit".toList⟩ := by
  decide +kernel

example : "min_frequency".toList ∉ (props .pstates).map Prop'.name := by decide +kernel

end Verif.Dispatch
