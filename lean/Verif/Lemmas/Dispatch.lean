import Verif.Props.DispatchSpec

/-!
Lemmas for C125.
-/

namespace Verif.Dispatch

/-- All pairs of a property and one of its mechanisms. -/
def pairs (c : Cls) : List (PyStr × PyStr × Bool) :=
  (props c).flatMap fun q => q.mnames.map fun m => (q.name, m, q.writable)

theorem mem_pairs {c : Cls} {p m : PyStr} (h : Has c p m) : ∃ w, (p, m, w) ∈ pairs c := by
  obtain ⟨q, hq, rfl, hm⟩ := h
  exact ⟨q.writable, List.mem_flatMap.2 ⟨q, hq, List.mem_map.2 ⟨m, hm, rfl⟩⟩⟩

theorem mem_pairs_w {c : Cls} {p m : PyStr} (h : HasWritable c p m) : (p, m, true) ∈ pairs c := by
  obtain ⟨q, hq, rfl, hm, hw⟩ := h
  exact List.mem_flatMap.2 ⟨q, hq, List.mem_map.2 ⟨m, hm, by rw [hw]⟩⟩

/-- The name of the property of the class which has the setting. -/
def nameOf : Setting → PyStr
  | ⟨.epp, _⟩ => "epp".toList
  | ⟨.epb, _⟩ => "epb".toList
  | ⟨.cppc, i⟩ => if i = "max_freq_limit".toList then "max_turbo_freq".toList
      else if i = "min_freq_limit".toList then "min_oper_freq".toList else i
  | ⟨.uncore, i⟩ => if i = "min_freq".toList then "min_uncore_freq".toList
      else if i = "max_freq".toList then "max_uncore_freq".toList
      else if i = "min_freq_limit".toList then "min_uncore_freq_limit".toList
      else "max_uncore_freq_limit".toList
  | ⟨.fsbFreq, _⟩ => "bus_clock".toList
  | ⟨.cpufreqSysfs, i⟩ => if i = "available_frequencies".toList then "frequencies".toList
      else if i = "available_governors".toList then "governors".toList else i
  | ⟨.cpuidle, i⟩ => if i = "current_governor".toList then "governor".toList
      else if i = "available_governors".toList then "governors".toList else i
  | ⟨_, i⟩ => i

theorem ite_case {c : Prop} [Decidable c] {a b : Except Exn Setting} {s : Setting} {P : Prop}
    (h : (if c then a else b) = .ok s) (ht : c → a = .ok s → P) (hf : ¬ c → b = .ok s → P) : P := by
  by_cases hc : c
  · rw [if_pos hc] at h; exact ht hc h
  · rw [if_neg hc] at h; exact hf hc h

theorem ite_or {c : Prop} [Decidable c] {a b e : Except Exn Setting} {Q : Prop}
    (ht : c → a = e ∨ Q) (hf : ¬ c → b = e ∨ Q) : (if c then a else b) = e ∨ Q := by
  by_cases hc : c
  · rw [if_pos hc]; exact ht hc
  · rw [if_neg hc]; exact hf hc

theorem uncoreGet_name {p : PyStr} {s : Setting} (h : uncoreGet p = .ok s) : nameOf s = p := by
  unfold uncoreGet at' at h
  split at h
  · cases h; subst_vars; decide +kernel
  split at h
  · cases h; subst_vars; decide +kernel
  split at h
  · cases h; subst_vars; decide +kernel
  split at h
  · cases h; subst_vars; decide +kernel
  · exact nomatch h

theorem freqSysfs_name {p : PyStr} {s : Setting} (h : freqSysfs p = .ok s) : nameOf s = p := by
  unfold freqSysfs at' at h
  split at h
  · cases h; subst_vars; decide +kernel
  split at h
  · cases h; subst_vars; decide +kernel
  split at h
  · cases h; subst_vars; decide +kernel
  split at h
  · cases h; subst_vars; decide +kernel
  · exact nomatch h

theorem freqMsr_name {p : PyStr} {s : Setting} (h : freqMsr p = .ok s) : nameOf s = p := by
  unfold freqMsr at' at h
  split at h
  · cases h; subst_vars; decide +kernel
  split at h
  · cases h; subst_vars; decide +kernel
  · exact nomatch h

theorem cppcGet_name {p : PyStr} {s : Setting} (h : cppcGet p = .ok s) : nameOf s = p := by
  unfold cppcGet at' at h
  split at h
  · cases h; subst_vars; decide +kernel
  split at h
  · cases h; subst_vars; decide +kernel
  split at h
  · cases h; subst_vars; decide +kernel
  · exact nomatch h

theorem pstatesGet_name {p m : PyStr} {s : Setting} (h : pstatesGet p m = .ok s) : nameOf s = p := by
  unfold pstatesGet at' at h
  refine ite_case h (fun e h => ?_) (fun _ h => ?_)
  · cases h; subst e; rfl
  refine ite_case h (fun e h => ?_) (fun _ h => ?_)
  · cases h; subst e; rfl
  refine ite_case h (fun e h => ?_) (fun _ h => ?_)
  · cases h; subst e; decide +kernel
  refine ite_case h (fun e h => ?_) (fun _ h => ?_)
  · cases h; subst e; decide +kernel
  refine ite_case h (fun e h => ?_) (fun _ h => ?_)
  · refine ite_case h (fun _ h => ?_) (fun _ h => ?_)
    · cases h; subst e; decide +kernel
    refine ite_case h (fun _ h => ?_) (fun _ h => ?_)
    · exact (cppcGet_name h).trans e.symm
    cases h
  refine ite_case h (fun e h => ?_) (fun _ h => ?_)
  · refine ite_case h (fun _ h => ?_) (fun _ h => ?_)
    · cases h; subst e; decide +kernel
    refine ite_case h (fun _ h => ?_) (fun _ h => ?_)
    · exact (cppcGet_name h).trans e.symm
    cases h
  refine ite_case h (fun e h => ?_) (fun _ h => ?_)
  · refine ite_case h (fun _ h => ?_) (fun _ h => ?_)
    · cases h; subst e; decide +kernel
    refine ite_case h (fun _ h => ?_) (fun _ h => ?_)
    · cases h; subst e; decide +kernel
    refine ite_case h (fun _ h => ?_) (fun _ h => ?_)
    · exact (cppcGet_name h).trans e.symm
    cases h
  refine ite_case h (fun e h => ?_) (fun _ h => ?_)
  · refine ite_case h (fun _ h => ?_) (fun _ h => ?_)
    · exact freqSysfs_name h
    refine ite_case h (fun _ h => ?_) (fun _ h => ?_)
    · exact freqMsr_name h
    cases h
  refine ite_case h (fun e h => ?_) (fun _ h => ?_)
  · exact freqSysfs_name h
  refine ite_case h (fun e h => ?_) (fun _ h => ?_)
  · exact uncoreGet_name h
  refine ite_case h (fun e h => ?_) (fun _ h => ?_)
  · refine ite_case h (fun _ h => ?_) (fun _ h => ?_)
    · cases h; subst e; decide +kernel
    refine ite_case h (fun _ h => ?_) (fun _ h => ?_)
    · cases h; subst e; decide +kernel
    cases h
  refine ite_case h (fun e h => ?_) (fun _ h => ?_)
  · refine ite_case h (fun _ h => ?_) (fun _ h => ?_)
    · cases h; subst e; decide +kernel
    refine ite_case h (fun _ h => ?_) (fun _ h => ?_)
    · cases h; subst e; decide +kernel
    cases h
  refine ite_case h (fun e h => ?_) (fun _ h => ?_)
  · cases h; subst e; decide +kernel
  refine ite_case h (fun e h => ?_) (fun _ h => ?_)
  · cases h; subst e; decide +kernel
  refine ite_case h (fun e h => ?_) (fun _ h => ?_)
  · cases h; subst e; decide +kernel
  refine ite_case h (fun e h => ?_) (fun _ h => ?_)
  · cases h; subst e; decide +kernel
  refine ite_case h (fun e h => ?_) (fun _ h => ?_)
  · cases h; subst e; decide +kernel
  cases h

theorem pstatesSet_name {p m : PyStr} {s : Setting} (h : pstatesSet p m = .ok s) : nameOf s = p := by
  unfold pstatesSet at' at h
  repeat' refine ite_case h (fun _ h => ?_) (fun _ h => ?_)
  all_goals first
    | (cases h; done)
    | (cases h; subst_vars; decide +kernel)
    | (cases h; subst_vars; rfl)

theorem pmqosGet_name {p m : PyStr} {s : Setting} (h : pmqosGet p m = .ok s) : nameOf s = p := by
  unfold pmqosGet at' at h
  repeat' refine ite_case h (fun _ h => ?_) (fun _ h => ?_)
  all_goals first
    | (cases h; done)
    | (cases h; subst_vars; decide +kernel)

theorem cstatesGet_name {p m : PyStr} {s : Setting} (h : cstatesGet p m = .ok s) : nameOf s = p := by
  unfold cstatesGet at' at h
  refine ite_case h (fun _ h => ?_) (fun _ h => ?_)
  · repeat' refine ite_case h (fun _ h => ?_) (fun _ h => ?_)
    all_goals first
      | (cases h; done)
      | (cases h; rfl)
      | (cases h; subst_vars; decide +kernel)
  refine ite_case h (fun h0 h => ?_) (fun _ h => ?_)
  · refine ite_case h (fun _ h => ?_) (fun h1 h => ?_)
    · cases h; subst_vars; decide +kernel
    refine ite_case h (fun _ h => ?_) (fun h2 h => ?_)
    · cases h; subst_vars; decide +kernel
    · have := (h0.resolve_left h1).resolve_left h2
      cases h; subst this; decide +kernel
  · repeat' refine ite_case h (fun _ h => ?_) (fun _ h => ?_)
    all_goals first
      | (cases h; done)
      | (cases h; rfl)

theorem uncoreSet_name {p : PyStr} {s : Setting} (h : uncoreSet p = .ok s) : nameOf s = p := by
  unfold uncoreSet at' at h
  refine ite_case h (fun e h => ?_) (fun _ h => ?_)
  · cases h; subst e; decide +kernel
  refine ite_case h (fun e h => ?_) (fun _ h => ?_)
  · cases h; subst e; decide +kernel
  cases h

theorem pmqosSet_name {p m : PyStr} {s : Setting} (h : pmqosSet p m = .ok s) : nameOf s = p := by
  unfold pmqosSet at' at h
  refine ite_case h (fun e h => ?_) (fun _ h => ?_)
  · cases h; subst e; decide +kernel
  cases h

theorem cstatesSet_name {p m : PyStr} {s : Setting} (h : cstatesSet p m = .ok s) : nameOf s = p := by
  unfold cstatesSet at' at h
  refine ite_case h (fun e h => ?_) (fun _ h => ?_)
  · cases h; rfl
  refine ite_case h (fun e h => ?_) (fun _ h => ?_)
  · refine ite_case h (fun e h => ?_) (fun _ h => ?_)
    · cases h; rfl
    · cases h; rfl
  refine ite_case h (fun e h => ?_) (fun _ h => ?_)
  · cases h; rw [e.2]; decide +kernel
  cases h

theorem pstatesGet_known (p m : PyStr) : pstatesGet p m = .error .error ∨ p ∈ (props .pstates).map Prop'.name := by
  unfold pstatesGet
  refine ite_or (fun h => .inr (by subst h; decide +kernel)) fun _ => ?_
  refine ite_or (fun h => .inr (by subst h; decide +kernel)) fun _ => ?_
  refine ite_or (fun h => .inr (by subst h; decide +kernel)) fun _ => ?_
  refine ite_or (fun h => .inr (by subst h; decide +kernel)) fun _ => ?_
  refine ite_or (fun h => .inr (by subst h; decide +kernel)) fun _ => ?_
  refine ite_or (fun h => .inr (by subst h; decide +kernel)) fun _ => ?_
  refine ite_or (fun h => .inr (by subst h; decide +kernel)) fun _ => ?_
  refine ite_or (fun h => .inr (by rcases h with rfl | rfl <;> decide +kernel)) fun _ => ?_
  refine ite_or (fun h => .inr (by rcases h with rfl | rfl <;> decide +kernel)) fun _ => ?_
  refine ite_or (fun h => .inr ?_) fun _ => ?_
  · unfold isUncore at h
    rw [Bool.or_eq_true, Bool.or_eq_true, Bool.or_eq_true, decide_eq_true_eq, decide_eq_true_eq, decide_eq_true_eq,
      decide_eq_true_eq] at h
    rcases h with ((rfl | rfl) | rfl) | rfl <;> decide +kernel
  refine ite_or (fun h => .inr (by subst h; decide +kernel)) fun _ => ?_
  refine ite_or (fun h => .inr (by subst h; decide +kernel)) fun _ => ?_
  refine ite_or (fun h => .inr (by subst h; decide +kernel)) fun _ => ?_
  refine ite_or (fun h => .inr (by subst h; decide +kernel)) fun _ => ?_
  refine ite_or (fun h => .inr (by subst h; decide +kernel)) fun _ => ?_
  refine ite_or (fun h => .inr (by subst h; decide +kernel)) fun _ => ?_
  exact ite_or (fun h => .inr (by subst h; decide +kernel)) fun _ => .inl rfl

theorem pstatesSet_known (p m : PyStr) : pstatesSet p m = .error .error ∨ p ∈ (props .pstates).map Prop'.name := by
  unfold pstatesSet
  refine ite_or (fun h => .inr (by subst h; decide +kernel)) fun _ => ?_
  refine ite_or (fun h => .inr (by subst h; decide +kernel)) fun _ => ?_
  refine ite_or (fun h => .inr (by subst h; decide +kernel)) fun _ => ?_
  refine ite_or (fun h => .inr (by subst h; decide +kernel)) fun _ => ?_
  refine ite_or (fun h => .inr (by subst h; decide +kernel)) fun _ => ?_
  exact ite_or (fun h => .inr (by rcases h with rfl | rfl <;> decide +kernel)) fun _ => .inl rfl

theorem pmqosGet_known (p m : PyStr) : pmqosGet p m = .error .error ∨ p ∈ (props .pmqos).map Prop'.name := by
  unfold pmqosGet
  refine ite_or (fun h => .inr (by subst h; decide +kernel)) fun _ => ?_
  exact ite_or (fun h => .inr (by subst h; decide +kernel)) fun _ => .inl rfl

theorem pmqosSet_known (p m : PyStr) : pmqosSet p m = .error .error ∨ p ∈ (props .pmqos).map Prop'.name := by
  unfold pmqosSet
  exact ite_or (fun h => .inr (by subst h; decide +kernel)) fun _ => .inl rfl

end Verif.Dispatch
