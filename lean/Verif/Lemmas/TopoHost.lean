import Verif.Lemmas.TopoText

/-!
Files for any machine and any set of online CPUs, used to show that the hypotheses of the topology property can be met.
-/

namespace Verif.TopoBuild

open PyStr
open CPUInfo (Level)

/-- The text of a list of numbers. -/
def listText (l : List Nat) : PyStr := joinC ',' ((l.map fun c => (c, c)).map rangeText) ++ ['\n']

theorem lists_listText (l : List Nat) : Lists (listText l) (· ∈ l) := by
  refine ⟨l.map fun c => (c, c), ?_, rfl, fun n => ?_⟩
  · intro e he
    obtain ⟨c, _, rfl⟩ := List.mem_map.1 he
    exact Nat.le_refl c
  · constructor
    · intro h
      exact ⟨(n, n), List.mem_map.2 ⟨n, h, rfl⟩, Nat.le_refl n, Nat.le_refl n⟩
    · rintro ⟨e, he, h1, h2⟩
      obtain ⟨c, hc, rfl⟩ := List.mem_map.1 he
      have : n = c := Nat.le_antisymm h2 h1
      rw [this]; exact hc

/-- The lines of '/proc/cpuinfo' for a CPU. -/
def linesFor (c p k : Nat) : List PyStr :=
  ("processor\t: ".toList ++ ofNat c) :: (List.replicate 8 ['x'] ++ ("physical id\t: ".toList ++ ofNat p) :: ['x'] ::
    ("core id\t\t: ".toList ++ ofNat k) :: [])

theorem cpuLines_linesFor (c p k : Nat) : CpuLines c p k (linesFor c p k) := by
  have hn : ∀ n, '\n' ∉ ofNat n := fun n => ofNat_not_mem n (by decide)
  refine ⟨⟨List.replicate 8 ['x'], ['x'], [], rfl, rfl⟩, fun l hl => ?_, fun l ch hl hc => ?_⟩
  · simp only [linesFor, List.mem_cons, List.mem_append, List.mem_replicate, List.not_mem_nil, or_false] at hl
    rcases hl with rfl | ⟨_, rfl⟩ | rfl | rfl | rfl
    · refine ⟨by simp, fun h => (List.mem_append.1 h).elim (fun h => ?_) (hn c)⟩
      exact absurd h (by decide +kernel)
    · decide
    · refine ⟨by simp, fun h => (List.mem_append.1 h).elim (fun h => ?_) (hn p)⟩
      exact absurd h (by decide +kernel)
    · decide
    · refine ⟨by simp, fun h => (List.mem_append.1 h).elim (fun h => ?_) (hn k)⟩
      exact absurd h (by decide +kernel)
  · have : l = "core id\t\t: ".toList ++ ofNat k := by
      have e : (linesFor c p k).getLast? = some ("core id\t\t: ".toList ++ ofNat k) := by
        unfold linesFor
        simp [List.replicate]
      rw [e] at hl
      injection hl with hl
      exact hl.symm
    rw [this, List.getLast?_append] at hc
    have hmem : ch ∈ ofNat k := by
      cases hk : (ofNat k).getLast? with
      | none => exact absurd (List.getLast?_eq_none_iff.1 hk) (ofNat_ne_nil k)
      | some x =>
        rw [hk] at hc
        injection hc with hc
        rw [← hc]; exact List.mem_of_getLast? hk
    exact Trivial.ofNat_not_space k ch hmem

/-- The files. `msr` tells whether the die numbers are available via the MSR. -/
def hostOf (m : Machine) (msr : Bool) (on : List Nat) : Host where
  online := .ok (listText on)
  cpuinfo := .ok (cpuinfoText ((on.map fun c => (c, linesFor c (m.num .package c) (m.num .core c))).map Prod.snd))
  cacheId c := .ok (numText (m.num .module c.toNat))
  cacheCpus c := .ok (listText (on.filter fun c' => m.num .module c' == m.num .module c.toNat))
  pli := if msr then some fun c => .ok (m.num .die c.toNat : Int) else none
  dieId c := .ok (numText (m.num .die c.toNat))
  dieCpus c := .ok (listText [c.toNat])
  nodes := .ok (listText (on.map (m.num .node)))
  nodeCpus n := .ok (listText (on.filter fun c => (m.num .node c : Int) == n))
  uncore := m.uncore.map .ok

/-- Any non-empty set of CPUs can be shown. -/
theorem shows_hostOf (m : Machine) (msr : Bool) {on : List Nat} (h1 : ∀ c ∈ on, c ∈ m.present) (h2 : on ≠ [])
    (h3 : on.Nodup) : Shows m on (hostOf m msr on) := by
  refine ⟨h1, h2, h3, ⟨_, rfl, lists_listText on⟩, ⟨_, rfl, fun b hb => ?_, fun c hc => ?_⟩, Or.inl fun c hc => ⟨rfl, _, _,
    rfl, lists_listText _, ?_, fun c' _ h => ?_⟩, ?_, ⟨_, _, rfl, lists_listText _, fun c hc => List.mem_map.2 ⟨c, hc, rfl⟩,
    fun n _ => ⟨_, _, rfl, lists_listText _, fun c hc => ?_⟩⟩, rfl⟩
  · obtain ⟨c, _, rfl⟩ := List.mem_map.1 hb
    exact cpuLines_linesFor _ _ _
  · rw [List.map_map]
    exact List.mem_map.2 ⟨c, hc, rfl⟩
  · rw [List.mem_filter]
    exact ⟨hc, by simp⟩
  · have := (List.mem_filter.1 h).2
    simpa using this
  · cases msr with
    | true => exact Or.inl ⟨_, rfl, fun c _ => rfl⟩
    | false => exact Or.inr ⟨rfl, fun c _ => ⟨rfl, _, _, rfl, lists_listText _, by simp⟩⟩
  · rw [List.mem_filter]
    constructor
    · intro h
      have := h.2
      simp at this
      omega
    · intro h
      exact ⟨hc, by simp [h]⟩

end Verif.TopoBuild
