import Verif.Lemmas.TopoTable
import Verif.Lemmas.CPUInfo

/-!
From the table built from the files to the table used by the topology queries.
-/

namespace Verif.TopoBuild

open CPUInfo (Level TLine Info)

/-- The line as the topology queries see it. -/
def toLine (r : Row) : TLine :=
  ⟨r.cpu.toNat, (r.core.getD 0).toNat, (r.module.getD 0).toNat, (r.die.getD 0).toNat, (r.node.getD 0).toNat,
    (r.package.getD 0).toNat⟩

/-- What the object knows after building the table. -/
def infoOf (m : Machine) (on : List Nat) (st : St) (rows : List Row) : Info where
  topology := rows.map toLine
  online := on
  present := m.present
  ioDies p := ((st.ioDies.get? (p : Int)).getD []).map Int.toNat

variable {m : Machine} {on : List Nat} {st : St}

theorem isIo_bounds (hw : m.WF) {p d : Int} (h : m.IsIo p d) :
    0 ≤ p ∧ p < 0xFFFFFFFF ∧ 0 ≤ d ∧ d < 0xFFFFFFFF := by
  obtain ⟨⟨u, hu, ds, h1, h2⟩, _⟩ := h
  obtain ⟨_, h3, h4, h5⟩ := hw.dies u hu p ds h1
  exact ⟨h3, h4, (h5 d h2).1, (h5 d h2).2⟩

theorem rows_nodup {asked : Bool} {levels : List Level} {order : Level} {rows : List Row}
    (hn : on.Nodup) (hc : Correct m on asked levels order rows) : rows.Nodup := by
  have h1 : (rows.filter fun r => decide (r.cpu ≠ NA)).Nodup := by
    have : ((rows.filter fun r => decide (r.cpu ≠ NA)).map Row.cpu).Nodup := by
      rw [hc.cpus.nodup_iff, List.Nodup, List.pairwise_map]
      exact hn.imp fun h e => h (by injection e)
    rw [List.Nodup, List.pairwise_map] at this
    exact this.imp fun h e => h (by rw [e])
  have h2 := List.filter_append_perm (fun r : Row => decide (r.cpu ≠ NA)) rows
  rw [← h2.nodup_iff, List.nodup_append]
  refine ⟨h1, ?_, ?_⟩
  · have e : rows.filter (fun r => !decide (r.cpu ≠ NA)) = rows.filter fun r => decide (r.cpu = NA) := by
      congr 1
      funext r
      simp
    rw [e]; exact hc.ioNodup
  · rintro a ha b hb rfl
    have h1 := (List.mem_filter.1 ha).2
    have h2 := (List.mem_filter.1 hb).2
    rw [h1] at h2
    cases h2

/-- The table satisfies the assumptions of the topology queries. -/
theorem wf_of_correct (hw : m.WF) (hsub : ∀ c ∈ on, c ∈ m.present) (hn : on.Nodup) {levels : List Level}
    {order : Level} {rows : List Row} (hall : ∀ l, l ∈ levels) (hc : Correct m on true levels order rows)
    (hio : ∀ p d, Mem st.ioDies p d ↔ m.IsIo p d) : CPUInfo.WF (infoOf m on st rows) := by
  have small : ∀ c ∈ on, ∀ l, m.num l c ≠ CPUInfo.NA := fun c hc l => by
    have := hw.small c (hsub c hc) l
    unfold CPUInfo.NA; omega
  have hcpu : ∀ r ∈ rows, r.cpu ≠ NA → ∃ c ∈ on, r.cpu = (c : Int) ∧
      toLine r = ⟨c, m.num .core c, m.num .module c, m.num .die c, m.num .node c, m.num .package c⟩ := by
    intro r hr hna
    have : r.cpu ∈ (rows.filter fun r => decide (r.cpu ≠ NA)).map Row.cpu :=
      List.mem_map.2 ⟨r, List.mem_filter.2 ⟨hr, by simpa using hna⟩, rfl⟩
    obtain ⟨c, hc', e⟩ := List.mem_map.1 (hc.cpus.mem_iff.1 this)
    have e : r.cpu = (c : Int) := e.symm
    have g := fun l => hc.nums r hr c hc' e l (hall l)
    refine ⟨c, hc', e, ?_⟩
    have g1 : r.core = _ := g .core
    have g2 : r.module = _ := g .module
    have g3 : r.die = _ := g .die
    have g4 : r.node = _ := g .node
    have g5 : r.package = _ := g .package
    unfold toLine
    rw [e, g1, g2, g3, g4, g5]
    rfl
  have hna : ∀ r ∈ rows, r.cpu = NA → ∃ p d, m.IsIo p d ∧
      toLine r = ⟨CPUInfo.NA, CPUInfo.NA, CPUInfo.NA, d.toNat, CPUInfo.NA, p.toNat⟩ := by
    intro r hr e
    obtain ⟨_, p, d, h1, rfl⟩ := (hc.io r).1 ⟨hr, e⟩
    exact ⟨p, d, h1, rfl⟩
  have split : ∀ t ∈ (infoOf m on st rows).topology,
      (∃ c ∈ on, t = ⟨c, m.num .core c, m.num .module c, m.num .die c, m.num .node c, m.num .package c⟩ ∧
        t.cpu ≠ CPUInfo.NA) ∨
      (∃ p d, m.IsIo p d ∧ t = ⟨CPUInfo.NA, CPUInfo.NA, CPUInfo.NA, d.toNat, CPUInfo.NA, p.toNat⟩) := by
    intro t ht
    obtain ⟨r, hr, rfl⟩ := List.mem_map.1 ht
    by_cases e : r.cpu = NA
    · exact Or.inr (hna r hr e)
    · obtain ⟨c, h1, _, h3⟩ := hcpu r hr e
      refine Or.inl ⟨c, h1, h3, ?_⟩
      rw [h3]
      have := small c h1 .CPU
      rw [hw.cpu] at this
      exact this
  refine ⟨fun t ht hne => ?_, fun t ht he => ?_, fun t ht t' ht' e hne => ?_, ?_, fun c => ?_, hsub, fun h => ?_,
    fun t ht hne => ?_⟩
  · rcases split t ht with ⟨c, hc', rfl, _⟩ | ⟨p, d, _, rfl⟩
    · exact ⟨small c hc' _, small c hc' _, small c hc' _, small c hc' _, small c hc' _⟩
    · exact absurd rfl hne
  · rcases split t ht with ⟨c, hc', rfl, hne⟩ | ⟨p, d, hi, rfl⟩
    · exact absurd he hne
    · obtain ⟨b1, b2, b3, b4⟩ := isIo_bounds hw hi
      refine ⟨rfl, rfl, rfl, ?_, ?_, ?_⟩
      · show d.toNat ≠ CPUInfo.NA
        unfold CPUInfo.NA; omega
      · show p.toNat ≠ CPUInfo.NA
        unfold CPUInfo.NA; omega
      · obtain ⟨l, h1, h2⟩ := (hio p d).2 hi
        show d.toNat ∈ ((st.ioDies.get? (p.toNat : Int)).getD []).map Int.toNat
        rw [Int.toNat_of_nonneg b1, h1]
        exact List.mem_map.2 ⟨d, h2, rfl⟩
  · rcases split t ht with ⟨c, _, rfl, _⟩ | ⟨p, d, _, rfl⟩
    · rcases split t' ht' with ⟨c', _, rfl, _⟩ | ⟨p, d, _, rfl⟩
      · have e : c = c' := e
        rw [e]
      · exact absurd e hne
    · exact absurd rfl hne
  · show (rows.map toLine).Nodup
    have hnd := rows_nodup hn hc
    rw [List.Nodup, List.pairwise_map]
    refine hnd.imp_of_mem ?_
    intro a b ha hb hab e
    apply hab
    by_cases ea : a.cpu = NA
    · obtain ⟨_, p, d, h1, e1⟩ := (hc.io a).1 ⟨ha, ea⟩
      by_cases eb : b.cpu = NA
      · obtain ⟨_, p', d', h1', e1'⟩ := (hc.io b).1 ⟨hb, eb⟩
        obtain ⟨b1, _, b3, _⟩ := isIo_bounds hw h1
        obtain ⟨b1', _, b3', _⟩ := isIo_bounds hw h1'
        rw [e1, e1'] at e ⊢
        have k1 : d.toNat = d'.toNat := congrArg TLine.die e
        have k2 : p.toNat = p'.toNat := congrArg TLine.package e
        rw [show d = d' by omega, show p = p' by omega]
      · obtain ⟨c, hc', k1, k2⟩ := hcpu b hb eb
        have k3 : a.cpu.toNat = b.cpu.toNat := congrArg TLine.cpu e
        rw [ea, k1] at k3
        have := small c hc' .CPU
        rw [hw.cpu] at this
        exact absurd k3.symm this
    · obtain ⟨c, hc', k1, k2⟩ := hcpu a ha ea
      by_cases eb : b.cpu = NA
      · have k3 : a.cpu.toNat = b.cpu.toNat := congrArg TLine.cpu e
        rw [eb, k1] at k3
        have := small c hc' .CPU
        rw [hw.cpu] at this
        exact absurd k3 this
      · obtain ⟨c', hc'', k1', k2'⟩ := hcpu b hb eb
        have k3 : a.cpu.toNat = b.cpu.toNat := congrArg TLine.cpu e
        rw [k1, k1'] at k3
        have k3 : c = c' := k3
        subst k3
        have g := fun l => hc.nums a ha c hc' k1 l (hall l)
        have g' := fun l => hc.nums b hb c hc' k1' l (hall l)
        have e1 : a.core = b.core := (g .core).trans (g' .core).symm
        have e2 : a.module = b.module := (g .module).trans (g' .module).symm
        have e3 : a.die = b.die := (g .die).trans (g' .die).symm
        have e4 : a.node = b.node := (g .node).trans (g' .node).symm
        have e5 : a.package = b.package := (g .package).trans (g' .package).symm
        cases a; cases b
        simp only at e1 e2 e3 e4 e5 k1 k1'
        subst e1 e2 e3 e4 e5
        rw [k1, k1']
  · show c ∈ on ↔ _
    constructor
    · intro hc'
      have h1 := small c hc' .CPU
      rw [hw.cpu] at h1
      refine ⟨h1, ?_⟩
      have : (c : Int) ∈ (rows.filter fun r => decide (r.cpu ≠ NA)).map Row.cpu :=
        hc.cpus.mem_iff.2 (List.mem_map.2 ⟨c, hc', rfl⟩)
      obtain ⟨r, hr, e⟩ := List.mem_map.1 this
      refine ⟨toLine r, List.mem_map.2 ⟨r, (List.mem_filter.1 hr).1, rfl⟩, ?_⟩
      show r.cpu.toNat = c
      rw [e]; rfl
    · rintro ⟨hne, t, ht, rfl⟩
      rcases split t ht with ⟨c, hc', rfl, _⟩ | ⟨p, d, _, rfl⟩
      · exact hc'
      · exact absurd rfl hne
  · have h1 := hw.small _ h .CPU
    rw [hw.cpu] at h1
    exact absurd h1 (by decide)
  · rcases split t ht with ⟨c, hc', rfl, _⟩ | ⟨p, d, _, rfl⟩
    · intro hm
      have hm : m.num .die c ∈ ((st.ioDies.get? (m.num .package c : Int)).getD []).map Int.toNat := hm
      obtain ⟨d, hd, e⟩ := List.mem_map.1 hm
      cases hg : st.ioDies.get? (m.num .package c : Int) with
      | none => rw [hg] at hd; cases hd
      | some l =>
        rw [hg] at hd
        have hi := (hio (m.num .package c : Int) d).1 ⟨l, hg, hd⟩
        obtain ⟨_, _, b3, _⟩ := isIo_bounds hw hi
        exact hi.2.2 ⟨c, hsub c hc', rfl, by omega⟩
    · exact absurd rfl hne

end Verif.TopoBuild
