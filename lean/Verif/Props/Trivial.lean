import Verif.Lemmas.Trivial

/-!
C23, C24, C25: number lists.
-/

namespace Verif.Trivial

open PyStr

/-- **C23.** Printing any list of natural numbers with `rangify()` and parsing it back with
`split_csv_line_int()` gives the numbers sorted, with the same multiplicities. -/
theorem C23_rangify_roundtrip (l : List Nat) :
    ∃ r : List Nat, splitCsvLineInt (rangify (l.map Int.ofNat)) ',' false = .ok (r.map Int.ofNat) ∧
      r.Perm l ∧ r.Pairwise (· ≤ ·) := by
  have hperm : ∀ l' : List Int, (∀ x ∈ l', 0 ≤ x) →
      ∃ r : List Nat, l' = r.map Int.ofNat := by
    intro l' h
    refine ⟨l'.map Int.toNat, ?_⟩
    rw [List.map_map]
    conv => lhs; rw [← List.map_id l']
    exact List.map_congr_left (fun x hx => by simp [Int.toNat_of_nonneg (h x hx)])
  have hsp := sortBy_perm (fun a b : Int => decide (a ≤ b)) (l.map Int.ofNat)
  have hss := sortBy_sorted (le := fun a b : Int => decide (a ≤ b))
    (by intro a b; simp; omega) (by intro a b c; simp; omega) (l.map Int.ofNat)
  have hnn : ∀ x ∈ sortBy (fun a b : Int => decide (a ≤ b)) (l.map Int.ofNat), 0 ≤ x := by
    intro x hx
    rw [mem_sortBy] at hx
    obtain ⟨n, _, rfl⟩ := List.mem_map.1 hx
    exact Int.natCast_nonneg n
  obtain ⟨r, hr⟩ := hperm _ hnn
  have hg := groups_spec 0 (r.map Int.ofNat)
  have hgn : ∀ g ∈ groups 0 (r.map Int.ofNat), ∀ x ∈ g, 0 ≤ x := by
    intro g hgm x hx
    have : x ∈ r.map Int.ofNat := by
      rw [← hg.1]; exact List.mem_flatten.2 ⟨g, hgm, hx⟩
    obtain ⟨n, _, rfl⟩ := List.mem_map.1 this
    exact Int.natCast_nonneg n
  refine ⟨r, ?_, ?_, ?_⟩
  · unfold splitCsvLineInt rangify
    rw [hr, splitCsvLine_join]
    · rw [if_neg (by simp), parseElts_groups hg.2.1 hgn, hg.1]
    · intro p hp
      obtain ⟨g, hgm, hpg⟩ := List.mem_flatMap.1 hp
      exact plain_groupStrs (hg.2.1 g hgm).ne_nil (hgn g hgm) p hpg
  · rw [hr] at hsp
    have := hsp.map Int.toNat
    rw [List.map_map, List.map_map] at this
    simpa [Function.comp_def] using this
  · rw [hr, List.pairwise_map] at hss
    refine hss.imp ?_
    intro a b h
    simpa using h

example : rangify [5, 1, 2, 3, 9, 10, 3, 0] = "0-3,3,5,9,10".toList ∧
    splitCsvLineInt "0-3,3,5,9,10".toList ',' false = .ok [0, 1, 2, 3, 3, 5, 9, 10] := by
  decide +kernel

/-- **C24.** `list_dedup()`: no duplicates, the same elements, in the order of their first
occurrence, idempotent. -/
theorem C24_list_dedup {α : Type} [DecidableEq α] (l : List α) :
    (listDedup l).Nodup ∧ (∀ x, x ∈ listDedup l ↔ x ∈ l) ∧
    (listDedup l).Pairwise (fun x y => l.idxOf x < l.idxOf y) ∧
    listDedup (listDedup l) = listDedup l :=
  ⟨nodup_pyDedup l, fun _ => mem_pyDedup, pyDedup_idxOf l, pyDedup_of_nodup (nodup_pyDedup l)⟩

example : listDedup [3, 1, 3, 2, 1] = [3, 1, 2] := by decide +kernel

/-- **C25** is false of the code: the de-duplication is done on the strings, before ranges and bases
are expanded. -/
theorem C25_int_list_dedup_counterexample :
    splitCsvLineInt "1-3,2".toList ',' true = .ok [1, 2, 3, 2] ∧
    parseIntList ["1-3".toList, "2".toList] ',' true = .ok [1, 2, 3, 2] ∧
    splitCsvLineInt "1,0x1".toList ',' true = .ok [1, 1] := by
  decide +kernel

/-- **C25** (partial). Full property: `split_csv_line_int(..., dedup=True)` never returns the same
number twice. Proved here: for every line all of whose elements are plain decimal numbers (with any
whitespace around and any number of empty elements). Missing (false of the code): ranges and different
spellings of the same number, see the counterexample. -/
theorem C25_int_list_dedup_partial (line : PyStr)
    (h : ∀ v ∈ splitC ',' line, v ≠ [] → ∃ n, strip v = ofNat n) :
    ∃ r, splitCsvLineInt line ',' true = .ok r ∧ r.Nodup ∧
      ∀ x, x ∈ r ↔ ∃ v ∈ splitC ',' line, v ≠ [] ∧ ∃ n : Nat, strip v = ofNat n ∧ x = n := by
  have hs := splitCsvLine_eq line ','
  have hc : ∀ v ∈ pyDedup (splitCsvLine line ',' false), ∃ n, v = ofNat n := by
    intro v hv
    rw [mem_pyDedup, hs] at hv
    obtain ⟨u, hu, rfl⟩ := List.mem_map.1 hv
    rw [List.mem_filter] at hu
    exact h u hu.1 (fun e => by rw [e] at hu; simp at hu)
  obtain ⟨r, h1, h2, h3⟩ := parseElts_canonical hc (nodup_pyDedup _)
  refine ⟨r, h1, h2, fun x => ?_⟩
  rw [h3]
  constructor
  · rintro ⟨n, rfl, hn⟩
    rw [mem_pyDedup, hs] at hn
    obtain ⟨u, hu, hun⟩ := List.mem_map.1 hn
    rw [List.mem_filter] at hu
    exact ⟨u, hu.1, fun e => by rw [e] at hu; simp at hu, n, hun, rfl⟩
  · rintro ⟨v, hv, hne, n, hn, rfl⟩
    refine ⟨n, rfl, ?_⟩
    rw [mem_pyDedup, hs, ← hn]
    refine List.mem_map.2 ⟨v, List.mem_filter.2 ⟨hv, ?_⟩, rfl⟩
    cases v with
    | nil => exact absurd rfl hne
    | cons c v => rfl

example : (∀ v ∈ splitC ',' ",3, 14,,3,".toList, v ≠ [] → ∃ n, strip v = ofNat n) ∧
    splitCsvLineInt ",3, 14,,3,".toList ',' true = .ok [3, 14] := by
  refine ⟨?_, by decide +kernel⟩
  have : splitC ',' ",3, 14,,3,".toList = [[], ['3'], [' ', '1', '4'], [], ['3'], []] := by
    decide +kernel
  rw [this]
  intro v hv hne
  simp only [List.mem_cons, List.not_mem_nil, or_false] at hv
  rcases hv with rfl | rfl | rfl | rfl | rfl | rfl
  · exact absurd rfl hne
  · exact ⟨3, by decide +kernel⟩
  · exact ⟨14, by decide +kernel⟩
  · exact absurd rfl hne
  · exact ⟨3, by decide +kernel⟩
  · exact absurd rfl hne

end Verif.Trivial
