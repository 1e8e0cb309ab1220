import Verif.Lemmas.CacheInfo

namespace Verif.CacheInfo

open Spec

/-- C130: if the caches have distinct names and their attributes are decimal numbers, words or `null`, then the result has one
item per cache, in the order of `lscpu`, with all attributes, and the numbers are numbers. The later calls give the same,
whatever `lscpu` would say by then. Missing: values which are texts of numbers in other notations, see
`C130_hex_counterexample`. -/
theorem C130_caches_partial (infos : List Attrs) (names : List Val) (hn : Named infos names) (hd : names.Nodup)
    (hp : ∀ i ∈ infos, Plain i) :
    ∃ t, getCacheInfo (.caches infos) [] = (t, .ok t) ∧ Listed infos t ∧
      (infos ≠ [] → ∀ reply, getCacheInfo reply t = (t, .ok t)) := by
  obtain ⟨t, ht, hl⟩ := loop_ok infos names hn hp [] (by simpa using hd)
  rw [List.nil_append] at ht
  refine ⟨t, ?_, hl, ?_⟩
  · simp only [getCacheInfo, ne_eq, not_true_eq_false, if_false, ht]
  · intro h reply
    have : t ≠ [] := by
      intro e
      subst e
      cases infos with
      | nil => exact h rfl
      | cons i r => exact hl
    unfold getCacheInfo
    rw [if_pos this]

/-- The level 1 and level 3 caches of a CPU. -/
def sample : List Attrs :=
  [[("name".toList, .text "L1d".toList), ("one-size".toList, .text "49152".toList), ("level".toList, .num 1)],
   [("name".toList, .text "L3".toList), ("one-size".toList, .text "1048576".toList), ("type".toList, .text "Unified".toList),
    ("ways".toList, .null)]]

example : (getCacheInfo (.caches sample) []).2 = .ok
    [(.text "L1d".toList, [("name".toList, .text "L1d".toList), ("one-size".toList, .num 49152), ("level".toList, .num 1)]),
     (.text "L3".toList, [("name".toList, .text "L3".toList), ("one-size".toList, .num 1048576),
      ("type".toList, .text "Unified".toList), ("ways".toList, .null)])] := by decide +kernel

example : Named sample [.text "L1d".toList, .text "L3".toList] ∧
    [Val.text "L1d".toList, .text "L3".toList].Nodup ∧ ∀ i ∈ sample, Plain i := by
  refine ⟨by unfold Named; decide +kernel, by decide +kernel, ?_⟩
  intro i hi p hp
  simp only [sample, List.mem_cons, List.not_mem_nil, or_false] at hi
  have n1 : "49152".toList = PyStr.ofNat 49152 := by decide +kernel
  have n2 : "1048576".toList = PyStr.ofNat 1048576 := by decide +kernel
  rcases hi with rfl | rfl <;> simp only [List.mem_cons, List.not_mem_nil, or_false] at hp
  · rcases hp with rfl | rfl | rfl
    · exact ⟨_, .word _ 'L' (by decide +kernel) (by decide +kernel)⟩
    · exact ⟨.num 49152, n1 ▸ .number 49152⟩
    · exact ⟨_, .num 1⟩
  · rcases hp with rfl | rfl | rfl | rfl
    · exact ⟨_, .word _ 'L' (by decide +kernel) (by decide +kernel)⟩
    · exact ⟨.num 1048576, n2 ▸ .number 1048576⟩
    · exact ⟨_, .word _ 'U' (by decide +kernel) (by decide +kernel)⟩
    · exact ⟨_, .null⟩

/-- C130: two caches with one name are an `Error`. But the caches before the second one stay in the object, and every later call
returns them as if they were all. -/
theorem C130_duplicate (infos : List Attrs) (names : List Val) (hn : Named infos names) (hd : ¬ names.Nodup)
    (hp : ∀ i ∈ infos, Plain i) :
    ∃ t, getCacheInfo (.caches infos) [] = (t, .error .error) ∧ ∀ reply, getCacheInfo reply t = (t, .ok t) := by
  obtain ⟨t, ht, hne⟩ := loop_dup infos names hn hp [] (by simp) (by simpa using hd)
  rw [List.nil_append] at ht
  refine ⟨t, by simp only [getCacheInfo, ne_eq, not_true_eq_false, if_false, ht], fun reply => ?_⟩
  unfold getCacheInfo
  rw [if_pos (hne rfl)]

/-- Two caches named "L2". -/
def twice : List Attrs :=
  [[("name".toList, .text "L2".toList), ("level".toList, .num 2)], [("name".toList, .text "L2".toList), ("level".toList, .num 3)]]

example : Named twice [.text "L2".toList, .text "L2".toList] ∧ ¬ [Val.text "L2".toList, .text "L2".toList].Nodup := by
  unfold Named; decide +kernel

example : ∀ i ∈ twice, Plain i := by
  intro i hi p hp
  simp only [twice, List.mem_cons, List.not_mem_nil, or_false] at hi
  rcases hi with rfl | rfl <;> simp only [List.mem_cons, List.not_mem_nil, or_false] at hp <;> rcases hp with rfl | rfl
  · exact ⟨_, .word _ 'L' (by decide +kernel) (by decide +kernel)⟩
  · exact ⟨_, .num 2⟩
  · exact ⟨_, .word _ 'L' (by decide +kernel) (by decide +kernel)⟩
  · exact ⟨_, .num 3⟩

/-- C130: it is not so that a call which returns a table returns all caches which `lscpu` prints: after an error about two caches
with one name the next call, with the same `lscpu`, returns one cache of two. -/
theorem C130_retry_counterexample :
    (getCacheInfo (.caches twice) []).2 = .error .error ∧
      ∃ t, (getCacheInfo (.caches twice) (getCacheInfo (.caches twice) []).1).2 = .ok t ∧ ¬ Listed twice t := by
  refine ⟨by decide +kernel, [(.text "L2".toList, [("name".toList, .text "L2".toList), ("level".toList, .num 2)])],
    by decide +kernel, ?_⟩
  intro h
  exact h.2.2

/-- C130: it is not so that every text which `is_int()` takes for a number is converted: `is_int()` knows the prefix "0x", `int()`
does not, and the exception is not an `Error`. -/
theorem C130_hex_counterexample :
    EP.isInt "0x10".toList = true ∧
      (getCacheInfo (.caches [[("name".toList, .text "L2".toList), ("sets".toList, .text "0x10".toList)]]) []).2 =
        .error .pyValueError := by
  decide +kernel

/-- C130: a failure of `lscpu`, or output which is not JSON, is reported, leaves nothing behind, and the next call asks `lscpu`
again. -/
theorem C130_failed (e : Exn) (reply : Reply) :
    getCacheInfo (.failed e) [] = ([], .error e) ∧ getCacheInfo .garbage [] = ([], .error .error) ∧
      getCacheInfo reply (getCacheInfo (.failed e) []).1 = getCacheInfo reply [] ∧
      getCacheInfo reply (getCacheInfo .garbage []).1 = getCacheInfo reply [] := by
  exact ⟨rfl, rfl, rfl, rfl⟩

example : (getCacheInfo (.caches sample) (getCacheInfo (.failed .notFound) []).1).2.toOption.isSome = true := by decide +kernel

/-- C130: a cache without a name, or output without the list of caches, is noticed. The exception is a `KeyError`. -/
theorem C130_unnamed (pre rest : List Attrs) (i : Attrs) (names : List Val) (hn : Named pre names) (hd : names.Nodup)
    (hp : ∀ j ∈ pre, Plain j) (hi : ∀ p ∈ i, p.1 ≠ "name".toList) :
    (getCacheInfo (.caches (pre ++ i :: rest)) []).2 = .error .pyKeyError ∧
      getCacheInfo .noCaches [] = ([], .error .pyKeyError) := by
  obtain ⟨t, ht, -⟩ := loop_ok pre names hn hp [] (by simpa using hd)
  have hl : i.lookup "name".toList = none := List.lookup_eq_none_iff.2 fun p hp => by
    simpa using fun e => hi p hp e.symm
  have : loop (pre ++ i :: rest) [] = ([] ++ t, some .pyKeyError) := by
    rw [loop_append _ _ _ _ ht, loop, hl]
  exact ⟨by simp only [getCacheInfo, ne_eq, not_true_eq_false, if_false, this], rfl⟩

example : (getCacheInfo (.caches (sample ++ [[("level".toList, .num 2)]])) []).2 = .error .pyKeyError := by decide +kernel

/-- C130: it is not so that unusable output of `lscpu` is always reported as an `Error`: without the list of caches the exception
is a `KeyError`. -/
theorem C130_keyerror_counterexample :
    (getCacheInfo .noCaches []).2 = .error .pyKeyError ∧
      (getCacheInfo (.caches [[("level".toList, .num 2)]]) []).2 = .error .pyKeyError :=
  ⟨rfl, by decide +kernel⟩

end Verif.CacheInfo
