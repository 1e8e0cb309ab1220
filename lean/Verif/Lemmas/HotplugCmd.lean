import Verif.Props.HotplugCmdSpec
import Verif.Props.OpTarget
import Verif.Lemmas.Trivial

/-!
Lemmas for C92: parsing of the options, and what they select.
-/

namespace Verif.HotplugCmd

open CPUInfo (Info Nums WF CpuWith)
open CPUOnline (Env St)
open OpTarget (Args UnitArg Given Picks UnitGiven UnitNumbers PicksUnit Nothing PkgScope Selected PerPackage
  ValidUnits Valid)

/-! ### Lists of numbers -/

theorem mem_intRange {a b x : Int} : x ∈ Trivial.intRange a b ↔ a ≤ x ∧ x ≤ b := by
  unfold Trivial.intRange
  simp only [List.mem_map, List.mem_range]
  constructor
  · rintro ⟨k, h, rfl⟩; omega
  · rintro ⟨h1, h2⟩; exact ⟨(x - a).toNat, by omega, by omega⟩

theorem parseElt_item {it : Item} (h : it.Ok) :
    ∃ L, Trivial.parseElt it.text = .ok L ∧ L ≠ [] ∧ ∀ n, n ∈ L.map Int.toNat ↔ it.Has n := by
  cases it with
  | one m => exact ⟨_, Trivial.parseElt_ofNat m, by simp, fun n => by simp [Item.Has]⟩
  | range a b =>
    have hab : a ≤ b := h
    refine ⟨_, Trivial.parseElt_range a b hab, ?_, fun n => ?_⟩
    · intro e
      have : (a : Int) ∈ Trivial.intRange a b := mem_intRange.2 ⟨by omega, by omega⟩
      rw [e] at this
      cases this
    · simp only [List.mem_map, mem_intRange, Item.Has]
      constructor
      · rintro ⟨x, ⟨h1, h2⟩, rfl⟩; omega
      · rintro ⟨h1, h2⟩; exact ⟨n, ⟨by omega, by omega⟩, by omega⟩

theorem parseElts_items (xs : List PyStr) (h : ∀ x ∈ xs, ∃ it : Item, it.Ok ∧ x = it.text) :
    ∃ L, Trivial.parseElts xs = .ok L ∧ (xs ≠ [] → L ≠ []) ∧
      ∀ n, n ∈ L.map Int.toNat ↔ ∃ it : Item, it.Ok ∧ it.text ∈ xs ∧ it.Has n := by
  induction xs with
  | nil => exact ⟨[], rfl, fun h => absurd rfl h, fun n => by simp⟩
  | cons x xs ih =>
    obtain ⟨L, h1, -, h2⟩ := ih (fun y hy => h y (List.mem_cons_of_mem _ hy))
    obtain ⟨it, hok, rfl⟩ := h x (List.mem_cons_self ..)
    obtain ⟨M, g1, g2, g3⟩ := parseElt_item hok
    refine ⟨M ++ L, by simp only [Trivial.parseElts, g1, h1], fun _ => ?_, fun n => ?_⟩
    · cases M with
      | nil => exact absurd rfl g2
      | cons y M => simp
    · rw [List.map_append, List.mem_append, g3, h2]
      constructor
      · rintro (h | ⟨it', a, b, c⟩)
        · exact ⟨it, hok, List.mem_cons_self .., h⟩
        · exact ⟨it', a, List.mem_cons_of_mem _ b, c⟩
      · rintro ⟨it', a, b, c⟩
        rcases List.mem_cons.1 b with b | b
        · left
          obtain ⟨M', k1, -, k3⟩ := parseElt_item a
          rw [b, g1] at k1
          cases k1
          exact (g3 n).1 ((k3 n).2 c)
        · exact .inr ⟨it', a, b, c⟩

theorem plain_item (it : Item) : Trivial.Plain it.text := by
  cases it with
  | one n => exact ⟨PyStr.ofNat_ne_nil n, fun c hc => .inl (PyStr.ofNat_digits n c hc)⟩
  | range a b =>
    refine ⟨by simp [Item.text], fun c hc => ?_⟩
    rcases List.mem_append.1 hc with hc | hc
    · exact .inl (PyStr.ofNat_digits a c hc)
    · rcases List.mem_cons.1 hc with rfl | hc
      · exact .inr rfl
      · exact .inl (PyStr.ofNat_digits b c hc)

theorem pyDedup_ne_nil {α : Type} [DecidableEq α] {l : List α} (h : l ≠ []) : pyDedup l ≠ [] := by
  cases l with
  | nil => exact absurd rfl h
  | cons x l =>
    intro e
    have : x ∈ pyDedup (x :: l) := mem_pyDedup.2 (List.mem_cons_self ..)
    rw [e] at this
    cases this

theorem parse_all : Trivial.parseIntList ["all".toList] ',' true = .error .badFormat := by decide +kernel

/-- A list of numbers is parsed to these numbers. -/
theorem numsText_lists {text : PyStr} {l : List Nat} (h : Lists text l) :
    ∃ l', numsText text = .ok (.nums l') ∧ l' ≠ [] ∧ ∀ n, n ∈ l' ↔ n ∈ l := by
  obtain ⟨items, hne, hok, htext, hl⟩ := h
  have hplain : ∀ p ∈ items.map Item.text, Trivial.Plain p := by
    intro p hp
    obtain ⟨it, -, rfl⟩ := List.mem_map.1 hp
    exact plain_item it
  obtain ⟨L, h1, h2, h3⟩ := parseElts_items (pyDedup (items.map Item.text)) (by
    intro x hx
    obtain ⟨it, hit, rfl⟩ := List.mem_map.1 (mem_pyDedup.1 hx)
    exact ⟨it, hok it hit, rfl⟩)
  have hp : Trivial.parseIntList [text] ',' true = .ok L := by
    unfold Trivial.parseIntList Trivial.splitCsvLineInt
    rw [show PyStr.joinC ',' [text] = text from rfl, htext, Trivial.splitCsvLine_join hplain true, if_pos rfl, h1]
  have hnot : text ≠ "all".toList := by
    intro e
    rw [e, parse_all] at hp
    cases hp
  refine ⟨L.map Int.toNat, by rw [numsText, if_neg hnot, hp], ?_, fun n => ?_⟩
  · intro e
    exact h2 (pyDedup_ne_nil (by simpa using hne)) (List.map_eq_nil_iff.1 e)
  · rw [h3, hl]
    constructor
    · rintro ⟨it, a, b, c⟩
      obtain ⟨it', hit, e⟩ := List.mem_map.1 (mem_pyDedup.1 b)
      refine ⟨it', hit, ?_⟩
      obtain ⟨M, k1, -, k3⟩ := parseElt_item a
      obtain ⟨M', g1, -, g3⟩ := parseElt_item (hok it' hit)
      rw [e, k1] at g1
      cases g1
      exact (g3 n).1 ((k3 n).2 c)
    · rintro ⟨it, hit, c⟩
      exact ⟨it, hok it hit, mem_pyDedup.2 (List.mem_map_of_mem hit), c⟩

theorem lists_ne_nil {text : PyStr} {l : List Nat} (h : Lists text l) : text.isEmpty = false ∧ l ≠ [] := by
  obtain ⟨l', h1, h2, h3⟩ := numsText_lists h
  constructor
  · cases text with
    | nil =>
      rw [show numsText [] = .ok (.nums []) by decide +kernel] at h1
      cases h1
      exact absurd rfl h2
    | cons c s => rfl
  · intro e
    cases l' with
    | nil => exact h2 rfl
    | cons x l' =>
      have := (h3 x).1 (List.mem_cons_self ..)
      rw [e] at this
      cases this

/-! ### Options with the same meaning -/

/-- The same numbers. -/
def SameN : Option Nums → Option Nums → Prop
  | none, n => n = none
  | some .all, n => n = some .all
  | some (.nums l), n => ∃ l', n = some (.nums l') ∧ ∀ x, x ∈ l' ↔ x ∈ l

/-- The same options. -/
structure Same (a a' : Args) : Prop where
  cpus : SameN a.cpus a'.cpus
  modules : SameN a.modules a'.modules
  packages : SameN a.packages a'.packages
  cores : ∃ n n', a.cores = toUnit n ∧ a'.cores = toUnit n' ∧ SameN n n'
  dies : ∃ n n', a.dies = toUnit n ∧ a'.dies = toUnit n' ∧ SameN n n'
  coreSib : ∀ x, x ∈ a'.coreSib ↔ x ∈ a.coreSib
  modSib : ∀ x, x ∈ a'.modSib ↔ x ∈ a.modSib
  off : a'.offlineOk = a.offlineOk

theorem ne_nil_congr {l l' : List Nat} (h : ∀ x, x ∈ l' ↔ x ∈ l) : l' ≠ [] ↔ l ≠ [] := by
  cases l <;> cases l' <;> simp_all
  · rename_i a l
    exact absurd (h a) (by simp)
  · rename_i a l
    exact absurd (h a) (by simp)

theorem SameN.given {n n' : Option Nums} (h : SameN n n') : Given n' ↔ Given n := by
  rcases n with _ | _ | l
  · cases h; rfl
  · cases h; rfl
  · obtain ⟨l', rfl, h⟩ := h
    exact ne_nil_congr h

theorem SameN.picks {n n' : Option Nums} (h : SameN n n') (x : Nat) : Picks n' x ↔ Picks n x := by
  rcases n with _ | _ | l
  · cases h; rfl
  · cases h; rfl
  · obtain ⟨l', rfl, h⟩ := h
    exact h x

theorem SameN.requested {n n' : Option Nums} (h : SameN n n') (i : Info) (off : Bool) (c : Nat) :
    (∃ m, n' = some m ∧ CPUInfo.Requested i off m c) ↔ ∃ m, n = some m ∧ CPUInfo.Requested i off m c := by
  rcases n with _ | _ | l
  · cases h; rfl
  · cases h; rfl
  · obtain ⟨l', rfl, h⟩ := h
    constructor
    · rintro ⟨m, e, r⟩
      cases e
      exact ⟨_, rfl, (h c).1 r⟩
    · rintro ⟨m, e, r⟩
      cases e
      exact ⟨_, rfl, (h c).2 r⟩

theorem SameN.nums {n n' : Option Nums} (h : SameN n n') (P : Nat → Prop) :
    (∀ l, n' = some (.nums l) → ∀ x ∈ l, P x) ↔ ∀ l, n = some (.nums l) → ∀ x ∈ l, P x := by
  rcases n with _ | _ | l
  · cases h; rfl
  · cases h; rfl
  · obtain ⟨l', rfl, h⟩ := h
    constructor
    · intro H k e x hx
      cases e
      exact H _ rfl x ((h x).2 hx)
    · intro H k e x hx
      cases e
      exact H _ rfl x ((h x).1 hx)

theorem SameN.unitGiven {n n' : Option Nums} (h : SameN n n') : UnitGiven (toUnit n') ↔ UnitGiven (toUnit n) := by
  rcases n with _ | _ | l
  · cases h; rfl
  · cases h; rfl
  · obtain ⟨l', rfl, h⟩ := h
    exact ne_nil_congr h

theorem unitNumbers_toUnit (n : Option Nums) : UnitNumbers (toUnit n) ↔ UnitGiven (toUnit n) := by
  cases n <;> rfl

theorem SameN.all {n n' : Option Nums} (h : SameN n n') :
    toUnit n' = .nums .all ↔ toUnit n = .nums .all := by
  rcases n with _ | _ | l
  · cases h; rfl
  · cases h; rfl
  · obtain ⟨l', rfl, h⟩ := h
    simp [toUnit]

variable {a a' : Args}

theorem Same.nothing (h : Same a a') : Nothing a' ↔ Nothing a := by
  obtain ⟨n, n', e1, e2, hn⟩ := h.cores
  obtain ⟨m, m', e3, e4, hm⟩ := h.dies
  unfold Nothing
  rw [h.cpus.given, h.modules.given, h.packages.given, e1, e2, e3, e4, hn.unitGiven, hm.unitGiven]

theorem Same.scope (h : Same a a') (p : Nat) : PkgScope a' p ↔ PkgScope a p := by
  unfold PkgScope
  rw [h.packages.given, h.packages.picks]

theorem Same.picksUnit (h : Same a a') {n n' : Option Nums} (hn : SameN n n') (p u : Nat) :
    PicksUnit a' (toUnit n') p u ↔ PicksUnit a (toUnit n) p u := by
  rcases n with _ | m
  · cases hn; exact Iff.rfl
  · have := hn.picks u
    cases n' with
    | none => cases m with
      | all => cases hn
      | nums l => obtain ⟨l', e, -⟩ := hn; cases e
    | some m' =>
      show Picks (some m') u ∧ PkgScope a' p ↔ Picks (some m) u ∧ PkgScope a p
      rw [this, h.scope]

theorem Same.perPackage (h : Same a a') : PerPackage a' ↔ PerPackage a := by
  obtain ⟨n, n', e1, e2, hn⟩ := h.cores
  obtain ⟨m, m', e3, e4, hm⟩ := h.dies
  unfold PerPackage
  rw [h.packages.given, e1, e2, e3, e4, hn.all, hm.all]

theorem cpuWith_congr {i : Info} {P Q : CPUInfo.TLine → Prop} (h : ∀ t, P t ↔ Q t) (c : Nat) :
    CpuWith i P c ↔ CpuWith i Q c := by
  unfold CpuWith
  simp only [h]

theorem Same.selected (h : Same a a') (i : Info) (c : Nat) : Selected i a' c ↔ Selected i a c := by
  obtain ⟨n, n', e1, e2, hn⟩ := h.cores
  obtain ⟨m, m', e3, e4, hm⟩ := h.dies
  unfold Selected OpTarget.Union
  rw [h.nothing, h.off, h.cpus.requested, ne_nil_congr h.coreSib, ne_nil_congr h.modSib,
    cpuWith_congr (P := fun t => PicksUnit a' a'.cores t.package t.core)
      (Q := fun t => PicksUnit a (toUnit n) t.package t.core)
      (fun t => by rw [e2]; exact h.picksUnit hn t.package t.core),
    cpuWith_congr (P := fun t => Picks a'.modules t.module) (fun t => h.modules.picks t.module),
    cpuWith_congr (P := fun t => PicksUnit a' a'.dies t.package t.die)
      (Q := fun t => PicksUnit a (toUnit m) t.package t.die)
      (fun t => by rw [e4]; exact h.picksUnit hm t.package t.die),
    cpuWith_congr (P := fun t => Picks a'.packages t.package) (fun t => h.packages.picks t.package),
    e1, e2, e3, e4, unitNumbers_toUnit, unitNumbers_toUnit, unitNumbers_toUnit, unitNumbers_toUnit, hn.unitGiven,
    hm.unitGiven,
    cpuWith_congr (P := fun t => CPUInfo.position i (fun b => [b.core, b.package]) t ∈ a'.coreSib)
      (fun t => h.coreSib _),
    cpuWith_congr (P := fun t => CPUInfo.position i (fun b => [b.module]) t ∈ a'.modSib) (fun t => h.modSib _)]

theorem Same.validUnits (h : Same a a') {n n' : Option Nums} (hn : SameN n n') (i : Info) (lvl : CPUInfo.Level) :
    ValidUnits i a' lvl (toUnit n') ↔ ValidUnits i a lvl (toUnit n) := by
  rcases n with _ | _ | l
  · cases hn; exact Iff.rfl
  · cases hn; exact Iff.rfl
  · obtain ⟨l', rfl, hl⟩ := hn
    show (∀ u ∈ l', _) ↔ ∀ u ∈ l, _
    simp only [h.perPackage, h.scope, hl]

theorem Same.valid (h : Same a a') (i : Info) : Valid i a' ↔ Valid i a := by
  obtain ⟨n, n', e1, e2, hn⟩ := h.cores
  obtain ⟨m, m', e3, e4, hm⟩ := h.dies
  unfold Valid
  rw [h.off, h.cpus.nums (fun c => c ∈ (if a.offlineOk = true then i.present else i.online)),
    h.modules.nums (OpTarget.ModEx i), h.packages.nums (OpTarget.PkgEx i), e1, e2, e3, e4,
    h.validUnits hn, h.validUnits hm]

/-! ### From texts to options -/

theorem optNums_means {o : Option PyStr} {n : Option Nums} (h : Means o n) :
    ∃ n', optNums o = .ok n' ∧ SameN n n' := by
  cases o with
  | none => cases h; exact ⟨none, rfl, rfl⟩
  | some text =>
    rcases h with ⟨rfl, rfl⟩ | ⟨l, rfl, h⟩
    · exact ⟨some .all, by decide +kernel, rfl⟩
    · obtain ⟨l', h1, h2, h3⟩ := numsText_lists h
      refine ⟨some (.nums l'), ?_, l', rfl, h3⟩
      unfold optNums
      dsimp only
      rw [if_neg (by rw [(lists_ne_nil h).1]; exact Bool.false_ne_true), h1]
      cases l' with
      | nil => exact absurd rfl h2
      | cons x l' => rfl

theorem optSib_means {o : Option PyStr} {l : List Nat} (h : MeansSib o l) :
    ∃ l', optSib o = .ok l' ∧ ∀ x, x ∈ l' ↔ x ∈ l := by
  cases o with
  | none => cases h; exact ⟨[], rfl, fun _ => Iff.rfl⟩
  | some text =>
    obtain ⟨l', h1, h2, h3⟩ := numsText_lists h
    refine ⟨l', ?_, h3⟩
    unfold optSib
    dsimp only
    rw [if_neg (by rw [(lists_ne_nil h).1]; exact Bool.false_ne_true), h1]

theorem toArgs_written {o : Opts} (h : Written o a) : ∃ a', toArgs o = .ok a' ∧ Same a a' := by
  obtain ⟨h1, ⟨n2, h2, e2⟩, h3, ⟨n4, h4, e4⟩, h5, h6, h7, h8⟩ := h
  obtain ⟨m1, g1, s1⟩ := optNums_means h1
  obtain ⟨m2, g2, s2⟩ := optNums_means h2
  obtain ⟨m3, g3, s3⟩ := optNums_means h3
  obtain ⟨m4, g4, s4⟩ := optNums_means h4
  obtain ⟨m5, g5, s5⟩ := optNums_means h5
  obtain ⟨m6, g6, s6⟩ := optSib_means h6
  obtain ⟨m7, g7, s7⟩ := optSib_means h7
  refine ⟨_, by simp only [toArgs, g1, g2, g3, g4, g5, g6, g7]; rfl, ?_⟩
  exact ⟨s1, s3, s5, ⟨n2, m2, e2, rfl, s2⟩, ⟨n4, m4, e4, rfl, s4⟩, s6, s7, h8.symm⟩

/-! ### The offline command -/

/-- The targeted CPUs are online. -/
theorem selected_online {i : Info} (wf : WF i) (ha : a.offlineOk = false) (hV : Valid i a) {c : Nat}
    (h : Selected i a c) : c ∈ i.online := by
  have key : ∀ {P}, CpuWith i P c → c ∈ i.online := by
    rintro P ⟨h1, t, ht, e, -⟩
    exact (wf.online c).2 ⟨h1, t, ht, e⟩
  rcases h.1 with h | ⟨n, e, h⟩ | h | h | h | h
  · rw [ha] at h
    exact h.2
  · rw [ha] at h
    cases n with
    | all => exact h
    | nums l =>
      have := hV.1 l e c h
      rw [ha] at this
      exact this
  · exact key h
  · exact key h
  · exact key h
  · exact key h.2.2

/-- What the command does with options which mean something. -/
theorem offlineCmd_written {E : Env} {i : Info} (wf : WF i) {o : Opts} (hw : Written o a)
    (hm : a.modSib ≠ [] → OpTarget.ModulesUnique i) (s : St) :
    ((¬ Valid i a ∨ ∀ c, ¬ Selected i a c) ∧ ∃ e, offlineCmd E i o s = (s, .error e)) ∨
    (Valid i a ∧ ∃ r, (∀ c, c ∈ r ↔ Selected i a c) ∧ r ≠ [] ∧
      offlineCmd E i o s = CPUOnline.toggle E (.list r) false (skipUnsupported o) s) := by
  obtain ⟨a', h1, hs⟩ := toArgs_written hw
  have hm' : a'.modSib ≠ [] → OpTarget.ModulesUnique i := fun h => hm ((ne_nil_congr hs.modSib).1 h)
  unfold offlineCmd
  rw [h1]
  dsimp only
  by_cases hV : Valid i a
  · obtain ⟨⟨t, ca⟩, hi⟩ := (OpTarget.C52_accepts i wf a').2 ((hs.valid i).2 hV)
    rw [hi]
    dsimp only
    by_cases hex : ∃ c, Selected i a c
    · obtain ⟨c, hc⟩ := hex
      obtain ⟨r, hr⟩ := OpTarget.C52_finds i wf a' hm' t ca hi [] ⟨c, (hs.selected i c).2 hc⟩
      obtain ⟨k1, -, k3⟩ := OpTarget.C52_cpus_partial i wf a' hm' t ca hi [] r hr
      rw [show OpTarget.calls i t ca [] = ca from rfl] at hr
      rw [hr]
      exact .inr ⟨hV, r, fun c => by rw [k3, hs.selected], k1, rfl⟩
    · have hex' : ∀ c, ¬ Selected i a c := fun c h => hex ⟨c, h⟩
      have := (OpTarget.C52_none i wf a' hm' t ca hi [] (fun ⟨c, h⟩ => hex' c ((hs.selected i c).1 h))).1
      rw [show OpTarget.calls i t ca [] = ca from rfl] at this
      refine .inl ⟨.inr hex', ?_⟩
      rcases this with h | h
      · rw [h]; exact ⟨_, rfl⟩
      · rw [h]; exact ⟨_, rfl⟩
  · rw [OpTarget.C52_refuses i wf a' (fun h => hV ((hs.valid i).1 h))]
    exact .inl ⟨.inl hV, _, rfl⟩

end Verif.HotplugCmd
