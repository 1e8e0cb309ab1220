import Verif.Lemmas.FeaturedMSR

/-!
C37: features with named values.
-/

namespace Verif.FeaturedMSR

open Verif.Bits (BitRange InRange width)
open Verif.RegFile (Reg Reg64 EnvWF Uniform)

/-! ### Specification -/

/-- The same text, ignoring the letter case. -/
def SameText (s t : PyStr) : Prop := s.map Char.toLower = t.map Char.toLower

/-- The names of the feature values. -/
def Name (F : Feature) (n : PyStr) : Prop := ∃ c, (n, c) ∈ F.vals

/-- `a` is an alias for `n`. -/
def Alias (F : Feature) (a n : PyStr) : Prop := ∃ al, F.aliases = some al ∧ (a, n) ∈ al

/-- `n` is the canonical name for the spelling `val`. -/
def Means (F : Feature) (val : Val) (n : PyStr) : Prop :=
  match val with
  | .str s => (Name F n ∧ SameText s n) ∨ ∃ a, Alias F a n ∧ SameText s a
  | .bool b => F.isBool = true ∧ Name F n ∧ n = (if b then "on".toList else "off".toList)
  | .int _ => False

/-- A well-formed feature table: no two names have the same code, the codes fit into the field, names and
aliases do not depend on the letter case, every alias stands for a name and is not mistaken for another
name. -/
structure Table (F : Feature) : Prop where
  nonempty : F.vals ≠ []
  field : 0 ≤ F.bits.2 ∧ F.bits.2 ≤ F.bits.1 ∧ F.bits.1 ≤ 63
  range : ∀ p ∈ F.vals, 0 ≤ p.2 ∧ p.2 < 2 ^ width F.bits
  codes : ∀ p ∈ F.vals, ∀ q ∈ F.vals, p.2 = q.2 → p.1 = q.1
  names : ∀ p ∈ F.vals, ∀ q ∈ F.vals, SameText p.1 q.1 → p = q
  aliasOk : ∀ a n, Alias F a n → Name F n
  aliases : ∀ a n b m, Alias F a n → Alias F b m → SameText a b → n = m
  aliasName : ∀ a n m, Alias F a n → Name F m → SameText a m → m = n

/-! ### Proofs -/

theorem get?_exact {F : Feature} (t : Table F) {n : PyStr} {c : Int} (h : (n, c) ∈ F.vals) :
    F.vals.get? n = some c := by
  cases hg : F.vals.get? n with
  | none =>
    rw [Dict.get?_eq_none_iff] at hg
    exact absurd (List.mem_map.2 ⟨_, h, rfl⟩) hg
  | some c' =>
    have := t.names _ (Dict.mem_of_get? hg) _ h rfl
    injection this with _ h; rw [h]

/-- Looking a string up among the names, exact match first. -/
theorem lookup_name {F : Feature} (t : Table F) {s n : PyStr} {c : Int} (h : (n, c) ∈ F.vals)
    (hs : SameText s n) :
    (match F.vals.get? s with
      | some code => (Except.ok (Val.int code) : Except Exn Val)
      | none =>
        match (valsNocase F).get? (lower s) with
        | some code => .ok (.int code)
        | none => .error .error) = .ok (.int c) := by
  cases hg : F.vals.get? s with
  | some c' =>
    have := t.names _ (Dict.mem_of_get? hg) _ h hs
    injection this with _ h
    rw [h]
  | none =>
    dsimp only
    have : (valsNocase F).get? (lower s) = some c := by
      apply rekey_some
      · intro p hp he
        have := t.names p hp _ h (by unfold lower at he; unfold SameText at hs ⊢; rw [he, hs])
        rw [this]
      · exact Or.inr ⟨(n, c), h, hs.symm⟩
    rw [this]

theorem replaceAlias_str {F : Feature} (t : Table F) {s n : PyStr} (h : Means F (.str s) n) :
    ∃ s', replaceAlias F (.str s) = .ok (.str s') ∧ SameText s' n ∧ Name F n := by
  unfold replaceAlias
  have hname : Name F n := by
    rcases h with h | ⟨a, ha, _⟩
    · exact h.1
    · exact t.aliasOk a n ha
  cases hal : F.aliases with
  | none =>
    rcases h with ⟨h1, h2⟩ | ⟨a, ⟨al, ha, _⟩, _⟩
    · exact ⟨s, rfl, h2, h1⟩
    · rw [hal] at ha; cases ha
  | some al =>
    dsimp only
    have key : ∀ b m, (b, m) ∈ al → SameText s b → m = n := by
      intro b m hb hsb
      rcases h with ⟨h1, h2⟩ | ⟨a, ha, hsa⟩
      · exact (t.aliasName b m n ⟨al, hal, hb⟩ h1 (hsb.symm.trans h2)).symm
      · exact t.aliases b m a n ⟨al, hal, hb⟩ ha (hsb.symm.trans hsa)
    cases hg : al.get? s with
    | some m => exact ⟨m, rfl, by rw [key s m (Dict.mem_of_get? hg) rfl]; rfl, hname⟩
    | none =>
      dsimp only
      by_cases hx : ∃ p ∈ al, lower p.1 = lower s
      · obtain ⟨p, hp, hps⟩ := hx
        have : (aliasesNocase al).get? (lower s) = some n := by
          apply rekey_some
          · intro q hq hqs
            exact key q.1 q.2 hq hqs.symm
          · exact Or.inr ⟨p, hp, hps⟩
        rw [this]
        exact ⟨n, rfl, rfl, hname⟩
      · have : (aliasesNocase al).get? (lower s) = none := by
          unfold aliasesNocase
          rw [rekey_none]
          · rfl
          · exact fun p hp he => hx ⟨p, hp, he⟩
        rw [this]
        refine ⟨s, rfl, ?_, hname⟩
        rcases h with h | ⟨a, ⟨al', ha', ha⟩, hsa⟩
        · exact h.2
        · rw [hal] at ha'
          injection ha' with ha'; subst ha'
          exact absurd ⟨(a, n), ha, hsa.symm⟩ hx

theorem normalize_ok {F : Feature} (t : Table F) {val : Val} {n : PyStr} (h : Means F val n)
    (hb : ∀ b, val = .bool b → F.aliases = none) :
    ∃ c, (n, c) ∈ F.vals ∧ normalizeValue F val = .ok (.int c) := by
  unfold normalizeValue
  rw [if_neg (by simpa [List.isEmpty_iff] using t.nonempty)]
  cases val with
  | int _ => exact absurd h (fun h => h)
  | str s =>
    obtain ⟨s', h1, h2, ⟨c, hc⟩⟩ := replaceAlias_str t h
    refine ⟨c, hc, ?_⟩
    rw [h1]
    exact lookup_name t hc h2
  | bool b =>
    obtain ⟨h1, ⟨c, hc⟩, h3⟩ := h
    refine ⟨c, hc, ?_⟩
    unfold replaceAlias
    rw [hb b rfl]
    dsimp only
    have : replaceBool F (.bool b) = .str n := by
      cases b <;> simp [replaceBool, h1, h3]
    rw [this]
    exact lookup_name t hc rfl

/-- C37: a value written by its name, by an alias, in any letter case or as True/False is read back as
the canonical name on every requested CPU; no other bit changes, no register of another CPU changes; the
write succeeds unless the hardware refuses it. Missing for the full claim: True/False for a feature with
aliases, see the counterexample. -/
theorem C37_round_trip_partial (E : RegFile.Env) (w : EnvWF E) (F : Feature) (t : Table F) (val : Val)
    (n : PyStr) (hm : Means F val n) (hb : ∀ b, val = .bool b → F.aliases = none) (cpus : List Nat)
    (hs : ∀ c ∈ cpus, F.supported c = true) (hw : F.writable = true) (R : Reg) (hu : Uniform E R)
    (hR : ∀ c, 0 ≤ R c ∧ R c < 2 ^ 64) :
    ((writeFeature E F val cpus R).2 = .ok () →
      readFeature F cpus (writeFeature E F val cpus R).1 = .ok (cpus.map fun c => (c, .str n))) ∧
    (∀ c, (∀ a ∈ cpus, E.same a c = false) → (writeFeature E F val cpus R).1 c = R c) ∧
    (∀ c (k : Nat), ¬ InRange F.bits k →
      ((writeFeature E F val cpus R).1 c).testBit k = (R c).testBit k) ∧
    ((∀ c ∈ cpus, E.wfail c = none) → (writeFeature E F val cpus R).2 = .ok ()) := by
  obtain ⟨c, hc, hn⟩ := normalize_ok t hm hb
  have e : writeFeature E F val cpus R = RegFile.writeBits E F.bits (.num c) cpus R := by
    unfold writeFeature
    rw [validateSupported_ok hs]
    dsimp only
    rw [hn]
    dsimp only
    rw [hw]
    rfl
  rw [e]
  obtain ⟨_, _, k3, k4, k5, _⟩ := RegFile.writeBits_field E w t.field c cpus R hu hR
  refine ⟨?_, ?_, ?_, ?_⟩
  · intro hok
    rw [readFeature_eq t.field hs]
    apply decodeAll_names F t.nonempty (fun d => HWP.fieldOf _ F.bits) (fun _ => n)
    intro a ha
    rw [HWP.fieldOf_eq t.field (k4 hok a ha a (w.refl a)).2.1]
    apply reverse_some
    · exact fun p hp he => t.codes p hp _ hc he
    · exact Or.inr ⟨_, hc, rfl⟩
  · intro d hd
    rcases k3 d with h | ⟨_, ⟨a, ha, h⟩, _⟩
    · exact h
    · rw [hd a ha] at h; cases h
  · intro d k hk
    rcases k3 d with h | ⟨_, _, h⟩
    · rw [h]
    · exact h.2 k hk
  · exact fun h => k5 h (t.range _ hc).1 (t.range _ hc).2

/-- C37: a text which is no spelling of a name is refused with an error and no register is touched. -/
theorem C37_unknown_refused (E : RegFile.Env) (F : Feature) (t : Table F) (s : PyStr)
    (h : ¬ ∃ n, Means F (.str s) n) (cpus : List Nat) (hs : ∀ c ∈ cpus, F.supported c = true) (R : Reg) :
    writeFeature E F (.str s) cpus R = (R, .error .error) := by
  have h1 : replaceAlias F (.str s) = .ok (.str s) := by
    unfold replaceAlias
    cases hal : F.aliases with
    | none => rfl
    | some al =>
      dsimp only
      cases hg : al.get? s with
      | some m => exact absurd ⟨m, Or.inr ⟨s, ⟨al, hal, Dict.mem_of_get? hg⟩, rfl⟩⟩ h
      | none =>
        dsimp only
        have : (aliasesNocase al).get? (lower s) = none := by
          unfold aliasesNocase
          rw [rekey_none]
          · rfl
          · exact fun p hp he => h ⟨p.2, Or.inr ⟨p.1, ⟨al, hal, hp⟩, he.symm⟩⟩
        rw [this]
  have h2 : F.vals.get? s = none := by
    cases hg : F.vals.get? s with
    | none => rfl
    | some c => exact absurd ⟨s, Or.inl ⟨⟨c, Dict.mem_of_get? hg⟩, rfl⟩⟩ h
  have h3 : (valsNocase F).get? (lower s) = none := by
    unfold valsNocase
    rw [rekey_none]
    · rfl
    · exact fun p hp he => h ⟨p.1, Or.inl ⟨⟨p.2, hp⟩, he.symm⟩⟩
  unfold writeFeature
  rw [validateSupported_ok hs]
  dsimp only
  have : normalizeValue F (.str s) = .error .error := by
    unfold normalizeValue
    rw [if_neg (by simpa [List.isEmpty_iff] using t.nonempty), h1]
    simp only [replaceBool, h2, h3]
  rw [this]

/-- C37: other values which have no meaning, like a number, or True for a feature which is not a boolean
one, are refused as well. -/
theorem C37_bad_type_refused (E : RegFile.Env) (F : Feature) (t : Table F) (val : Val)
    (hv : (∃ k, val = .int k) ∨ (∃ b, val = .bool b ∧ F.isBool = false)) (cpus : List Nat) (R : Reg) :
    ∃ e, writeFeature E F val cpus R = (R, .error e) := by
  unfold writeFeature
  cases validateSupported F cpus with
  | error e => exact ⟨e, rfl⟩
  | ok u =>
    dsimp only
    have : normalizeValue F val = .error .pyAttributeError := by
      unfold normalizeValue
      rw [if_neg (by simpa [List.isEmpty_iff] using t.nonempty)]
      unfold replaceAlias
      rcases hv with ⟨k, rfl⟩ | ⟨b, rfl, hb⟩
      · cases F.aliases <;> rfl
      · cases F.aliases
        · cases b <;> simp [replaceBool, hb]
        · rfl
    rw [this]
    exact ⟨_, rfl⟩

/-- C37: nothing is written if the feature is read-only, or if one of the CPUs does not support it. -/
theorem C37_not_modified (E : RegFile.Env) (F : Feature) (val : Val) (cpus : List Nat)
    (h : F.writable = false ∨ ∃ c ∈ cpus, F.supported c = false) (R : Reg) :
    ∃ e, writeFeature E F val cpus R = (R, .error e) ∧
      ((∃ c ∈ cpus, F.supported c = false) → e = .notSupported) := by
  unfold writeFeature
  by_cases hs : ∃ c ∈ cpus, F.supported c = false
  · rw [validateSupported_error hs]
    exact ⟨_, rfl, fun _ => rfl⟩
  · rcases h with h | h
    · cases validateSupported F cpus with
      | error e => exact ⟨e, rfl, fun h => absurd h hs⟩
      | ok u =>
        dsimp only
        cases normalizeValue F val with
        | error e => exact ⟨e, rfl, fun h => absurd h hs⟩
        | ok v =>
          dsimp only
          rw [h]
          exact ⟨_, rfl, fun h => absurd h hs⟩
    · exact absurd h hs

/-- C37: reading gives the name whose code is in the register, on every requested CPU. A code which is not
in the table makes the whole read fail. -/
theorem C37_read (F : Feature) (t : Table F) (cpus : List Nat) (hs : ∀ c ∈ cpus, F.supported c = true)
    (R : Reg) :
    (∀ g : Nat → PyStr,
      (∀ c ∈ cpus, ∃ v, Bits.getBits (R c) F.bits = .ok v ∧ (g c, v) ∈ F.vals) →
      readFeature F cpus R = .ok (cpus.map fun c => (c, .str (g c)))) ∧
    (∀ c ∈ cpus, (∀ v n, Bits.getBits (R c) F.bits = .ok v → (n, v) ∉ F.vals) →
      readFeature F cpus R = .error .pyKeyError) := by
  rw [readFeature_eq t.field hs]
  constructor
  · intro g hg
    apply decodeAll_names F t.nonempty (fun d => HWP.fieldOf (R d) F.bits) g
    intro c hc
    obtain ⟨v, h1, h2⟩ := hg c hc
    rw [HWP.fieldOf_eq t.field h1]
    exact reverse_some _ _ _ _ (fun p hp he => t.codes p hp _ h2 he) (Or.inr ⟨_, h2, rfl⟩)
  · intro c hc h
    apply decodeAll_error F t.nonempty (fun d => HWP.fieldOf (R d) F.bits)
    refine ⟨c, hc, ?_⟩
    cases hg : (rvals F).get? (HWP.fieldOf (R c) F.bits) with
    | none => rfl
    | some n =>
      rcases reverse_mem _ _ _ _ hg with h' | h'
      · cases h'
      · exact absurd h' (h _ n (HWP.getBits_fieldOf t.field (R c)))

/-- C37: a boolean feature enabled or disabled with `enable_feature()` is reported as such by
`is_feature_enabled()`. -/
theorem C37_enable (E : RegFile.Env) (w : EnvWF E) (F : Feature) (t : Table F) (hbool : F.isBool = true)
    (hon : Name F "on".toList) (hoff : Name F "off".toList) (on : Bool) (cpus : List Nat)
    (hs : ∀ c ∈ cpus, F.supported c = true) (hw : F.writable = true) (R : Reg) (hu : Uniform E R)
    (hR : ∀ c, 0 ≤ R c ∧ R c < 2 ^ 64)
    (hok : (enableFeature E F (.bool on) cpus R).2 = .ok ()) :
    isFeatureEnabled F cpus (enableFeature E F (.bool on) cpus R).1 = .ok (cpus.map fun c => (c, on)) := by
  have key : ∀ n : PyStr, Name F n → (writeFeature E F (.str n) cpus R).2 = .ok () →
      isFeatureEnabled F cpus (writeFeature E F (.str n) cpus R).1 =
        .ok (cpus.map fun c => (c, decide (n = "on".toList ∨ n = "enabled".toList))) := by
    intro n hn hok
    have := (C37_round_trip_partial E w F t (.str n) n (Or.inl ⟨hn, rfl⟩) (fun b h => by cases h) cpus hs hw
      R hu hR).1 hok
    unfold isFeatureEnabled
    rw [validateSupported_ok hs]
    dsimp only
    rw [hbool, if_neg (by simp), this]
    simp [Except.map, Function.comp_def]
  revert hok
  unfold enableFeature
  rw [validateSupported_ok hs]
  dsimp only
  rw [hbool, if_neg (by simp)]
  cases on
  · rw [if_neg (by simp), if_pos (by simp)]
    exact key _ hoff
  · rw [if_pos (by simp)]
    exact key _ hon

/-- C37: `enable_feature()` refuses anything but the documented values, and any use with a feature which
is not a boolean one, without touching a register. -/
theorem C37_enable_refused (E : RegFile.Env) (F : Feature) (val : Val) (cpus : List Nat) (R : Reg)
    (h : F.isBool = false ∨
      (val ∉ [Val.bool true, .int 1, .str "on".toList, .str "enable".toList] ∧
       val ∉ [Val.bool false, .int 0, .str "off".toList, .str "disable".toList])) :
    ∃ e, enableFeature E F val cpus R = (R, .error e) := by
  unfold enableFeature
  cases validateSupported F cpus with
  | error e => exact ⟨e, rfl⟩
  | ok u =>
    dsimp only
    by_cases hb : F.isBool = false
    · rw [hb]
      exact ⟨_, rfl⟩
    · rcases h with h | ⟨h1, h2⟩
      · exact absurd h hb
      · rw [if_neg (by simpa using hb), if_neg (by simpa using h1), if_neg (by simpa using h2)]
        exact ⟨_, rfl⟩

/-! ### Concrete features -/

instance (s t : PyStr) : Decidable (SameText s t) := inferInstanceAs (Decidable (_ = _))

/-- The conditions of `Table` in the form of finite checks. -/
theorem Table.of_checks {F : Feature} (h1 : F.vals ≠ [])
    (h2 : 0 ≤ F.bits.2 ∧ F.bits.2 ≤ F.bits.1 ∧ F.bits.1 ≤ 63)
    (h3 : ∀ p ∈ F.vals, 0 ≤ p.2 ∧ p.2 < 2 ^ width F.bits)
    (h4 : ∀ p ∈ F.vals, ∀ q ∈ F.vals, p.2 = q.2 → p.1 = q.1)
    (h5 : ∀ p ∈ F.vals, ∀ q ∈ F.vals, SameText p.1 q.1 → p = q)
    (h6 : ∀ p ∈ F.aliases.getD [], p.2 ∈ F.vals.map Prod.fst)
    (h7 : ∀ p ∈ F.aliases.getD [], ∀ q ∈ F.aliases.getD [], SameText p.1 q.1 → p.2 = q.2)
    (h8 : ∀ p ∈ F.aliases.getD [], ∀ q ∈ F.vals, SameText p.1 q.1 → q.1 = p.2) : Table F := by
  have hal : ∀ a n, Alias F a n → (a, n) ∈ F.aliases.getD [] := by
    rintro a n ⟨al, h, h'⟩
    rw [h]; exact h'
  refine ⟨h1, h2, h3, h4, h5, ?_, ?_, ?_⟩
  · intro a n h
    obtain ⟨p, hp, hn⟩ := List.mem_map.1 (h6 _ (hal a n h))
    exact ⟨p.2, by rw [show n = p.1 from hn.symm]; exact hp⟩
  · intro a n b m h h' hs
    exact h7 _ (hal a n h) _ (hal b m h') hs
  · rintro a n m h ⟨c, hc⟩ hs
    exact h8 _ (hal a n h) _ hc hs

/-- An on/off feature in one bit, like in pepclibs/msr/HWPRequest.py:53-97, pepclibs/msr/PMEnable.py,
pepclibs/msr/PCStateConfigCtl.py:158-177 and pepclibs/msr/PackagePowerLimit.py (`one` is the code of "on";
0 in pepclibs/msr/MiscFeatureControl.py:57-100). -/
def onOff (bit : Int) (one : Int) : Feature :=
  ⟨(bit, bit), [("on".toList, one), ("off".toList, 1 - one)], none, true, true, fun _ => true⟩

/-- The on/off features meet the conditions. -/
theorem onOff_table (bit : Int) (h0 : 0 ≤ bit) (h1 : bit ≤ 63) (one : Int) (h : one = 0 ∨ one = 1) :
    Table (onOff bit one) := by
  have hw : width (bit, bit) = 1 := by simp [width]
  apply Table.of_checks
  · simp [onOff]
  · exact ⟨h0, by simp [onOff], h1⟩
  · intro p hp
    show 0 ≤ p.2 ∧ p.2 < 2 ^ width (bit, bit)
    rw [hw]
    simp only [onOff, List.mem_cons, List.not_mem_nil, or_false] at hp
    rcases hp with rfl | rfl <;> dsimp only <;> omega
  · intro p hp q hq
    simp only [onOff, List.mem_cons, List.not_mem_nil, or_false] at hp hq
    rcases hp with rfl | rfl <;> rcases hq with rfl | rfl <;> dsimp only <;> intro e <;>
      first | rfl | omega
  · intro p hp q hq
    simp only [onOff, List.mem_cons, List.not_mem_nil, or_false] at hp hq
    rcases hp with rfl | rfl <;> rcases hq with rfl | rfl <;> intro e <;> first | rfl | skip
    · exact absurd e (show ¬ SameText "on".toList "off".toList by decide)
    · exact absurd e (show ¬ SameText "off".toList "on".toList by decide)
  · intro p hp; cases hp
  · intro p hp; cases hp
  · intro p hp; cases hp

/-- Two CPUs sharing the registers and two more. -/
def exEnv : RegFile.Env := ⟨fun a b => a / 2 == b / 2, fun _ => none⟩

theorem exEnvWF : EnvWF exEnv := by
  constructor
  · intro c; simp [exEnv]
  · intro c d h; simp [exEnv] at *; omega
  · intro a b c h h'; simp [exEnv] at *; omega

/-- C37 on a concrete case: "ON" written to the C1 demotion bit of CPU 0. -/
example : ∃ R, Means (onOff 26 1) (.str "ON".toList) "on".toList ∧
    writeFeature exEnv (onOff 26 1) (.str "ON".toList) [0] (fun _ => 7) = (R, .ok ()) ∧
    readFeature (onOff 26 1) [0, 1] R = .ok [(0, .str "on".toList), (1, .str "on".toList)] ∧
    readFeature (onOff 26 1) [2] R = .ok [(2, .str "off".toList)] := by
  refine ⟨(writeFeature exEnv (onOff 26 1) (.str "ON".toList) [0] (fun _ => 7)).1, ?_, ?_, ?_, ?_⟩
  · left
    exact ⟨⟨1, by simp [onOff]⟩, by decide⟩
  · refine Prod.ext rfl ?_
    decide +kernel
  · decide +kernel
  · decide +kernel

example : enableFeature exEnv (onOff 26 1) (.int 2) [0] (fun _ => 7) |>.2 |> (· = .error .error) := by
  decide +kernel

/-- C37: True is not accepted by a boolean feature with aliases, even with an empty table of aliases: the
code calls the `lower()` method of it. -/
theorem C37_bool_alias_counterexample :
    ∃ F : Feature, Table F ∧ Means F (.bool true) "on".toList ∧ F.writable = true ∧
      (∀ c, F.supported c = true) ∧
      ∀ R : Reg, writeFeature exEnv F (.bool true) [0] R = (R, .error .pyAttributeError) := by
  refine ⟨{ onOff 26 1 with aliases := some [] }, ?_, ⟨rfl, ⟨1, by simp [onOff]⟩, rfl⟩, rfl, fun _ => rfl,
    fun R => rfl⟩
  have t := onOff_table 26 (by decide) (by decide) 1 (Or.inr rfl)
  exact ⟨t.nonempty, t.field, t.range, t.codes, t.names,
    (by rintro a n ⟨al, h, h'⟩; cases h; cases h'),
    (by rintro a n b m ⟨al, h, h'⟩; cases h; cases h'),
    (by rintro a n m ⟨al, h, h'⟩; cases h; cases h')⟩

end Verif.FeaturedMSR
