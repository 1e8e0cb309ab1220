import Verif.Lemmas.Tpmi
import Verif.Props.TpmiSpecFileSpec

/-! Helper lemmas about TPMI spec files. -/

namespace Verif.Tpmi

theorem isUpperStr_iff (s : PyStr) : isUpperStr s = true ↔ Upper s := by
  have h1 : ∀ c : Char, (65 ≤ c.toNat ∧ c.toNat ≤ 90) ↔ ('A' ≤ c ∧ c ≤ 'Z') := fun c => Iff.rfl
  have h2 : ∀ c : Char, (97 ≤ c.toNat ∧ c.toNat ≤ 122) ↔ ('a' ≤ c ∧ c ≤ 'z') := fun c => Iff.rfl
  unfold isUpperStr Upper
  rw [Bool.and_eq_true, List.any_eq_true, Bool.not_eq_true', List.any_eq_false]
  simp only [Bool.and_eq_true, decide_eq_true_eq, h1, h2]

theorem hasKeys_of_check {keys : List PyStr} {y : Yaml} {d : Dict PyStr Yaml} :
    checkKeys keys y = .ok d ↔ y = .dict d ∧ HasKeys d keys := by
  cases y with
  | int n => simp [checkKeys]
  | str s => simp [checkKeys]
  | other => simp [checkKeys]
  | dict d' =>
    unfold checkKeys HasKeys
    dsimp only
    by_cases h1 : d'.any (fun p => !keys.contains p.1) = true
    · rw [if_pos h1]
      refine ⟨(fun h => nomatch h), ?_⟩
      rintro ⟨h, hk⟩
      cases h
      obtain ⟨p, hp, hc⟩ := List.any_eq_true.1 h1
      have := (hk p.1).1 (List.mem_map.2 ⟨p, hp, rfl⟩)
      simp [this] at hc
    · rw [if_neg h1]
      by_cases h2 : keys.any (fun k => (Dict.get? d' k).isNone) = true
      · rw [if_pos h2]
        refine ⟨(fun h => nomatch h), ?_⟩
        rintro ⟨h, hk⟩
        cases h
        obtain ⟨k, hk', hn⟩ := List.any_eq_true.1 h2
        have := (hk k).2 hk'
        rw [Option.isNone_iff_eq_none, Dict.get?_eq_none_iff] at hn
        exact absurd this hn
      · rw [if_neg h2]
        constructor
        · intro h
          cases h
          refine ⟨rfl, fun k => ⟨fun hk => ?_, fun hk => ?_⟩⟩
          · obtain ⟨p, hp, rfl⟩ := List.mem_map.1 hk
            have := List.any_eq_false.1 (Bool.eq_false_iff.2 h1) p hp
            simpa using this
          · have := List.any_eq_false.1 (Bool.eq_false_iff.2 h2) k hk
            rw [Option.isNone_iff_eq_none, Dict.get?_eq_none_iff] at this
            exact Classical.not_not.1 this
        · rintro ⟨h, -⟩
          cases h
          rfl

theorem getKey_ok {d : Dict PyStr Yaml} {k : PyStr} {v : Yaml} : getKey d k = .ok v ↔ d.get? k = some v := by
  unfold getKey
  cases d.get? k <;> simp

theorem checkDesc_ok {y : Yaml} : checkDesc y = .ok () ↔ DescOK y := by
  cases y with
  | int n => simp [checkDesc, DescOK]
  | other => simp [checkDesc, DescOK]
  | str s => simp [checkDesc, DescOK]
  | dict d =>
    simp only [checkDesc, DescOK]
    by_cases h : (Dict.get? d ['\n']).isSome = true
    · rw [if_pos h]
      refine ⟨(fun h => nomatch h), fun hn => ?_⟩
      rw [(Dict.get?_eq_none_iff d _).2 hn] at h
      cases h
    · rw [if_neg h]
      refine ⟨fun _ => ?_, fun _ => rfl⟩
      rw [← Dict.get?_eq_none_iff]
      simpa using h

/-! ### Splitting at colons -/

theorem splitC_cons_self (c : Char) (s : PyStr) : PyStr.splitC c (c :: s) = [] :: PyStr.splitC c s :=
  PyStr.splitC_append (s := []) (by simp)

theorem filter_lstrip (c : Char) (s : PyStr) :
    (PyStr.splitC c (PyStr.lstripBy (· == c) s)).filter (fun p => p ≠ []) =
      (PyStr.splitC c s).filter (fun p => p ≠ []) := by
  induction s with
  | nil => rfl
  | cons a s ih =>
    unfold PyStr.lstripBy at ih ⊢
    by_cases h : a = c
    · subst h
      rw [List.dropWhile_cons_of_pos (by simp), ih, splitC_cons_self]
      simp
    · rw [List.dropWhile_cons_of_neg (by simpa using h)]

theorem splitC_snoc_self (c : Char) (s : PyStr) : PyStr.splitC c (s ++ [c]) = PyStr.splitC c s ++ [[]] := by
  induction s with
  | nil => rw [List.nil_append, splitC_cons_self]; rfl
  | cons a s ih =>
    by_cases h : a = c
    · subst h
      rw [List.cons_append, splitC_cons_self, splitC_cons_self, ih]
      rfl
    · have hne := PyStr.splitC_ne_nil c s
      rw [List.cons_append]
      unfold PyStr.splitC
      rw [if_neg h, if_neg h, ih]
      cases hs : PyStr.splitC c s with
      | nil => exact absurd hs hne
      | cons p ps => rfl

theorem filter_rstrip (c : Char) (s : PyStr) :
    (PyStr.splitC c (PyStr.rstripBy (· == c) s)).filter (fun p => p ≠ []) =
      (PyStr.splitC c s).filter (fun p => p ≠ []) := by
  unfold PyStr.rstripBy
  generalize hr : s.reverse = r
  have hs : s = r.reverse := by rw [← hr, List.reverse_reverse]
  subst hs
  clear hr
  induction r with
  | nil => rfl
  | cons a r ih =>
    by_cases h : a = c
    · subst h
      rw [List.dropWhile_cons_of_pos (by simp), ih, List.reverse_cons, splitC_snoc_self]
      simp
    · rw [List.dropWhile_cons_of_neg (by simpa using h)]

theorem splitCsv_pieces (s : PyStr) (c : Char) : Trivial.splitCsvLine s c false =
    ((PyStr.splitC c s).filter (fun p => p ≠ [])).map PyStr.strip := by
  unfold Trivial.splitCsvLine
  simp only [Bool.false_eq_true, if_false]
  rw [← filter_lstrip c s, ← filter_rstrip c (PyStr.lstripBy _ s)]
  congr 1
  apply List.filter_congr
  intro p _
  cases p <;> simp

theorem strToInt_strip (s : PyStr) : Trivial.strToInt (PyStr.strip s) = Trivial.strToInt s := by
  unfold Trivial.strToInt
  rw [PyStr.strip_idem]

theorem parseBits_ok {y : Yaml} {hi lo : Int} : parseBits y = .ok (hi, lo) ↔
    ∃ t a b, y = .str t ∧ (PyStr.splitC ':' t).filter (fun p => p ≠ []) = [a, b] ∧
      Trivial.strToInt a = .ok hi ∧ Trivial.strToInt b = .ok lo ∧ lo ≤ hi := by
  cases y with
  | int n => simp [parseBits]
  | other => simp [parseBits]
  | dict d => simp [parseBits]
  | str t =>
    unfold parseBits
    dsimp only
    rw [splitCsv_pieces]
    constructor
    · intro h
      cases hp : (PyStr.splitC ':' t).filter (fun p => p ≠ []) with
      | nil => rw [hp] at h; cases h
      | cons a l =>
        cases l with
        | nil => rw [hp] at h; cases h
        | cons b l =>
          cases l with
          | cons c l => rw [hp] at h; cases h
          | nil =>
            rw [hp] at h
            simp only [List.map_cons, List.map_nil, strToInt_strip] at h
            refine ⟨t, a, b, rfl, hp, ?_⟩
            cases ha : Trivial.strToInt a with
            | error e => rw [ha] at h; cases h
            | ok x =>
              cases hb : Trivial.strToInt b with
              | error e => rw [ha, hb] at h; cases h
              | ok y =>
                rw [ha, hb] at h
                dsimp only at h
                split at h
                · cases h
                · cases h
                  exact ⟨rfl, rfl, by omega⟩
    · rintro ⟨t', a, b, he, hp, ha, hb, hle⟩
      cases he
      rw [hp]
      simp only [List.map_cons, List.map_nil, strToInt_strip, ha, hb]
      rw [if_neg (by omega)]

/-! ### Bit fields and registers -/

theorem mkField_ok {hi lo : Nat} (h : lo ≤ hi) : ∃ F, mkField hi lo = .ok F := by
  unfold mkField
  rw [if_neg (by omega)]
  exact ⟨_, rfl⟩

theorem fieldMeans_of {F : FieldDef} {n : PyStr} {G : Field} (hn : n = F.name) (h : mkField F.hi F.lo = .ok G) :
    FieldMeans F (n, G) :=
  ⟨hn, fun v k => testBit_getBitfield h v k, fun _ _ hx k => testBit_setBitfield_of_lt h hx k⟩

theorem formatField_ok {n : PyStr} {y : Yaml} {G : Field} : formatField n y = .ok G ↔
    ∃ F : FieldDef, SaysField (n, y) F ∧ mkField F.hi F.lo = .ok G := by
  constructor
  · intro h
    unfold formatField at h
    split at h
    · cases h
    next hu =>
    have hu : Upper n := (isUpperStr_iff n).1 (by simpa using hu)
    split at h
    · cases h
    next d hd =>
    obtain ⟨rfl, hk⟩ := hasKeys_of_check.1 hd
    split at h
    · cases h
    next s hs =>
    split at h
    · cases h
    next hok =>
    split at h
    · cases h
    next b hb =>
    split at h
    · cases h
    next hi lo hp =>
    obtain ⟨t, a, c, rfl, h1, h2, h3, h4⟩ := parseBits_ok.1 hp
    split at h
    · cases h
    next hneg =>
    refine ⟨⟨n, hi.toNat, lo.toNat⟩, ⟨rfl, hu, d, s, t, rfl, hk, getKey_ok.1 hs, checkDesc_ok.1 hok, getKey_ok.1 hb,
      a, c, h1, ?_, ?_, by dsimp only; omega⟩, h⟩
    · rw [h2]; congr 1; dsimp only; omega
    · rw [h3]; congr 1; dsimp only; omega
  · rintro ⟨F, ⟨hn, hu, d, s, t, he, hk, hs, hok, hb, a, c, h1, h2, h3, h4⟩, hm⟩
    dsimp only at hn he
    subst he
    subst hn
    have hk : HasKeys d [kBits, kDesc] := hk
    have hs : d.get? kDesc = some s := hs
    have hb : d.get? kBits = some (.str t) := hb
    unfold formatField
    rw [(isUpperStr_iff F.name).2 hu]
    rw [if_neg (by decide), hasKeys_of_check.2 ⟨rfl, hk⟩]
    dsimp only
    rw [getKey_ok.2 hs]
    dsimp only
    rw [checkDesc_ok.2 hok]
    dsimp only
    rw [getKey_ok.2 hb]
    dsimp only
    rw [parseBits_ok.2 ⟨t, a, c, rfl, h1, h2, h3, by omega⟩]
    dsimp only
    rw [if_neg (by omega)]
    exact hm

theorem formatFields_sound {fl : List (PyStr × Yaml)} : ∀ {fs : Dict PyStr Field}, formatFields fl = .ok fs →
    ∃ Fs : List FieldDef, Each SaysField fl Fs ∧ Each FieldMeans Fs fs := by
  induction fl with
  | nil => intro fs h; cases h; exact ⟨[], trivial, trivial⟩
  | cons e rest ih =>
    obtain ⟨n, y⟩ := e
    intro fs h
    unfold formatFields at h
    split at h
    · cases h
    next G hG =>
    split at h
    · cases h
    next gs hgs =>
    cases h
    obtain ⟨F, hF, hm⟩ := formatField_ok.1 hG
    obtain ⟨Fs, h1, h2⟩ := ih hgs
    exact ⟨F :: Fs, ⟨hF, h1⟩, fieldMeans_of hF.1 hm, h2⟩

theorem formatFields_complete {fl : List (PyStr × Yaml)} : ∀ {Fs : List FieldDef}, Each SaysField fl Fs →
    ∃ fs, formatFields fl = .ok fs ∧ Each FieldMeans Fs fs := by
  induction fl with
  | nil =>
    intro Fs h
    cases Fs with
    | nil => exact ⟨[], rfl, trivial⟩
    | cons F Fs => exact h.elim
  | cons e rest ih =>
    obtain ⟨n, y⟩ := e
    intro Fs h
    cases Fs with
    | nil => exact h.elim
    | cons F Fs =>
      obtain ⟨hF, hrest⟩ := h
      obtain ⟨gs, hgs, h2⟩ := ih hrest
      have hle : F.lo ≤ F.hi := by
        obtain ⟨-, -, d, s, t, -, -, -, -, -, a, c, -, -, -, h⟩ := hF
        exact h
      obtain ⟨G, hG⟩ := mkField_ok hle
      refine ⟨(n, G) :: gs, ?_, fieldMeans_of hF.1 hG, h2⟩
      unfold formatFields
      rw [formatField_ok.2 ⟨F, hF, hG⟩]
      dsimp only
      rw [hgs]

theorem checkOffset_ok {y : Yaml} {o : Int} : checkOffset y = .ok o ↔ y = .int o ∧ o % 4 = 0 := by
  cases y with
  | str s => simp [checkOffset]
  | other => simp [checkOffset]
  | dict d => simp [checkOffset]
  | int n =>
    unfold checkOffset
    dsimp only
    split
    · next h => exact ⟨(fun h => nomatch h), by rintro ⟨h', h''⟩; cases h'; exact absurd h'' h⟩
    · next h => exact ⟨by rintro h'; cases h'; exact ⟨rfl, by omega⟩, by rintro ⟨h', -⟩; cases h'; rfl⟩

theorem checkWidth_ok {y : Yaml} {w : Nat} : checkWidth y = .ok w ↔ y = .int w ∧ (w = 32 ∨ w = 64) := by
  cases y with
  | str s => simp [checkWidth]
  | other => simp [checkWidth]
  | dict d => simp [checkWidth]
  | int n =>
    unfold checkWidth
    dsimp only
    by_cases h1 : n = 32
    · subst h1
      rw [if_pos rfl]
      constructor
      · intro h; cases h; exact ⟨rfl, .inl rfl⟩
      · rintro ⟨h, -⟩
        have : (32 : Int) = w := by injection h
        have : w = 32 := by omega
        subst this; rfl
    · rw [if_neg h1]
      by_cases h2 : n = 64
      · subst h2
        rw [if_pos rfl]
        constructor
        · intro h; cases h; exact ⟨rfl, .inr rfl⟩
        · rintro ⟨h, -⟩
          have : (64 : Int) = w := by injection h
          have : w = 64 := by omega
          subst this; rfl
      · rw [if_neg h2]
        refine ⟨(fun h => nomatch h), ?_⟩
        rintro ⟨h, hw⟩
        have : n = w := by injection h
        omega

theorem items_ok {y : Yaml} {d : Dict PyStr Yaml} : items y = .ok d ↔ y = .dict d := by
  cases y <;> simp [items]

theorem formatReg_sound {n : PyStr} {y : Yaml} {R : SpecReg} (h : formatReg n y = .ok R) :
    ∃ D : RegDef, SaysReg (n, y) D ∧ RegMeans D (n, R) := by
  unfold formatReg at h
  split at h
  · cases h
  next hu =>
  have hu : Upper n := (isUpperStr_iff n).1 (by simpa using hu)
  split at h
  · cases h
  next d hd =>
  obtain ⟨rfl, hk⟩ := hasKeys_of_check.1 hd
  split at h
  · cases h
  next o ho =>
  split at h
  · cases h
  next off hoff =>
  obtain ⟨rfl, h4⟩ := checkOffset_ok.1 hoff
  split at h
  · cases h
  next w hw =>
  split at h
  · cases h
  next width hwid =>
  obtain ⟨rfl, hw'⟩ := checkWidth_ok.1 hwid
  split at h
  · cases h
  next fl hfl =>
  split at h
  · cases h
  next fl' hfl' =>
  have := items_ok.1 hfl'
  subst this
  split at h
  · cases h
  next fs hfs =>
  cases h
  obtain ⟨Fs, h1, h2⟩ := formatFields_sound hfs
  exact ⟨⟨n, off, width, Fs⟩, ⟨rfl, hu, d, fl', rfl, hk, getKey_ok.1 ho, h4, getKey_ok.1 hw, hw', getKey_ok.1 hfl, h1⟩,
    rfl, rfl, rfl, h2⟩

theorem formatReg_complete {n : PyStr} {y : Yaml} {D : RegDef} (h : SaysReg (n, y) D) :
    ∃ R, formatReg n y = .ok R ∧ RegMeans D (n, R) := by
  obtain ⟨hn, hu, d, fl, he, hk, ho, h4, hw, hw', hfl, hF⟩ := h
  dsimp only at hn he
  subst hn
  subst he
  obtain ⟨fs, hfs, hm⟩ := formatFields_complete hF
  refine ⟨⟨D.offset, D.width, fs⟩, ?_, rfl, rfl, rfl, hm⟩
  have hk : HasKeys d [kFields, kOffset, kWidth] := hk
  have ho : d.get? kOffset = some (.int D.offset) := ho
  have hw : d.get? kWidth = some (.int D.width) := hw
  have hfl : d.get? kFields = some (.dict fl) := hfl
  unfold formatReg
  rw [(isUpperStr_iff D.name).2 hu, if_neg (by decide), hasKeys_of_check.2 ⟨rfl, hk⟩]
  dsimp only
  rw [getKey_ok.2 ho]
  dsimp only
  rw [checkOffset_ok.2 ⟨rfl, h4⟩]
  dsimp only
  rw [getKey_ok.2 hw]
  dsimp only
  rw [checkWidth_ok.2 ⟨rfl, hw'⟩]
  dsimp only
  rw [getKey_ok.2 hfl]
  dsimp only
  rw [items_ok.2 rfl]
  dsimp only
  rw [hfs]

theorem formatRegs_sound {rl : List (PyStr × Yaml)} : ∀ {rs : Dict PyStr SpecReg}, formatRegs rl = .ok rs →
    ∃ Ds : List RegDef, Each SaysReg rl Ds ∧ Each RegMeans Ds rs := by
  induction rl with
  | nil => intro fs h; cases h; exact ⟨[], trivial, trivial⟩
  | cons e rest ih =>
    obtain ⟨n, y⟩ := e
    intro fs h
    unfold formatRegs at h
    split at h
    · cases h
    next G hG =>
    split at h
    · cases h
    next gs hgs =>
    cases h
    obtain ⟨D, hD, hm⟩ := formatReg_sound hG
    obtain ⟨Ds, h1, h2⟩ := ih hgs
    exact ⟨D :: Ds, ⟨hD, h1⟩, hm, h2⟩

theorem formatRegs_complete {rl : List (PyStr × Yaml)} : ∀ {Ds : List RegDef}, Each SaysReg rl Ds →
    ∃ rs, formatRegs rl = .ok rs ∧ Each RegMeans Ds rs := by
  induction rl with
  | nil =>
    intro Ds h
    cases Ds with
    | nil => exact ⟨[], rfl, trivial⟩
    | cons D Ds => exact h.elim
  | cons e rest ih =>
    obtain ⟨n, y⟩ := e
    intro Ds h
    cases Ds with
    | nil => exact h.elim
    | cons D Ds =>
      obtain ⟨hD, hrest⟩ := h
      obtain ⟨gs, hgs, h2⟩ := ih hrest
      obtain ⟨R, hR, hm⟩ := formatReg_complete hD
      refine ⟨(n, R) :: gs, ?_, hm, h2⟩
      unfold formatRegs
      rw [hR]
      dsimp only
      rw [hgs]

theorem hasRegisters_ok {d : Dict PyStr Yaml} {v : Yaml} (h : d.get? kRegisters = some v) :
    hasRegisters (.dict d) = .ok () := by
  unfold hasRegisters
  dsimp only
  rw [h]
  rfl

end Verif.Tpmi
