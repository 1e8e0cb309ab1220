import Verif.Props.TpmiTextSpec
import Verif.Model.TpmiText
import Verif.Lemmas.PrinterText

/-! Lemmas for C108. -/

namespace Verif.Tpmi.Text

theorem dec_append (s : PyStr) (c : Char) : dec (s ++ [c]) = 10 * dec s + (c.toNat - 48) := by
  unfold dec
  rw [List.foldl_append]
  rfl

theorem dec_ofNat (n : Nat) : dec (PyStr.ofNat n) = n := by
  induction n using Nat.strongRecOn with
  | ind n ih =>
    unfold PyStr.ofNat
    split
    · rename_i h
      show 10 * 0 + ((PyStr.digitC n).toNat - 48) = n
      rw [PyStr.digitC_toNat]
      omega
    · rename_i h
      rw [dec_append, ih (n / 10) (by omega), PyStr.digitC_toNat]
      omega

theorem hexDigit_toNat (n : Nat) : (hexDigit n).toNat = if n % 16 < 10 then 48 + n % 16 else 87 + n % 16 := by
  unfold hexDigit
  have h : n % 16 < 16 := Nat.mod_lt _ (by decide)
  generalize n % 16 = k at *
  have : ∀ k, k < 16 → (if k < 10 then Char.ofNat (48 + k) else Char.ofNat (87 + k)).toNat =
      if k < 10 then 48 + k else 87 + k := by decide +kernel
  exact this k h

theorem hex_append (s : PyStr) (c : Char) :
    hex (s ++ [c]) = 16 * hex s + (if c.toNat ≤ 57 then c.toNat - 48 else c.toNat - 87) := by
  unfold hex
  rw [List.foldl_append]
  rfl

theorem hexDigit_val (n : Nat) :
    (if (hexDigit n).toNat ≤ 57 then (hexDigit n).toNat - 48 else (hexDigit n).toNat - 87) = n % 16 := by
  rw [hexDigit_toNat]
  split <;> split <;> omega

theorem hex_hexDigits (n : Nat) : hex (hexDigits n) = n := by
  induction n using Nat.strongRecOn with
  | ind n ih =>
    unfold hexDigits
    split
    · rename_i h
      have := hex_append [] (hexDigit n)
      rw [List.nil_append, hexDigit_val] at this
      rw [this]
      show 16 * 0 + n % 16 = n
      omega
    · rename_i h
      rw [hex_append, ih (n / 16) (by omega), hexDigit_val]
      omega

theorem hexDigits_ge (n : Nat) : ∀ c ∈ hexDigits n, 48 ≤ c.toNat := by
  induction n using Nat.strongRecOn with
  | ind n ih =>
    have hd : 48 ≤ (hexDigit n).toNat := by
      rw [hexDigit_toNat]
      split <;> omega
    intro c hc
    unfold hexDigits at hc
    split at hc
    · cases List.mem_singleton.1 hc
      exact hd
    · rcases List.mem_append.1 hc with h | h
      · exact ih (n / 16) (by omega) c h
      · cases List.mem_singleton.1 h
        exact hd

theorem not_mem_pyHex (n : Nat) (c : Char) (hc : c.toNat < 48) : c ∉ pyHex n := by
  intro h
  rcases List.mem_cons.1 h with rfl | h
  · exact absurd hc (by decide)
  rcases List.mem_cons.1 h with rfl | h
  · exact absurd hc (by decide)
  · have := hexDigits_ge n c h
    omega

theorem takeWhile_ne {c : Char} {v t : PyStr} (h : c ∉ v) : (v ++ c :: t).takeWhile (· ≠ c) = v := by
  induction v with
  | nil => simp
  | cons x xs ih =>
    have hx : x ≠ c := fun e => h (e ▸ List.mem_cons_self)
    rw [List.cons_append, List.takeWhile_cons_of_pos (by simpa using hx), ih (fun hm => h (List.mem_cons_of_mem _ hm))]

theorem lastWord_eq (n : PyStr) {v : PyStr} (h : ' ' ∉ v) : lastWord (n ++ ": ".toList ++ v) = v := by
  have e : n ++ ": ".toList ++ v = (n ++ [':']) ++ ' ' :: v := by
    rw [List.append_assoc, List.append_assoc]
    rfl
  unfold lastWord
  rw [e, List.reverse_append, List.reverse_cons, List.append_assoc]
  rw [List.singleton_append, takeWhile_ne (by simpa using h), List.reverse_reverse]

theorem nameOf_eq (n : PyStr) {v : PyStr} (h : ' ' ∉ v) : nameOf (n ++ ": ".toList ++ v) = n := by
  unfold nameOf
  rw [lastWord_eq n h]
  have e : (n ++ ": ".toList ++ v).length - v.length - 2 = n.length := by
    rw [List.length_append, List.length_append]
    show n.length + 2 + v.length - v.length - 2 = n.length
    omega
  rw [e, List.append_assoc, List.take_left]

theorem bitsOf_eq (n : PyStr) {b : PyStr} (h : '[' ∉ b) : bitsOf (n ++ "[".toList ++ b ++ "]".toList) = b := by
  unfold bitsOf
  have e : n ++ "[".toList ++ b ++ "]".toList = (n ++ '[' :: b) ++ [']'] := by
    rw [List.append_assoc n]
    rfl
  rw [e, List.dropLast_concat, List.reverse_append, List.reverse_cons, List.append_assoc, List.singleton_append,
    takeWhile_ne (by simpa using h), List.reverse_reverse]

theorem fieldOf_eq (n : PyStr) {b : PyStr} (h : '[' ∉ b) : fieldOf (n ++ "[".toList ++ b ++ "]".toList) = n := by
  unfold fieldOf
  rw [bitsOf_eq n h]
  have e : (n ++ "[".toList ++ b ++ "]".toList).length - b.length - 2 = n.length := by
    rw [List.length_append, List.length_append, List.length_append]
    show n.length + 1 + b.length + 1 - b.length - 2 = n.length
    omega
  rw [e, List.append_assoc, List.append_assoc, List.take_left]

/-! ### Lines of 'pepc tpmi read' -/

theorem readLine_feature (f : PyStr) :
    readLine (spaces 0 ++ "- ".toList ++ "TPMI feature: ".toList ++ f) = .feature f := rfl

theorem readLine_addr (a : PyStr) :
    readLine (spaces 2 ++ "- ".toList ++ "PCI address: ".toList ++ a) = .addr a := rfl

theorem readLine_package (p : Nat) :
    readLine (spaces 2 ++ spaces 2 ++ "Package: ".toList ++ PyStr.ofNat p) = .package p := by
  have : readLine (spaces 2 ++ spaces 2 ++ "Package: ".toList ++ PyStr.ofNat p) = .package (dec (PyStr.ofNat p)) := rfl
  rw [this, dec_ofNat]

theorem readLine_inst (i : Nat) :
    readLine (spaces 4 ++ "- ".toList ++ "Instance: ".toList ++ PyStr.ofNat i) = .inst i := by
  have : readLine (spaces 4 ++ "- ".toList ++ "Instance: ".toList ++ PyStr.ofNat i) = .inst (dec (PyStr.ofNat i)) := rfl
  rw [this, dec_ofNat]

theorem readLine_reg (r : PyStr) (v : Nat) :
    readLine (spaces 6 ++ "- ".toList ++ r ++ ": ".toList ++ pyHex v) = .reg r v := by
  have e : spaces 6 ++ "- ".toList ++ r ++ ": ".toList ++ pyHex v =
      spaces 6 ++ "- ".toList ++ (r ++ ": ".toList ++ pyHex v) := by simp only [List.append_assoc]
  have h : ∀ t, readLine (spaces 6 ++ "- ".toList ++ t) = .reg (nameOf t) (hex ((lastWord t).drop 2)) := fun _ => rfl
  have hs := not_mem_pyHex v ' ' (by decide)
  rw [e, h, nameOf_eq _ hs, lastWord_eq _ hs]
  show Line.reg r (hex (hexDigits v)) = _
  rw [hex_hexDigits]

theorem readLine_field (n : PyStr) {bt : PyStr} (hb : '[' ∉ bt) (v : Nat) :
    readLine (spaces 8 ++ "- ".toList ++ n ++ "[".toList ++ bt ++ "]: ".toList ++ PyStr.ofNat v) = .field n bt v := by
  have e : spaces 8 ++ "- ".toList ++ n ++ "[".toList ++ bt ++ "]: ".toList ++ PyStr.ofNat v =
      spaces 8 ++ "- ".toList ++ ((n ++ "[".toList ++ bt ++ "]".toList) ++ ": ".toList ++ PyStr.ofNat v) := by
    have e2 : "]: ".toList = "]".toList ++ ": ".toList := rfl
    rw [e2]
    simp only [List.append_assoc]
  have h : ∀ t, readLine (spaces 8 ++ "- ".toList ++ t) =
      .field (fieldOf (nameOf t)) (bitsOf (nameOf t)) (dec (lastWord t)) := fun _ => rfl
  have hs : ' ' ∉ PyStr.ofNat v := PyStr.ofNat_not_mem v (.inl (by decide))
  rw [e, h, nameOf_eq _ hs, lastWord_eq _ hs, fieldOf_eq n hb, bitsOf_eq n hb, dec_ofNat]

/-! ### The text of 'pepc tpmi read' -/

section
variable (bits : PyStr → PyStr → PyStr → PyStr)

def regFacts (f a : PyStr) (p i : Nat) (r : PyStr × RegInfo) : List Fact :=
  .reg f a p i r.1 r.2.value ::
    match r.2.fields with
    | none => []
    | some fs => fs.map fun b => .field f a p i r.1 b.1 (bits f r.1 b.1) b.2

def instFacts (f a : PyStr) (p : Nat) (i : Nat × Dict PyStr RegInfo) : List Fact :=
  i.2.flatMap (regFacts bits f a p i.1)

def devFacts (f : PyStr) (d : PyStr × DevInfo) : List Fact :=
  d.2.instances.flatMap (instFacts bits f d.1 d.2.package)

def featFacts (f : PyStr × FeatInfo) : List Fact := f.2.flatMap (devFacts bits f.1)

variable {bits} (hb : ∀ f r b, '[' ∉ bits f r b)

/-- Reading a printed list, if every element is read well from headings with `P` and leaves headings with `P`. -/
theorem facts_flatMap {α : Type} (pr : α → List PyStr) (ex : α → List Fact) (P : Heads → Prop)
    (step : ∀ x h rest, P h → ∃ h', P h' ∧ facts h ((pr x).map readLine ++ rest) = ex x ++ facts h' rest) (l : List α) :
    ∀ h rest, P h → ∃ h', P h' ∧ facts h ((l.flatMap pr).map readLine ++ rest) = l.flatMap ex ++ facts h' rest := by
  induction l with
  | nil => exact fun h rest hp => ⟨h, hp, rfl⟩
  | cons x xs ih =>
    intro h rest hp
    rw [List.flatMap_cons, List.map_append, List.append_assoc]
    obtain ⟨h1, p1, e1⟩ := step x h _ hp
    rw [e1]
    obtain ⟨h2, p2, e2⟩ := ih h1 rest p1
    exact ⟨h2, p2, by rw [e2, List.flatMap_cons, List.append_assoc]⟩

include hb in
theorem facts_fields (f r : PyStr) (fs : Dict PyStr Nat) (h : Heads) (hf : h.f = f) (hr : h.r = r) (rest : List Line) :
    facts h ((fs.map (printField bits f r)).map readLine ++ rest) =
      (fs.map fun b => .field f h.a h.p h.i r b.1 (bits f r b.1) b.2) ++ facts h rest := by
  induction fs with
  | nil => rfl
  | cons b bs ih =>
    rw [List.map_cons, List.map_cons, List.cons_append, List.map_cons, List.cons_append, ← ih]
    unfold printField
    rw [readLine_field b.1 (hb f r b.1) b.2]
    rw [facts, hf, hr]

include hb in
theorem facts_reg (f a : PyStr) (p i : Nat) (r : PyStr × RegInfo) (h : Heads) (rest : List Line)
    (hh : h.f = f ∧ h.a = a ∧ h.p = p ∧ h.i = i) :
    ∃ h', (h'.f = f ∧ h'.a = a ∧ h'.p = p ∧ h'.i = i) ∧
      facts h ((printReg bits f r).map readLine ++ rest) = regFacts bits f a p i r ++ facts h' rest := by
  obtain ⟨h1, h2, h3, h4⟩ := hh
  refine ⟨{ h with r := r.1 }, ⟨h1, h2, h3, h4⟩, ?_⟩
  unfold printReg regFacts
  rw [List.map_cons, readLine_reg, List.cons_append, facts, h1, h2, h3, h4, List.cons_append]
  congr 1
  cases r.2.fields with
  | none => rfl
  | some fs =>
    exact facts_fields hb f r.1 fs ⟨f, a, p, i, r.1⟩ rfl rfl rest

include hb in
theorem facts_inst (f a : PyStr) (p : Nat) (i : Nat × Dict PyStr RegInfo) (h : Heads) (rest : List Line)
    (hh : h.f = f ∧ h.a = a ∧ h.p = p) :
    ∃ h', (h'.f = f ∧ h'.a = a ∧ h'.p = p) ∧
      facts h ((printInst bits f i).map readLine ++ rest) = instFacts bits f a p i ++ facts h' rest := by
  obtain ⟨h1, h2, h3⟩ := hh
  unfold printInst instFacts
  rw [List.map_cons, readLine_inst, List.cons_append, facts]
  obtain ⟨h', ⟨k1, k2, k3, -⟩, e⟩ := facts_flatMap (printReg bits f) (regFacts bits f a p i.1)
    (fun h => h.f = f ∧ h.a = a ∧ h.p = p ∧ h.i = i.1)
    (fun x h rest hp => facts_reg hb f a p i.1 x h rest hp) i.2 { h with i := i.1 } rest ⟨h1, h2, h3, rfl⟩
  exact ⟨h', ⟨k1, k2, k3⟩, e⟩

include hb in
theorem facts_dev (f : PyStr) (d : PyStr × DevInfo) (h : Heads) (rest : List Line) (hf : h.f = f) :
    ∃ h', h'.f = f ∧ facts h ((printDev bits f d).map readLine ++ rest) = devFacts bits f d ++ facts h' rest := by
  unfold printDev devFacts
  rw [List.map_cons, List.map_cons, readLine_addr, readLine_package, List.cons_append, List.cons_append, facts, facts]
  obtain ⟨h', ⟨k1, -⟩, e⟩ := facts_flatMap (printInst bits f) (instFacts bits f d.1 d.2.package)
    (fun h => h.f = f ∧ h.a = d.1 ∧ h.p = d.2.package)
    (fun x h rest hp => facts_inst hb f d.1 d.2.package x h rest hp) d.2.instances
    { h with a := d.1, p := d.2.package } rest ⟨hf, rfl, rfl⟩
  exact ⟨h', k1, e⟩

include hb in
theorem facts_feature (f : PyStr × FeatInfo) (h : Heads) (rest : List Line) :
    ∃ h', True ∧ facts h ((printFeature bits f).map readLine ++ rest) = featFacts bits f ++ facts h' rest := by
  unfold printFeature featFacts
  rw [List.map_cons, readLine_feature, List.cons_append, facts]
  obtain ⟨h', -, e⟩ := facts_flatMap (printDev bits f.1) (devFacts bits f.1) (fun h => h.f = f.1)
    (fun x h rest hp => facts_dev hb f.1 x h rest hp) f.2 { h with f := f.1 } rest rfl
  exact ⟨h', trivial, e⟩

include hb in
theorem readText_print (info : Dict PyStr FeatInfo) : readText (printInfo bits info) = info.flatMap (featFacts bits) := by
  unfold readText printInfo
  obtain ⟨h', -, e⟩ := facts_flatMap (printFeature bits) (featFacts bits) (fun _ => True)
    (fun x h rest _ => facts_feature hb x h rest) info {} [] trivial
  rw [List.append_nil] at e
  rw [e, facts, List.append_nil]

end

/-! ### The dictionary has every key once -/

/-- No key is repeated, at any level. -/
def DevInfo.Keys (d : DevInfo) : Prop :=
  d.instances.keys.Nodup ∧ ∀ i rs, (i, rs) ∈ d.instances → (Dict.keys rs).Nodup ∧
    ∀ r ri, (r, ri) ∈ rs → ∀ fs, ri.fields = some fs → fs.keys.Nodup

def InfoKeys (info : Dict PyStr FeatInfo) : Prop :=
  info.keys.Nodup ∧ ∀ f fi, (f, fi) ∈ info → fi.keys.Nodup ∧ ∀ a d, (a, d) ∈ fi → DevInfo.Keys d

theorem mem_iff_get? {κ β : Type} [DecidableEq κ] {d : Dict κ β} (hd : d.keys.Nodup) (k : κ) (v : β) :
    (k, v) ∈ d ↔ d.get? k = some v := ⟨Dict.get?_of_mem hd, Dict.mem_of_get?⟩

theorem mem_facts_reg {bits : PyStr → PyStr → PyStr → PyStr} {info : Dict PyStr FeatInfo} (hk : InfoKeys info) (f a : PyStr)
    (p i : Nat) (r : PyStr) (v : Nat) :
    Fact.reg f a p i r v ∈ info.flatMap (featFacts bits) ↔ shownAt info f a i r = some (p, v) := by
  unfold shownAt
  simp only [List.mem_flatMap, featFacts, devFacts, instFacts, regFacts, Option.bind_eq_some_iff, Option.map_eq_some_iff]
  constructor
  · rintro ⟨⟨f', fi⟩, hf, ⟨a', d⟩, ha, ⟨i', rs⟩, hi, ⟨r', ri⟩, hr, h⟩
    rcases List.mem_cons.1 h with e | h
    · cases e
      have h1 := hk.2 _ fi hf
      have h2 := h1.2 _ d ha
      have h3 := h2.2 _ rs hi
      exact ⟨fi, (mem_iff_get? hk.1 _ fi).1 hf, d, (mem_iff_get? h1.1 _ d).1 ha, rs, (mem_iff_get? h2.1 _ rs).1 hi, ri,
        (mem_iff_get? h3.1 _ ri).1 hr, rfl⟩
    · exfalso
      dsimp only at h
      split at h
      · cases h
      · obtain ⟨b, -, e⟩ := List.mem_map.1 h
        cases e
  · rintro ⟨fi, hf, d, ha, rs, hi, ri, hr, e⟩
    cases e
    exact ⟨(f, fi), Dict.mem_of_get? hf, (a, d), Dict.mem_of_get? ha, (i, rs), Dict.mem_of_get? hi, (r, ri),
      Dict.mem_of_get? hr, List.mem_cons_self⟩

theorem mem_facts_field {bits : PyStr → PyStr → PyStr → PyStr} {info : Dict PyStr FeatInfo} (hk : InfoKeys info) (f a : PyStr)
    (p i : Nat) (r b bt : PyStr) (v : Nat) :
    Fact.field f a p i r b bt v ∈ info.flatMap (featFacts bits) ↔
      fieldAt info f a i r b = some v ∧ (∃ x, shownAt info f a i r = some (p, x)) ∧ bt = bits f r b := by
  unfold shownAt fieldAt
  simp only [List.mem_flatMap, featFacts, devFacts, instFacts, regFacts, Option.bind_eq_some_iff, Option.map_eq_some_iff]
  constructor
  · rintro ⟨⟨f', fi⟩, hf, ⟨a', d⟩, ha, ⟨i', rs⟩, hi, ⟨r', ri⟩, hr, h⟩
    rcases List.mem_cons.1 h with e | h
    · cases e
    · dsimp only at h
      split at h
      · cases h
      · rename_i fs hfs
        obtain ⟨b', hb', e⟩ := List.mem_map.1 h
        cases e
        have h1 := hk.2 _ fi hf
        have h2 := h1.2 _ d ha
        have h3 := h2.2 _ rs hi
        have h4 := h3.2 _ ri hr fs hfs
        have e1 := (mem_iff_get? hk.1 _ fi).1 hf
        have e2 := (mem_iff_get? h1.1 _ d).1 ha
        have e3 := (mem_iff_get? h2.1 _ rs).1 hi
        have e4 := (mem_iff_get? h3.1 _ ri).1 hr
        exact ⟨⟨fi, e1, d, e2, rs, e3, ri, e4, fs, hfs, (mem_iff_get? h4 b'.1 b'.2).1 hb'⟩,
          ⟨ri.value, fi, e1, d, e2, rs, e3, ri, e4, rfl⟩, rfl⟩
  · rintro ⟨⟨fi, hf, d, ha, rs, hi, ri, hr, fs, hfs, hb⟩, ⟨x, fi', hf', d', ha', rs', hi', ri', hr', e⟩, rfl⟩
    rw [hf] at hf'; cases hf'
    rw [ha] at ha'; cases ha'
    cases e
    refine ⟨(f, fi), Dict.mem_of_get? hf, (a, d), Dict.mem_of_get? ha, (i, rs), Dict.mem_of_get? hi, (r, ri),
      Dict.mem_of_get? hr, List.mem_cons_of_mem _ ?_⟩
    dsimp only
    rw [hfs]
    exact List.mem_map.2 ⟨(b, v), Dict.mem_of_get? hb, rfl⟩


theorem mem_set {κ β : Type} [DecidableEq κ] {d : Dict κ β} {k k' : κ} {v v' : β} (h : (k', v') ∈ d.set k v) :
    (k' = k ∧ v' = v) ∨ (k', v') ∈ d := by
  induction d with
  | nil =>
    cases List.mem_singleton.1 h
    exact .inl ⟨rfl, rfl⟩
  | cons p ps ih =>
    unfold Dict.set at h
    split at h
    · rcases List.mem_cons.1 h with e | h
      · cases e
        exact .inl ⟨rfl, rfl⟩
      · exact .inr (List.mem_cons_of_mem _ h)
    · rcases List.mem_cons.1 h with e | h
      · exact .inr (e ▸ List.mem_cons_self)
      · rcases ih h with h | h
        · exact .inl h
        · exact .inr (List.mem_cons_of_mem _ h)

theorem readFields_keys {E : Env} {f r : PyStr} {x : Nat} (bs : List PyStr) : ∀ (acc out : Dict PyStr Nat),
    acc.keys.Nodup → readFields E f r x bs acc = .ok out → out.keys.Nodup := by
  induction bs with
  | nil =>
    intro acc out h e
    cases e
    exact h
  | cons b bs ih =>
    intro acc out h e
    unfold readFields at e
    split at e
    · exact ih acc out h e
    · split at e
      · cases e
      · exact ih _ out (Dict.nodup_keys_set h _ _) e

def RegsKeys (rs : Dict PyStr RegInfo) : Prop :=
  rs.keys.Nodup ∧ ∀ r ri, (r, ri) ∈ rs → ∀ fs, ri.fields = some fs → fs.keys.Nodup

section
variable {W : Type} {K : Kernel W} {E : Env}

theorem readRegs_keys {f a : PyStr} {i : Nat} {fd : Dict PyStr Reg} {bf : Option (List PyStr)} (rs : List PyStr) :
    ∀ (s s' : St W) (acc out : Dict PyStr RegInfo), RegsKeys acc →
      readRegs K E f a i fd bf rs s acc = (s', .ok out) → RegsKeys out := by
  induction rs with
  | nil =>
    intro s s' acc out h e
    cases e
    exact h
  | cons r rs ih =>
    intro s s' acc out h e
    unfold readRegs at e
    split at e
    · cases e
    · split at e
      · cases e
      · split at e
        · cases e
        · split at e
          · cases e
          · rename_i bfs hbfs
            refine ih _ _ _ _ ⟨Dict.nodup_keys_set h.1 _ _, ?_⟩ e
            intro r' ri' hm fs hfs
            rcases mem_set hm with ⟨-, rfl⟩ | hm
            · dsimp only at hfs
              split at hfs
              · cases hfs
              · cases hfs
                exact readFields_keys _ [] _ List.nodup_nil hbfs
            · exact h.2 _ _ hm _ hfs

theorem readBody_keys {f : PyStr} {fd : Dict PyStr Reg} {rn : List PyStr} {bf : Option (List PyStr)} (t : Triple) (s : St W)
    (info : FeatInfo) (h : info.keys.Nodup ∧ ∀ a d, (a, d) ∈ info → DevInfo.Keys d) :
    (readBody K E f fd rn bf t s info).2.1.keys.Nodup ∧
      ∀ a d, (a, d) ∈ (readBody K E f fd rn bf t s info).2.1 → DevInfo.Keys d := by
  unfold readBody
  dsimp only
  split
  · exact h
  · split
    · exact h
    · rename_i s' regs hr
      refine ⟨Dict.nodup_keys_set h.1 _ _, ?_⟩
      intro a d hm
      rcases mem_set hm with ⟨-, rfl⟩ | hm
      · have hd : DevInfo.Keys ((info.get? t.1).getD ⟨t.2.1, []⟩) := by
          cases hg : info.get? t.1 with
          | none => exact ⟨List.nodup_nil, fun i rs hm => by cases hm⟩
          | some d => exact h.2 _ _ (Dict.mem_of_get? hg)
        refine ⟨Dict.nodup_keys_set hd.1 _ _, ?_⟩
        intro i rs hm
        rcases mem_set hm with ⟨-, rfl⟩ | hm
        · exact readRegs_keys _ s _ [] _ ⟨List.nodup_nil, fun r ri hm => by cases hm⟩ hr
        · exact hd.2 _ _ hm
      · exact h.2 _ _ hm

theorem eachInst_acc {A : Type} {body : Body W A} {P : A → Prop} (hb : ∀ t s acc, P acc → P (body t s acc).2.1) (a : PyStr)
    (p : Nat) (is : List Nat) : ∀ (s : St W) (acc : A), P acc → P (eachInst body a p is s acc).2.1 := by
  induction is with
  | nil => exact fun s acc h => h
  | cons i is ih =>
    intro s acc h
    have hx := hb (a, p, i) s acc h
    unfold eachInst
    split
    · rename_i e
      rw [e] at hx
      exact hx
    · rename_i e
      rw [e] at hx
      exact ih _ _ hx

theorem eachLoop_acc {A : Type} {body : Body W A} {P : A → Prop} (hb : ∀ t s acc, P acc → P (body t s acc).2.1) (f : PyStr)
    (fm : Dict PyStr Nat) (ps : List (PyStr × Nat)) : ∀ (is : Option (List Nat)) (s : St W) (acc : A), P acc →
      P (eachLoop K E body f fm ps is s acc).2.1 := by
  induction ps with
  | nil => exact fun is s acc h => h
  | cons x ps ih =>
    intro is s acc h
    unfold eachLoop
    split
    · exact ih _ _ _ h
    · cases is with
      | some is =>
        dsimp only
        split
        · exact h
        · rename_i s' _
          have hx := eachInst_acc hb x.1 x.2 is s' acc h
          split
          · rename_i e
            rw [e] at hx
            exact hx
          · rename_i e
            rw [e] at hx
            exact ih _ _ _ hx
      | none =>
        dsimp only
        split
        · exact h
        · rename_i s' d _
          have hx := eachInst_acc hb x.1 x.2 d.keys s' acc h
          split
          · rename_i e
            rw [e] at hx
            exact hx
          · rename_i e
            rw [e] at hx
            exact ih _ _ _ hx

theorem forFeature_acc {A : Type} {body : Body W A} {P : A → Prop} (hb : ∀ t s acc, P acc → P (body t s acc).2.1) (f : PyStr)
    (S : Sel) (s : St W) (acc : A) (h : P acc) : P (forFeature K E body f S s acc).2.1 := by
  unfold forFeature
  split
  · exact h
  · split
    · exact h
    · exact eachLoop_acc hb _ _ _ _ _ _ h

theorem readFeature_keys {f : PyStr} {rn bf : Option (List PyStr)} {S : Sel} {s s' : St W} {fi : FeatInfo}
    (h : readFeature K E f rn bf S s = (s', .ok fi)) : fi.keys.Nodup ∧ ∀ a d, (a, d) ∈ fi → DevInfo.Keys d := by
  unfold readFeature at h
  split at h
  · cases h
  · rename_i fd _
    dsimp only at h
    have hx := forFeature_acc (K := K) (E := E) (P := fun i : FeatInfo => i.keys.Nodup ∧ ∀ a d, (a, d) ∈ i → DevInfo.Keys d)
      (fun t s acc hp => readBody_keys (K := K) (E := E) (f := f) (fd := fd) (rn := rn.getD (fd.keys.filter fun r => !reserved r)) (bf := bf)
        t s acc hp) f S s [] ⟨List.nodup_nil, fun a d hm => by cases hm⟩
    split at h
    · cases h
    · rename_i e
      rw [e] at hx
      cases h
      exact hx

theorem readFeatures_keys {rn bf : Option (List PyStr)} {S : Sel} (fs : List PyStr) :
    ∀ (s s' : St W) (acc info : Dict PyStr FeatInfo), InfoKeys acc →
      readFeatures K E rn bf S fs s acc = (s', .ok info) → InfoKeys info := by
  induction fs with
  | nil =>
    intro s s' acc info h e
    cases e
    exact h
  | cons f fs ih =>
    intro s s' acc info h e
    unfold readFeatures at e
    split at e
    · cases e
    · rename_i hf
      refine ih _ _ _ _ ⟨Dict.nodup_keys_set h.1 _ _, ?_⟩ e
      intro f' fi' hm
      rcases mem_set hm with ⟨-, rfl⟩ | hm
      · exact readFeature_keys hf
      · exact h.2 _ _ hm

theorem readCmd_keys {fnames rn bf : Option (List PyStr)} {S : Sel} {s s' : St W} {info : Dict PyStr FeatInfo}
    (h : readCmd K E fnames rn bf S s = (s', .ok info)) : InfoKeys info := by
  unfold readCmd at h
  split at h
  · cases h
  · split at h
    · cases h
    · rename_i e
      split at h
      · cases h
      · cases h
        exact readFeatures_keys _ _ _ [] _ ⟨List.nodup_nil, fun f fi hm => by cases hm⟩ e

end

/-! ### 'pepc tpmi ls' -/

/-- What the reader gets from the text of a list of numbers. -/
def rd (l : List Nat) : List Nat := (PrinterText.ints (PropsYaml.rangifyN l)).getD []

theorem mem_rd (l : List Nat) (i : Nat) : i ∈ rd l ↔ i ∈ l := by
  obtain ⟨r, h, hp⟩ := PrinterText.ints_rangify l
  unfold rd
  rw [h]
  exact hp.mem_iff

theorem dropWhile_spaces (n : Nat) {c : Char} (hc : c ≠ ' ') (t : PyStr) : (spaces n ++ c :: t).dropWhile (· == ' ') = c :: t := by
  induction n with
  | zero => exact List.dropWhile_cons_of_neg (by simpa using hc)
  | succ n ih => exact ih

theorem unindent_dash (n : Nat) (t : PyStr) : unindent (spaces n ++ "- ".toList ++ t) = t := by
  have e : spaces n ++ "- ".toList ++ t = spaces n ++ '-' :: ' ' :: t := by rw [List.append_assoc]; rfl
  unfold unindent
  rw [e, dropWhile_spaces n (by decide)]
  rfl

theorem unindent_pkg (n : Nat) (t : PyStr) : unindent (spaces n ++ "Package: ".toList ++ t) = "Package: ".toList ++ t := by
  have e : spaces n ++ "Package: ".toList ++ t = spaces n ++ 'P' :: ("ackage: ".toList ++ t) := by rw [List.append_assoc]; rfl
  unfold unindent
  rw [e, dropWhile_spaces n (by decide)]
  rfl

theorem unindent_inst (n : Nat) (t : PyStr) : unindent (spaces n ++ "Instances: ".toList ++ t) = "Instances: ".toList ++ t := by
  have e : spaces n ++ "Instances: ".toList ++ t = spaces n ++ 'I' :: ("nstances: ".toList ++ t) := by
    rw [List.append_assoc]; rfl
  unfold unindent
  rw [e, dropWhile_spaces n (by decide)]
  rfl

theorem spaces_add (m n : Nat) : spaces m ++ spaces n = spaces (m + n) := List.replicate_append_replicate

theorem lsFacts_addr (h : LsHeads) (n : Nat) (a : PyStr) (rest : List PyStr) :
    lsFacts h ((spaces (n + 3) ++ "- ".toList ++ "PCI address: ".toList ++ a) :: rest) = lsFacts { h with a := a } rest := by
  have e : spaces (n + 3) ++ "- ".toList ++ "PCI address: ".toList ++ a =
      spaces (n + 3) ++ "- ".toList ++ ("PCI address: ".toList ++ a) := by rw [List.append_assoc]
  rw [e]
  have h1 : after " - ".toList (spaces (n + 3) ++ "- ".toList ++ ("PCI address: ".toList ++ a)) = none := rfl
  have h2 : after "Unknown ".toList (spaces (n + 3) ++ "- ".toList ++ ("PCI address: ".toList ++ a)) = none := rfl
  have h3 : after "PCI address: ".toList ("PCI address: ".toList ++ a) = some a := rfl
  conv => lhs; unfold lsFacts
  rw [h1, h2, unindent_dash, h3]
  rfl

theorem lsFacts_pkg (h : LsHeads) (n p : Nat) (rest : List PyStr) :
    lsFacts h ((spaces (n + 3) ++ "Package: ".toList ++ PyStr.ofNat p) :: rest) = lsFacts { h with p := p } rest := by
  have key : ∀ t, lsFacts h ((spaces (n + 3) ++ "Package: ".toList ++ t) :: rest) = lsFacts { h with p := dec t } rest := by
    intro t
    have h1 : after " - ".toList (spaces (n + 3) ++ "Package: ".toList ++ t) = none := rfl
    have h2 : after "Unknown ".toList (spaces (n + 3) ++ "Package: ".toList ++ t) = none := rfl
    have h3 : after "PCI address: ".toList ("Package: ".toList ++ t) = none := rfl
    have h4 : after "Package: ".toList ("Package: ".toList ++ t) = some t := rfl
    conv => lhs; unfold lsFacts
    rw [h1, h2, unindent_pkg, h3, h4]
    rfl
  rw [key, dec_ofNat]

theorem lsFacts_inst (h : LsHeads) (n : Nat) (l : List Nat) (rest : List PyStr) :
    lsFacts h ((spaces (n + 3) ++ "Instances: ".toList ++ PropsYaml.rangifyN l) :: rest) =
      (rd l).map (.inst h.f h.a h.p) ++ lsFacts h rest := by
  have key : ∀ t, lsFacts h ((spaces (n + 3) ++ "Instances: ".toList ++ t) :: rest) =
      ((PrinterText.ints t).getD []).map (.inst h.f h.a h.p) ++ lsFacts h rest := by
    intro t
    have h1 : after " - ".toList (spaces (n + 3) ++ "Instances: ".toList ++ t) = none := rfl
    have h2 : after "Unknown ".toList (spaces (n + 3) ++ "Instances: ".toList ++ t) = none := rfl
    have h3 : after "PCI address: ".toList ("Instances: ".toList ++ t) = none := rfl
    have h4 : after "Package: ".toList ("Instances: ".toList ++ t) = none := rfl
    have h5 : after "Instances: ".toList ("Instances: ".toList ++ t) = some t := rfl
    conv => lhs; unfold lsFacts
    rw [h1, h2, unindent_inst, h3, h4, h5]
    rfl
  exact key _

theorem lsFacts_addrs (p : Nat) (devs : Dict PyStr (List Nat)) (as : List PyStr) :
    ∀ (n : Nat) (h : LsHeads) (rest : List PyStr), ∃ h' : LsHeads, h'.unk = h.unk ∧ h'.f = h.f ∧
      lsFacts h (lsAddrs p devs as (spaces (n + 3) ++ "- ".toList) (spaces (n + 5)) ++ rest) =
        (as.flatMap fun a => (rd ((devs.get? a).getD [])).map (.inst h.f a p)) ++ lsFacts h' rest := by
  induction as with
  | nil => exact fun n h rest => ⟨h, rfl, rfl, rfl⟩
  | cons a as ih =>
    intro n h rest
    unfold lsAddrs
    rw [spaces_add]
    show ∃ h' : LsHeads, h'.unk = h.unk ∧ h'.f = h.f ∧ lsFacts h ((spaces (n + 3) ++ "- ".toList ++ "PCI address: ".toList ++ a) ::
      (spaces (n + 4 + 3) ++ "Package: ".toList ++ PyStr.ofNat p) ::
      (spaces (n + 4 + 3) ++ "Instances: ".toList ++ PropsYaml.rangifyN ((devs.get? a).getD [])) ::
      (lsAddrs p devs as (spaces (n + 2 + 3) ++ "- ".toList) (spaces (n + 2 + 5)) ++ rest)) = _
    rw [lsFacts_addr, lsFacts_pkg, lsFacts_inst]
    obtain ⟨h', k1, k2, e⟩ := ih (n + 2) { h with a := a, p := p } rest
    refine ⟨h', k1, k2, ?_⟩
    rw [e, List.flatMap_cons, List.append_assoc]

/-- What is known after some triples. -/
theorem lsInfo_spec (ts : List Triple) : ∀ (info : Dict Nat (Dict PyStr (List Nat))),
    (∀ p a, (a ∈ (((lsInfo ts info).get? p).getD []).keys ↔ a ∈ ((info.get? p).getD []).keys ∨ ∃ i, (a, p, i) ∈ ts) ∧
      ∀ i, i ∈ ((((lsInfo ts info).get? p).getD []).get? a).getD [] ↔
        i ∈ (((info.get? p).getD []).get? a).getD [] ∨ (a, p, i) ∈ ts) ∧
    ∀ p, p ∈ (lsInfo ts info).keys ↔ p ∈ info.keys ∨ ∃ a i, (a, p, i) ∈ ts := by
  induction ts with
  | nil => intro info; simp [lsInfo]
  | cons t ts ih =>
    obtain ⟨a0, p0, i0⟩ := t
    intro info
    unfold lsInfo
    dsimp only
    obtain ⟨h1, h2⟩ := ih (info.set p0 (((info.get? p0).getD []).set a0
      (if i0 ∈ (((info.get? p0).getD []).get? a0).getD [] then (((info.get? p0).getD []).get? a0).getD []
       else (((info.get? p0).getD []).get? a0).getD [] ++ [i0])))
    refine ⟨?_, ?_⟩
    · intro p a
      obtain ⟨g1, g2⟩ := h1 p a
      by_cases hp : p = p0
      · subst hp
        rw [Dict.get?_set, if_pos rfl, Option.getD_some] at g1 g2
        refine ⟨?_, ?_⟩
        · rw [g1, Dict.mem_keys_set]
          simp only [List.mem_cons, Prod.mk.injEq]
          constructor
          · rintro ((rfl | h) | ⟨i, h⟩)
            · exact .inr ⟨i0, .inl ⟨rfl, trivial, rfl⟩⟩
            · exact .inl h
            · exact .inr ⟨i, .inr h⟩
          · rintro (h | ⟨i, ⟨rfl, -, -⟩ | h⟩)
            · exact .inl (.inr h)
            · exact .inl (.inl rfl)
            · exact .inr ⟨i, h⟩
        · intro i
          rw [g2]
          by_cases ha : a = a0
          · subst ha
            rw [Dict.get?_set, if_pos rfl, Option.getD_some]
            simp only [List.mem_cons, Prod.mk.injEq, true_and]
            split
            · rename_i hin
              constructor
              · rintro (h | h)
                · exact .inl h
                · exact .inr (.inr h)
              · rintro (h | rfl | h)
                · exact .inl h
                · exact .inl hin
                · exact .inr h
            · rw [List.mem_append, List.mem_singleton, or_assoc]
          · rw [Dict.get?_set_ne _ _ (Ne.symm ha)]
            simp only [List.mem_cons, Prod.mk.injEq, ha, false_and, false_or]
      · rw [Dict.get?_set_ne _ _ (Ne.symm hp)] at g1 g2
        simp only [List.mem_cons, Prod.mk.injEq, hp, false_and, and_false, false_or]
        exact ⟨g1, g2⟩
    · intro p
      rw [h2, Dict.mem_keys_set]
      simp only [List.mem_cons, Prod.mk.injEq]
      constructor
      · rintro ((rfl | h) | ⟨a, i, h⟩)
        · exact .inr ⟨a0, i0, .inl ⟨rfl, rfl, rfl⟩⟩
        · exact .inl h
        · exact .inr ⟨a, i, .inr h⟩
      · rintro (h | ⟨a, i, ⟨-, rfl, -⟩ | h⟩)
        · exact .inl (.inr h)
        · exact .inl (.inl rfl)
        · exact .inr ⟨a, i, h⟩

theorem lsFacts_long (ts : List Triple) (h : LsHeads) (rest : List PyStr) : ∃ (ex : List LsFact) (h' : LsHeads), h'.unk = h.unk ∧ h'.f = h.f ∧
    lsFacts h (lsLong ts (spaces 3) ++ rest) = ex ++ lsFacts h' rest ∧
    ∀ x, x ∈ ex ↔ ∃ a p i, x = .inst h.f a p i ∧ (a, p, i) ∈ ts := by
  unfold lsLong
  dsimp only
  have key : ∀ (ps : List Nat) (h : LsHeads), ∃ h' : LsHeads, h'.unk = h.unk ∧ h'.f = h.f ∧
      lsFacts h ((ps.flatMap fun p => lsAddrs p (((lsInfo ts []).get? p).getD [])
        (sortBy CPUIdle.strLe (((lsInfo ts []).get? p).getD []).keys) (spaces 3 ++ "- ".toList) (spaces 3 ++ spaces 2)) ++ rest) =
      (ps.flatMap fun p => (sortBy CPUIdle.strLe (((lsInfo ts []).get? p).getD []).keys).flatMap fun a =>
        (rd (((((lsInfo ts []).get? p).getD []).get? a).getD [])).map (.inst h.f a p)) ++ lsFacts h' rest := by
    intro ps
    induction ps with
    | nil => exact fun h => ⟨h, rfl, rfl, rfl⟩
    | cons p ps ih =>
      intro h
      rw [List.flatMap_cons, List.append_assoc]
      obtain ⟨h1, k1, k2, e1⟩ := lsFacts_addrs p (((lsInfo ts []).get? p).getD [])
        (sortBy CPUIdle.strLe (((lsInfo ts []).get? p).getD []).keys) 0 h
        ((ps.flatMap fun p => lsAddrs p (((lsInfo ts []).get? p).getD [])
        (sortBy CPUIdle.strLe (((lsInfo ts []).get? p).getD []).keys) (spaces 3 ++ "- ".toList) (spaces 3 ++ spaces 2)) ++ rest)
      obtain ⟨h2, l1, l2, e2⟩ := ih h1
      refine ⟨h2, l1.trans k1, l2.trans k2, ?_⟩
      refine e1.trans ?_
      rw [e2, List.flatMap_cons, List.append_assoc, k2]
  obtain ⟨h', k1, k2, e⟩ := key (sortNat (lsInfo ts []).keys) h
  refine ⟨_, h', k1, k2, e, ?_⟩
  obtain ⟨g1, g2⟩ := lsInfo_spec ts []
  intro x
  simp only [List.mem_flatMap, List.mem_map, mem_rd, (sortNat_perm _).mem_iff, (sortBy_perm _ _).mem_iff]
  constructor
  · rintro ⟨p, -, a, -, i, hi, rfl⟩
    rw [(g1 p a).2] at hi
    rcases hi with hi | hi
    · cases hi
    · exact ⟨a, p, i, rfl, hi⟩
  · rintro ⟨a, p, i, rfl, hm⟩
    exact ⟨p, (g2 p).2 (.inr ⟨a, i, hm⟩), a, (g1 p a).1.2 (.inr ⟨i, hm⟩), i, ((g1 p a).2 i).2 (.inr hm), rfl⟩

theorem lsFacts_feature (h : LsHeads) (hu : h.unk = false) {name : PyStr} (hn : ':' ∉ name) (d : PyStr) (rest : List PyStr) :
    lsFacts h ((" - ".toList ++ name ++ ": ".toList ++ d) :: rest) = .feature name d :: lsFacts { h with f := name } rest := by
  have e : " - ".toList ++ name ++ ": ".toList ++ d = " - ".toList ++ (name ++ ':' :: ' ' :: d) := by
    simp only [List.append_assoc]
    rfl
  have h1 : ∀ t, after " - ".toList (" - ".toList ++ t) = some t := fun _ => rfl
  conv => lhs; unfold lsFacts
  rw [e, h1]
  dsimp only
  rw [hu, takeWhile_ne hn]
  have e2 : (name ++ ':' :: ' ' :: d).drop (name.length + 2) = d := by
    rw [List.drop_append]
    have : name.length + 2 - name.length = 2 := by omega
    rw [this, List.drop_of_length_le (by omega)]
    rfl
  rw [e2]
  rfl

/-! ### Lists of hexadecimal numbers -/

theorem splitC_cons_ne {c : Char} {x : Char} (h : x ≠ c) (t : PyStr) {w : PyStr} {l : List PyStr}
    (e : PyStr.splitC c t = w :: l) : PyStr.splitC c (x :: t) = (x :: w) :: l := by
  unfold PyStr.splitC
  rw [e, if_neg h]

theorem hexList_join (l : List Nat) (hl : l ≠ []) : hexList (commaJoin (l.map pyHex)) = l := by
  have hx : ∀ n, hex (((pyHex n).dropWhile (· == ' ')).drop 2) = n := fun n => hex_hexDigits n
  have hy : ∀ n, hex (((' ' :: pyHex n).dropWhile (· == ' ')).drop 2) = n := fun n => hex_hexDigits n
  have nc : ∀ n, ',' ∉ pyHex n := fun n => not_mem_pyHex n ',' (by decide)
  have key : ∀ (l : List Nat), ∀ n, ∃ w ws, PyStr.splitC ',' (commaJoin ((n :: l).map pyHex)) = w :: ws ∧
      w = pyHex n ∧ ws.map (fun w => hex ((w.dropWhile (· == ' ')).drop 2)) = l ∧ True := by
    intro l
    induction l with
    | nil =>
      intro n
      exact ⟨pyHex n, [], PyStr.splitC_of_not_mem (nc n), rfl, rfl, trivial⟩
    | cons m l ih =>
      intro n
      obtain ⟨w, ws, e, rfl, h2, -⟩ := ih m
      refine ⟨pyHex n, (' ' :: pyHex m) :: ws, ?_, rfl, ?_, trivial⟩
      · have e1 : commaJoin ((n :: m :: l).map pyHex) = pyHex n ++ ',' :: ' ' :: commaJoin ((m :: l).map pyHex) := by
          show pyHex n ++ ", ".toList ++ commaJoin ((m :: l).map pyHex) = _
          rw [List.append_assoc]
          rfl
        rw [e1, PyStr.splitC_append (nc n), splitC_cons_ne (by decide) _ e]
      · rw [List.map_cons, h2, hy]
  cases l with
  | nil => exact absurd rfl hl
  | cons n l =>
    obtain ⟨w, ws, e, rfl, h2, -⟩ := key l n
    unfold hexList
    rw [e, List.map_cons, h2, hx]

end Verif.Tpmi.Text
