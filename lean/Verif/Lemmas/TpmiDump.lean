import Verif.Model.Tpmi
import Verif.Lemmas.Trivial
import Verif.Lemmas.KernelVersion

/-! The format of the TPMI memory dump and helper lemmas about its parser. -/

namespace Verif.Tpmi

/-! ### Specification: the 'mem_dump' file -/

/-- The hexadecimal digit of `n % 16`. -/
def hexC (n : Nat) : Char := if n % 16 < 10 then Char.ofNat (48 + n % 16) else Char.ofNat (87 + n % 16)

/-- `n` as `k` hexadecimal digits. -/
def hexN : Nat → Nat → PyStr
  | 0, _ => []
  | k + 1, n => hexN k (n / 16) ++ [hexC n]

/-- The number a string of hexadecimal digits stands for. -/
def hexVal (s : PyStr) : Nat :=
  s.foldl (fun a c => 16 * a + (if c.toNat ≤ 57 then c.toNat - 48 else c.toNat - 87)) 0

/-- A non-empty string of hexadecimal digits. -/
def Hex (s : PyStr) : Prop := s ≠ [] ∧ ∀ c ∈ s, c ∈ "0123456789abcdef".toList

/-- A line with `count` words. `hex` is the offset of the first one as it is printed, `old` selects the
format of older kernels: "[00000020]" instead of " 00000020:". -/
structure Row where
  old : Bool
  hex : PyStr
  count : Nat

/-- An instance: its number, the offset printed in the header, the lines. -/
structure Inst where
  num : Nat
  off : PyStr
  rows : List Row

abbrev Layout := List Inst

/-- The offsets of the words of a line. -/
def Row.offsets (r : Row) : List Nat := (List.range r.count).map fun k => hexVal r.hex + 4 * k

/-- The offsets of the words of an instance. -/
def Inst.offsets (x : Inst) : List Nat := x.rows.flatMap Row.offsets

/-- The dump has the word at offset `o` of instance `i`. -/
def Shown (L : Layout) (i o : Nat) : Prop := ∃ x ∈ L, x.num = i ∧ o ∈ x.offsets

/-- The layout of a dump the kernel may print: instances have different numbers, the words of an
instance have different offsets, there is at least one word in a line. -/
def Good (L : Layout) : Prop :=
  (L.map Inst.num).Nodup ∧ ∀ x ∈ L, Hex x.off ∧ x.offsets.Nodup ∧ ∀ r ∈ x.rows, Hex r.hex ∧ 0 < r.count

/-- The text of a line; `m o` is the word at offset `o`. -/
def Row.text (r : Row) (m : Nat → Nat) : PyStr :=
  (if r.old then '[' else ' ') :: (r.hex ++ (if r.old then ']' else ':') ::
    r.offsets.flatMap fun o => ' ' :: hexN 8 (m o))

/-- The text of the header of an instance. -/
def Inst.header (x : Inst) : PyStr :=
  "TPMI Instance:".toList ++ (PyStr.ofNat x.num ++ (" offset:0x".toList ++ x.off))

/-- The lines of an instance. -/
def Inst.text (x : Inst) (m : Nat → Nat → Nat) : List PyStr :=
  x.header :: x.rows.map fun r => r.text (m x.num)

/-- The text of the dump: `m i o` is the word at offset `o` of instance `i`. -/
def render (L : Layout) (m : Nat → Nat → Nat) : PyStr :=
  (L.flatMap fun x => x.text m).flatMap (· ++ ['\n'])

/-! ### Hexadecimal numbers -/

theorem isHex_iff (c : Char) : isHex c = true ↔ (48 ≤ c.toNat ∧ c.toNat ≤ 57) ∨ (97 ≤ c.toNat ∧ c.toNat ≤ 102) := by
  simp [isHex]

theorem mem_hex {c : Char} : c ∈ "0123456789abcdef".toList ↔ isHex c = true := by
  rw [isHex_iff]
  constructor
  · intro h
    have : ∀ c ∈ "0123456789abcdef".toList,
        (48 ≤ c.toNat ∧ c.toNat ≤ 57) ∨ (97 ≤ c.toNat ∧ c.toNat ≤ 102) := by decide +kernel
    exact this c h
  · intro h
    have h1 : c = Char.ofNat c.toNat := (Char.ofNat_toNat c).symm
    have h2 : ∀ n, n < 10 → Char.ofNat (48 + n) ∈ "0123456789abcdef".toList := by decide +kernel
    have h3 : ∀ n, n < 6 → Char.ofNat (97 + n) ∈ "0123456789abcdef".toList := by decide +kernel
    rw [h1]
    rcases h with h | h
    · have := h2 (c.toNat - 48) (by omega)
      rwa [Nat.add_sub_cancel' h.1] at this
    · have := h3 (c.toNat - 97) (by omega)
      rwa [Nat.add_sub_cancel' h.1] at this

theorem Hex.all {s : PyStr} (h : Hex s) : ∀ c ∈ s, isHex c = true := fun c hc => mem_hex.1 (h.2 c hc)

theorem hexC_toNat (n : Nat) : (hexC n).toNat = if n % 16 < 10 then 48 + n % 16 else 87 + n % 16 := by
  unfold hexC
  have h : n % 16 < 16 := Nat.mod_lt _ (by decide)
  generalize n % 16 = k at *
  have : ∀ k, k < 16 → (if k < 10 then Char.ofNat (48 + k) else Char.ofNat (87 + k)).toNat =
      if k < 10 then 48 + k else 87 + k := by decide +kernel
  exact this k h

theorem isHex_hexC (n : Nat) : isHex (hexC n) = true := by
  rw [isHex_iff, hexC_toNat]
  have h : n % 16 < 16 := Nat.mod_lt _ (by decide)
  split <;> omega

theorem length_hexN (k n : Nat) : (hexN k n).length = k := by
  induction k generalizing n with
  | zero => rfl
  | succ k ih => rw [hexN, List.length_append, ih]; rfl

theorem isHex_hexN (k n : Nat) : ∀ c ∈ hexN k n, isHex c = true := by
  induction k generalizing n with
  | zero => intro c hc; cases hc
  | succ k ih =>
    intro c hc
    rw [hexN] at hc
    rcases List.mem_append.1 hc with h | h
    · exact ih _ c h
    · rw [List.mem_singleton] at h; subst h; exact isHex_hexC n

theorem hex_hexN (k n : Nat) : Hex (hexN (k + 1) n) :=
  ⟨by rw [hexN]; simp, fun c hc => mem_hex.2 (isHex_hexN _ _ c hc)⟩

theorem hexVal_hexN (k n : Nat) (h : n < 16 ^ k) : hexVal (hexN k n) = n := by
  induction k generalizing n with
  | zero =>
    have : n = 0 := by simpa using h
    subst this; rfl
  | succ k ih =>
    rw [hexN]
    have h1 := ih (n / 16) (by rw [Nat.div_lt_iff_lt_mul (by decide)]; rwa [Nat.pow_succ] at h)
    unfold hexVal at h1 ⊢
    rw [List.foldl_append, h1]
    simp only [List.foldl_cons, List.foldl_nil, hexC_toNat]
    have h : n % 16 < 16 := Nat.mod_lt _ (by decide)
    split <;> split <;> omega

theorem digitVal_hex {c : Char} (h : isHex c = true) :
    ∃ d, Trivial.digitVal c = some d ∧ d < 16 ∧
      d = if c.toNat ≤ 57 then c.toNat - 48 else c.toNat - 87 := by
  rw [isHex_iff] at h
  unfold Trivial.digitVal
  dsimp only
  rcases h with h | h
  · rw [if_pos h, if_pos h.2]
    exact ⟨_, rfl, by omega, rfl⟩
  · rw [if_neg (by omega), if_pos (by omega), if_neg (by omega)]
    exact ⟨_, rfl, by omega, rfl⟩

theorem parseDigits_hex (s : PyStr) (acc : Nat) (last : Bool) (hs : ∀ c ∈ s, isHex c = true)
    (hl : last = true ∨ s ≠ []) :
    Trivial.parseDigits 16 acc last s =
      some (s.foldl (fun a c => 16 * a + (if c.toNat ≤ 57 then c.toNat - 48 else c.toNat - 87)) acc) := by
  induction s generalizing acc last with
  | nil =>
    rcases hl with h | h
    · subst h; rfl
    · exact absurd rfl h
  | cons c s ih =>
    have hc := hs c List.mem_cons_self
    obtain ⟨d, h1, h2, h3⟩ := digitVal_hex hc
    have hu : c ≠ '_' := by
      intro e
      subst e
      exact absurd hc (by decide)
    rw [Trivial.parseDigits, if_neg hu, h1]
    dsimp only
    rw [if_pos h2, ih _ _ (fun x hx => hs x (List.mem_cons_of_mem _ hx)) (.inl rfl), List.foldl_cons,
      ← h3, Nat.mul_comm]

theorem parse16_hex {s : PyStr} (h : Hex s) : parse16 s = some (hexVal s) := by
  have : parse16 s = Trivial.parseDigits 16 0 false s := by
    unfold parse16
    split
    · rename_i cs
      exact absurd (h.all 'x' (by simp)) (by decide)
    · rename_i cs
      exact absurd (h.all 'X' (by simp)) (by decide)
    · rfl
  rw [this, parseDigits_hex s 0 false h.all (.inr h.1)]
  rfl

theorem not_space_hex {c : Char} (h : isHex c = true) : PyStr.isSpace c = false := by
  rw [isHex_iff] at h
  unfold PyStr.isSpace
  simp only [Bool.or_eq_false_iff, Bool.and_eq_false_iff, decide_eq_false_iff_not, beq_eq_false_iff_ne]
  omega

theorem strip_hex {s : PyStr} (h : Hex s) : PyStr.strip s = s :=
  PyStr.stripBy_of_stripped (PyStr.stripped_of_all fun c hc => not_space_hex (h.all c hc))

theorem strToInt16_hex {s : PyStr} (h : Hex s) : strToInt16 s = .ok (hexVal s : Int) := by
  unfold strToInt16
  rw [strip_hex h]
  dsimp only
  split
  · rename_i v hv
    split at hv
    · exact absurd (h.all '-' (by simp)) (by decide)
    · exact absurd (h.all '+' (by simp)) (by decide)
    · rw [parse16_hex h] at hv
      injection hv with hv
      rw [← hv]
  · rename_i hv
    split at hv
    · exact absurd (h.all '-' (by simp)) (by decide)
    · exact absurd (h.all '+' (by simp)) (by decide)
    · rw [parse16_hex h] at hv
      cases hv

/-! ### Lines -/

theorem splitC_lines (ls : List PyStr) (h : ∀ l ∈ ls, '\n' ∉ l) :
    PyStr.splitC '\n' (ls.flatMap (· ++ ['\n'])) = ls ++ [[]] := by
  induction ls with
  | nil => rfl
  | cons l ls ih =>
    rw [List.flatMap_cons, List.append_assoc, List.singleton_append,
      PyStr.splitC_append (h l List.mem_cons_self), ih (fun x hx => h x (List.mem_cons_of_mem _ hx))]
    rfl

theorem lines_render (ls : List PyStr) (h : ∀ l ∈ ls, '\n' ∉ l) :
    lines (ls.flatMap (· ++ ['\n'])) = ls.map (· ++ ['\n']) := by
  unfold lines
  rw [splitC_lines ls h]
  simp

theorem rstrip_line {l : PyStr} (h : ∀ c, l.getLast? = some c → PyStr.isSpace c = false) :
    PyStr.rstripBy PyStr.isSpace (l ++ ['\n']) = l := by
  unfold PyStr.rstripBy
  rw [List.reverse_append]
  have : (['\n'].reverse ++ l.reverse).dropWhile PyStr.isSpace = l.reverse.dropWhile PyStr.isSpace := by
    rw [List.dropWhile_append_of_pos]
    decide
  rw [this, PyStr.dropWhile_eq_self, List.reverse_reverse]
  intro c hc
  rw [List.head?_reverse] at hc
  exact h c hc

theorem stripPrefix_append (p s : PyStr) : stripPrefix p (p ++ s) = some s := by
  induction p with
  | nil => rfl
  | cons c p ih => rw [List.cons_append, stripPrefix, if_pos rfl, ih]

theorem getLast?_append_hex {a s : PyStr} (h : Hex s) {c : Char} (hc : (a ++ s).getLast? = some c) :
    isHex c = true := by
  rw [List.getLast?_append] at hc
  cases hs : s.getLast? with
  | none => exact absurd (List.getLast?_eq_none_iff.1 hs) h.1
  | some d =>
    rw [hs] at hc
    simp only [Option.some_or, Option.some.injEq] at hc
    subst hc
    exact h.all _ (List.mem_of_mem_getLast? hs)

theorem header_last {x : Inst} (h : Hex x.off) {c : Char} (hc : x.header.getLast? = some c) :
    PyStr.isSpace c = false := by
  unfold Inst.header at hc
  rw [← List.append_assoc, ← List.append_assoc] at hc
  exact not_space_hex (getLast?_append_hex h hc)

theorem matchHeader_header {x : Inst} (h : Hex x.off) : matchHeader x.header = some (PyStr.ofNat x.num) := by
  unfold matchHeader Inst.header
  rw [stripPrefix_append]
  dsimp only
  have e : " offset:0x".toList = ' ' :: "offset:0x".toList := by decide
  rw [KernelVersion.digits_append (KernelVersion.isDigit_ofNat _) (PyStr.ofNat_ne_nil _)
    (s := " offset:0x".toList ++ x.off) (by rw [e]; exact KernelVersion.noDigit_cons (by decide))]
  dsimp only
  rw [stripPrefix_append]
  cases hx : x.off with
  | nil => exact absurd hx h.1
  | cons c s =>
    dsimp only
    rw [if_pos (h.all c (by rw [hx]; exact List.mem_cons_self))]

theorem not_mem_hex {s : PyStr} (h : ∀ c ∈ s, isHex c = true) {d : Char} (hd : isHex d = false) : d ∉ s := by
  intro hm
  rw [h d hm] at hd
  cases hd

theorem header_no_newline {x : Inst} (h : Hex x.off) : '\n' ∉ x.header := by
  unfold Inst.header
  simp only [List.mem_append, not_or]
  exact ⟨by decide, PyStr.ofNat_not_mem _ (by decide), by decide, not_mem_hex h.all (by decide)⟩

theorem flatMap_words {ws : List PyStr} (hne : ws ≠ []) :
    ws.flatMap (fun w => ' ' :: w) = ' ' :: PyStr.joinC ' ' ws := by
  induction ws with
  | nil => exact absurd rfl hne
  | cons w ws ih =>
    cases ws with
    | nil => simp [PyStr.joinC]
    | cons v vs =>
      rw [List.flatMap_cons, ih (by simp)]
      rfl

/-- The words of a line as text. -/
def Row.words (r : Row) (m : Nat → Nat) : List PyStr := r.offsets.map fun o => hexN 8 (m o)

theorem row_text (r : Row) (m : Nat → Nat) (h : 0 < r.count) :
    r.text m = (if r.old then '[' else ' ') :: (r.hex ++ (if r.old then ']' else ':') :: ' ' ::
      PyStr.joinC ' ' (r.words m)) := by
  unfold Row.text
  congr 3
  have hne : r.words m ≠ [] := by
    unfold Row.words Row.offsets
    simp only [ne_eq, List.map_eq_nil_iff, List.range_eq_nil]
    omega
  rw [← flatMap_words hne]
  unfold Row.words
  rw [List.flatMap_map]

theorem row_last (r : Row) (m : Nat → Nat) (h : 0 < r.count) {c : Char} (hc : (r.text m).getLast? = some c) :
    PyStr.isSpace c = false := by
  unfold Row.text Row.offsets at hc
  obtain ⟨n, hn⟩ : ∃ n, r.count = n + 1 := ⟨r.count - 1, by omega⟩
  rw [hn, List.range_succ, List.map_append, List.flatMap_append] at hc
  simp only [List.map_cons, List.map_nil, List.flatMap_cons, List.flatMap_nil, List.append_nil] at hc
  have e : ∀ (a d : Char) (x y : PyStr) (w : PyStr),
      a :: (x ++ d :: (y ++ ' ' :: w)) = (a :: (x ++ d :: (y ++ [' ']))) ++ w := by
    intro a d x y w; simp
  rw [e] at hc
  exact not_space_hex (getLast?_append_hex (hex_hexN 7 _) hc)

theorem row_no_newline {r : Row} (m : Nat → Nat) (hx : Hex r.hex) : '\n' ∉ r.text m := by
  unfold Row.text
  simp only [List.mem_cons, List.mem_append, List.mem_flatMap, not_or]
  refine ⟨by split <;> decide, not_mem_hex hx.all (by decide), by split <;> decide, ?_⟩
  rintro ⟨o, -, h⟩
  rcases h with h | h
  · exact absurd h (by decide)
  · exact not_mem_hex (isHex_hexN _ _) (by decide) h

theorem matchHeader_row (r : Row) (m : Nat → Nat) : matchHeader (r.text m) = none := by
  unfold matchHeader Row.text
  have : stripPrefix "TPMI Instance:".toList ((if r.old then '[' else ' ') :: (r.hex ++
      (if r.old then ']' else ':') :: r.offsets.flatMap fun o => ' ' :: hexN 8 (m o))) = none := by
    have e : "TPMI Instance:".toList = 'T' :: "PMI Instance:".toList := by decide
    rw [e, stripPrefix, if_neg (by split <;> decide)]
  rw [this]

theorem matchRow_row {r : Row} (m : Nat → Nat) (hx : Hex r.hex) (h : 0 < r.count) :
    matchRow (r.text m) = some (r.hex, PyStr.joinC ' ' (r.words m)) := by
  rw [row_text r m h]
  unfold matchRow
  have hc : isHex (if r.old then ']' else ':') = false := by split <;> decide
  have h1 : (r.hex ++ (if r.old then ']' else ':') :: ' ' :: PyStr.joinC ' ' (r.words m)).takeWhile isHex =
      r.hex := by
    rw [List.takeWhile_append_of_pos hx.all]
    simp [List.takeWhile, hc]
  have h2 : (r.hex ++ (if r.old then ']' else ':') :: ' ' :: PyStr.joinC ' ' (r.words m)).dropWhile isHex =
      (if r.old then ']' else ':') :: ' ' :: PyStr.joinC ' ' (r.words m) := by
    rw [List.dropWhile_append_of_pos hx.all]
    simp [List.dropWhile, hc]
  dsimp only
  have h3 : (if r.old then '[' else ' ') = ' ' ∨ (if r.old then '[' else ' ') = '[' := by split <;> simp
  have h4 : (if r.old then ']' else ':') = ':' ∨ (if r.old then ']' else ':') = ']' := by split <;> simp
  rw [if_pos h3, h1, h2, if_neg hx.1]
  exact if_pos h4

theorem splitCsv_words {ws : List PyStr} (hne : ws ≠ []) (h : ∀ w ∈ ws, Hex w) :
    Trivial.splitCsvLine (PyStr.joinC ' ' ws) ' ' false = ws := by
  rw [Trivial.splitCsvLine_eq, PyStr.splitC_joinC hne (fun w hw => not_mem_hex (h w hw).all (by decide))]
  have hf : ws.filter (fun v => !v.isEmpty) = ws := by
    rw [List.filter_eq_self]
    intro w hw
    have := (h w hw).1
    cases w <;> simp_all
  rw [hf]
  conv => rhs; rw [← List.map_id ws]
  exact List.map_congr_left (fun w hw => strip_hex (h w hw))

/-! ### The map -/

/-- The position of offset `o` of instance `i` in the map. -/
def Mdmap.at (d : Mdmap) (i o : Nat) : Option Nat := (d.get? i).bind (·.get? o)

theorem setPos_spec {d : Mdmap} {i : Nat} (hi : i ∈ d.keys) (offs pos : Nat) :
    ∃ d', setPos d (some i) offs pos = .ok d' ∧ d'.keys = d.keys ∧
      ∀ j o, d'.at j o = if j = i ∧ o = offs then some pos else d.at j o := by
  unfold setPos
  cases hd : d.get? i with
  | none => exact absurd hi ((Dict.get?_eq_none_iff _ _).1 hd)
  | some x =>
    refine ⟨_, by simp only [hd]; rfl, ?_, ?_⟩
    · rw [Dict.keys_set, if_pos hi]
    · intro j o
      unfold Mdmap.at
      rw [Dict.get?_set]
      by_cases hj : i = j
      · subst hj
        rw [if_pos rfl, hd]
        simp only [Option.bind_some, true_and]
        rw [Dict.get?_set]
        by_cases ho : offs = o
        · rw [if_pos ho, if_pos ho.symm]
        · rw [if_neg ho, if_neg (fun e => ho e.symm)]
      · rw [if_neg hj, if_neg (fun e => hj e.1.symm)]

/-- The entries a line adds: (instance, offset, position). `pos` is the position of the line. -/
def rowEntries (i pos : Nat) (r : Row) : List (Nat × Nat × Nat) :=
  (List.range r.count).map fun k => (i, hexVal r.hex + 4 * k, pos + 3 + r.hex.length + 9 * k)

/-- The length of a line, with the line separator. -/
def Row.len (r : Row) : Nat := 3 + r.hex.length + 9 * r.count

/-- The entries of lines. -/
def rowsEntries (i : Nat) : Nat → List Row → List (Nat × Nat × Nat)
  | _, [] => []
  | pos, r :: rs => rowEntries i pos r ++ rowsEntries i (pos + r.len) rs

/-- The length of lines. -/
def rowsLen (rs : List Row) : Nat := (rs.map Row.len).sum

/-- The length of an instance. -/
def Inst.len (x : Inst) : Nat := x.header.length + 1 + rowsLen x.rows

/-- The entries of instances. -/
def entries : Nat → Layout → List (Nat × Nat × Nat)
  | _, [] => []
  | pos, x :: L => rowsEntries x.num (pos + (x.header.length + 1)) x.rows ++ entries (pos + x.len) L

theorem length_row (r : Row) (m : Nat → Nat) : (r.text m).length + 1 = r.len := by
  unfold Row.text Row.len Row.offsets
  have : ∀ l : List Nat, (l.flatMap fun o => ' ' :: hexN 8 (m o)).length = 9 * l.length := by
    intro l
    induction l with
    | nil => rfl
    | cons o l ih =>
      rw [List.flatMap_cons, List.length_append, ih, List.length_cons, length_hexN, List.length_cons]
      omega
  simp only [List.length_cons, List.length_append, this, List.length_map, List.length_range]
  omega

theorem wordLoop_spec (i : Nat) (ws : List PyStr) (hws : ∀ w ∈ ws, Hex w) : ∀ (offs pos : Nat) (d : Mdmap),
    i ∈ d.keys → ∃ d', wordLoop (some i) ws offs pos d = .ok d' ∧ d'.keys = d.keys ∧
      ∀ j o p, d'.at j o = some p ↔ (∃ k, k < ws.length ∧ j = i ∧ o = offs + 4 * k ∧ p = pos + 9 * k) ∨
        (d.at j o = some p ∧ ¬ (j = i ∧ ∃ k, k < ws.length ∧ o = offs + 4 * k)) := by
  induction ws with
  | nil =>
    intro offs pos d hi
    refine ⟨d, rfl, rfl, fun j o p => ?_⟩
    simp
  | cons w ws ih =>
    intro offs pos d hi
    obtain ⟨d1, e1, k1, a1⟩ := setPos_spec hi offs pos
    obtain ⟨d2, e2, k2, a2⟩ := ih (fun x hx => hws x (List.mem_cons_of_mem _ hx)) (offs + 4) (pos + 9) d1
      (by rw [k1]; exact hi)
    refine ⟨d2, ?_, by rw [k2, k1], ?_⟩
    · rw [wordLoop, strToInt16_hex (hws w List.mem_cons_self)]
      dsimp only
      rw [e1]
      exact e2
    · intro j o p
      rw [a2, a1]
      constructor
      · rintro (⟨k, hk, rfl, rfl, rfl⟩ | ⟨h1, h2⟩)
        · exact .inl ⟨k + 1, by simpa using hk, rfl, by omega, by omega⟩
        · split at h1
          · rename_i hc
            obtain ⟨rfl, rfl⟩ := hc
            injection h1 with h1
            subst h1
            exact .inl ⟨0, by simp, rfl, rfl, rfl⟩
          · rename_i hc
            refine .inr ⟨h1, ?_⟩
            rintro ⟨rfl, k, hk, rfl⟩
            cases k with
            | zero => exact hc ⟨rfl, rfl⟩
            | succ k => exact h2 ⟨rfl, k, by simpa using hk, by omega⟩
      · rintro (⟨k, hk, rfl, rfl, rfl⟩ | ⟨h1, h2⟩)
        · cases k with
          | zero =>
            refine .inr ⟨by rw [if_pos ⟨rfl, rfl⟩]; rfl, ?_⟩
            rintro ⟨-, k, -, hk⟩
            omega
          | succ k => exact .inl ⟨k, by simpa using hk, rfl, by omega, by omega⟩
        · refine .inr ⟨?_, ?_⟩
          · rw [if_neg]
            · exact h1
            · rintro ⟨rfl, rfl⟩
              exact h2 ⟨rfl, 0, by simp, rfl⟩
          · rintro ⟨rfl, k, hk, rfl⟩
            exact h2 ⟨rfl, k + 1, by simpa using hk, by omega⟩

theorem mem_rowEntries {i pos : Nat} {r : Row} {j o p : Nat} :
    (j, o, p) ∈ rowEntries i pos r ↔
      ∃ k, k < r.count ∧ j = i ∧ o = hexVal r.hex + 4 * k ∧ p = pos + (3 + r.hex.length) + 9 * k := by
  unfold rowEntries
  rw [List.mem_map]
  constructor
  · rintro ⟨k, hk, h⟩
    simp only [Prod.mk.injEq] at h
    exact ⟨k, List.mem_range.1 hk, h.1.symm, h.2.1.symm, by omega⟩
  · rintro ⟨k, hk, rfl, rfl, rfl⟩
    exact ⟨k, List.mem_range.2 hk, by simp only [Prod.mk.injEq, true_and]; omega⟩

theorem mem_row_offsets {r : Row} {o : Nat} : o ∈ r.offsets ↔ ∃ k, k < r.count ∧ o = hexVal r.hex + 4 * k := by
  unfold Row.offsets
  rw [List.mem_map]
  constructor
  · rintro ⟨k, hk, rfl⟩; exact ⟨k, List.mem_range.1 hk, rfl⟩
  · rintro ⟨k, hk, rfl⟩; exact ⟨k, List.mem_range.2 hk, rfl⟩

theorem row_words_hex (r : Row) (m : Nat → Nat) : ∀ w ∈ r.words m, Hex w := by
  intro w hw
  unfold Row.words at hw
  obtain ⟨o, -, rfl⟩ := List.mem_map.1 hw
  exact hex_hexN 7 _

theorem lineLoop_row {r : Row} (m : Nat → Nat) (hx : Hex r.hex) (hc : 0 < r.count) (rest : List PyStr)
    (i pos : Nat) (d : Mdmap) (hi : i ∈ d.keys) :
    ∃ d', lineLoop ((r.text m ++ ['\n']) :: rest) (some i) pos d = lineLoop rest (some i) (pos + r.len) d' ∧
      d'.keys = d.keys ∧ ∀ j o p, d'.at j o = some p ↔ (j, o, p) ∈ rowEntries i pos r ∨
        (d.at j o = some p ∧ ¬ (j = i ∧ o ∈ r.offsets)) := by
  have hlen : (r.words m).length = r.count := by
    unfold Row.words Row.offsets
    rw [List.length_map, List.length_map, List.length_range]
  have hne : r.words m ≠ [] := by
    intro h
    rw [h] at hlen
    simp at hlen
    omega
  obtain ⟨d', e, k, a⟩ := wordLoop_spec i (r.words m) (row_words_hex r m) (hexVal r.hex)
    (pos + (3 + r.hex.length)) d hi
  refine ⟨d', ?_, k, ?_⟩
  · rw [lineLoop]
    simp only [rstrip_line (fun c h => row_last r m hc h), matchHeader_row, matchRow_row m hx hc,
      strToInt16_hex hx, splitCsv_words hne (row_words_hex r m), Int.toNat_natCast, e, length_row]
  · intro j o p
    rw [a, mem_rowEntries, mem_row_offsets, hlen]

theorem lineLoop_rows (m : Nat → Nat) (rest : List PyStr) (i : Nat) (rs : List Row) :
    ∀ (pos : Nat) (d : Mdmap), (∀ r ∈ rs, Hex r.hex ∧ 0 < r.count) → (rs.flatMap Row.offsets).Nodup →
    i ∈ d.keys →
    ∃ d', lineLoop ((rs.map fun r => r.text m ++ ['\n']) ++ rest) (some i) pos d =
        lineLoop rest (some i) (pos + rowsLen rs) d' ∧
      d'.keys = d.keys ∧ ∀ j o p, d'.at j o = some p ↔ (j, o, p) ∈ rowsEntries i pos rs ∨
        (d.at j o = some p ∧ ¬ (j = i ∧ o ∈ rs.flatMap Row.offsets)) := by
  induction rs with
  | nil =>
    intro pos d _ _ hi
    refine ⟨d, rfl, rfl, fun j o p => ?_⟩
    simp [rowsEntries]
  | cons r rs ih =>
    intro pos d hg hn hi
    rw [List.flatMap_cons, List.nodup_append] at hn
    obtain ⟨d1, e1, k1, a1⟩ := lineLoop_row m (hg r List.mem_cons_self).1 (hg r List.mem_cons_self).2
      ((rs.map fun r => r.text m ++ ['\n']) ++ rest) i pos d hi
    obtain ⟨d2, e2, k2, a2⟩ := ih (pos + r.len) d1 (fun x hx => hg x (List.mem_cons_of_mem _ hx)) hn.2.1
      (by rw [k1]; exact hi)
    refine ⟨d2, ?_, by rw [k2, k1], ?_⟩
    · rw [List.map_cons, List.cons_append, e1, e2]
      congr 1
      unfold rowsLen
      rw [List.map_cons, List.sum_cons]
      omega
    · intro j o p
      rw [a2, a1, rowsEntries, List.mem_append, List.flatMap_cons, List.mem_append]
      constructor
      · rintro (h | ⟨h | ⟨h1, h2⟩, h3⟩)
        · exact .inl (.inr h)
        · exact .inl (.inl h)
        · refine .inr ⟨h1, ?_⟩
          rintro ⟨rfl, h | h⟩
          · exact h2 ⟨rfl, h⟩
          · exact h3 ⟨rfl, h⟩
      · rintro ((h | h) | ⟨h1, h2⟩)
        · refine .inr ⟨.inl h, ?_⟩
          rintro ⟨rfl, h'⟩
          obtain ⟨k, hk, -, ho, -⟩ := mem_rowEntries.1 h
          exact hn.2.2 o (mem_row_offsets.2 ⟨k, hk, ho⟩) o h' rfl
        · exact .inl h
        · exact .inr ⟨.inr ⟨h1, fun h => h2 ⟨h.1, .inl h.2⟩⟩, fun h => h2 ⟨h.1, .inr h.2⟩⟩

theorem rowsEntries_inst {i pos : Nat} {rs : List Row} {j o p : Nat} (h : (j, o, p) ∈ rowsEntries i pos rs) :
    j = i := by
  induction rs generalizing pos with
  | nil => cases h
  | cons r rs ih =>
    rw [rowsEntries, List.mem_append] at h
    rcases h with h | h
    · obtain ⟨k, -, h, -⟩ := mem_rowEntries.1 h; exact h
    · exact ih h

theorem entries_inst {pos : Nat} {L : Layout} {j o p : Nat} (h : (j, o, p) ∈ entries pos L) :
    j ∈ L.map Inst.num := by
  induction L generalizing pos with
  | nil => cases h
  | cons x L ih =>
    rw [entries, List.mem_append] at h
    rw [List.map_cons, List.mem_cons]
    rcases h with h | h
    · exact .inl (rowsEntries_inst h)
    · exact .inr (ih h)

theorem lineLoop_layout (m : Nat → Nat → Nat) (L : Layout) : ∀ (inst : Option Nat) (pos : Nat) (d : Mdmap),
    Good L → (∀ i ∈ d.keys, i ∉ L.map Inst.num) →
    ∃ d', lineLoop ((L.flatMap fun x => x.text m).map (· ++ ['\n'])) inst pos d = .ok d' ∧
      d'.keys = d.keys ++ L.map Inst.num ∧
      ∀ j o p, d'.at j o = some p ↔ (j, o, p) ∈ entries pos L ∨ d.at j o = some p := by
  induction L with
  | nil =>
    intro inst pos d _ _
    refine ⟨d, rfl, by simp, fun j o p => ?_⟩
    simp [entries]
  | cons x L ih =>
    intro inst pos d hg hd
    obtain ⟨hn, hg⟩ := hg
    rw [List.map_cons, List.nodup_cons] at hn
    obtain ⟨hoff, hnd, hrows⟩ := hg x List.mem_cons_self
    have hxd : x.num ∉ d.keys := fun h => hd _ h (by simp)
    have hk0 : (d.set x.num []).keys = d.keys ++ [x.num] := by rw [Dict.keys_set, if_neg hxd]
    have ha0 : ∀ j o, (Mdmap.at (d.set x.num []) j o) = d.at j o := by
      intro j o
      unfold Mdmap.at
      rw [Dict.get?_set]
      split
      · rename_i h
        subst h
        rw [(Dict.get?_eq_none_iff _ _).2 hxd]
        rfl
      · rfl
    obtain ⟨d1, e1, k1, a1⟩ := lineLoop_rows (m x.num) ((L.flatMap fun x => x.text m).map (· ++ ['\n'])) x.num
      x.rows (pos + (x.header.length + 1)) (d.set x.num []) hrows hnd (by rw [hk0]; simp)
    obtain ⟨d2, e2, k2, a2⟩ := ih (some x.num) (pos + x.len) d1 ⟨hn.2, fun y hy => hg y (List.mem_cons_of_mem _ hy)⟩
      (by
        intro i hi hL
        rw [k1, hk0, List.mem_append] at hi
        rcases hi with hi | hi
        · exact hd i hi (by rw [List.map_cons]; exact List.mem_cons_of_mem _ hL)
        · rw [List.mem_singleton] at hi; subst hi; exact hn.1 hL)
    refine ⟨d2, ?_, ?_, ?_⟩
    · rw [List.flatMap_cons, List.map_append]
      unfold Inst.text
      rw [List.map_cons, List.cons_append, lineLoop]
      simp only [rstrip_line (fun c h => header_last hoff h), matchHeader_header hoff, Trivial.strToInt_ofNat,
        Int.toNat_natCast, List.map_map]
      have : (List.map ((fun x => x ++ ['\n']) ∘ fun r => r.text (m x.num)) x.rows) =
          x.rows.map fun r => r.text (m x.num) ++ ['\n'] := rfl
      rw [this]
      unfold Inst.text at e1
      rw [e1]
      have hl : pos + (x.header.length + 1) + rowsLen x.rows = pos + x.len := by
        unfold Inst.len; omega
      rw [hl]
      exact e2
    · rw [k2, k1, hk0]; simp
    · intro j o p
      rw [a2, a1, ha0, entries, List.mem_append]
      constructor
      · rintro (h | h | h)
        · exact .inl (.inr h)
        · exact .inl (.inl h)
        · exact .inr h.1
      · rintro ((h | h) | h)
        · exact .inr (.inl h)
        · exact .inl h
        · refine .inr (.inr ⟨h, ?_⟩)
          rintro ⟨rfl, -⟩
          unfold Mdmap.at at h
          rw [(Dict.get?_eq_none_iff _ _).2 hxd] at h
          cases h

theorem no_newline {L : Layout} (m : Nat → Nat → Nat) (hg : Good L) :
    ∀ l ∈ L.flatMap (fun x => x.text m), '\n' ∉ l := by
  intro l hl
  obtain ⟨x, hx, hl⟩ := List.mem_flatMap.1 hl
  obtain ⟨h1, -, h3⟩ := hg.2 x hx
  unfold Inst.text at hl
  rcases List.mem_cons.1 hl with h | h
  · subst h; exact header_no_newline h1
  · obtain ⟨r, hr, rfl⟩ := List.mem_map.1 h
    exact row_no_newline _ (h3 r hr).1

/-- The parser finds all instances and the position of every word. -/
theorem buildMdmap_spec {L : Layout} (m : Nat → Nat → Nat) (hg : Good L) :
    ∃ d, buildMdmap (render L m) = .ok d ∧ d.keys = L.map Inst.num ∧
      ∀ i o p, d.at i o = some p ↔ (i, o, p) ∈ entries 0 L := by
  obtain ⟨d, h1, h2, h3⟩ := lineLoop_layout m L none 0 [] hg (by intro i hi; cases hi)
  refine ⟨d, ?_, by rw [h2]; rfl, ?_⟩
  · unfold buildMdmap render
    rw [lines_render _ (no_newline m hg)]
    exact h1
  · intro i o p
    rw [h3]
    constructor
    · rintro (h | h)
      · exact h
      · cases h
    · exact .inl

/-! ### What is at the positions -/

theorem drop_length_add (a b : PyStr) (n : Nat) : (a ++ b).drop (a.length + n) = b.drop n := by
  induction a with
  | nil => simp
  | cons x a ih =>
    rw [List.length_cons, List.cons_append, show a.length + 1 + n = (a.length + n) + 1 by omega, List.drop_succ_cons,
      ih]

theorem drop_take_words (m : Nat → Nat) (tail : PyStr) (b : Nat) (n : Nat) : ∀ s k, k < n →
    (((((List.range' s n).map fun j => b + 4 * j).flatMap fun o => ' ' :: hexN 8 (m o)) ++ tail).drop
      (9 * k + 1)).take 8 = hexN 8 (m (b + 4 * (s + k))) := by
  induction n with
  | zero => intro s k hk; omega
  | succ n ih =>
    intro s k hk
    rw [List.range'_succ, List.map_cons, List.flatMap_cons]
    cases k with
    | zero =>
      simp only [List.cons_append, List.append_assoc, Nat.mul_zero, Nat.zero_add, List.drop_succ_cons,
        List.drop_zero, Nat.add_zero]
      rw [List.take_append_of_le_length (by rw [length_hexN]; exact Nat.le_refl _),
        List.take_of_length_le (by rw [length_hexN]; exact Nat.le_refl _)]
    | succ k =>
      have e : 9 * (k + 1) + 1 = (' ' :: hexN 8 (m (b + 4 * s))).length + (9 * k + 1) := by
        rw [List.length_cons, length_hexN]; omega
      rw [e, List.append_assoc, drop_length_add, ih (s + 1) k (by omega)]
      congr 3
      omega

theorem row_at {r : Row} (m : Nat → Nat) (tail : PyStr) {k : Nat} (hk : k < r.count) :
    ((r.text m ++ tail).drop (3 + r.hex.length + 9 * k)).take 8 = hexN 8 (m (hexVal r.hex + 4 * k)) := by
  unfold Row.text Row.offsets
  have e : (if r.old then '[' else ' ') :: (r.hex ++ (if r.old then ']' else ':') ::
      ((List.range r.count).map fun k => hexVal r.hex + 4 * k).flatMap fun o => ' ' :: hexN 8 (m o)) ++ tail =
      ((if r.old then '[' else ' ') :: (r.hex ++ [if r.old then ']' else ':'])) ++
      ((((List.range r.count).map fun k => hexVal r.hex + 4 * k).flatMap fun o => ' ' :: hexN 8 (m o)) ++ tail) := by
    simp
  have e2 : 3 + r.hex.length + 9 * k = ((if r.old then '[' else ' ') ::
      (r.hex ++ [if r.old then ']' else ':'])).length + (9 * k + 1) := by
    simp; omega
  rw [e, e2, drop_length_add, List.range_eq_range']
  have := drop_take_words m tail (hexVal r.hex) r.count 0 k hk
  simpa using this

theorem rows_at (m : Nat → Nat) (tail : PyStr) (i : Nat) (rs : List Row) : ∀ pos {j o p : Nat},
    (j, o, p) ∈ rowsEntries i pos rs → ∃ q, p = pos + q ∧
      (((rs.map fun r => r.text m).flatMap (· ++ ['\n']) ++ tail).drop q).take 8 = hexN 8 (m o) := by
  induction rs with
  | nil => intro pos j o p h; cases h
  | cons r rs ih =>
    intro pos j o p h
    rw [rowsEntries, List.mem_append] at h
    rw [List.map_cons, List.flatMap_cons]
    rcases h with h | h
    · obtain ⟨k, hk, -, rfl, rfl⟩ := mem_rowEntries.1 h
      refine ⟨3 + r.hex.length + 9 * k, by omega, ?_⟩
      rw [List.append_assoc, List.append_assoc]
      exact row_at m _ hk
    · obtain ⟨q, rfl, hq⟩ := ih _ h
      refine ⟨r.len + q, by omega, ?_⟩
      have hl : r.len = (r.text m ++ ['\n']).length := by
        rw [List.length_append, List.length_singleton, length_row]
      rw [hl, List.append_assoc, drop_length_add]
      exact hq

theorem length_rows (m : Nat → Nat) (rs : List Row) :
    ((rs.map fun r => r.text m).flatMap (· ++ ['\n'])).length = rowsLen rs := by
  induction rs with
  | nil => rfl
  | cons r rs ih =>
    rw [List.map_cons, List.flatMap_cons, List.length_append, ih, List.length_append, List.length_singleton,
      length_row]
    unfold rowsLen
    rw [List.map_cons, List.sum_cons]

theorem length_inst (x : Inst) (m : Nat → Nat → Nat) :
    ((x.text m).flatMap (· ++ ['\n'])).length = x.len := by
  unfold Inst.text Inst.len
  rw [List.flatMap_cons, List.length_append, length_rows, List.length_append, List.length_singleton]

theorem render_cons (x : Inst) (L : Layout) (m : Nat → Nat → Nat) :
    render (x :: L) m = (x.text m).flatMap (· ++ ['\n']) ++ render L m := by
  unfold render
  rw [List.flatMap_cons, List.flatMap_append]

theorem entries_at (m : Nat → Nat → Nat) (L : Layout) : ∀ pos {i o p : Nat}, (i, o, p) ∈ entries pos L →
    ∃ q, p = pos + q ∧ ((render L m).drop q).take 8 = hexN 8 (m i o) := by
  induction L with
  | nil => intro pos i o p h; cases h
  | cons x L ih =>
    intro pos i o p h
    rw [entries, List.mem_append] at h
    rw [render_cons]
    rcases h with h | h
    · have hi := rowsEntries_inst h
      subst hi
      obtain ⟨q, rfl, hq⟩ := rows_at (m x.num) (render L m) x.num x.rows _ h
      refine ⟨x.header.length + 1 + q, by omega, ?_⟩
      unfold Inst.text
      have hl : x.header.length + 1 = (x.header ++ ['\n']).length := by simp
      rw [List.flatMap_cons, hl, List.append_assoc, drop_length_add]
      exact hq
    · obtain ⟨q, rfl, hq⟩ := ih _ h
      refine ⟨x.len + q, by omega, ?_⟩
      rw [← length_inst x m, drop_length_add]
      exact hq

theorem mem_rowsEntries_offset {i pos : Nat} {rs : List Row} {o : Nat} :
    (∃ p, (i, o, p) ∈ rowsEntries i pos rs) ↔ o ∈ rs.flatMap Row.offsets := by
  induction rs generalizing pos with
  | nil => simp [rowsEntries]
  | cons r rs ih =>
    rw [List.flatMap_cons, List.mem_append, ← ih (pos := pos + r.len), mem_row_offsets]
    simp only [rowsEntries, List.mem_append, mem_rowEntries]
    constructor
    · rintro ⟨p, ⟨k, hk, -, ho, -⟩ | h⟩
      · exact .inl ⟨k, hk, ho⟩
      · exact .inr ⟨p, h⟩
    · rintro (⟨k, hk, ho⟩ | ⟨p, h⟩)
      · exact ⟨_, .inl ⟨k, hk, trivial, ho, rfl⟩⟩
      · exact ⟨p, .inr h⟩

theorem shown_iff {L : Layout} {i o : Nat} : ∀ {pos : Nat}, (∃ p, (i, o, p) ∈ entries pos L) ↔ Shown L i o := by
  induction L with
  | nil => intro pos; simp [entries, Shown]
  | cons x L ih =>
    intro pos
    simp only [entries, List.mem_append]
    unfold Shown at ih ⊢
    simp only [List.mem_cons, exists_eq_or_imp]
    rw [← ih (pos := pos + x.len)]
    constructor
    · rintro ⟨p, h | h⟩
      · have hi := rowsEntries_inst h
        subst hi
        exact .inl ⟨rfl, mem_rowsEntries_offset.1 ⟨p, h⟩⟩
      · exact .inr ⟨p, h⟩
    · rintro (⟨rfl, h⟩ | ⟨p, h⟩)
      · obtain ⟨p, hp⟩ := mem_rowsEntries_offset.2 h
        exact ⟨p, .inl hp⟩
      · exact ⟨p, .inr h⟩

end Verif.Tpmi
