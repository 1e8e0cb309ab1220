import Verif.Props.ToolCheckerSpec

/-! Lemmas about the suggestions. -/

namespace Verif.ToolChecker

open Spec PyStr

theorem strip_pad {pre post s : PyStr} (h1 : Blank pre) (h2 : Blank post) (h : Stripped isSpace s) :
    strip (pre ++ s ++ post) = s := by
  have e1 : lstripBy isSpace (pre ++ s ++ post) = lstripBy isSpace (s ++ post) := by
    unfold lstripBy
    rw [List.append_assoc, List.dropWhile_append_of_pos h1]
  unfold strip stripBy
  rw [e1]
  cases s with
  | nil =>
    have : lstripBy isSpace ([] ++ post) = [] := by
      unfold lstripBy
      rw [List.nil_append, ← List.append_nil post, List.dropWhile_append_of_pos h2]
      rfl
    rw [this]; rfl
  | cons c t =>
    have hc : isSpace c = false := h.1 c rfl
    have : lstripBy isSpace (c :: t ++ post) = c :: t ++ post := by
      unfold lstripBy
      rw [List.cons_append, List.dropWhile_cons_of_neg (by simp [hc])]
    rw [this]
    unfold rstripBy
    rw [List.reverse_append, List.dropWhile_append_of_pos (fun x hx => h2 x (List.mem_reverse.mp hx))]
    have h3 := stripBy_of_stripped h
    unfold stripBy at h3
    have h4 : lstripBy isSpace (c :: t) = c :: t := by
      unfold lstripBy
      rw [List.dropWhile_cons_of_neg (by simp [hc])]
    rw [h4] at h3
    exact h3

theorem rstripBy_cons {p : Char → Bool} {c : Char} (h : p c = false) (s : PyStr) :
    ∃ t, rstripBy p (c :: s) = c :: t := by
  unfold rstripBy
  rw [List.reverse_cons]
  have : ∀ l : List Char, ∃ t, ((l ++ [c]).dropWhile p).reverse = c :: t := by
    intro l
    induction l with
    | nil => exact ⟨[], by simp [h]⟩
    | cons x l ih =>
      rw [List.cons_append, List.dropWhile_cons]
      split
      · exact ih
      · exact ⟨(x :: l).reverse, by simp⟩
  exact this _

theorem strip_hash {pre : PyStr} (h : Blank pre) (s : PyStr) : ∃ t, strip (pre ++ '#' :: s) = '#' :: t := by
  unfold strip stripBy lstripBy
  rw [List.dropWhile_append_of_pos h, List.dropWhile_cons_of_neg (by decide)]
  exact rstripBy_cons (by decide) s

theorem getLast?_append_cons' (k : PyStr) (c : Char) (v : PyStr) : (k ++ c :: v).getLast? = (c :: v).getLast? := by
  rw [List.getLast?_append]
  cases h : (c :: v).getLast? with
  | none => rw [List.getLast?_eq_none_iff] at h; cases h
  | some x => rfl

theorem stripped_assign {k v : PyStr} (hk : Key k) (hv : ∀ c, ('=' :: v).getLast? = some c → isSpace c = false) :
    Stripped isSpace (k ++ '=' :: v) := by
  constructor
  · intro c hc
    obtain ⟨hne, hall⟩ := hk
    cases k with
    | nil => exact absurd rfl hne
    | cons a k =>
      have : a = c := by simpa using hc
      subst this
      exact (hall _ List.mem_cons_self).1
  · intro c hc
    rw [getLast?_append_cons'] at hc
    exact hv c hc

theorem key_noeq {k : PyStr} (hk : Key k) : '=' ∉ k := fun h => (hk.2 _ h).2.1 rfl

theorem value_noeq {v : PyStr} (hv : Value v) : '=' ∉ v := fun h => (hv _ h).1 rfl

theorem split_assign {k v : PyStr} (hk : Key k) (hv : '=' ∉ v) : splitC '=' (k ++ '=' :: v) = [k, v] := by
  rw [splitC_append (key_noeq hk), splitC_of_not_mem hv]

theorem stripQ_value {v : PyStr} (hv : Value v) : stripBy (· == '"') v = v :=
  stripBy_of_stripped (stripped_of_all fun c hc => by simp [(hv c hc).2])

theorem stripQ_quoted {v : PyStr} (hv : Value v) : stripBy (· == '"') ('"' :: (v ++ ['"'])) = v := by
  have e : ∀ c : Char, c ∈ v → (c == '"') = false := fun c hc => by simp [(hv c hc).2]
  unfold stripBy lstripBy rstripBy
  rw [List.dropWhile_cons_of_pos (by decide)]
  cases v with
  | nil => decide
  | cons a v =>
    rw [List.cons_append, List.dropWhile_cons_of_neg (by simp [e a List.mem_cons_self]), ← List.cons_append,
      List.reverse_append]
    show (('"' :: (a :: v).reverse).dropWhile _).reverse = a :: v
    rw [List.dropWhile_cons_of_pos (by decide)]
    rw [dropWhile_eq_self, List.reverse_reverse]
    intro c hc
    exact e c (List.mem_reverse.mp (List.mem_of_head? hc))

/-- One good line. -/
theorem parse_good {l : Line} (h : l.Good) (rest : List PyStr) (d : Dict PyStr PyStr) :
    parseLines (l.text :: rest) d = parseLines rest
      (match l.entry with
        | .plain k v => d.set k v
        | .quoted k v => d.set k v
        | _ => d) := by
  obtain ⟨pre, e, post⟩ := l
  obtain ⟨h1, h2, h3⟩ := h
  have assign : ∀ k v w : PyStr, Key k → '=' ∉ w → (∀ c, ('=' :: w).getLast? = some c → isSpace c = false) →
      stripBy (· == '"') w = v →
      parseLines ((pre ++ (k ++ '=' :: w) ++ post) :: rest) d = parseLines rest (d.set k v) := by
    intro k v w hk hw hl hs
    have e1 : strip (pre ++ (k ++ '=' :: w) ++ post) = k ++ '=' :: w := strip_pad h1 h2 (stripped_assign hk hl)
    conv => lhs; unfold parseLines
    rw [e1]
    have n1 : k ++ '=' :: w ≠ [] := by simp
    have n2 : (k ++ '=' :: w).head? ≠ some '#' := by
      obtain ⟨hne, hall⟩ := hk
      cases k with
      | nil => exact absurd rfl hne
      | cons a k =>
        intro hh
        have : a = '#' := by simpa using hh
        exact (hall a List.mem_cons_self).2.2 this
    rw [if_neg n1, if_neg n2, split_assign hk hw]
    show parseLines rest (d.set k (stripBy (· == '"') w)) = _
    rw [hs]
  cases e with
  | blank =>
    have e1 : strip (pre ++ [] ++ post) = [] :=
      strip_pad h1 h2 ⟨fun c hc => (by cases hc), fun c hc => (by cases hc)⟩
    show parseLines ((pre ++ [] ++ post) :: rest) d = parseLines rest d
    conv => lhs; unfold parseLines
    rw [e1]; rfl
  | comment t =>
    obtain ⟨t', ht⟩ := strip_hash h1 (t ++ post)
    show parseLines ((pre ++ '#' :: t ++ post) :: rest) d = parseLines rest d
    have e1 : strip (pre ++ '#' :: t ++ post) = '#' :: t' := by rw [← ht, List.append_assoc]; rfl
    conv => lhs; unfold parseLines
    rw [e1]; rfl
  | plain k v =>
    obtain ⟨hk, hv, hs⟩ := h3
    refine assign k v v hk (value_noeq hv) ?_ (stripQ_value hv)
    intro c hc
    have := List.mem_of_getLast? hc
    rcases List.mem_cons.mp this with rfl | hm
    · decide
    · exact hs c hm
  | quoted k v =>
    obtain ⟨hk, hv⟩ := h3
    refine assign k v _ hk ?_ ?_ (stripQ_quoted hv)
    · intro hm
      rcases List.mem_cons.mp hm with hm | hm
      · exact absurd hm (by decide)
      · rcases List.mem_append.mp hm with hm | hm
        · exact value_noeq hv hm
        · exact absurd hm (by decide)
    · intro c hc
      have : ('=' :: '"' :: (v ++ ['"'])).getLast? = some '"' := by
        rw [show '=' :: '"' :: (v ++ ['"']) = ('=' :: '"' :: v) ++ ['"'] from rfl, List.getLast?_concat]
      rw [this] at hc
      cases hc
      decide

theorem valueOf_cons (key : PyStr) (l : Line) (ls : List Line) :
    valueOf key (l :: ls) = (valueOf key ls).or (l.gives key) := by
  unfold valueOf
  rw [List.reverse_cons, List.findSome?_append]
  congr 1
  rw [List.findSome?_cons]
  cases l.gives key <;> rfl

theorem parse_lines {ls : List Line} (h : ∀ l ∈ ls, l.Good) (d : Dict PyStr PyStr) :
    (parseLines (ls.map Line.text) d).2 = [] ∧
      ∀ key, (parseLines (ls.map Line.text) d).1.get? key = (valueOf key ls).or (d.get? key) := by
  induction ls generalizing d with
  | nil => exact ⟨rfl, fun key => rfl⟩
  | cons l ls ih =>
    rw [List.map_cons, parse_good (h l List.mem_cons_self)]
    have ih := ih fun x hx => h x (List.mem_cons_of_mem _ hx)
    refine ⟨(ih _).1, fun key => ?_⟩
    rw [(ih _).2 key, valueOf_cons]
    unfold Line.gives
    cases l.entry <;> simp only [Dict.get?_set] <;> cases valueOf key ls <;> simp <;> split <;> simp_all

theorem parse_nil_iff {ls : List Line} (h : ∀ l ∈ ls, l.Good) :
    (parseLines (ls.map Line.text) []).1 = [] ↔ ¬ Says ls := by
  have hp := (parse_lines h []).2
  constructor
  · rintro e ⟨key, v, hv⟩
    have := hp key
    rw [e, hv] at this
    cases this
  · intro hn
    cases e : (parseLines (ls.map Line.text) []).1 with
    | nil => rfl
    | cons p q =>
      exfalso
      obtain ⟨k, v⟩ := p
      have := hp k
      rw [e, show Dict.get? ((k, v) :: q) k = some v by simp [Dict.get?]] at this
      refine hn ⟨k, v, ?_⟩
      cases hv : valueOf k ls with
      | none => rw [hv] at this; cases this
      | some w => rw [hv] at this; simpa using this.symm

/-- A file which says nothing is skipped. -/
theorem fileLoop_skip {h : Host} {path : PyStr} {ls : List Line} (hr : h.read path = (ls.map Line.text, none))
    (hg : ∀ l ∈ ls, l.Good) (hs : ¬ Says ls) (paths : List PyStr) :
    fileLoop h (path :: paths) [] = fileLoop h paths [] := by
  have e := (parse_nil_iff hg).mpr hs
  conv => lhs; unfold fileLoop
  rw [hr]
  show (if (parseLines (ls.map Line.text) []).1 ≠ [] then Except.ok (parseLines (ls.map Line.text) []).1
      else fileLoop h paths (parseLines (ls.map Line.text) []).1) = _
  rw [e]
  rfl

theorem fileLoop_missing {h : Host} {path : PyStr} {e : Exn} (hr : h.read path = ([], some e)) (he : isError e = true)
    (paths : List PyStr) : fileLoop h (path :: paths) [] = fileLoop h paths [] := by
  conv => lhs; unfold fileLoop
  rw [hr]
  show (if isError e then (if ([] : Dict PyStr PyStr) ≠ [] then Except.ok [] else fileLoop h paths []) else .error e) = _
  rw [if_pos he]
  rfl

theorem fileLoop_hit {h : Host} {path : PyStr} {ls : List Line} (hr : h.read path = (ls.map Line.text, none))
    (hg : ∀ l ∈ ls, l.Good) (hs : Says ls) (paths : List PyStr) :
    fileLoop h (path :: paths) [] = .ok (parseLines (ls.map Line.text) []).1 := by
  have e : (parseLines (ls.map Line.text) []).1 ≠ [] := fun e => (parse_nil_iff hg).mp e hs
  conv => lhs; unfold fileLoop
  rw [hr]
  show (if (parseLines (ls.map Line.text) []).1 ≠ [] then Except.ok (parseLines (ls.map Line.text) []).1
      else fileLoop h paths (parseLines (ls.map Line.text) []).1) = _
  rw [if_pos e]

/-- The files are read in turn until one says something. -/
theorem read_usr {h : Host} {usr : List Line} (hf : File h "/usr/lib/os-release" usr) (hs : Says usr) :
    ∃ d, readOsRelease h = .ok d ∧ d ≠ [] ∧ ∀ key, d.get? key = valueOf key usr := by
  obtain ⟨hr, hg⟩ := hf
  have hne : (parseLines (usr.map Line.text) []).1 ≠ [] := fun e => (parse_nil_iff hg).mp e hs
  refine ⟨(parseLines (usr.map Line.text) []).1, ?_, hne, fun key => ?_⟩
  · unfold readOsRelease
    rw [fileLoop_hit hr hg hs]
    cases e : (parseLines (usr.map Line.text) []).1 with
    | nil => exact absurd e hne
    | cons p q => rfl
  · rw [(parse_lines hg []).2 key]
    cases valueOf key usr <;> rfl

theorem fileLoop_silent {h : Host} {path : String} (hs : Silent h path) (paths : List PyStr) :
    fileLoop h (path.toList :: paths) [] = fileLoop h paths [] := by
  rcases hs with ⟨e, hr, he⟩ | ⟨ls, ⟨hr, hg⟩, hs⟩
  · refine fileLoop_missing hr ?_ paths
    revert e
    intro e _ he
    rcases e <;> first | rfl | (exact absurd he (by decide))
  · exact fileLoop_skip hr hg hs paths

theorem read_etc {h : Host} {etc : List Line} (hu : Silent h "/usr/lib/os-release")
    (hf : File h "/etc/os-release" etc) (hs : Says etc) :
    ∃ d, readOsRelease h = .ok d ∧ d ≠ [] ∧ ∀ key, d.get? key = valueOf key etc := by
  obtain ⟨hr, hg⟩ := hf
  have hne : (parseLines (etc.map Line.text) []).1 ≠ [] := fun e => (parse_nil_iff hg).mp e hs
  refine ⟨(parseLines (etc.map Line.text) []).1, ?_, hne, fun key => ?_⟩
  · unfold readOsRelease
    rw [fileLoop_silent hu, fileLoop_hit hr hg hs]
    cases e : (parseLines (etc.map Line.text) []).1 with
    | nil => exact absurd e hne
    | cons p q => rfl
  · rw [(parse_lines hg []).2 key]
    cases valueOf key etc <;> rfl

theorem read_none {h : Host} (hu : Silent h "/usr/lib/os-release") (he : Silent h "/etc/os-release") :
    readOsRelease h = .error .notFound := by
  unfold readOsRelease
  rw [fileLoop_silent hu, fileLoop_silent he]
  rfl

/-! ### Tables -/

theorem get?_of_keys {d e : Dict PyStr PyStr} (h1 : ∀ k ∈ d.keys, d.get? k = e.get? k)
    (h2 : ∀ k ∈ e.keys, k ∈ d.keys) (k : PyStr) : d.get? k = e.get? k := by
  by_cases hk : k ∈ d.keys
  · exact h1 k hk
  · rw [(Dict.get?_eq_none_iff d k).mpr hk, (Dict.get?_eq_none_iff e k).mpr fun h => hk (h2 k h)]

/-- A column of the table as a dictionary. -/
def colDict (col : String × String × String → String) : Dict PyStr PyStr :=
  table.map fun row => (row.1.toList, (col row.2).toList)

theorem get?_colDict (col : String × String × String → String) (tool : PyStr) (t : List (String × String × String × String)) :
    Dict.get? (t.map fun row => (row.1.toList, (col row.2).toList)) tool =
      (t.find? fun row => decide (row.1.toList = tool)).map fun row => (col row.2).toList := by
  induction t with
  | nil => rfl
  | cons r t ih =>
    rw [List.map_cons, List.find?_cons]
    unfold Dict.get?
    by_cases h : r.1.toList = tool
    · simp [h]
    · simp [h, ih]

theorem fedora_eq (tool : PyStr) : (update fedoraOwn commonPkgs).get? tool = Dict.get? (colDict (·.1)) tool :=
  get?_of_keys (by decide +kernel) (by decide +kernel) tool

theorem ubuntu_eq (tool : PyStr) : (update ubuntuOwn commonPkgs).get? tool = Dict.get? (colDict (·.2.1)) tool :=
  get?_of_keys (by decide +kernel) (by decide +kernel) tool

theorem debian_eq (tool : PyStr) : (update debianOwn commonPkgs).get? tool = Dict.get? (colDict (·.2.2)) tool :=
  get?_of_keys (by decide +kernel) (by decide +kernel) tool

theorem package_eq {os tool : PyStr} {col : String × String × String → String} (h : column os = some col) :
    package os tool = Dict.get? (colDict col) tool := by
  unfold package colDict
  rw [h, get?_colDict]
  cases table.find? (fun row => decide (row.1.toList = tool)) <;> rfl

theorem lookup_eq (os tool : PyStr) : lookup os tool = package os tool := by
  have key : ∀ (a b c d e : PyStr) (A B C : Dict PyStr PyStr),
      Dict.get? [(a, A), (b, A), (c, A), (d, B), (e, C)] os =
        if os = a ∨ os = b ∨ os = c then some A else if os = d then some B else if os = e then some C else none := by
    intro a b c d e A B C
    simp only [Dict.get?]
    grind
  have hp : pkgInfo.get? os = if os = "fedora".toList ∨ os = "centos".toList ∨ os = "rhel".toList then
      some (update fedoraOwn commonPkgs) else if os = "ubuntu".toList then some (update ubuntuOwn commonPkgs) else
      if os = "debian".toList then some (update debianOwn commonPkgs) else none := key _ _ _ _ _ _ _ _
  unfold lookup
  rw [hp]
  by_cases h1 : os = "fedora".toList ∨ os = "centos".toList ∨ os = "rhel".toList
  · rw [if_pos h1, package_eq (col := (·.1)) (if_pos h1)]
    exact fedora_eq tool
  · rw [if_neg h1]
    by_cases h2 : os = "ubuntu".toList
    · rw [if_pos h2, package_eq (col := (·.2.1)) ((if_neg h1).trans (if_pos h2))]
      exact ubuntu_eq tool
    · rw [if_neg h2]
      by_cases h3 : os = "debian".toList
      · rw [if_pos h3, package_eq (col := (·.2.2)) ((if_neg h1).trans ((if_neg h2).trans (if_pos h3)))]
        exact debian_eq tool
      · rw [if_neg h3]
        unfold package
        rw [show column os = none from (if_neg h1).trans ((if_neg h2).trans (if_neg h3))]

theorem package_unknown (tool : PyStr) : package "<unknown_OS_ID>".toList tool = none := by
  unfold package
  rw [show column "<unknown_OS_ID>".toList = none by decide +kernel]

theorem package_nil (tool : PyStr) : package [] tool = none := by
  unfold package
  rw [show column [] = none by decide +kernel]

theorem package_ne {os tool pkg : PyStr} (h : package os tool = some pkg) : pkg ≠ [] := by
  unfold package at h
  have key : ∀ row ∈ table, row.2.1.toList ≠ [] ∧ row.2.2.1.toList ≠ [] ∧ row.2.2.2.toList ≠ [] := by decide +kernel
  split at h
  · rename_i col row hc hr
    have hm := key row (List.mem_of_find?_eq_some hr)
    cases h
    unfold column at hc
    split at hc
    · cases hc; exact hm.1
    · split at hc
      · cases hc; exact hm.2.1
      · split at hc
        · cases hc; exact hm.2.2
        · cases hc
  · cases h

/-! ### The name of the program -/

theorem splitWs_blank {pre : PyStr} (h : Blank pre) (s : PyStr) : FreqInfo.splitWs (pre ++ s) = FreqInfo.splitWs s := by
  induction pre with
  | nil => rfl
  | cons c pre ih =>
    rw [List.cons_append, FreqInfo.splitWs, if_pos (h c List.mem_cons_self)]
    exact ih fun x hx => h x (List.mem_cons_of_mem _ hx)

theorem splitWs_word {w rest : PyStr} (hw : w ≠ []) (hs : ∀ c ∈ w, isSpace c = false)
    (hr : ∀ c, rest.head? = some c → isSpace c = true) : ∃ l, FreqInfo.splitWs (w ++ rest) = w :: l := by
  induction w with
  | nil => exact absurd rfl hw
  | cons c w ih =>
    rw [List.cons_append, FreqInfo.splitWs, if_neg (by simp [hs c List.mem_cons_self])]
    cases w with
    | nil =>
      cases rest with
      | nil => exact ⟨_, rfl⟩
      | cons r rest =>
        refine ⟨FreqInfo.splitWs (r :: rest), ?_⟩
        show FreqInfo.pushChar c (some r) _ = _
        unfold FreqInfo.pushChar
        show (if isSpace r = true then _ else _) = _
        rw [if_pos (hr r rfl)]
        rfl
    | cons d w =>
      obtain ⟨l, hl⟩ := ih (by simp) fun x hx => hs x (List.mem_cons_of_mem _ hx)
      refine ⟨l, ?_⟩
      rw [hl]
      show FreqInfo.pushChar c (some d) _ = _
      unfold FreqInfo.pushChar
      show (if isSpace d = true then _ else _) = _
      rw [if_neg (by simp [hs d (by simp)])]

theorem splitWs_nil {s : PyStr} (h : Blank s) : FreqInfo.splitWs s = [] := by
  rw [← List.append_nil s, splitWs_blank h]; rfl

theorem splitC_last (c : Char) (dir name : PyStr) (hn : c ∉ name) :
    (splitC c (dir ++ c :: name)).getLast? = some name := by
  have : ∀ n (dir : PyStr), dir.length ≤ n → (splitC c (dir ++ c :: name)).getLast? = some name := by
    intro n
    induction n with
    | zero =>
      intro dir hd
      cases dir with
      | nil =>
        rw [splitC_append (s := []) List.not_mem_nil, splitC_of_not_mem hn]; rfl
      | cons _ _ => simp at hd
    | succ n ih =>
      intro dir hd
      by_cases hc : c ∈ dir
      · obtain ⟨a, b, rfl, ha⟩ := List.append_of_mem hc |> fun ⟨a, b, h⟩ => List.eq_append_cons_of_mem hc
        rw [List.append_assoc, List.cons_append, splitC_append ha]
        have := ih b (by simp at hd; omega)
        rw [List.getLast?_cons]
        rw [this]; rfl
      · rw [splitC_append hc, splitC_of_not_mem hn]; rfl
  exact this _ dir (Nat.le_refl _)

theorem lastPart_of {dir name : PyStr} (hd : dir = [] ∨ dir.getLast? = some '/') (hn : '/' ∉ name) :
    lastPart (dir ++ name) = name := by
  unfold lastPart
  rcases hd with rfl | hd
  · rw [List.nil_append, splitC_of_not_mem hn]; rfl
  · obtain ⟨d, rfl⟩ : ∃ d, dir = d ++ ['/'] := by
      rw [List.getLast?_eq_some_iff] at hd; exact hd
    rw [List.append_assoc, List.singleton_append, splitC_last '/' d name hn]; rfl

/-! ### The object -/

/-- What the object remembers is what the files say. -/
def Inv (h : Host) (o : Dict PyStr PyStr) : Prop := o = [] ∨ readOsRelease h = .ok o

theorem osinfo_inv {h : Host} {o : Dict PyStr PyStr} (hi : Inv h o) :
    Inv h (getOsinfo h o).1 ∧ (getOsinfo h o).2 = (getOsinfo h []).2 := by
  have fresh : (getOsinfo h []).2 = readOsRelease h := by
    unfold getOsinfo
    rw [if_pos rfl]
    cases readOsRelease h <;> rfl
  rw [fresh]
  unfold getOsinfo
  by_cases ho : o = []
  · rw [if_pos ho]
    cases hr : readOsRelease h with
    | error e => exact ⟨hi, rfl⟩
    | ok d => exact ⟨.inr hr, rfl⟩
  · rw [if_neg ho]
    rcases hi with hi | hi
    · exact absurd hi ho
    · exact ⟨.inr hi, hi.symm⟩

theorem osinfo_cases {h : Host} {o : Dict PyStr PyStr} (hi : Inv h o) :
    ∃ o' o'', Inv h o' ∧ Inv h o'' ∧ getOsinfo h o = (o', readOsRelease h) ∧ getOsinfo h [] = (o'', readOsRelease h) := by
  have fresh : (getOsinfo h []).2 = readOsRelease h := by
    unfold getOsinfo
    rw [if_pos rfl]
    cases readOsRelease h <;> rfl
  have h1 := osinfo_inv hi
  have h2 := osinfo_inv (h := h) (o := []) (.inl rfl)
  exact ⟨_, _, h1.1, h2.1, Prod.ext rfl (h1.2.trans fresh), Prod.ext rfl fresh⟩

/-- The result of `get_osid()`. -/
def idRes (h : Host) : Except Exn PyStr :=
  match readOsRelease h with
  | .error e => if e = .notFound then .ok "<unknown_OS_ID>".toList else .error e
  | .ok d => .ok ((d.get? "ID".toList).getD "<unknown_OS_ID>".toList)

/-- The result of `get_osname()`. -/
def nameRes (h : Host) : Except Exn PyStr :=
  match readOsRelease h with
  | .error e => if e = .notFound then .ok "<unknown_OS_NAME>".toList else .error e
  | .ok d => .ok (match d.get? "NAME".toList with
      | some n => n
      | none =>
        match d.get? "ID".toList with
        | some i => capitalize i
        | none => "<unknown_OS_NAME>".toList)

theorem osid_eq {h : Host} {o : Dict PyStr PyStr} (hi : Inv h o) :
    ∃ o', Inv h o' ∧ getOsid h o = (o', idRes h) := by
  obtain ⟨o', _, h1, _, h2, _⟩ := osinfo_cases hi
  refine ⟨o', h1, ?_⟩
  unfold getOsid idRes
  rw [h2]
  cases readOsRelease h with
  | error e => rfl
  | ok d =>
    dsimp only
    cases Dict.get? d "ID".toList <;> rfl

theorem osname_eq {h : Host} {o : Dict PyStr PyStr} (hi : Inv h o) :
    ∃ o', Inv h o' ∧ getOsname h o = (o', nameRes h) := by
  obtain ⟨o', _, h1, _, h2, _⟩ := osinfo_cases hi
  refine ⟨o', h1, ?_⟩
  unfold getOsname nameRes
  rw [h2]
  cases readOsRelease h with
  | error e => rfl
  | ok d => rfl

theorem toolToPkg_given {h : Host} {o : Dict PyStr PyStr} (tool : PyStr) {id : PyStr} (hid : id ≠ []) :
    toolToPkg h o tool (some id) = (o, .ok (package id tool)) := by
  cases id with
  | nil => exact absurd rfl hid
  | cons c s =>
    show (o, Except.ok (lookup (c :: s) tool)) = _
    rw [lookup_eq]

/-- The result of `tool_to_pkg()` when the OS is discovered. -/
def pkgRes (h : Host) (tool : PyStr) : Except Exn (Option PyStr) :=
  match idRes h with
  | .error e => .error e
  | .ok id => .ok (package id tool)

theorem toolToPkg_auto {h : Host} {o : Dict PyStr PyStr} (hi : Inv h o) (tool : PyStr) {osid : Option PyStr}
    (ho : osid = none ∨ osid = some []) :
    ∃ o', Inv h o' ∧ toolToPkg h o tool osid = (o', pkgRes h tool) := by
  obtain ⟨o', h1, h2⟩ := osid_eq hi
  refine ⟨o', h1, ?_⟩
  unfold toolToPkg pkgRes
  rcases ho with rfl | rfl
  all_goals
    show (match getOsid h o with
      | (o, .error e) => (o, Except.error e)
      | (o, .ok id) => (o, .ok (lookup id tool))) = _
    rw [h2]
    cases idRes h with
    | error e => rfl
    | ok id =>
      show (o', Except.ok (lookup id tool)) = _
      rw [lookup_eq]

/-- The result of `check_tool()`. -/
def checkRes (h : Host) (tool : PyStr) : Check :=
  match h.which tool with
  | some (c :: p) => .path (c :: p)
  | _ =>
    match idRes h with
    | .error e => .fails e
    | .ok id =>
      match package id (lastPart tool) with
      | none => .missing none
      | some pkg =>
        match nameRes h with
        | .error e => .fails e
        | .ok name => .missing (some (name, pkg))

theorem checkTool_eq {h : Host} {o : Dict PyStr PyStr} (hi : Inv h o) (tool : PyStr) :
    ∃ o', Inv h o' ∧ checkTool h o tool = (o', checkRes h tool) := by
  have miss : ∃ o', Inv h o' ∧ (match getOsid h o with
    | (o, .error e) => (o, Check.fails e)
    | (o, .ok osid) =>
      match toolToPkg h o (lastPart tool) (some osid) with
      | (o, .error e) => (o, .fails e)
      | (o, .ok none) => (o, .missing none)
      | (o, .ok (some [])) => (o, .missing none)
      | (o, .ok (some (c :: pkg))) =>
        match getOsname h o with
        | (o, .error e) => (o, .fails e)
        | (o, .ok name) => (o, .missing (some (name, c :: pkg)))) = (o', match idRes h with
    | .error e => .fails e
    | .ok id =>
      match package id (lastPart tool) with
      | none => .missing none
      | some pkg =>
        match nameRes h with
        | .error e => .fails e
        | .ok name => .missing (some (name, pkg))) := by
    obtain ⟨o1, h1, h2⟩ := osid_eq hi
    rw [h2]
    cases hid : idRes h with
    | error e => exact ⟨o1, h1, rfl⟩
    | ok id =>
      dsimp only
      have h3 : ∃ o2, Inv h o2 ∧ toolToPkg h o1 (lastPart tool) (some id) = (o2, .ok (package id (lastPart tool))) := by
        by_cases hn : id = []
        · obtain ⟨o2, h3, h4⟩ := toolToPkg_auto h1 (lastPart tool) (osid := some id) (.inr (by rw [hn]))
          refine ⟨o2, h3, ?_⟩
          rw [h4]
          unfold pkgRes
          rw [hid]
        · exact ⟨o1, h1, toolToPkg_given _ hn⟩
      obtain ⟨o2, h3, h4⟩ := h3
      rw [h4]
      cases hp : package id (lastPart tool) with
      | none => exact ⟨o2, h3, rfl⟩
      | some pkg =>
        have hne := package_ne hp
        cases pkg with
        | nil => exact absurd rfl hne
        | cons c pkg =>
          dsimp only
          obtain ⟨o3, h5, h6⟩ := osname_eq h3
          rw [h6]
          cases nameRes h with
          | error e => exact ⟨o3, h5, rfl⟩
          | ok n => exact ⟨o3, h5, rfl⟩
  unfold checkTool checkRes
  cases h.which tool with
  | none => exact miss
  | some p =>
    cases p with
    | nil => exact miss
    | cons c p => exact ⟨o, hi, rfl⟩

theorem step_inv {h : Host} {o : Dict PyStr PyStr} (hi : Inv h o) (op : Op) :
    Inv h (step h o op).1 ∧ (step h o op).2 = (step h [] op).2 := by
  have h0 : Inv h [] := .inl rfl
  cases op with
  | osname =>
    obtain ⟨a, ha, ea⟩ := osname_eq hi
    obtain ⟨b, hb, eb⟩ := osname_eq h0
    unfold step
    dsimp only
    rw [ea, eb]
    exact ⟨ha, rfl⟩
  | osid =>
    obtain ⟨a, ha, ea⟩ := osid_eq hi
    obtain ⟨b, hb, eb⟩ := osid_eq h0
    unfold step
    dsimp only
    rw [ea, eb]
    exact ⟨ha, rfl⟩
  | pkg tool osid =>
    by_cases ho : osid = none ∨ osid = some []
    · obtain ⟨a, ha, ea⟩ := toolToPkg_auto hi tool ho
      obtain ⟨b, hb, eb⟩ := toolToPkg_auto h0 tool ho
      unfold step
      dsimp only
      rw [ea, eb]
      exact ⟨ha, rfl⟩
    · match osid, ho with
      | none, ho => exact absurd (.inl rfl) ho
      | some id, ho =>
        have hn : id ≠ [] := fun e => ho (.inr (by rw [e]))
        unfold step
        dsimp only
        rw [toolToPkg_given tool hn, toolToPkg_given tool hn]
        exact ⟨hi, rfl⟩
  | check tool =>
    obtain ⟨a, ha, ea⟩ := checkTool_eq hi tool
    obtain ⟨b, hb, eb⟩ := checkTool_eq h0 tool
    unfold step
    dsimp only
    rw [ea, eb]
    exact ⟨ha, rfl⟩

theorem run_eq {h : Host} {o : Dict PyStr PyStr} (hi : Inv h o) (ops : List Op) :
    run h o ops = ops.map fun op => (step h [] op).2 := by
  induction ops generalizing o with
  | nil => rfl
  | cons op ops ih =>
    rw [run, List.map_cons, (step_inv hi op).2, ih (step_inv hi op).1]

theorem suggestPkg_eq (h : Host) (tool : PyStr) :
    suggestPkg h tool = match pkgRes h tool with
      | .error _ => none
      | .ok p => p := by
  obtain ⟨o, _, e⟩ := toolToPkg_auto (h := h) (o := []) (.inl rfl) tool (osid := none) (.inl rfl)
  unfold suggestPkg
  rw [e]
  cases pkgRes h tool <;> rfl

theorem prefixLines_eq (s : PyStr) :
    "  ".toList ++ prefixLines s = joinC '\n' ((splitC '\n' s).map ("  ".toList ++ ·)) := by
  have key : ∀ pfx : PyStr, pfx = [' ', ' '] → pfx ++ prefixLines s = joinC '\n' ((splitC '\n' s).map (pfx ++ ·)) := by
    intro pfx hp
    have gen : ∀ s q : PyStr, '\n' ∉ q → q ++ prefixLines s =
        joinC '\n' (match splitC '\n' s with
          | [] => []
          | x :: xs => (q ++ x) :: xs.map (pfx ++ ·)) := by
      intro s
      induction s with
      | nil => intro q _; simp [prefixLines, splitC, joinC]
      | cons c s ih =>
        intro q hq
        by_cases hc : c = '\n'
        · subst hc
          have e := splitC_append (c := '\n') (s := []) (t := s) List.not_mem_nil
          rw [List.nil_append] at e
          rw [e, prefixLines, if_pos rfl]
          dsimp only
          have := ih pfx (by subst hp; decide)
          cases hs : splitC '\n' s with
          | nil => exact absurd hs (splitC_ne_nil _ _)
          | cons x xs =>
            rw [hs] at this
            dsimp only at this
            rw [List.map_cons]
            rw [joinC, ← this]
            subst hp
            simp
        · have := ih (q ++ [c]) (by
            intro h
            rcases List.mem_append.mp h with h | h
            · exact hq h
            · exact hc (List.mem_singleton.mp h).symm)
          rw [prefixLines, if_neg hc]
          rw [show q ++ c :: prefixLines s = q ++ [c] ++ prefixLines s by simp, this]
          have e : splitC '\n' (c :: s) = match splitC '\n' s with
              | [] => [[c]]
              | x :: xs => (c :: x) :: xs := by
            conv => lhs; unfold splitC
            rw [if_neg hc]
            cases splitC '\n' s <;> rfl
          rw [e]
          cases hs : splitC '\n' s with
          | nil => exact absurd hs (splitC_ne_nil _ _)
          | cons x xs => simp
    have h0 := gen s pfx (by subst hp; decide)
    rw [h0]
    cases hs : splitC '\n' s with
    | nil => exact absurd hs (splitC_ne_nil _ _)
    | cons x xs => rfl
  exact key _ rfl

theorem indent2_eq {c : Char} (hc : isSpace c = false) (m : PyStr) :
    indent2 (c :: m) = joinC '\n' ((splitC '\n' (c.toUpper :: m)).map ("  ".toList ++ ·)) := by
  have hup : c.toUpper ≠ '\n' := by
    intro h
    unfold Char.toUpper at h
    split at h
    · rename_i hr
      have := congrArg Char.val h
      exact absurd this (by
        intro h3
        have h4 : c.val + ('A'.val - 'a'.val) = 10 := h3
        have : c.val = 42 := by
          have e : ('A'.val - 'a'.val) = (4294967264 : UInt32) := by decide
          rw [e] at h4
          have h5 : c.val = 10 - 4294967264 := by rw [← h4]; simp
          rw [h5]; decide
        rw [this] at hr
        exact absurd hr.1 (by decide))
    · rw [h] at hc; exact absurd hc (by decide)
  have hne : c ≠ '\n' := fun h => by rw [h] at hc; exact absurd hc (by decide)
  rw [← prefixLines_eq]
  unfold indent2
  rw [prefixLines, if_neg hne, prefixLines, if_neg hup]
  show capFirst (' ' :: ' ' :: c :: prefixLines m) = _
  rw [capFirst, if_pos (by decide), capFirst, if_pos (by decide), capFirst, if_neg (by simp [hc])]
  rfl

end Verif.ToolChecker
