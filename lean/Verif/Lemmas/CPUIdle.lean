import Verif.Model.CPUIdle
import Verif.Lemmas.Trivial
import Verif.Lemmas.EP

/-!
Lemmas about the CPUIdle model: reading the C-states information.
-/

namespace Verif.CPUIdle

/-! ### Order of paths -/

theorem strLe_total (a b : PyStr) : strLe a b = true ∨ strLe b a = true := by
  induction a generalizing b with
  | nil => exact Or.inl rfl
  | cons x a ih =>
    cases b with
    | nil => exact Or.inr rfl
    | cons y b =>
      unfold strLe
      by_cases h : x = y
      · subst h; simpa using ih b
      · have h' : ¬ y = x := fun e => h e.symm
        have : x.toNat ≠ y.toNat := fun e => h (Char.toNat_inj.1 e)
        rw [if_neg h, if_neg h']
        simp only [decide_eq_true_eq]
        omega

theorem strLe_trans (a b c : PyStr) (h1 : strLe a b = true) (h2 : strLe b c = true) :
    strLe a c = true := by
  induction a generalizing b c with
  | nil => rfl
  | cons x a ih =>
    cases b with
    | nil => cases h1
    | cons y b =>
      cases c with
      | nil => cases h2
      | cons z c =>
        unfold strLe at h1 h2 ⊢
        by_cases hxy : x = y
        · subst hxy
          rw [if_pos rfl] at h1
          by_cases hxz : x = z
          · rw [if_pos hxz] at h2 ⊢; exact ih b c h1 h2
          · rw [if_neg hxz] at h2 ⊢; exact h2
        · rw [if_neg hxy] at h1
          simp only [decide_eq_true_eq] at h1
          by_cases hyz : y = z
          · subst hyz; rw [if_neg hxy]; simpa using h1
          · rw [if_neg hyz] at h2
            simp only [decide_eq_true_eq] at h2
            have hxz : x ≠ z := by rintro rfl; omega
            rw [if_neg hxz]
            simp only [decide_eq_true_eq]
            omega

/-- What is between strings with the same prefix has this prefix. -/
theorem strLe_prefix (p x y z : PyStr) (h1 : strLe (p ++ x) z = true) (h2 : strLe z (p ++ y) = true) :
    ∃ t, z = p ++ t := by
  induction p generalizing z with
  | nil => exact ⟨z, rfl⟩
  | cons a p ih =>
    cases z with
    | nil => cases h1
    | cons b z =>
      simp only [List.cons_append] at h1 h2
      unfold strLe at h1 h2
      by_cases h : a = b
      · subst h
        rw [if_pos rfl] at h1 h2
        obtain ⟨t, rfl⟩ := ih z h1 h2
        exact ⟨t, rfl⟩
      · have h' : ¬ b = a := fun e => h e.symm
        rw [if_neg h] at h1
        rw [if_neg h'] at h2
        simp only [decide_eq_true_eq] at h1 h2
        omega

theorem strLe_append (p x y : PyStr) : strLe (p ++ x) (p ++ y) = strLe x y := by
  induction p with
  | nil => rfl
  | cons a p ih => simp only [List.cons_append, strLe, if_pos, ih]

theorem split_at {c : Char} {a b x y : PyStr} (ha : c ∉ a) (hb : c ∉ b)
    (h : a ++ c :: x = b ++ c :: y) : a = b ∧ x = y := by
  induction a generalizing b with
  | nil =>
    cases b with
    | nil => simp at h; exact ⟨rfl, h⟩
    | cons d b =>
      simp only [List.nil_append, List.cons_append, List.cons.injEq] at h
      exact absurd (by rw [h.1]; exact List.mem_cons_self ..) hb
  | cons d a ih =>
    cases b with
    | nil =>
      simp only [List.nil_append, List.cons_append, List.cons.injEq] at h
      exact absurd (by rw [h.1]; exact List.mem_cons_self ..) ha
    | cons e b =>
      simp only [List.cons_append, List.cons.injEq] at h
      obtain ⟨h1, h2⟩ := ih (fun h => ha (List.mem_cons_of_mem _ h))
        (fun h => hb (List.mem_cons_of_mem _ h)) h.2
      exact ⟨by rw [h.1, h1], h2⟩

theorem ofNat_inj {a b : Nat} (h : PyStr.ofNat a = PyStr.ofNat b) : a = b := by
  have h1 := Trivial.parseDigits_ofNat a
  rw [h, Trivial.parseDigits_ofNat] at h1
  injection h1 with h1
  exact h1.symm

theorem slash_not_mem (n : Nat) : '/' ∉ PyStr.ofNat n := PyStr.ofNat_not_mem n (by decide)

/-- Everything before the CPU number. -/
def base : PyStr := "/sys/devices/system/cpu/cpu".toList

theorem path_eq (f : File) : path f = base ++ (PyStr.ofNat f.cpu ++ '/' :: ("cpuidle/state".toList ++
    (PyStr.ofNat f.idx ++ '/' :: (f.fname ++ ['\n'])))) := by
  have : "/cpuidle/state".toList = '/' :: "cpuidle/state".toList := by decide
  unfold path base
  rw [this]
  simp

/-- Files between files of a CPU are files of the CPU. -/
theorem cpu_convex (x y z : File) (h1 : strLe (path x) (path z) = true)
    (h2 : strLe (path z) (path y) = true) (h : x.cpu = y.cpu) : z.cpu = x.cpu := by
  rw [path_eq x, path_eq z, strLe_append] at h1
  rw [path_eq z, path_eq y, strLe_append] at h2
  rw [← h] at h2
  have e : ∀ (a b : PyStr), a ++ '/' :: b = (a ++ ['/']) ++ b := by intros; simp
  rw [e (PyStr.ofNat x.cpu)] at h1 h2
  obtain ⟨t, ht⟩ := strLe_prefix _ _ _ _ h1 h2
  rw [← e] at ht
  exact ofNat_inj (split_at (slash_not_mem _) (slash_not_mem _) ht).1

theorem path_le_same_cpu (x y : File) (h : x.cpu = y.cpu) : strLe (path x) (path y) =
    strLe (PyStr.ofNat x.idx ++ '/' :: (x.fname ++ ['\n'])) (PyStr.ofNat y.idx ++ '/' :: (y.fname ++ ['\n'])) := by
  rw [path_eq x, path_eq y, strLe_append, h, strLe_append]
  rw [strLe, if_pos rfl, strLe_append]

/-- Files between files of a C-state are files of the C-state. -/
theorem state_convex (x y z : File) (h1 : strLe (path x) (path z) = true)
    (h2 : strLe (path z) (path y) = true) (h : (x.cpu, x.idx) = (y.cpu, y.idx)) :
    (z.cpu, z.idx) = (x.cpu, x.idx) := by
  simp only [Prod.mk.injEq] at h
  have hc := cpu_convex x y z h1 h2 h.1
  have e : ∀ (a b : PyStr), a ++ '/' :: b = (a ++ ['/']) ++ b := by intros; simp
  rw [path_le_same_cpu x z hc.symm] at h1
  rw [path_le_same_cpu z y (hc.trans h.1)] at h2
  rw [← h.2] at h2
  rw [e (PyStr.ofNat x.idx)] at h1 h2
  obtain ⟨t, ht⟩ := strLe_prefix _ _ _ _ h1 h2
  rw [← e] at ht
  rw [hc, ofNat_inj (split_at (slash_not_mem _) (slash_not_mem _) ht).1]

theorem ofNat_one : PyStr.ofNat 1 = ['1'] := by decide +kernel

theorem idx_zero_first (x y : File) (h : x.cpu = y.cpu) (hle : strLe (path x) (path y) = true)
    (hy : y.idx = 0) : x.idx = 0 := by
  rw [path_le_same_cpu x y h, hy, Trivial.ofNat_zero] at hle
  rcases Nat.eq_zero_or_pos x.idx with h0 | h0
  · exact h0
  · exfalso
    cases hx : PyStr.ofNat x.idx with
    | nil => exact PyStr.ofNat_ne_nil _ hx
    | cons c cs =>
      have hd := PyStr.ofNat_digits x.idx c (by rw [hx]; exact List.mem_cons_self ..)
      have hn := PyStr.ofNat_head x.idx h0 c (by rw [hx]; rfl)
      rw [hx] at hle
      simp only [List.cons_append] at hle
      unfold strLe at hle
      have h48 : ('0' : Char).toNat = 48 := by decide
      have hne : c ≠ '0' := by rintro rfl; exact hn h48
      rw [if_neg hne] at hle
      simp only [decide_eq_true_eq] at hle
      omega

theorem idx_one_after (x y : File) (h : x.cpu = y.cpu) (hle : strLe (path x) (path y) = true)
    (hx : x.idx = 1) : y.idx ≠ 0 := by
  intro hy
  rw [path_le_same_cpu x y h, hy, hx, Trivial.ofNat_zero, ofNat_one] at hle
  simp only [List.cons_append] at hle
  unfold strLe at hle
  rw [if_neg (by decide)] at hle
  exact absurd hle (by decide)

/-! ### Specification -/

/-- The value read from a file: a number, or the text itself. -/
def Reads (s : PyStr) (v : Value) : Prop :=
  (∃ n : Nat, s = PyStr.ofNat n ∧ v = .num n) ∨ (EP.isInt s = false ∧ v = .text s)

/-- `v` stands for the contents `s`. In Python, 'True' and 'False' are equal to 1 and 0. -/
def Shows (s : PyStr) (v : Value) : Prop :=
  Reads s v ∨ ∃ b : Bool, v = .bool b ∧ s = if b then ['1'] else ['0']

/-- There is a file. -/
def Has (files : List File) (c i : Nat) (k s : PyStr) : Prop := (⟨c, i, k, s⟩ : File) ∈ files

/-- `st` describes C-state `i` of CPU `c`: the index and the attributes are those of the C-state. -/
def Describes (files : List File) (c i : Nat) (st : CState) : Prop :=
  st.index = i ∧ st.attrs.keys = fnames ∧
    ∀ k ∈ fnames, ∃ s v, Has files c i k s ∧ Shows s v ∧ st.attrs.get? k = some v

/-- `ci` has the C-states of CPU `c` satisfying `P` and nothing else. -/
def TableP (files : List File) (c : Nat) (P : Nat → Prop) (ci : CsInfo) : Prop :=
  (∀ n st, ci.get? n = some st →
    ∃ i nm, P i ∧ Has files c i "name".toList nm ∧ n = upper nm ∧ Describes files c i st) ∧
  (∀ i nm, P i → Has files c i "name".toList nm →
    ∃ st, ci.get? (upper nm) = some st ∧ Describes files c i st)

/-- `ci` has the C-states of CPU `c` and nothing else. -/
def Table (files : List File) (c : Nat) (ci : CsInfo) : Prop := TableP files c (fun _ => True) ci

/-- What the Linux kernel provides. -/
structure WF (files : List File) : Prop where
  /-- File names are unique. -/
  uniq : ∀ c i k s s', Has files c i k s → Has files c i k s' → s = s'
  /-- Every C-state has all the files. -/
  complete : ∀ f ∈ files, ∀ k ∈ fnames, ∃ s, Has files f.cpu f.idx k s
  /-- Files have natural numbers or text. -/
  plain : ∀ f ∈ files, f.fname ∈ fnames → ∃ v, Reads f.content v
  /-- Names are not numbers. -/
  names : ∀ f ∈ files, f.fname = "name".toList → EP.isInt f.content = false
  /-- Names differ, even when upper-cased. -/
  distinct : ∀ c i j a b, Has files c i "name".toList a → Has files c j "name".toList b →
    upper a = upper b → i = j
  /-- There are at least two C-states, numbered from 0. -/
  two : ∀ f ∈ files, (∃ g ∈ files, g.cpu = f.cpu ∧ g.idx = 0) ∧ (∃ g ∈ files, g.cpu = f.cpu ∧ g.idx = 1)

theorem has_self (files : List File) (f : File) (h : f ∈ files) :
    Has files f.cpu f.idx f.fname f.content := h

/-! ### Values -/

theorem isInt_ofNat (n : Nat) : EP.isInt (PyStr.ofNat n) = true :=
  EP.isInt_of_parse10 (EP.parse10_ofNat n)

theorem parseVal_of_reads {s : PyStr} {v : Value} (h : Reads s v) : parseVal s = .ok v := by
  unfold parseVal
  rcases h with ⟨n, rfl, rfl⟩ | ⟨h, rfl⟩
  · rw [if_pos (isInt_ofNat n), EP.parse10_ofNat]
  · rw [if_neg (by simp [h])]

theorem reads_unique {s : PyStr} {v w : Value} (h : Reads s v) (h' : Reads s w) : v = w := by
  have := parseVal_of_reads h
  rw [parseVal_of_reads h'] at this
  injection this with this
  exact this.symm

/-! ### Adding a C-state -/

theorem copyKeys_ok (attrs : Dict PyStr Value) (ks : List PyStr) (h : ∀ k ∈ ks, attrs.get? k ≠ none) :
    ∃ d, copyKeys attrs ks = .ok d ∧ d.keys = ks ∧ ∀ k ∈ ks, d.get? k = attrs.get? k := by
  induction ks with
  | nil => exact ⟨[], rfl, rfl, by simp⟩
  | cons k ks ih =>
    obtain ⟨d, hd, hk, hg⟩ := ih (fun k hk => h k (List.mem_cons_of_mem _ hk))
    cases hv : attrs.get? k with
    | none => exact absurd hv (h k (List.mem_cons_self ..))
    | some v =>
      refine ⟨(k, v) :: d, ?_, ?_, ?_⟩
      · simp only [copyKeys, hv, hd]
      · show k :: Dict.keys d = _
        rw [hk]
      · intro k' hk'
        by_cases e : k = k'
        · subst e
          rw [hv]
          simp [Dict.get?]
        · rcases List.mem_cons.1 hk' with rfl | hk'
          · exact absurd rfl e
          · rw [← hg k' hk']
            simp [Dict.get?, e]

/-- The attributes are those of C-state `i` of CPU `c`. -/
def AttrsIs (fs : List File) (c i : Nat) (attrs : Dict PyStr Value) : Prop :=
  ∀ k v, attrs.get? k = some v ↔ ∃ s, Has fs c i k s ∧ Reads s v

/-- The files are the wanted ones of the system. -/
def Sub (fs files : List File) (cpus : List Nat) : Prop :=
  ∀ f, f ∈ fs ↔ f ∈ files ∧ f.cpu ∈ cpus ∧ f.fname ∈ fnames

theorem name_mem : "name".toList ∈ fnames := by decide

theorem addCState_ok {files fs : List File} {cpus : List Nat} (W : WF files) (S : Sub fs files cpus)
    {c i : Nat} (hc : c ∈ cpus) (hex : ∃ f ∈ files, f.cpu = c ∧ f.idx = i) {cs : CState}
    (hi : cs.index = i) (ha : AttrsIs fs c i cs.attrs) {P : Nat → Prop} {ci : CsInfo}
    (hP : ¬ P i) (ht : TableP files c P ci) :
    ∃ ci', addCState ci cs = .ok ci' ∧ TableP files c (fun j => P j ∨ j = i) ci' := by
  obtain ⟨f, hf, rfl, rfl⟩ := hex
  have hall : ∀ k ∈ fnames, ∃ s v, Has files f.cpu f.idx k s ∧ Reads s v ∧ cs.attrs.get? k = some v := by
    intro k hk
    obtain ⟨s, hs⟩ := W.complete f hf k hk
    obtain ⟨v, hv⟩ := W.plain _ hs hk
    exact ⟨s, v, hs, hv, (ha k v).2 ⟨s, (S _).2 ⟨hs, hc, hk⟩, hv⟩⟩
  obtain ⟨nm, v, hn, hv, hg⟩ := hall _ name_mem
  have hnum := W.names _ hn rfl
  have hvt : v = .text nm := by
    rcases hv with ⟨n, rfl, _⟩ | ⟨_, h⟩
    · exact absurd (isInt_ofNat n) (by simpa using hnum)
    · exact h
  subst hvt
  obtain ⟨d, hd, hk, hdg⟩ := copyKeys_ok cs.attrs fnames (by
    intro k hk
    obtain ⟨s, v, _, _, h⟩ := hall k hk
    rw [h]; exact fun h => by cases h)
  refine ⟨ci.set (upper nm) ⟨cs.index, d⟩, ?_, ?_, ?_⟩
  · unfold addCState
    simp only [hg, hd]
  · have hdesc : Describes files f.cpu f.idx ⟨cs.index, d⟩ := by
      refine ⟨hi, hk, ?_⟩
      intro k hk
      obtain ⟨s, v, h1, h2, h3⟩ := hall k hk
      exact ⟨s, v, h1, Or.inl h2, by rw [hdg k hk]; exact h3⟩
    intro n st h
    rw [Dict.get?_set] at h
    split at h
    · next e =>
      injection h with h
      subst h
      refine ⟨f.idx, nm, Or.inr rfl, hn, ?_, hdesc⟩
      simp_all
    · obtain ⟨j, m, h1, h2⟩ := ht.1 n st h
      exact ⟨j, m, Or.inl h1, h2⟩
  · have hdesc : Describes files f.cpu f.idx ⟨cs.index, d⟩ := by
      refine ⟨hi, hk, ?_⟩
      intro k hk
      obtain ⟨s, v, h1, h2, h3⟩ := hall k hk
      exact ⟨s, v, h1, Or.inl h2, by rw [hdg k hk]; exact h3⟩
    intro j m hj hm
    by_cases e : j = f.idx
    · subst e
      have := W.uniq _ _ _ _ _ hm hn
      subst this
      exact ⟨_, Dict.get?_set_self .., hdesc⟩
    · have hj : P j := hj.resolve_right e
      obtain ⟨st, h1, h2⟩ := ht.2 j m hj hm
      refine ⟨st, ?_, h2⟩
      rw [Dict.get?_set_ne _ _ (fun h => e (W.distinct _ _ _ _ _ hm hn h.symm))]
      exact h1

/-! ### The loop -/

/-- The files of a key are together. -/
theorem sorted_split {le : File → File → Prop} {p suf : List File} {f : File}
    (h : (p ++ f :: suf).Pairwise le) : (∀ g ∈ p, le g f) ∧ (∀ g ∈ suf, le f g) := by
  rw [List.pairwise_append] at h
  exact ⟨fun g hg => h.2.2 g hg f (List.mem_cons_self ..), fun g hg => (List.pairwise_cons.1 h.2.1).1 g hg⟩

/-- Files are sorted by path. -/
def Sorted (fs : List File) : Prop := fs.Pairwise (fun f g => strLe (path f) (path g) = true)

/-- Loop invariant after processing files `p`, the last one is `r`. -/
structure Inv (files p : List File) (r : File) (L : Loop) : Prop where
  prev : L.prev = some (r.cpu, r.idx)
  index : L.cstate.index = r.idx
  attrs : AttrsIs p r.cpu r.idx L.cstate.attrs
  csinfo : TableP files r.cpu (fun j => j ≠ r.idx ∧ ∃ g ∈ p, g.cpu = r.cpu ∧ g.idx = j) L.csinfo
  out : ∀ x ∈ L.out, Table files x.1 x.2
  done : ∀ g ∈ p, g.cpu ≠ r.cpu → ∃ ci, (g.cpu, ci) ∈ L.out
  only : ∀ x ∈ L.out, ∃ g ∈ p, g.cpu = x.1

theorem TableP.congr {files : List File} {c : Nat} {P Q : Nat → Prop} {ci : CsInfo}
    (h : TableP files c P ci)
    (hpq : ∀ j nm, Has files c j "name".toList nm → (P j ↔ Q j)) : TableP files c Q ci :=
  ⟨fun n st hs => by
      obtain ⟨i, nm, h1, h2, h3⟩ := h.1 n st hs
      exact ⟨i, nm, (hpq i nm h2).1 h1, h2, h3⟩,
    fun i nm hq hn => h.2 i nm ((hpq i nm hn).2 hq) hn⟩

theorem tableP_empty (files : List File) (c : Nat) {P : Nat → Prop} (h : ∀ j nm,
    Has files c j "name".toList nm → ¬ P j) : TableP files c P [] :=
  ⟨fun n st hs => by simp at hs, fun i nm hp hn => absurd hp (h i nm hn)⟩

/-- Where files of a finished key are. -/
theorem before {fs p q suf : List File} {r f : File} (hp : p = q ++ [r]) (hfs : fs = p ++ f :: suf)
    (hs : Sorted fs) {key : File → Nat × Nat}
    (conv : ∀ x y z, strLe (path x) (path z) = true → strLe (path z) (path y) = true → key x = key y →
      key z = key x)
    (hne : key r ≠ key f) : (∀ g ∈ fs, key g = key r → g ∈ p) ∧ (∀ g ∈ p, key g ≠ key f) := by
  subst hp
  subst hfs
  have h1 := sorted_split (p := q ++ [r]) (f := f) (suf := suf) hs
  have h2 : Sorted (q ++ r :: (f :: suf)) := by simpa [Sorted] using hs
  have h2 := sorted_split h2
  have hrf := h1.1 r (by simp)
  refine ⟨fun g hg he => ?_, fun g hg he => ?_⟩
  · rcases List.mem_append.1 hg with hg | hg
    · exact hg
    · exfalso
      rcases List.mem_cons.1 hg with rfl | hg
      · exact hne he.symm
      · exact hne (conv r g f hrf (h1.2 g hg) he.symm).symm
  · rcases List.mem_append.1 hg with hg | hg
    · exact hne ((conv g f r (h2.1 g hg) hrf he).trans he)
    · rw [List.mem_singleton] at hg
      subst hg
      exact hne he

/-- When the CPU changes, the index changes. -/
theorem idx_changes {files fs p q suf : List File} {cpus : List Nat} {r f : File} (W : WF files)
    (S : Sub fs files cpus) (hp : p = q ++ [r]) (hfs : fs = p ++ f :: suf) (hs : Sorted fs)
    (hne : r.cpu ≠ f.cpu) : f.idx ≠ r.idx := by
  have hb := before (key := fun f => (f.cpu, 0)) hp hfs hs
    (fun x y z h1 h2 h => by simp at h ⊢; exact cpu_convex x y z h1 h2 h) (by simpa using hne)
  have hf : f ∈ fs := by rw [hfs]; simp
  have hr : r ∈ fs := by rw [hfs, hp]; simp
  have hin : ∀ x ∈ fs, ∀ g ∈ files, g.cpu = x.cpu → ∃ g' ∈ fs, g'.cpu = x.cpu ∧ g'.idx = g.idx := by
    intro x hx g hg e
    obtain ⟨s, hs⟩ := W.complete g hg _ name_mem
    exact ⟨_, (S _).2 ⟨hs, by rw [e]; exact ((S x).1 hx).2.1, name_mem⟩, e, rfl⟩
  have h0 : f.idx = 0 := by
    obtain ⟨g, hg, hgc, hgi⟩ := (W.two f ((S f).1 hf).1).1
    obtain ⟨g', hg', hc', hi'⟩ := hin f hf g hg hgc
    have hg'p : g' ∉ p := fun h => hb.2 g' h (by simp [hc'])
    have hs1 := sorted_split (p := p) (f := f) (suf := suf) (by rw [← hfs]; exact hs)
    rw [hfs] at hg'
    rcases List.mem_append.1 hg' with h | h
    · exact absurd h hg'p
    · rcases List.mem_cons.1 h with rfl | h
      · omega
      · exact idx_zero_first f g' hc'.symm (hs1.2 g' h) (by omega)
  have h1 : r.idx ≠ 0 := by
    obtain ⟨g, hg, hgc, hgi⟩ := (W.two r ((S r).1 hr).1).2
    obtain ⟨g', hg', hc', hi'⟩ := hin r hr g hg hgc
    have hg'p : g' ∈ p := hb.1 g' hg' (by simp [hc'])
    have hs2 : Sorted (q ++ r :: (f :: suf)) := by rw [hfs, hp] at hs; simpa [Sorted] using hs
    have hs2 := sorted_split hs2
    rw [hp] at hg'p
    rcases List.mem_append.1 hg'p with h | h
    · exact idx_one_after g' r hc' (hs2.1 g' h) (by omega)
    · rw [List.mem_singleton] at h
      subst h
      omega
  omega

theorem attrsIs_first {p : List File} {f : File} {v : Value} (hv : Reads f.content v)
    (h : ∀ g ∈ p, (g.cpu, g.idx) ≠ (f.cpu, f.idx)) :
    AttrsIs (p ++ [f]) f.cpu f.idx (Dict.set [] f.fname v) := by
  intro k w
  rw [Dict.get?_set]
  constructor
  · intro hw
    split at hw
    · next e =>
      injection hw with hw
      subst hw
      refine ⟨f.content, ?_, hv⟩
      have e : f.fname = k := by simpa using e
      subst e
      show f ∈ _
      simp
    · simp at hw
  · rintro ⟨s, hs, hr⟩
    rcases List.mem_append.1 hs with hs | hs
    · exact absurd rfl (h ⟨f.cpu, f.idx, k, s⟩ hs)
    · rw [List.mem_singleton] at hs
      have e1 : f.fname = k := by rw [← hs]
      have e2 : f.content = s := by rw [← hs]
      rw [e2] at hv
      rw [if_pos (by simp [e1]), reads_unique hv hr]

theorem step_inv {files fs p q suf : List File} {cpus : List Nat} {r f : File} {L : Loop} (W : WF files)
    (S : Sub fs files cpus) (hp : p = q ++ [r]) (hfs : fs = p ++ f :: suf) (hs : Sorted fs)
    (I : Inv files p r L) : ∃ L', step L f = .ok L' ∧ Inv files (p ++ [f]) f L' := by
  have hf : f ∈ fs := by rw [hfs]; simp
  have hr : r ∈ fs := by rw [hfs, hp]; simp
  have hrp : r ∈ p := by rw [hp]; simp
  have hfS := (S f).1 hf
  have hrS := (S r).1 hr
  obtain ⟨v, hv⟩ := W.plain f hfS.1 hfS.2.2
  by_cases hkey : (r.cpu, r.idx) = (f.cpu, f.idx)
  · -- The same C-state.
    simp only [Prod.mk.injEq] at hkey
    refine ⟨{ L with prev := some (f.cpu, f.idx), cstate := ⟨f.idx, L.cstate.attrs.set f.fname v⟩ }, ?_, ?_⟩
    · unfold step flushState flushCpu
      simp only [parseVal_of_reads hv, I.prev, hkey.2, ne_eq, not_true_eq_false, if_false, hkey.1]
    · refine ⟨rfl, rfl, ?_, ?_, I.out, ?_, ?_⟩
      · intro k w
        have ha := I.attrs k w
        rw [hkey.1, hkey.2] at ha
        rw [Dict.get?_set]
        by_cases e : f.fname = k
        · subst e
          rw [if_pos (by simp)]
          constructor
          · intro h
            injection h with h
            subst h
            exact ⟨f.content, by show f ∈ _; simp, hv⟩
          · rintro ⟨s, h1, h2⟩
            have h1' : Has files f.cpu f.idx f.fname s := by
              refine ((S _).1 ?_).1
              rw [hfs]
              rcases List.mem_append.1 h1 with h | h
              · exact List.mem_append_left _ h
              · rw [List.mem_singleton] at h
                rw [h]; simp
            have := W.uniq _ _ _ _ _ h1' (has_self files f hfS.1)
            subst this
            rw [reads_unique hv h2]
        · rw [if_neg (by simpa using e)]
          show Dict.get? L.cstate.attrs k = some w ↔ _
          rw [ha]
          constructor
          · rintro ⟨s, h1, h2⟩
            exact ⟨s, List.mem_append_left _ h1, h2⟩
          · rintro ⟨s, h1, h2⟩
            refine ⟨s, ?_, h2⟩
            rcases List.mem_append.1 h1 with h | h
            · exact h
            · rw [List.mem_singleton] at h
              exact absurd (by rw [← h]) e
      · have hc := I.csinfo
        rw [hkey.1, hkey.2] at hc
        refine hc.congr ?_
        intro j nm _
        constructor
        · rintro ⟨h1, g, h2, h3⟩
          exact ⟨h1, g, List.mem_append_left _ h2, h3⟩
        · rintro ⟨h1, g, h2, h3⟩
          rcases List.mem_append.1 h2 with h | h
          · exact ⟨h1, g, h, h3⟩
          · rw [List.mem_singleton] at h
            subst h
            exact absurd h3.2.symm h1
      · intro g hg hne
        rcases List.mem_append.1 hg with h | h
        · exact I.done g h (by rw [hkey.1]; exact hne)
        · rw [List.mem_singleton] at h
          subst h
          exact absurd rfl hne
      · intro x hx
        obtain ⟨g, h1, h2⟩ := I.only x hx
        exact ⟨g, List.mem_append_left _ h1, h2⟩
  · -- A new C-state.
    have hb := before (key := fun f => (f.cpu, f.idx)) hp hfs hs state_convex hkey
    have hidx : f.idx ≠ r.idx := by
      by_cases hc : r.cpu = f.cpu
      · intro e; exact hkey (by rw [hc, e])
      · exact idx_changes W S hp hfs hs hc
    have hfull : AttrsIs fs r.cpu r.idx L.cstate.attrs := by
      intro k w
      rw [I.attrs k w]
      constructor
      · rintro ⟨s, h1, h2⟩
        exact ⟨s, by show _ ∈ fs; rw [hfs]; exact List.mem_append_left _ h1, h2⟩
      · rintro ⟨s, h1, h2⟩
        exact ⟨s, hb.1 _ h1 rfl, h2⟩
    obtain ⟨ci, hci, ht⟩ := addCState_ok W S hrS.2.1 ⟨r, hrS.1, rfl, rfl⟩ I.index hfull
      (fun h => h.1 rfl) I.csinfo
    have hflush : flushState L f.idx = .ok { L with csinfo := ci, cstate := ⟨0, []⟩ } := by
      unfold flushState
      simp only [I.prev, ne_eq, hidx, not_false_eq_true, if_true, hci]
    have hattrs := attrsIs_first hv hb.2
    by_cases hc : r.cpu = f.cpu
    · refine ⟨{ L with csinfo := ci, prev := some (f.cpu, f.idx), cstate := ⟨f.idx, Dict.set [] f.fname v⟩ },
        ?_, rfl, rfl, hattrs, ?_, I.out, ?_, ?_⟩
      · unfold step
        simp only [parseVal_of_reads hv, hflush]
        unfold flushCpu
        simp only [I.prev, hc, ne_eq, not_true_eq_false, if_false]
      · rw [hc] at ht
        refine ht.congr ?_
        intro j nm _
        constructor
        · rintro (⟨h1, g, h2, h3⟩ | rfl)
          · refine ⟨?_, g, List.mem_append_left _ h2, h3⟩
            rintro rfl
            exact hb.2 g h2 (by rw [h3.1, h3.2])
          · exact ⟨hidx.symm, r, List.mem_append_left _ hrp, hc, rfl⟩
        · rintro ⟨h1, g, h2, h3⟩
          by_cases e : j = r.idx
          · exact Or.inr e
          · refine Or.inl ⟨e, ?_⟩
            rcases List.mem_append.1 h2 with h | h
            · exact ⟨g, h, h3⟩
            · rw [List.mem_singleton] at h
              subst h
              exact absurd h3.2.symm h1
      · intro g hg hne
        rcases List.mem_append.1 hg with h | h
        · exact I.done g h (by rw [hc]; exact hne)
        · rw [List.mem_singleton] at h
          subst h
          exact absurd rfl hne
      · intro x hx
        obtain ⟨g, h1, h2⟩ := I.only x hx
        exact ⟨g, List.mem_append_left _ h1, h2⟩
    · have hbc := before (key := fun f => (f.cpu, 0)) hp hfs hs
        (fun x y z h1 h2 h => by simp at h ⊢; exact cpu_convex x y z h1 h2 h) (by simpa using hc)
      have hcf : ¬ f.cpu = r.cpu := fun e => hc e.symm
      refine ⟨{ L with csinfo := [], out := L.out ++ [(r.cpu, ci)], prev := some (f.cpu, f.idx),
                       cstate := ⟨f.idx, Dict.set [] f.fname v⟩ }, ?_, rfl, rfl, hattrs, ?_, ?_, ?_, ?_⟩
      · unfold step
        simp only [parseVal_of_reads hv, hflush]
        unfold flushCpu
        simp only [I.prev, ne_eq, hcf, not_false_eq_true, if_true]
      · refine tableP_empty _ _ ?_
        rintro j nm _ ⟨h1, g, h2, h3⟩
        rcases List.mem_append.1 h2 with h | h
        · exact hbc.2 g h (by simp [h3.1])
        · rw [List.mem_singleton] at h
          subst h
          exact h1 h3.2.symm
      · intro x hx
        rcases List.mem_append.1 hx with h | h
        · exact I.out x h
        · rw [List.mem_singleton] at h
          subst h
          refine ht.congr ?_
          intro j nm hn
          constructor
          · intro _; trivial
          · intro _
            by_cases e : j = r.idx
            · exact Or.inr e
            · refine Or.inl ⟨e, ⟨r.cpu, j, "name".toList, nm⟩, ?_, rfl, rfl⟩
              exact hbc.1 _ ((S _).2 ⟨hn, hrS.2.1, name_mem⟩) rfl
      · intro g hg hne
        rcases List.mem_append.1 hg with h | h
        · by_cases e : g.cpu = r.cpu
          · exact ⟨ci, by rw [e]; simp⟩
          · obtain ⟨ci', h'⟩ := I.done g h e
            exact ⟨ci', List.mem_append_left _ h'⟩
        · rw [List.mem_singleton] at h
          subst h
          exact absurd rfl hne
      · intro x hx
        rcases List.mem_append.1 hx with h | h
        · obtain ⟨g, h1, h2⟩ := I.only x h
          exact ⟨g, List.mem_append_left _ h1, h2⟩
        · rw [List.mem_singleton] at h
          subst h
          exact ⟨r, List.mem_append_left _ hrp, rfl⟩

theorem first_inv {files : List File} {f : File} (W : WF files) (hf : f ∈ files) (hk : f.fname ∈ fnames) :
    ∃ L, step Loop.init f = .ok L ∧ Inv files [f] f L := by
  obtain ⟨v, hv⟩ := W.plain f hf hk
  refine ⟨⟨[], ⟨f.idx, Dict.set [] f.fname v⟩, some (f.cpu, f.idx), []⟩, ?_, rfl, rfl, ?_, ?_, ?_, ?_, ?_⟩
  · unfold step Loop.init flushState flushCpu
    simp only [parseVal_of_reads hv]
  · exact attrsIs_first (p := []) hv (by simp)
  · refine tableP_empty _ _ ?_
    rintro j nm _ ⟨h1, g, h2, h3⟩
    rw [List.mem_singleton] at h2
    subst h2
    exact h1 h3.2.symm
  · intro x hx; cases hx
  · intro g hg hne
    rw [List.mem_singleton] at hg
    subst hg
    exact absurd rfl hne
  · intro x hx; cases hx

theorem loop_inv {files fs : List File} {cpus : List Nat} (W : WF files) (S : Sub fs files cpus)
    (hs : Sorted fs) (suf : List File) : ∀ (p q : List File) (r : File) (L : Loop), p = q ++ [r] →
    fs = p ++ suf → Inv files p r L → ∃ r' q' L', loop suf L = (L'.out, .ok L') ∧ fs = q' ++ [r'] ∧
      Inv files fs r' L' := by
  induction suf with
  | nil =>
    intro p q r L hp hfs I
    rw [List.append_nil] at hfs
    subst hfs
    exact ⟨r, q, L, rfl, hp, I⟩
  | cons f suf ih =>
    intro p q r L hp hfs I
    obtain ⟨L', h1, h2⟩ := step_inv W S hp hfs hs I
    obtain ⟨r', q', L'', h3, h4⟩ := ih (p ++ [f]) p f L' rfl (by rw [hfs]; simp) h2
    exact ⟨r', q', L'', by simp only [loop, h1, h3], h4⟩

/-- What `_read_cstates_info()` yields. -/
theorem readInfo_spec {files : List File} {cpus : List Nat} (W : WF files) :
    (readInfo files cpus).2 = .ok () ∧ (∀ x ∈ (readInfo files cpus).1, Table files x.1 x.2) ∧
    (∀ x ∈ (readInfo files cpus).1, x.1 ∈ cpus) ∧
    (∀ c ∈ cpus, ((∃ f ∈ files, f.cpu = c) ∨ ∀ f ∈ files, f.cpu ∉ cpus) →
      ∃ ci, (c, ci) ∈ (readInfo files cpus).1) := by
  unfold readInfo readFiles
  by_cases he : (files.filter (fun f => f.cpu ∈ cpus)).isEmpty = true
  · simp only [he, if_true]
    have hno : ∀ f ∈ files, f.cpu ∉ cpus := by
      intro f hf hc
      have : f ∈ files.filter (fun f => f.cpu ∈ cpus) := by simp [hf, hc]
      rw [List.isEmpty_iff.1 he] at this
      cases this
    refine ⟨trivial, ?_, ?_, ?_⟩
    · intro x hx
      obtain ⟨c, hc, rfl⟩ := List.mem_map.1 hx
      exact tableP_empty _ _ (fun j nm hn => absurd hc (hno _ hn))
    · intro x hx
      obtain ⟨c, hc, rfl⟩ := List.mem_map.1 hx
      exact hc
    · intro c hc _
      exact ⟨[], List.mem_map.2 ⟨c, hc, rfl⟩⟩
  · have he : (files.filter (fun f => f.cpu ∈ cpus)).isEmpty = false := by simpa using he
    simp only [he, Bool.false_eq_true, if_false]
    generalize hfs : (sortBy (fun f g => strLe (path f) (path g))
      (files.filter (fun f => f.cpu ∈ cpus))).filter (fun f => f.fname ∈ fnames) = fs
    have S : Sub fs files cpus := by
      intro f
      rw [← hfs]
      simp only [List.mem_filter, mem_sortBy, decide_eq_true_eq, and_assoc]
    have hs : Sorted fs := by
      rw [← hfs]
      refine List.Pairwise.filter _ ?_
      exact sortBy_sorted (le := fun f g => strLe (path f) (path g))
        (fun a b => strLe_total (path a) (path b)) (fun a b c => strLe_trans (path a) (path b) (path c)) _
    have hne : fs ≠ [] := by
      obtain ⟨f, hf⟩ : ∃ f, f ∈ files.filter (fun f => f.cpu ∈ cpus) := by
        cases h : files.filter (fun f => f.cpu ∈ cpus) with
        | nil => rw [h] at he; cases he
        | cons a l => exact ⟨a, by simp⟩
      rw [List.mem_filter] at hf
      obtain ⟨s, hs⟩ := W.complete f hf.1 _ name_mem
      intro e
      have : (⟨f.cpu, f.idx, "name".toList, s⟩ : File) ∈ fs :=
        (S _).2 ⟨hs, by simpa using hf.2, name_mem⟩
      rw [e] at this
      cases this
    clear hfs
    obtain ⟨f, rest, rfl⟩ : ∃ f rest, fs = f :: rest := by
      cases fs with
      | nil => exact absurd rfl hne
      | cons f l => exact ⟨f, l, rfl⟩
    have hf := (S f).1 (List.mem_cons_self ..)
    obtain ⟨L1, h1, I1⟩ := first_inv W hf.1 hf.2.2
    obtain ⟨r, q, L, h2, h3, I⟩ := loop_inv W S hs rest [f] [] f L1 rfl rfl I1
    have hr : r ∈ f :: rest := by rw [h3]; simp
    have hrS := (S r).1 hr
    obtain ⟨ci, hci, ht⟩ := addCState_ok W S hrS.2.1 ⟨r, hrS.1, rfl, rfl⟩ I.index I.attrs
      (fun h => h.1 rfl) I.csinfo
    have ht : Table files r.cpu ci := by
      refine ht.congr ?_
      intro j nm hn
      constructor
      · intro _; trivial
      · intro _
        by_cases e : j = r.idx
        · exact Or.inr e
        · exact Or.inl ⟨e, ⟨r.cpu, j, "name".toList, nm⟩, (S _).2 ⟨hn, hrS.2.1, name_mem⟩, rfl, rfl⟩
    have hloop : loop (f :: rest) Loop.init = (L.out, .ok L) := by
      simp only [loop, h1, h2]
    simp only [hloop, hci, I.prev]
    refine ⟨trivial, ?_, ?_, ?_⟩
    · intro x hx
      rcases List.mem_append.1 hx with h | h
      · exact I.out x h
      · rw [List.mem_singleton] at h
        subst h
        exact ht
    · intro x hx
      rcases List.mem_append.1 hx with h | h
      · obtain ⟨g, h1, h2⟩ := I.only x h
        rw [← h2]
        exact ((S g).1 h1).2.1
      · rw [List.mem_singleton] at h
        subst h
        exact hrS.2.1
    · intro c hc hex
      rcases hex with ⟨g, hg, rfl⟩ | hno
      · obtain ⟨s, hs⟩ := W.complete g hg _ name_mem
        have hin := (S _).2 ⟨hs, hc, name_mem⟩
        by_cases e : g.cpu = r.cpu
        · exact ⟨ci, by rw [e]; simp⟩
        · obtain ⟨ci', h'⟩ := I.done _ hin e
          exact ⟨ci', List.mem_append_left _ h'⟩
      · exact absurd hf.2.1 (hno f hf.1)

/-! ### The cache -/

/-- The files are as the kernel provides them, and what is cached is true. -/
structure Good (s : St) : Prop where
  wf : WF s.files
  cache : ∀ c ci, s.cache c = some ci → Table s.files c ci

/-- Either all the CPUs have C-states, or none of them. -/
def Uniform (files : List File) (cpus : List Nat) : Prop :=
  (∀ c ∈ cpus, ∃ f ∈ files, f.cpu = c) ∨ (∀ f ∈ files, f.cpu ∉ cpus)

theorem cacheGet_on {E : Env} (hE : E.cacheOn = true) (s : St) (c : Nat) :
    cacheGet E s c = match s.cache c with | none => .error .notFound | some i => .ok i := by
  unfold cacheGet
  simp only [hE, Bool.not_true, Bool.false_eq_true, if_false]
  cases s.cache c <;> rfl

theorem isOk_cacheGet {E : Env} (hE : E.cacheOn = true) (s : St) (c : Nat) :
    Except.isOk' (cacheGet E s c) = (s.cache c).isSome := by
  rw [cacheGet_on hE]
  cases s.cache c <;> rfl

theorem cacheAdd_on {E : Env} (hE : E.cacheOn = true) (s : St) (c : Nat) (ci : CsInfo) :
    cacheAdd E s c ci = { s with cache := EP.upd s.cache c (some ci) } := by
  unfold cacheAdd
  simp only [hE, Bool.not_true, Bool.false_eq_true, if_false]

theorem addAll_spec {E : Env} (hE : E.cacheOn = true) (out : List (Nat × CsInfo)) (s : St) (G : Good s)
    (h : ∀ x ∈ out, Table s.files x.1 x.2) :
    let s' := out.foldl (fun s p => cacheAdd E s p.1 p.2) s
    s'.files = s.files ∧ Good s' ∧ (∀ c, (s.cache c).isSome → (s'.cache c).isSome) ∧
    (∀ x ∈ out, (s'.cache x.1).isSome) := by
  induction out generalizing s with
  | nil => exact ⟨rfl, G, fun _ h => h, fun x hx => by cases hx⟩
  | cons x out ih =>
    have G' : Good (cacheAdd E s x.1 x.2) := by
      rw [cacheAdd_on hE]
      refine ⟨G.wf, ?_⟩
      intro c ci hc
      simp only at hc
      by_cases e : c = x.1
      · subst e
        rw [EP.upd_self] at hc
        injection hc with hc
        rw [← hc]
        exact h x (List.mem_cons_self ..)
      · rw [EP.upd_ne _ _ e] at hc
        exact G.cache c ci hc
    have hf : (cacheAdd E s x.1 x.2).files = s.files := by rw [cacheAdd_on hE]
    have hx : ((cacheAdd E s x.1 x.2).cache x.1).isSome := by
      rw [cacheAdd_on hE]
      simp only [EP.upd_self, Option.isSome_some]
    obtain ⟨h1, h2, h3, h4⟩ := ih (cacheAdd E s x.1 x.2) G' (fun y hy => by
      rw [hf]; exact h y (List.mem_cons_of_mem _ hy))
    refine ⟨h1.trans hf, h2, ?_, ?_⟩
    · intro c hc
      refine h3 c ?_
      rw [cacheAdd_on hE]
      by_cases e : c = x.1
      · subst e; simp only [EP.upd_self, Option.isSome_some]
      · simp only [EP.upd_ne _ _ e]; exact hc
    · intro y hy
      rcases List.mem_cons.1 hy with rfl | hy
      · exact h3 _ hx
      · exact h4 y hy

theorem load_spec {E : Env} (hE : E.cacheOn = true) (cpus : List Nat) (s : St) (G : Good s) :
    ∃ s', load E cpus s = (s', .ok ()) ∧ s'.files = s.files ∧ Good s' ∧
      (∀ c, (s.cache c).isSome → (s'.cache c).isSome) ∧
      (Uniform s.files cpus → ∀ c ∈ cpus, (s'.cache c).isSome) := by
  unfold load
  generalize hn : cpus.filter (fun c => !Except.isOk' (cacheGet E s c)) = need
  have hmem : ∀ c, c ∈ need ↔ c ∈ cpus ∧ ¬ (s.cache c).isSome := by
    intro c
    rw [← hn, List.mem_filter, isOk_cacheGet hE]
    simp
  dsimp only
  by_cases he : need.isEmpty = true
  · rw [if_pos he]
    refine ⟨s, rfl, rfl, G, fun _ h => h, fun _ c hc => ?_⟩
    by_cases h : (s.cache c).isSome
    · exact h
    · have := (hmem c).2 ⟨hc, h⟩
      rw [List.isEmpty_iff.1 he] at this
      cases this
  · rw [if_neg he]
    obtain ⟨h1, h2, _, h4⟩ := readInfo_spec (cpus := need) G.wf
    cases hr : readInfo s.files need with
    | mk out r =>
      rw [hr] at h1 h2 h4
      simp only at h1 h2 h4
      subst h1
      obtain ⟨g1, g2, g3, g4⟩ := addAll_spec hE out s G h2
      refine ⟨_, rfl, g1, g2, g3, ?_⟩
      intro hu c hc
      by_cases h : (s.cache c).isSome
      · exact g3 c h
      · have hcn := (hmem c).2 ⟨hc, h⟩
        have : (∃ f ∈ s.files, f.cpu = c) ∨ ∀ f ∈ s.files, f.cpu ∉ need := by
          rcases hu with hu | hu
          · exact Or.inl (hu c hc)
          · exact Or.inr (fun f hf hm => hu f hf ((hmem _).1 hm).1)
        obtain ⟨ci, hci⟩ := h4 c hcn this
        exact g4 _ hci

/-! ### Picking the requested C-states -/

theorem pick_spec (ci : CsInfo) (ns : List PyStr) : ∀ acc, (∀ n st, acc.get? n = some st → ci.get? n = some st) →
    (∀ r, pick ci ns acc = .ok r → (∀ n st, r.get? n = some st → ci.get? n = some st) ∧
      (∀ n, (r.get? n).isSome ↔ (acc.get? n).isSome ∨ n ∈ ns)) ∧
    ((∃ r, pick ci ns acc = .ok r) ↔ ∀ n ∈ ns, (ci.get? n).isSome) := by
  induction ns with
  | nil =>
    intro acc ha
    refine ⟨?_, ?_⟩
    · intro r h
      injection h with h
      subst h
      exact ⟨ha, by simp⟩
    · exact ⟨fun _ n hn => (by cases hn), fun _ => ⟨acc, rfl⟩⟩
  | cons n ns ih =>
    intro acc ha
    cases hg : ci.get? n with
    | none =>
      have he : pick ci (n :: ns) acc = .error .error := by simp only [pick, hg]
      rw [he]
      refine ⟨fun r h => (by cases h), ⟨fun ⟨r, h⟩ => (by cases h), fun h => ?_⟩⟩
      have := h n (List.mem_cons_self ..)
      rw [hg] at this
      cases this
    | some st =>
      have he : pick ci (n :: ns) acc = pick ci ns (acc.set n st) := by simp only [pick, hg]
      rw [he]
      obtain ⟨h1, h2⟩ := ih (acc.set n st) (by
        intro m st' hm
        rw [Dict.get?_set] at hm
        split at hm
        · next e =>
          injection hm with hm
          have e : n = m := by simpa using e
          rw [← e, hg, hm]
        · exact ha m st' hm)
      refine ⟨?_, ?_⟩
      · intro r hr
        obtain ⟨g1, g2⟩ := h1 r hr
        refine ⟨g1, ?_⟩
        intro m
        rw [g2, Dict.get?_set, List.mem_cons]
        by_cases e : n = m
        · subst e; simp
        · have e' : m ≠ n := fun h => e h.symm
          simp [e, e']
      · rw [h2]
        constructor
        · intro h m hm
          rcases List.mem_cons.1 hm with rfl | hm
          · rw [hg]; rfl
          · exact h m hm
        · exact fun h m hm => h m (List.mem_cons_of_mem _ hm)

/-- CPU `c` has a C-state with (upper-cased) name `n`. -/
def NameOf (files : List File) (c : Nat) (n : PyStr) : Prop :=
  ∃ i nm, Has files c i "name".toList nm ∧ n = upper nm

/-- `ci` has C-states `N` of CPU `c` and nothing else. -/
def Selected (files : List File) (c : Nat) (N : PyStr → Prop) (ci : CsInfo) : Prop :=
  (∀ n st, ci.get? n = some st →
    N n ∧ ∃ i nm, Has files c i "name".toList nm ∧ n = upper nm ∧ Describes files c i st) ∧
  (∀ n, N n → (ci.get? n).isSome)

theorem Table.isSome {files : List File} {c : Nat} {ci : CsInfo} (h : Table files c ci) (n : PyStr) :
    (ci.get? n).isSome ↔ NameOf files c n := by
  constructor
  · intro hs
    obtain ⟨st, hst⟩ := Option.isSome_iff_exists.1 hs
    obtain ⟨i, nm, _, h1, h2, _⟩ := h.1 n st hst
    exact ⟨i, nm, h1, h2⟩
  · rintro ⟨i, nm, h1, rfl⟩
    obtain ⟨st, hst, _⟩ := h.2 i nm trivial h1
    rw [hst]; rfl

theorem mem_keys_iff {β : Type} (d : Dict PyStr β) (n : PyStr) : n ∈ d.keys ↔ (d.get? n).isSome := by
  rw [← Decidable.not_iff_not, ← Dict.get?_eq_none_iff]
  simp

theorem pick_table {files : List File} {c : Nat} {ci r : CsInfo} (h : Table files c ci) {ns : List PyStr}
    (hp : pick ci ns [] = .ok r) : Selected files c (· ∈ ns) r := by
  obtain ⟨h1, h2⟩ := (pick_spec ci ns [] (fun n st h => by simp at h)).1 r hp
  refine ⟨?_, ?_⟩
  · intro n st hst
    obtain ⟨i, nm, _, g1, g2, g3⟩ := h.1 n st (h1 n st hst)
    refine ⟨?_, i, nm, g1, g2, g3⟩
    have := (h2 n).1 (by rw [hst]; rfl)
    simpa using this
  · intro n hn
    exact (h2 n).2 (Or.inr hn)

theorem pick_ok_iff {files : List File} {c : Nat} {ci : CsInfo} (h : Table files c ci) (ns : List PyStr) :
    (∃ r, pick ci ns [] = .ok r) ↔ ∀ n ∈ ns, NameOf files c n := by
  rw [(pick_spec ci ns [] (fun n st h => by simp at h)).2]
  exact ⟨fun g n hn => (h.isSome n).1 (g n hn), fun g n hn => (h.isSome n).2 (g n hn)⟩

/-- What is yielded for explicitly given names. -/
theorem getLoop_list {E : Env} (hE : E.cacheOn = true) {s : St} (G : Good s) (ns : List PyStr)
    (cpus : List Nat) (hc : ∀ c ∈ cpus, (s.cache c).isSome) :
    (∀ l, getLoop E s (.list ns) cpus = .ok l → l.map Prod.fst = cpus ∧
      ∀ x ∈ l, Selected s.files x.1 (· ∈ ns) x.2) ∧
    ((∃ l, getLoop E s (.list ns) cpus = .ok l) ↔ ∀ c ∈ cpus, ∀ n ∈ ns, NameOf s.files c n) := by
  induction cpus with
  | nil =>
    refine ⟨?_, ⟨fun _ c hc => (by cases hc), fun _ => ⟨[], rfl⟩⟩⟩
    intro l h
    injection h with h
    subst h
    exact ⟨rfl, fun x hx => by cases hx⟩
  | cons c cpus ih =>
    obtain ⟨ih1, ih2⟩ := ih (fun c h => hc c (List.mem_cons_of_mem _ h))
    obtain ⟨ci, hci⟩ := Option.isSome_iff_exists.1 (hc c (List.mem_cons_self ..))
    have T := G.cache c ci hci
    have hcg : cacheGet E s c = .ok ci := by rw [cacheGet_on hE, hci]
    cases hp : pick ci ns [] with
    | error e =>
      have hl : getLoop E s (.list ns) (c :: cpus) = .error e := by
        simp only [getLoop, hcg, fixNames, hp]
      rw [hl]
      refine ⟨fun l h => (by cases h), ⟨fun ⟨l, h⟩ => (by cases h), fun h => ?_⟩⟩
      obtain ⟨r, hr⟩ := (pick_ok_iff T ns).2 (h c (List.mem_cons_self ..))
      rw [hp] at hr
      cases hr
    | ok r =>
      have hl : getLoop E s (.list ns) (c :: cpus) = match getLoop E s (.list ns) cpus with
          | .error e => .error e
          | .ok l => .ok ((c, r) :: l) := by
        simp only [getLoop, hcg, fixNames, hp]
        cases getLoop E s (.list ns) cpus <;> rfl
      rw [hl]
      have hnames := (pick_ok_iff T ns).1 ⟨r, hp⟩
      cases hg : getLoop E s (.list ns) cpus with
      | error e =>
        refine ⟨fun l h => (by cases h), ⟨fun ⟨l, h⟩ => (by cases h), fun h => ?_⟩⟩
        obtain ⟨l, hl⟩ := ih2.2 (fun c hc => h c (List.mem_cons_of_mem _ hc))
        rw [hg] at hl
        cases hl
      | ok l =>
        obtain ⟨g1, g2⟩ := ih1 l hg
        refine ⟨?_, ⟨fun _ => ?_, fun _ => ⟨_, rfl⟩⟩⟩
        · intro l' h
          injection h with h
          subst h
          refine ⟨by simp [g1], ?_⟩
          intro x hx
          rcases List.mem_cons.1 hx with rfl | hx
          · exact pick_table T hp
          · exact g2 x hx
        · intro c' hc'
          rcases List.mem_cons.1 hc' with rfl | hc'
          · exact hnames
          · exact ih2.1 ⟨l, hg⟩ c' hc'

/-- "all" means the C-states of the first CPU. -/
theorem getLoop_all {E : Env} (hE : E.cacheOn = true) {s : St} {c : Nat} {ci : CsInfo}
    (hci : s.cache c = some ci) (cpus : List Nat) :
    getLoop E s .all (c :: cpus) = getLoop E s (.list ci.keys) (c :: cpus) := by
  have hcg : cacheGet E s c = .ok ci := by rw [cacheGet_on hE, hci]
  simp only [getLoop, hcg, fixNames]

end Verif.CPUIdle
