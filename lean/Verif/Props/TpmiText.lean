import Verif.Lemmas.TpmiText
import Verif.Props.TpmiCmd

/-!
C108 The text of 'pepc tpmi ls' and 'pepc tpmi read'.
-/

namespace Verif.Tpmi.Text

/-! ### 'pepc tpmi read' -/

/-- **C108.** In every execution: whoever reads the text printed by 'pepc tpmi read' line by line learns about exactly the
selected registers of the selected instances, and their values are those of the memory. -/
theorem C108_read (M : Machine) (hM : M.WF) (E : Env) (hE : E.Valid) (hE' : EnvOk E) (m : Mem) (hm : m.Words)
    (ops : List Op) (fnames regnames bfnames : Option (List PyStr)) (S : Sel) (hS : S.Nodup) (s' : St Mem)
    (info : Dict PyStr FeatInfo)
    (h : readCmd M.kernel E fnames regnames bfnames S (run M.kernel E m ops) = (s', .ok info))
    (bits : PyStr → PyStr → PyStr → PyStr) (hb : ∀ f r b, '[' ∉ bits f r b)
    (f : PyStr) (fm : Dict PyStr Nat) (hf : E.fmaps.get? f = some fm) (hsame : S.Same M E f fm) (a : PyStr) (i : Nat)
    (r : PyStr) (p v : Nat) :
    Fact.reg f a p i r v ∈ readText (printInfo bits info) ↔
      (∀ l, fnames = some l → f ∈ l) ∧ S.Target M E f fm (a, p, i) ∧ WantsReg regnames r ∧
      ∃ R, getReg E f r = .ok R ∧ v = regVal (run M.kernel E m ops).w (a, E.fid f) i R := by
  rw [readText_print hb, mem_facts_reg (readCmd_keys h)]
  exact C91_read M hM E hE hE' m hm ops fnames regnames bfnames S hS s' info h f fm hf hsame a i r p v

/-- **C108.** The same for the bit fields: each is under the line of its register, with the bits of the register it
consists of, and the text of the spec file for the positions. -/
theorem C108_field (M : Machine) (hM : M.WF) (E : Env) (hE : E.Valid) (hE' : EnvOk E) (m : Mem) (hm : m.Words)
    (ops : List Op) (fnames regnames bfnames : Option (List PyStr)) (S : Sel) (hS : S.Nodup) (s' : St Mem)
    (info : Dict PyStr FeatInfo)
    (h : readCmd M.kernel E fnames regnames bfnames S (run M.kernel E m ops) = (s', .ok info))
    (bits : PyStr → PyStr → PyStr → PyStr) (hb : ∀ f r b, '[' ∉ bits f r b)
    (f : PyStr) (fm : Dict PyStr Nat) (hf : E.fmaps.get? f = some fm) (hsame : S.Same M E f fm) (a : PyStr) (i : Nat)
    (r b : PyStr) (R : Reg) (hR : getReg E f r = .ok R) (F : Field) (hi lo : Nat) (hF : R.fields.get? b = some F)
    (hmk : mkField hi lo = .ok F) (p v : Nat) (bt : PyStr) :
    Fact.field f a p i r b bt v ∈ readText (printInfo bits info) ↔
      (∀ l, fnames = some l → f ∈ l) ∧ S.Target M E f fm (a, p, i) ∧ WantsReg regnames r ∧ WantsField bfnames b ∧
      v = slice (regVal (run M.kernel E m ops).w (a, E.fid f) i R) hi lo ∧ bt = bits f r b := by
  rw [readText_print hb, mem_facts_field (readCmd_keys h)]
  have hx := (C91_read_field M hM E hE hE' m hm ops fnames regnames bfnames S hS s' info h f fm hf hsame a i r b R hR v).2
    F hi lo hF hmk
  rw [hx]
  have hy := fun q x => C91_read M hM E hE hE' m hm ops fnames regnames bfnames S hS s' info h f fm hf hsame a i r q x
  constructor
  · rintro ⟨⟨h1, -, h3, h4, h5⟩, ⟨x, hsh⟩, h7⟩
    exact ⟨h1, ((hy p x).1 hsh).2.1, h3, h4, h5, h7⟩
  · rintro ⟨h1, h2, h3, h4, h5, h7⟩
    exact ⟨⟨h1, ⟨p, h2⟩, h3, h4, h5⟩, ⟨_, (hy p _).2 ⟨h1, h2, h3, R, hR, rfl⟩⟩, h7⟩

/-! ### 'pepc tpmi ls' -/

/-- What a list of features should say. -/
def Expected (M : Machine) (E : Env) (long : Bool) (known : List (PyStr × PyStr)) : LsFact → Prop
  | .feature f d => ∃ d', (f, d') ∈ known ∧ d = PyStr.strip d'
  | .inst f a p i => long = true ∧ (∃ d, (f, d) ∈ known) ∧ ∃ fm, E.fmaps.get? f = some fm ∧ Triples M E f fm (a, p, i)
  | .unknown _ => False

theorem lsFeatures_spec {M : Machine} (hM : M.WF) {E : Env} (hE : E.Valid) (hE' : EnvOk E) {m : Mem} (hm : m.Words)
    (long : Bool) (known : List (PyStr × PyStr)) (hname : ∀ x ∈ known, ':' ∉ x.1)
    (hfm : ∀ x ∈ known, ∃ fm, E.fmaps.get? x.1 = some fm ∧ ∀ a ∈ fm.keys, ∀ b ∈ fm.keys, ∀ i,
      i ∈ nums M E x.1 a ↔ i ∈ nums M E x.1 b) :
    ∀ (ops : List Op) (out : List PyStr), ∃ ops' L,
      lsFeatures M.kernel E long known (run M.kernel E m ops) out = (run M.kernel E m ops', out ++ L, none) ∧
      (run M.kernel E m ops').w = (run M.kernel E m ops).w ∧
      ∀ (h : LsHeads) (rest : List PyStr), h.unk = false → ∃ (ex : List LsFact) (h' : LsHeads), h'.unk = false ∧
        lsFacts h (L ++ rest) = ex ++ lsFacts h' rest ∧ ∀ x, x ∈ ex ↔ Expected M E long known x := by
  induction known with
  | nil =>
    intro ops out
    refine ⟨ops, [], by rw [lsFeatures, List.append_nil], rfl, fun h rest hu => ⟨[], h, hu, rfl, ?_⟩⟩
    intro x
    cases x <;> simp [Expected]
  | cons k known ih =>
    obtain ⟨name, desc⟩ := k
    intro ops out
    have ih := ih (fun x hx => hname x (List.mem_cons_of_mem _ hx)) (fun x hx => hfm x (List.mem_cons_of_mem _ hx))
    have hn := hname _ List.mem_cons_self
    obtain ⟨fm, hfm, hsame⟩ := hfm _ List.mem_cons_self
    dsimp only at hn hfm hsame
    have hok := hE' name fm hfm
    unfold lsFeatures
    dsimp only
    cases long with
    | false =>
      rw [if_neg (by decide)]
      obtain ⟨ops', L, e, hw, hL⟩ := ih ops (out ++ [" - ".toList ++ name ++ ": ".toList ++ PyStr.strip desc])
      refine ⟨ops', (" - ".toList ++ name ++ ": ".toList ++ PyStr.strip desc) :: L, ?_, hw, ?_⟩
      · rw [e, List.append_assoc, List.singleton_append]
      · intro h rest hu
        rw [List.cons_append, lsFacts_feature h hu hn]
        obtain ⟨ex, h', hu', e2, hx⟩ := hL { h with f := name } rest hu
        refine ⟨.feature name (PyStr.strip desc) :: ex, h', hu', by rw [e2, List.cons_append], ?_⟩
        intro x
        rw [List.mem_cons, hx]
        cases x with
        | feature f d =>
          simp only [Expected, LsFact.feature.injEq, List.mem_cons, Prod.mk.injEq]
          constructor
          · rintro (⟨rfl, rfl⟩ | ⟨d', h1, h2⟩)
            · exact ⟨desc, .inl ⟨rfl, rfl⟩, rfl⟩
            · exact ⟨d', .inr h1, h2⟩
          · rintro ⟨d', ⟨rfl, rfl⟩ | h1, h2⟩
            · exact .inl ⟨rfl, h2⟩
            · exact .inr ⟨d', h1, h2⟩
        | inst f a p i => simp [Expected]
        | unknown n => simp [Expected]
    | true =>
      rw [if_pos rfl]
      obtain ⟨k1, -, k3⟩ := C51_iter_partial M hM E hE m hm ops name fm hfm hok.nodup hok.pkgs hok.known
        (match fm.keys with | [] => [] | a :: _ => nums M E name a) (by
          intro a ha i
          cases hk : fm.keys with
          | nil => rw [hk] at ha; cases ha
          | cons b bs => exact hsame a ha b (by rw [hk]; exact List.mem_cons_self) i)
      have hw1 := (iterFeature_inv hM name none none none (run_inv hM hE hm ops)).2
      have hst : (iterFeature M.kernel E name none none none (run M.kernel E m ops)).1 =
          run M.kernel E m (ops ++ [.iter name none none none]) := by
        unfold run
        rw [List.foldl_append]
        rfl
      generalize hr : iterFeature M.kernel E name none none none (run M.kernel E m ops) = r at k1 k3 hst hw1
      obtain ⟨s1, ts, e1⟩ := r
      dsimp only at k1 k3 hst hw1
      subst k1
      subst hst
      dsimp only
      obtain ⟨ops', L, e, hw, hL⟩ := ih (ops ++ [.iter name none none none])
        (out ++ [" - ".toList ++ name ++ ": ".toList ++ PyStr.strip desc] ++ lsLong ts (spaces 3))
      refine ⟨ops', (" - ".toList ++ name ++ ": ".toList ++ PyStr.strip desc) :: (lsLong ts (spaces 3) ++ L), ?_,
        hw.trans hw1, ?_⟩
      · rw [e, List.append_assoc, List.append_assoc, List.singleton_append]
      · intro h rest hu
        rw [List.cons_append, lsFacts_feature h hu hn, List.append_assoc]
        obtain ⟨ex1, h1, hu1, hf1, e1, hx1⟩ := lsFacts_long ts { h with f := name } (L ++ rest)
        obtain ⟨ex, h', hu', e2, hx⟩ := hL h1 rest (hu1.trans hu)
        refine ⟨.feature name (PyStr.strip desc) :: (ex1 ++ ex), h', hu', ?_, ?_⟩
        · rw [e1, e2, List.cons_append, List.append_assoc]
        intro x
        rw [List.mem_cons, List.mem_append, hx, hx1]
        cases x with
        | feature f d =>
          simp only [Expected, LsFact.feature.injEq, List.mem_cons, Prod.mk.injEq, reduceCtorEq, false_and, exists_const,
            false_or]
          constructor
          · rintro (⟨rfl, rfl⟩ | ⟨d', h1, h2⟩)
            · exact ⟨desc, .inl ⟨rfl, rfl⟩, rfl⟩
            · exact ⟨d', .inr h1, h2⟩
          · rintro ⟨d', ⟨rfl, rfl⟩ | h1, h2⟩
            · exact .inl ⟨rfl, h2⟩
            · exact .inr ⟨d', h1, h2⟩
        | inst f a p i =>
          simp only [Expected, LsFact.inst.injEq, reduceCtorEq, false_or, List.mem_cons, Prod.mk.injEq, true_and]
          constructor
          · rintro (⟨a', p', i', ⟨rfl, rfl, rfl, rfl⟩, ht⟩ | ⟨⟨d, h1⟩, h2⟩)
            · exact ⟨⟨desc, .inl ⟨rfl, rfl⟩⟩, fm, hfm, (k3 _).1 ht⟩
            · exact ⟨⟨d, .inr h1⟩, h2⟩
          · rintro ⟨⟨d, ⟨rfl, -⟩ | h1⟩, fm', h2, h3⟩
            · rw [hfm] at h2
              cases h2
              exact .inl ⟨a, p, i, ⟨rfl, rfl, rfl, rfl⟩, (k3 _).2 h3⟩
            · exact .inr ⟨⟨d, h1⟩, fm', h2, h3⟩
        | unknown n => simp [Expected]

/-- **C108.** In every execution, if the devices of a feature have the same instances: 'pepc tpmi ls' succeeds and changes
nothing, and whoever reads its text line by line learns about exactly the features with their descriptions, with the '-l'
option exactly the instances of the features, each with its device and package, and with '--all' exactly the numbers of
the unknown features. -/
theorem C108_ls (M : Machine) (hM : M.WF) (E : Env) (hE : E.Valid) (hE' : EnvOk E) (m : Mem) (hm : m.Words) (ops : List Op)
    (long all : Bool) (known : List (PyStr × PyStr)) (unknown : List Nat) (hostmsg : PyStr)
    (hname : ∀ x ∈ known, ':' ∉ x.1)
    (hfm : ∀ x ∈ known, ∃ fm, E.fmaps.get? x.1 = some fm ∧ ∀ a ∈ fm.keys, ∀ b ∈ fm.keys, ∀ i,
      i ∈ nums M E x.1 a ↔ i ∈ nums M E x.1 b) :
    let r := lsCmd M.kernel E long all known unknown hostmsg (run M.kernel E m ops)
    r.2.2 = none ∧ r.1.w = (run M.kernel E m ops).w ∧
    (∀ f d, LsFact.feature f d ∈ lsFacts {} r.2.1 ↔ ∃ d', (f, d') ∈ known ∧ d = PyStr.strip d') ∧
    (∀ f a p i, LsFact.inst f a p i ∈ lsFacts {} r.2.1 ↔
      long = true ∧ (∃ d, (f, d) ∈ known) ∧ ∃ fm, E.fmaps.get? f = some fm ∧ fm.get? a = some p ∧ i ∈ nums M E f a) ∧
    ∀ n, LsFact.unknown n ∈ lsFacts {} r.2.1 ↔ all = true ∧ n ∈ unknown := by
  have hu : ∀ (h : LsHeads), lsFacts h ["Unknown TPMI features (available".toList ++ hostmsg ++
      ", but no spec file found)".toList, " - ".toList ++ commaJoin (unknown.map pyHex)] =
      (hexList (commaJoin (unknown.map pyHex))).map .unknown := by
    intro h
    rw [List.append_assoc]
    have h1 : ∀ t, after " - ".toList ("Unknown TPMI features (available".toList ++ t) = none := fun _ => rfl
    have h2 : ∀ t, (after "Unknown ".toList ("Unknown TPMI features (available".toList ++ t)).isSome = true := fun _ => rfl
    have h3 : ∀ t, after " - ".toList (" - ".toList ++ t) = some t := fun _ => rfl
    rw [lsFacts, h1]
    dsimp only
    rw [h2, if_pos rfl, lsFacts, h3]
    dsimp only
    rw [if_pos rfl, lsFacts, List.append_nil]
  have key : ∃ s' out, (if known = [] then ((run M.kernel E m ops), ["Not supported TPMI features found".toList], none)
        else lsFeatures M.kernel E long known (run M.kernel E m ops) ["Supported TPMI features".toList]) = (s', out, none) ∧
      s'.w = (run M.kernel E m ops).w ∧
      ∀ rest, ∃ (ex : List LsFact) (h' : LsHeads), h'.unk = false ∧
        lsFacts {} (out ++ rest) = ex ++ lsFacts h' rest ∧ ∀ x, x ∈ ex ↔ Expected M E long known x := by
    by_cases hk : known = []
    · rw [if_pos hk]
      refine ⟨_, _, rfl, rfl, fun rest => ⟨[], {}, rfl, rfl, ?_⟩⟩
      intro x
      subst hk
      cases x <;> simp [Expected]
    · rw [if_neg hk]
      obtain ⟨ops', L, e, hw, hL⟩ := lsFeatures_spec hM hE hE' hm long known hname hfm ops ["Supported TPMI features".toList]
      refine ⟨_, _, e, hw, fun rest => ?_⟩
      exact hL {} rest rfl
  obtain ⟨s', out, e, hw, hx⟩ := key
  unfold lsCmd
  dsimp only
  rw [e]
  dsimp only
  by_cases hc : all = true ∧ unknown ≠ []
  · rw [if_pos hc]
    obtain ⟨ex, h', -, e2, hm2⟩ := hx ["Unknown TPMI features (available".toList ++ hostmsg ++
      ", but no spec file found)".toList, " - ".toList ++ commaJoin (unknown.map pyHex)]
    refine ⟨rfl, hw, ?_⟩
    dsimp only
    rw [e2, hu, hexList_join _ hc.2]
    refine ⟨fun f d => ?_, fun f a p i => ?_, fun n => ?_⟩
    · rw [List.mem_append, hm2]
      exact ⟨fun h => h.elim id fun h => by (obtain ⟨_, _, h⟩ := List.mem_map.1 h; cases h), .inl⟩
    · rw [List.mem_append, hm2]
      exact ⟨fun h => h.elim id fun h => by (obtain ⟨_, _, h⟩ := List.mem_map.1 h; cases h), .inl⟩
    · rw [List.mem_append, hm2]
      constructor
      · rintro (h | h)
        · exact h.elim
        · obtain ⟨k, hk, e⟩ := List.mem_map.1 h
          cases e
          exact ⟨hc.1, hk⟩
      · exact fun h => .inr (List.mem_map_of_mem h.2)
  · rw [if_neg hc]
    obtain ⟨ex, h', -, e2, hm2⟩ := hx []
    rw [List.append_nil] at e2
    refine ⟨rfl, hw, ?_⟩
    dsimp only
    rw [e2, lsFacts, List.append_nil]
    refine ⟨fun f d => hm2 _, fun f a p i => hm2 _, fun n => (hm2 _).trans ⟨False.elim, ?_⟩⟩
    rintro ⟨h1, h2⟩
    exact hc ⟨h1, List.ne_nil_of_mem h2⟩

theorem lsInfo_nodup (ts : List Triple) : ∀ (info : Dict Nat (Dict PyStr (List Nat))),
    (∀ p, ((info.get? p).getD []).keys.Nodup) → ∀ p, (((lsInfo ts info).get? p).getD []).keys.Nodup := by
  induction ts with
  | nil => exact fun info h => h
  | cons t ts ih =>
    obtain ⟨a0, p0, i0⟩ := t
    intro info h
    unfold lsInfo
    refine ih _ ?_
    intro p
    by_cases hp : p = p0
    · subst hp
      rw [Dict.get?_set, if_pos rfl, Option.getD_some]
      exact Dict.nodup_keys_set (h p) _ _
    · rw [Dict.get?_set_ne _ _ (Ne.symm hp)]
      exact h p

theorem indent_spaces (n : Nat) {c : Char} (hc : c ≠ ' ') (t : PyStr) : indent (spaces n ++ c :: t) = n := by
  unfold indent
  induction n with
  | zero =>
    show ((c :: t).takeWhile (· == ' ')).length = 0
    rw [List.takeWhile_cons_of_neg (by simpa using hc)]
    rfl
  | succ n ih =>
    show ((' ' :: (spaces n ++ c :: t)).takeWhile (· == ' ')).length = n + 1
    rw [List.takeWhile_cons_of_pos (by decide), List.length_cons, ih]

/-- C108 (partial): the lines with the addresses of the devices of a feature have the same indentation, if there is one
device in every package. Missing: packages with more devices (see `C108_indent_counterexample`). -/
theorem C108_indent_partial (ts : List Triple) (hone : ∀ a b p i j, (a, p, i) ∈ ts → (b, p, j) ∈ ts → a = b) (s a : PyStr)
    (hl : s ∈ lsLong ts (spaces 3)) (ha : after "PCI address: ".toList (unindent s) = some a) : indent s = 3 := by
  obtain ⟨p, hp, hs⟩ := List.mem_flatMap.1 hl
  dsimp only at hs
  obtain ⟨g1, g2⟩ := lsInfo_spec ts []
  have hnd := lsInfo_nodup ts [] (fun _ => List.nodup_nil) p
  have hkeys : ∀ b c, b ∈ (((lsInfo ts []).get? p).getD []).keys → c ∈ (((lsInfo ts []).get? p).getD []).keys → b = c := by
    intro b c hb hc
    rcases (g1 p b).1.1 hb with hb | ⟨i, hb⟩
    · cases hb
    rcases (g1 p c).1.1 hc with hc | ⟨j, hc⟩
    · cases hc
    exact hone b c p i j hb hc
  generalize ((lsInfo ts []).get? p).getD [] = devs at hs hnd hkeys
  have hperm := sortBy_perm CPUIdle.strLe devs.keys
  generalize sortBy CPUIdle.strLe devs.keys = as at hs hperm
  have hnd' := hperm.nodup_iff.2 hnd
  match as, hs with
  | [b], hs =>
    unfold lsAddrs lsAddrs at hs
    simp only [List.append_nil, List.mem_cons, List.not_mem_nil, or_false] at hs
    rcases hs with rfl | rfl | rfl
    · have e : spaces 3 ++ "- ".toList ++ "PCI address: ".toList ++ b = spaces 3 ++ '-' :: (" PCI address: ".toList ++ b) := rfl
      rw [e]
      exact indent_spaces 3 (by decide) _
    · rw [spaces_add, spaces_add, unindent_pkg] at ha
      have h3 : ∀ t, after "PCI address: ".toList ("Package: ".toList ++ t) = none := fun _ => rfl
      rw [h3] at ha
      cases ha
    · rw [spaces_add, spaces_add, unindent_inst] at ha
      have h3 : ∀ t, after "PCI address: ".toList ("Instances: ".toList ++ t) = none := fun _ => rfl
      rw [h3] at ha
      cases ha
  | b :: c :: as, hs =>
    have : b = c := hkeys b c (hperm.mem_iff.1 List.mem_cons_self)
      (hperm.mem_iff.1 (List.mem_cons_of_mem _ List.mem_cons_self))
    subst this
    exact absurd List.mem_cons_self (List.nodup_cons.1 hnd').1

/-- Two devices of package 0: the second one is printed deeper than the first one, as if it belonged to it. -/
theorem C108_indent_counterexample :
    lsLong [("0000:00:03.1".toList, 0, 0), ("0000:80:03.1".toList, 0, 0)] (spaces 3) =
      ["   - PCI address: 0000:00:03.1".toList, "       Package: 0".toList, "       Instances: 0".toList,
       "     - PCI address: 0000:80:03.1".toList, "         Package: 0".toList, "         Instances: 0".toList] := by
  decide +kernel

/-! ### Examples -/

example : ("0000:00:03.1".toList, 0, 0) ∈ [("0000:00:03.1".toList, 0, 0), ("0000:80:03.1".toList, 1, 4)] ∧
    lsLong [("0000:80:03.1".toList, 1, 4), ("0000:00:03.1".toList, 0, 0), ("0000:00:03.1".toList, 0, 1),
      ("0000:00:03.1".toList, 0, 2)] (spaces 3) =
      ["   - PCI address: 0000:00:03.1".toList, "       Package: 0".toList, "       Instances: 0-2".toList,
       "   - PCI address: 0000:80:03.1".toList, "       Package: 1".toList, "       Instances: 4".toList] := by
  decide +kernel

/-- Two devices with instances 0 and 1. -/
example :
    (lsCmd (exMachine3 [0, 1] [1, 0]).kernel exEnv3 true true [("uncore".toList, " Uncore frequency\n".toList)] [0x81, 5] []
      ⟨fun _ _ _ => 0, []⟩).2 =
      (["Supported TPMI features".toList, " - uncore: Uncore frequency".toList,
        "   - PCI address: a".toList, "       Package: 0".toList, "       Instances: 0,1".toList,
        "   - PCI address: b".toList, "       Package: 1".toList, "       Instances: 0,1".toList,
        "Unknown TPMI features (available, but no spec file found)".toList, " - 0x81, 0x5".toList], none) := by
  decide +kernel

example :
    lsFacts {} ["Supported TPMI features".toList, " - uncore: Uncore frequency".toList,
        "   - PCI address: a".toList, "       Package: 0".toList, "       Instances: 0,1".toList,
        "Unknown TPMI features (available, but no spec file found)".toList, " - 0x81, 0x5".toList] =
      [.feature "uncore".toList "Uncore frequency".toList, .inst "uncore".toList "a".toList 0 0,
       .inst "uncore".toList "a".toList 0 1, .unknown 0x81, .unknown 5] := by
  decide +kernel

/-- The text of a register with a bit field, and what it says. -/
example :
    printInfo (fun _ _ _ => "7:4".toList)
      [("uncore".toList, [("b".toList, ⟨1, [(1, [("CTL".toList, ⟨0x152, some [("LOW".toList, 5)]⟩)])]⟩)])] =
      ["- TPMI feature: uncore".toList, "  - PCI address: b".toList, "    Package: 1".toList, "    - Instance: 1".toList,
       "      - CTL: 0x152".toList, "        - LOW[7:4]: 5".toList] ∧
    readText ["- TPMI feature: uncore".toList, "  - PCI address: b".toList, "    Package: 1".toList, "    - Instance: 1".toList,
       "      - CTL: 0x152".toList, "        - LOW[7:4]: 5".toList] =
      [.reg "uncore".toList "b".toList 1 1 "CTL".toList 0x152,
       .field "uncore".toList "b".toList 1 1 "CTL".toList "LOW".toList "7:4".toList 5] := by
  exact ⟨by decide +kernel, by decide +kernel⟩

/-- A failure to go through the instances of a feature is the failure of the command; what was printed until then is about
the features before. -/
theorem C108_ls_fails {W : Type} (K : Kernel W) (E : Env) (all : Bool) (known rest : List (PyStr × PyStr)) (name desc : PyStr)
    (unknown : List Nat) (hostmsg : PyStr) (s s1 s2 : St W) (out : List PyStr) (ts : List Triple) (e : Exn)
    (h1 : lsFeatures K E true known s ["Supported TPMI features".toList] = (s1, out, none))
    (h2 : iterFeature K E name none none none s1 = (s2, ts, some e)) :
    lsCmd K E true all (known ++ (name, desc) :: rest) unknown hostmsg s =
      (s2, out ++ [" - ".toList ++ name ++ ": ".toList ++ PyStr.strip desc], some e) := by
  have key : ∀ (known : List (PyStr × PyStr)) (s : St W) (o : List PyStr), lsFeatures K E true known s o = (s1, out, none) →
      lsFeatures K E true (known ++ (name, desc) :: rest) s o =
        (s2, out ++ [" - ".toList ++ name ++ ": ".toList ++ PyStr.strip desc], some e) := by
    intro known
    induction known with
    | nil =>
      intro s o h
      cases h
      rw [List.nil_append, lsFeatures, if_pos rfl, h2]
    | cons k known ih =>
      intro s o h
      obtain ⟨kn, kd⟩ := k
      rw [List.cons_append, lsFeatures]
      rw [lsFeatures, if_pos rfl] at h
      rw [if_pos rfl]
      rcases hi : iterFeature K E kn none none none s with ⟨s', ts', e'⟩
      rw [hi] at h
      cases e' with
      | some e' => cases h
      | none => exact ih _ _ h
  unfold lsCmd
  dsimp only
  rw [if_neg (by simp), key known s _ h1]

end Verif.Tpmi.Text
