import Verif.Lemmas.MSRRemote
import Verif.Props.WhichSpec

/-! Lemmas for C126. -/

namespace Verif.Which

open Verif.PyStr (isSpace strip stripBy Stripped lstripBy rstripBy)
open Verif.MSR (splitLines splitLinesAux isLineEnd)

theorem strip_line (s : PyStr) (hs : Stripped isSpace s) (hn : s ≠ []) : strip (s ++ ['\n']) = s := by
  have h1 : (s ++ ['\n']).dropWhile isSpace = s ++ ['\n'] := by
    apply PyStr.dropWhile_eq_self
    intro c hc
    apply hs.1
    cases s with
    | nil => exact absurd rfl hn
    | cons x xs => simpa using hc
  have h2 : s.reverse.dropWhile isSpace = s.reverse := by
    apply PyStr.dropWhile_eq_self
    intro c hc
    apply hs.2
    simpa using hc
  have h3 : isSpace '\n' = true := by decide
  show ((List.dropWhile isSpace (s ++ ['\n'])).reverse.dropWhile isSpace).reverse = s
  rw [h1, List.reverse_append, List.reverse_singleton, List.singleton_append, List.dropWhile_cons, h3, if_pos rfl, h2,
    List.reverse_reverse]

theorem splitLinesAux_last (s cur : PyStr) (h : ∀ c ∈ s, isLineEnd c = false) (hn : s ≠ []) :
    splitLinesAux cur s = [cur.reverse ++ s] := by
  induction s generalizing cur with
  | nil => exact absurd rfl hn
  | cons c s ih =>
    have hc := h c (by simp)
    have hr : c ≠ '\r' := by rintro rfl; revert hc; decide
    rw [splitLinesAux.eq_3 _ _ _ (by intro _ h _; exact hr h), hc]
    simp only [Bool.false_eq_true, if_false]
    cases s with
    | nil => simp [splitLinesAux]
    | cons d s =>
      rw [ih _ (fun x hx => h x (by simp [hx])) (by simp)]
      simp

theorem head_not_alias (f : PyStr) (h : f.head? = some '/') : "alias".toList.isPrefixOf f = false := by
  cases f with
  | nil => cases h
  | cons c f =>
    simp only [List.head?_cons, Option.some.injEq] at h
    subst h
    rfl

theorem alias_head (a : PyStr) (h : "alias".toList.isPrefixOf a = true) : ∃ t, a = 'a' :: t := by
  cases a with
  | nil => cases h
  | cons c a =>
    have : ('a' == c) = true := by
      have h' : (('a' == c) && List.isPrefixOf ['l', 'i', 'a', 's'] a) = true := h
      exact (Bool.and_eq_true _ _ ▸ h').1
    exact ⟨a, by rw [← eq_of_beq this]⟩

variable {h : Host}

theorem path_ne (hh : h.Sane) {p f : PyStr} (hf : h.path p = some f) : f ≠ [] := by
  intro e; have := hh.slash p f hf; rw [e] at this; cases this

theorem path_stripped (hh : h.Sane) {p f : PyStr} (hf : h.path p = some f) : Stripped isSpace f := by
  refine ⟨?_, fun c hc => hh.last p f c hf hc⟩
  intro c hc
  rw [hh.slash p f hf] at hc
  cases hc
  decide

theorem alias_ne (hh : h.Sane) {p a : PyStr} (hf : h.nick p = some a) : a ≠ [] := by
  obtain ⟨t, e⟩ := alias_head a (hh.nick p a hf)
  rw [e]; simp

theorem alias_stripped (hh : h.Sane) {p a : PyStr} (hf : h.nick p = some a) : Stripped isSpace a := by
  refine ⟨?_, fun c hc => hh.aliasLast p a c hf hc⟩
  intro c hc
  obtain ⟨t, e⟩ := alias_head a (hh.nick p a hf)
  rw [e] at hc
  cases hc
  decide

theorem first_path (hh : h.Sane) {p f : PyStr} (hf : h.path p = some f) :
    firstPath (splitLines (strip (f ++ ['\n']))) = some f := by
  rw [strip_line f (path_stripped hh hf) (path_ne hh hf)]
  unfold splitLines
  rw [splitLinesAux_last f [] (hh.line p f hf) (path_ne hh hf), List.reverse_nil, List.nil_append, firstPath]
  have : strip f = f := PyStr.stripBy_of_stripped (path_stripped hh hf)
  rw [this, head_not_alias f (hh.slash p f hf)]
  simp

theorem strip_tab (f : PyStr) (hs : Stripped isSpace f) : strip ('\t' :: f) = f := by
  have h3 : isSpace '\t' = true := by decide
  have h1 : ('\t' :: f).dropWhile isSpace = f := by
    rw [List.dropWhile_cons, h3, if_pos rfl]
    exact PyStr.dropWhile_eq_self hs.1
  show ((List.dropWhile isSpace ('\t' :: f)).reverse.dropWhile isSpace).reverse = f
  rw [h1]
  have h2 : f.reverse.dropWhile isSpace = f.reverse := by
    apply PyStr.dropWhile_eq_self
    intro c hc
    apply hs.2
    simpa using hc
  rw [h2, List.reverse_reverse]

theorem first_both (hh : h.Sane) {p f a : PyStr} (hf : h.path p = some f) (ha : h.nick p = some a) :
    firstPath (splitLines (strip (a ++ ['\n'] ++ ('\t' :: f ++ ['\n'])))) = some f := by
  have e : a ++ ['\n'] ++ ('\t' :: f ++ ['\n']) = (a ++ '\n' :: '\t' :: f) ++ ['\n'] := by simp
  have hs : Stripped isSpace (a ++ '\n' :: '\t' :: f) := by
    constructor
    · intro c hc
      apply (alias_stripped hh ha).1
      cases a with
      | nil => exact absurd rfl (alias_ne hh ha)
      | cons x xs => simpa using hc
    · intro c hc
      apply (path_stripped hh hf).2
      cases hfe : f with
      | nil => exact absurd hfe (path_ne hh hf)
      | cons x xs => rw [hfe] at hc; simpa [List.getLast?_append, List.getLast?_cons_cons] using hc
  rw [e, strip_line _ hs (by simp)]
  unfold splitLines
  rw [MSR.splitLinesAux_line a _ [] (hh.aliasLine p a ha), splitLinesAux_last ('\t' :: f) [] (by
    intro c hc
    rcases List.mem_cons.1 hc with rfl | hc
    · decide
    · exact hh.line p f hf c hc) (by simp)]
  simp only [List.reverse_nil, List.nil_append]
  rw [firstPath]
  have h1 : strip a = a := PyStr.stripBy_of_stripped (alias_stripped hh ha)
  rw [h1, hh.nick p a ha, if_pos rfl, firstPath, strip_tab f (path_stripped hh hf), head_not_alias f (hh.slash p f hf)]
  simp

/-- The command that ends up in the cache. -/
def tool (h : Host) : Tool := if h.which then .which else .command

/-- One of the commands is there. -/
def Host.Able (h : Host) : Prop := h.which = true ∨ h.command = true

theorem ssh_cached (h : Host) (ha : h.Able) (m : Bool) (p : PyStr) :
    sshWhich h.ask (some (tool h)) m p = ⟨some (tool h), [tool h], answer m (h.ask (tool h) p)⟩ := by
  have hr : run (h.ask (tool h) p) = some (h.ask (tool h) p) := by
    cases hw : h.which with
    | true =>
      unfold run tool Host.ask
      simp only [hw, if_true]
      cases h.path p <;> cases h.nick p <;> simp
    | false =>
      have hc : h.command = true := ha.resolve_left (by simp [hw])
      unfold run tool Host.ask
      simp only [hw, hc, if_true, Bool.false_eq_true, if_false]
      cases h.path p <;> simp
  simp only [sshWhich, tryTools, hr]

theorem ssh_new (h : Host) (ha : h.Able) (m : Bool) (p : PyStr) :
    sshWhich h.ask none m p = ⟨some (tool h), if h.which then [.which] else [.which, .command],
      answer m (h.ask (tool h) p)⟩ := by
  cases hw : h.which with
  | true =>
    have hr : run (h.ask .which p) = some (h.ask .which p) := by
      unfold run Host.ask
      rw [hw]
      simp only [if_true]
      cases h.path p <;> cases h.nick p <;> simp
    simp [sshWhich, tryTools, hr, tool, hw]
  | false =>
    have hr : run (h.ask .which p) = none := by
      unfold run Host.ask
      rw [hw]
      simp
    have hcm : h.command = true := ha.resolve_left (by simp [hw])
    have hc : run (h.ask .command p) = some (h.ask .command p) := by
      unfold run Host.ask
      simp only [hcm, if_true]
      cases h.path p <;> simp
    simp [sshWhich, tryTools, hr, hc, tool, hw]

theorem answer_ok (hh : h.Sane) (m : Bool) (p : PyStr)
    (ok : h.which = true ∨ (h.command = true ∧ (h.path p = none → h.unknown = 1))) :
    answer m (h.ask (tool h) p) = wanted (h.path p) m := by
  cases hw : h.which with
  | true =>
    rw [tool, hw, if_pos rfl]
    unfold Host.ask
    simp only [hw, if_true]
    cases hp : h.path p with
    | none => simp [answer, absent, wanted]
    | some f =>
      cases hn : h.nick p with
      | none =>
        have := first_path hh hp
        simp only [answer, if_true, List.flatten_cons, List.flatten_nil, List.append_nil, this, wanted]
      | some a =>
        have := first_both hh hp hn
        simp only [answer, if_true, List.flatten_cons, List.flatten_nil, List.append_nil, this, wanted]
  | false =>
    rw [hw] at ok
    obtain ⟨hn, hu⟩ := ok.resolve_left (by simp)
    rw [tool, hw, if_neg (by simp)]
    unfold Host.ask
    simp only [hn, if_true]
    cases hp : h.path p with
    | none => simp [answer, absent, wanted, hu hp]
    | some f =>
      have := first_path hh hp
      simp only [answer, if_true, List.flatten_cons, List.flatten_nil, List.append_nil, this, wanted]

end Verif.Which
