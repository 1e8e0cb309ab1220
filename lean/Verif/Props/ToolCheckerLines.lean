import Verif.Props.ToolChecker

/-! C112: lines of os-release files which are not understood, and exceptions of other kinds. -/

namespace Verif.ToolChecker

open Spec PyStr

/-- A line which is not understood: not blank, not a comment, and there is not exactly one '=' on it. -/
structure BadLine where
  pre : PyStr
  core : PyStr
  post : PyStr

def BadLine.text (l : BadLine) : PyStr := l.pre ++ l.core ++ l.post

def BadLine.Bad (l : BadLine) : Prop :=
  Blank l.pre ∧ Blank l.post ∧ Stripped isSpace l.core ∧ l.core ≠ [] ∧ l.core.head? ≠ some '#' ∧ l.core.count '=' ≠ 1

/-- The text of any line. -/
def anyText : Line ⊕ BadLine → PyStr
  | .inl l => l.text
  | .inr l => l.text

theorem splitC_count (c : Char) : ∀ l : PyStr, (splitC c l).length = l.count c + 1
  | [] => rfl
  | x :: l => by
    have ih := splitC_count c l
    unfold splitC
    by_cases hx : x = c
    · rw [if_pos hx, List.length_cons, ih, hx, List.count_cons_self]
    · rw [if_neg hx, List.count_cons_of_ne hx, ← ih]
      cases h : splitC c l with
      | nil => rw [h] at ih; cases ih
      | cons a t => rfl

theorem parse_bad {l : BadLine} (h : l.Bad) (rest : List PyStr) (d : Dict PyStr PyStr) :
    parseLines (l.text :: rest) d = ((parseLines rest d).1, l.core :: (parseLines rest d).2) := by
  obtain ⟨h1, h2, h3, h4, h5, h6⟩ := h
  have hs : strip l.text = l.core := strip_pad h1 h2 h3
  rw [parseLines]
  rw [hs, if_neg h4, if_neg h5]
  have hl := splitC_count '=' l.core
  generalize splitC '=' l.core = q at hl
  match q, hl with
  | [], _ => rfl
  | [_], _ => rfl
  | [a, b], hl =>
    have hl : 2 = l.core.count '=' + 1 := hl
    exact absurd (by omega) h6
  | _ :: _ :: _ :: _, _ => rfl

/-- **C112** (lines which are not understood): every one of them is complained about, once and in the order of the file; the
others are used as if these were not there. -/
theorem C112_bad_lines (ls : List (Line ⊕ BadLine)) (hg : ∀ l, .inl l ∈ ls → Line.Good l) (hb : ∀ l, .inr l ∈ ls → BadLine.Bad l)
    (d : Dict PyStr PyStr) :
    (parseLines (ls.map anyText) d).2 = (ls.filterMap Sum.getRight?).map BadLine.core ∧
      ∀ key, (parseLines (ls.map anyText) d).1.get? key = (valueOf key (ls.filterMap Sum.getLeft?)).or (d.get? key) := by
  induction ls generalizing d with
  | nil => exact ⟨rfl, fun key => rfl⟩
  | cons l ls ih =>
    have ih := ih (fun x hx => hg x (List.mem_cons_of_mem _ hx)) (fun x hx => hb x (List.mem_cons_of_mem _ hx))
    cases l with
    | inl l =>
      have e : (List.map anyText (.inl l :: ls)) = l.text :: ls.map anyText := rfl
      rw [e, parse_good (hg l List.mem_cons_self)]
      refine ⟨(ih _).1, fun key => ?_⟩
      rw [(ih _).2 key]
      have e2 : List.filterMap Sum.getLeft? (Sum.inl l :: ls : List (Line ⊕ BadLine)) = l :: ls.filterMap Sum.getLeft? := rfl
      rw [e2, valueOf_cons]
      unfold Line.gives
      cases l.entry <;> simp only [Dict.get?_set] <;> cases valueOf key (ls.filterMap Sum.getLeft?) <;> simp <;> split <;>
        simp_all
    | inr l =>
      have e : (List.map anyText (.inr l :: ls)) = l.text :: ls.map anyText := rfl
      rw [e, parse_bad (hb l List.mem_cons_self)]
      exact ⟨congrArg (l.core :: ·) (ih d).1, (ih d).2⟩

/-- **C112** (other exceptions): an exception which is not derived from `Error` is not taken for a missing file. -/
theorem C112_other_exceptions (h : Host) (e : Exn) (ls : List PyStr) (he : h.read "/usr/lib/os-release".toList = (ls, some e))
    (hp : e ∈ [Exn.pyKeyError, .pyValueError, .pyIndexError, .pyTypeError, .pyOverflowError, .pyUnboundLocal, .pyAttributeError]) :
    readOsRelease h = .error e := by
  have hi : isError e = false := by
    simp only [List.mem_cons, List.not_mem_nil, or_false] at hp
    rcases hp with rfl | rfl | rfl | rfl | rfl | rfl | rfl <;> rfl
  unfold readOsRelease fileLoop
  rw [he]
  dsimp only
  rw [hi]
  rfl

/-- A value with a '=' in it. -/
example : BadLine.Bad ⟨[], "URL=\"https://bugs/?os=1\"".toList, "\n".toList⟩ :=
  ⟨fun c hc => absurd hc List.not_mem_nil, (by decide), (by constructor <;> decide), (by decide), (by decide), (by decide)⟩

example : (parseLines ["ID=fedora\n".toList, "URL=\"https://bugs/?os=1\"\n".toList, "NAME=Fedora\n".toList] []) =
    ([("ID".toList, "fedora".toList), ("NAME".toList, "Fedora".toList)], ["URL=\"https://bugs/?os=1\"".toList]) := by
  decide +kernel

end Verif.ToolChecker
