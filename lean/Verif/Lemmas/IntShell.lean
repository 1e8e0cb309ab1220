import Verif.Props.IntShellSpec

/-!
# Lemmas about the interactive shell
-/

namespace Verif.IntShell
open Verif.IntShell.Spec

theorem upd_apply {α : Type} (f : Nat → α) (k i : Nat) (v : α) :
    upd f k v i = if i = k then v else f i := rfl

/-- What holds in programs with one thread. -/
structure SInv (s : St) : Prop where
  gens : ∀ g, s.ngen ≤ g → running g s.log = [] ∧ Ev.quit g ∉ s.log
  cur : ∀ g, s.intsh = some g → g < s.ngen ∧ Ev.quit g ∉ s.log
  one : ∀ t u, resting (s.thr t) = false → resting (s.thr u) = false → t = u
  vac : ∀ g, s.intsh = some g → s.busy = false → (∀ t, s.thr t ≠ .dropping) → running g s.log = []
  exitd : ∀ g, s.intsh = some g → (s.obj g).exit = true → (∀ t, s.thr t ≠ .sent g) →
    running g s.log = []
  run1 : ∀ g, s.intsh = some g → (∀ t, s.thr t ≠ .sent g) →
    ∀ c, c ∈ running g s.log → (s.obj g).cur = some c
  sentp : ∀ t g, s.thr t = .sent g → s.busy = true ∧ s.intsh = some g ∧ running g s.log = [t]
  initp : ∀ t g, s.thr t = .inited g →
    s.busy = true ∧ s.intsh = some g ∧ (s.obj g).cur = some t
  pickp : ∀ t g, s.thr t = .picked g → s.busy = true ∧ s.intsh = some g ∧ running g s.log = []
  claimp : ∀ t, s.thr t = .claimed →
    s.busy = true ∧ ∀ g, s.intsh = some g → running g s.log = []
  excl : OneAtATime s.log

theorem SInv.init : SInv IntShell.init := by
  constructor <;> simp [IntShell.init, running, OneAtATime, resting]

theorem filter_ne_nil {l : List Nat} {c : Nat} (h : ∀ d, d ∈ l → some c = some d) :
    l.filter (· != c) = [] := by
  rw [List.filter_eq_nil_iff]
  intro d hd
  have := h d hd
  simp_all

/-- `look` changes only the object of the shell and the log. -/
theorem look_fields (s : St) (g : Nat) (b : Bool) :
    (look s g b).busy = s.busy ∧ (look s g b).intsh = s.intsh ∧ (look s g b).ngen = s.ngen
      ∧ (look s g b).thr = s.thr ∧ ∀ h, ((look s g b).obj h).cur = (s.obj h).cur := by
  unfold look
  split
  · simp
  · split
    · refine ⟨rfl, rfl, rfl, rfl, ?_⟩
      intro h
      simp only [upd_apply]
      split <;> simp_all
    · simp

theorem SInv.look {s : St} (h : SInv s) (g : Nat) (b : Bool) (hg : s.intsh = some g)
    (hs : ∀ t, s.thr t ≠ .sent g) (hb : ∀ t, s.thr t ≠ .picked g) : SInv (look s g b) := by
  unfold IntShell.look
  split
  · exact h
  · rename_i c hc
    split
    · rename_i hb
      have hnil : (running g s.log).filter (· != c) = [] :=
        filter_ne_nil (fun d hd => hc ▸ h.run1 g hg hs d hd)
      obtain ⟨h1, h2, h3, h4, h5, h6, h7, h8, h9, h10, h11⟩ := h
      constructor <;> simp only [running, OneAtATime, upd_apply] <;> grind
    · exact h

/-- No call is between setting the flag and the end of `_read_pid()`. -/
def Quiet (s : St) : Prop :=
  ∀ t, s.thr t ≠ .claimed ∧ ∀ g, s.thr t ≠ .picked g ∧ s.thr t ≠ .sent g ∧ s.thr t ≠ .inited g

theorem SInv.clear {s : St} (h : SInv s) (g : Nat) (hg : s.intsh = some g)
    (he : (s.obj g).exit = true) (hq : Quiet s) : SInv { s with busy := false } where
  gens := h.gens
  cur := h.cur
  one := h.one
  vac := by
    intro k hk _ _
    have hk : s.intsh = some k := hk
    rw [hg] at hk
    cases hk
    exact h.exitd g hg he (fun t => ((hq t).2 g).2.1)
  exitd := h.exitd
  run1 := h.run1
  sentp := fun t k e => absurd e ((hq t).2 k).2.1
  initp := fun t k e => absurd e ((hq t).2 k).2.2
  pickp := fun t k e => absurd e ((hq t).2 k).1
  claimp := fun t e => absurd e (hq t).1
  excl := h.excl

theorem SInv.waitIntsh {s : St} (h : SInv s) (g : Nat) (a b c : Bool) (hq : Quiet s) :
    SInv (waitIntsh s g a b c) := by
  unfold IntShell.waitIntsh
  split
  · rename_i hg
    have hl := h.look g a hg (fun t => ((hq t).2 g).2.1) (fun t => ((hq t).2 g).1)
    obtain ⟨f1, f2, f3, f4, f5⟩ := look_fields s g a
    dsimp only
    split
    · rename_i hd
      refine hl.clear g (f2.trans hg) ?_ ?_
      · simp only [isDone, Bool.and_eq_true] at hd
        exact hd.1.1
      · unfold Quiet
        rw [f4]
        exact hq
    · exact hl
  · exact h

/-- Going to a phase about which nothing is required. -/
theorem SInv.goto {s : St} (h : SInv s) (t : Nat) (p : Phase)
    (ha : ∀ u, u ≠ t → resting (s.thr u) = true) (hs : ∀ g, s.thr t ≠ .sent g)
    (hd : s.thr t ≠ .dropping)
    (hp : p = .failed ∨ p = .fresh ∨ p = .own ∨ p = .over ∨ ∃ g, p = .got g) :
    SInv (goto s t p) := by
  obtain ⟨h1, h2, h3, h4, h5, h6, h7, h8, h9, h10, h11⟩ := h
  constructor <;> simp only [IntShell.goto, upd_apply] <;> grind [resting]

theorem look_goto (s : St) (g t : Nat) (p : Phase) (a : Bool) :
    look (goto s t p) g a = goto (look s g a) t p := by
  obtain ⟨b, i, n, o, th, lg⟩ := s
  simp only [look, goto]
  cases h : (o g).cur with
  | none => rfl
  | some c => by_cases hc : (o g).exit = false ∧ a = true <;> simp [hc]

theorem waitIntsh_goto (s : St) (g t : Nat) (p : Phase) (a b c : Bool) :
    waitIntsh (goto s t p) g a b c = goto (waitIntsh s g a b c) t p := by
  unfold waitIntsh
  rw [look_goto]
  have h1 : (goto s t p).intsh = s.intsh := rfl
  have h2 : isDone (goto (look s g a) t p) g b = isDone (look s g a) g b := rfl
  rw [h1]
  dsimp only
  rw [h2]
  by_cases hi : s.intsh = some g
  · by_cases hd : (isDone (look s g a) g b && c) = true
    · simp only [hi, hd, if_true]; rfl
    · simp only [hi, hd, if_true]; rfl
  · simp only [hi, if_false]

theorem quiet_goto {s : St} {t : Nat} {p : Phase}
    (ha : ∀ u, u ≠ t → resting (s.thr u) = true)
    (hp : p = .failed ∨ p = .fresh ∨ p = .own ∨ p = .over ∨ ∃ g, p = .got g) :
    Quiet (goto s t p) := by
  intro u
  simp only [IntShell.goto, upd_apply]
  grind [resting]

theorem waitIntsh_fields (s : St) (g : Nat) (a b c : Bool) :
    (waitIntsh s g a b c).intsh = s.intsh ∧ (waitIntsh s g a b c).ngen = s.ngen
      ∧ (waitIntsh s g a b c).thr = s.thr
      ∧ ∀ h, ((waitIntsh s g a b c).obj h).cur = (s.obj h).cur := by
  obtain ⟨f1, f2, f3, f4, f5⟩ := look_fields s g a
  unfold waitIntsh
  split
  · dsimp only
    split
    · exact ⟨f2, f3, f4, f5⟩
    · exact ⟨f2, f3, f4, f5⟩
  · exact ⟨rfl, rfl, rfl, fun _ => rfl⟩

/-- Events which do not matter for the shell. -/
theorem SInv.push {s : St} (h : SInv s) (e : Ev)
    (he : (∃ t c, e = .got t c) ∨ ∃ t, e = .sent none t) : SInv { s with log := e :: s.log } := by
  obtain ⟨h1, h2, h3, h4, h5, h6, h7, h8, h9, h10, h11⟩ := h
  rcases he with ⟨t, c, rfl⟩ | ⟨t, rfl⟩
  · constructor <;> simp only [running, OneAtATime] <;> grind
  · constructor <;> simp only [running, OneAtATime] <;> grind

theorem SInv.step {s : St} (h : SInv s) (l : Label)
    (ha : ∀ u, u ≠ who l → resting (s.thr u) = true) : SInv (step s l) := by
  cases l with
  | claim t i a =>
    simp only [IntShell.step]
    split
    · rename_i ht
      split
      · obtain ⟨h1, h2, h3, h4, h5, h6, h7, h8, h9, h10, h11⟩ := h
        simp only [who] at ha
        constructor <;> simp only [IntShell.goto, upd_apply] <;> grind [resting]
      · exact h.goto t _ ha (by simp [ht]) (by simp [ht]) (by simp)
    · exact h
  | openSh t ok =>
    simp only [IntShell.step]
    split
    · rename_i ht
      split
      · obtain ⟨h1, h2, h3, h4, h5, h6, h7, h8, h9, h10, h11⟩ := h
        simp only [who] at ha
        constructor <;> simp only [IntShell.goto, upd_apply] <;> grind [resting]
      · split
        · obtain ⟨h1, h2, h3, h4, h5, h6, h7, h8, h9, h10, h11⟩ := h
          simp only [who] at ha
          constructor <;> simp only [IntShell.goto, upd_apply] <;> grind [resting]
        · exact h.goto t _ ha (by simp [ht]) (by simp [ht]) (by simp)
    · exact h
  | send t ok =>
    simp only [IntShell.step]
    split
    · rename_i g ht
      split
      · obtain ⟨h1, h2, h3, h4, h5, h6, h7, h8, h9, h10, h11⟩ := h
        simp only [who] at ha
        constructor <;> simp only [IntShell.goto, upd_apply, running, OneAtATime] <;>
          grind [resting]
      · exact h.goto t _ ha (by simp [ht]) (by simp [ht]) (by simp)
    · exact h
  | reinit t =>
    simp only [IntShell.step]
    split
    · rename_i g ht
      obtain ⟨h1, h2, h3, h4, h5, h6, h7, h8, h9, h10, h11⟩ := h
      simp only [who] at ha
      constructor <;> simp only [IntShell.goto, upd_apply] <;> grind [resting]
    · exact h
  | readPid t a b c r =>
    simp only [IntShell.step]
    split
    · rename_i g ht
      rw [← waitIntsh_goto]
      have hp : (if r then Phase.failed else Phase.got g) = .failed
          ∨ (if r then Phase.failed else Phase.got g) = .fresh
          ∨ (if r then Phase.failed else Phase.got g) = .own
          ∨ (if r then Phase.failed else Phase.got g) = .over
          ∨ ∃ k, (if r then Phase.failed else Phase.got g) = .got k := by
        cases r <;> simp
      exact (h.goto t _ ha (by simp [ht]) (by simp [ht]) hp).waitIntsh g a b c (quiet_goto ha hp)
    · exact h
  | wait t a b c =>
    simp only [IntShell.step]
    split
    · rename_i g ht
      have hq : Quiet s := by
        intro u
        simp only [who] at ha
        grind [resting]
      have hw := h.waitIntsh g a b c hq
      obtain ⟨f1, f2, f3, f4⟩ := waitIntsh_fields s g a b c
      split
      · split
        · rename_i d _
          refine SInv.push (s := IntShell.goto (IntShell.waitIntsh s g a b c) t .over)
            (hw.goto t .over (by rw [f3]; exact ha) (by simp [f3, ht]) (by simp [f3, ht])
              (by simp)) _ (.inl ⟨t, d, rfl⟩)
        · exact hw
      · exact hw
    · exact h
  | unbusy t a =>
    simp only [IntShell.step]
    split
    · rename_i ht
      split
      · obtain ⟨h1, h2, h3, h4, h5, h6, h7, h8, h9, h10, h11⟩ := h
        simp only [who] at ha
        constructor <;> simp only [IntShell.goto, upd_apply] <;> grind [resting]
      · exact h.goto t _ ha (by simp [ht]) (by simp [ht]) (by simp)
    · exact h
  | drop t =>
    simp only [IntShell.step]
    split
    · rename_i ht
      split
      · obtain ⟨h1, h2, h3, h4, h5, h6, h7, h8, h9, h10, h11⟩ := h
        simp only [who] at ha
        constructor <;> simp only [IntShell.goto, upd_apply, running, OneAtATime] <;>
          grind [resting]
      · obtain ⟨h1, h2, h3, h4, h5, h6, h7, h8, h9, h10, h11⟩ := h
        simp only [who] at ha
        constructor <;> simp only [IntShell.goto, upd_apply] <;> grind [resting]
    · exact h
  | session t ok =>
    simp only [IntShell.step]
    split
    · rename_i ht
      split
      · exact SInv.push (s := IntShell.goto s t .own)
          (h.goto t .own ha (by simp [ht]) (by simp [ht]) (by simp)) _ (.inr ⟨t, rfl⟩)
      · exact h.goto t _ ha (by simp [ht]) (by simp [ht]) (by simp)
    · exact h

end Verif.IntShell
