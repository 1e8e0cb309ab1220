import Verif.Lemmas.IntShell

/-!
# Lemmas about the interactive shell: several threads, outcomes, how many times
-/

namespace Verif.IntShell
open Verif.IntShell.Spec

/-- The call has the shell. -/
def holds : Phase → Bool
  | .claimed | .picked _ | .sent _ | .inited _ | .got _ => true
  | _ => false

/-- What holds with any number of threads if everything is smooth. -/
structure CInv (s : St) : Prop where
  gens : ∀ g, s.ngen ≤ g → running g s.log = []
  cur : ∀ g, s.intsh = some g → g < s.ngen
  quit : ∀ g, Ev.quit g ∉ s.log
  nofail : ∀ t, s.thr t ≠ .failed ∧ s.thr t ≠ .dropping
  uniq : ∀ t u, holds (s.thr t) = true → holds (s.thr u) = true → t = u
  busy : ∀ t, holds (s.thr t) = true → s.busy = true
  run : ∀ g c, c ∈ running g s.log → s.thr c = .sent g ∨ s.thr c = .inited g ∨ s.thr c = .got g
  pickp : ∀ t g, s.thr t = .picked g → s.intsh = some g
  sentp : ∀ t g, s.thr t = .sent g → s.intsh = some g
  initp : ∀ t g, s.thr t = .inited g →
    s.intsh = some g ∧ (s.obj g).cur = some t ∧ (s.obj g).exit = false
  gotp : ∀ t g, s.thr t = .got g → s.intsh = some g ∧ (s.obj g).cur = some t
    ∧ ((s.obj g).exit = true → running g s.log = [])
  excl : OneAtATime s.log
  own : OwnResults s.log

theorem CInv.init : CInv IntShell.init := by
  constructor <;> simp [IntShell.init, running, OneAtATime, holds, OwnResults]

theorem running_nil_of {g : Nat} {l : List Ev} (h : ∀ c, c ∉ running g l) : running g l = [] :=
  List.eq_nil_iff_forall_not_mem.mpr h

theorem CInv.send {s : St} (h : CInv s) (t : Nat) (ok : Bool) (hl : Smooth (.send t ok)) :
    CInv (IntShell.step s (.send t ok)) := by
  simp only [Smooth] at hl
  subst hl
  simp only [IntShell.step]
  split
  · rename_i g ht
    have hnil : running g s.log = [] := running_nil_of (by
      intro c hc
      have := h.uniq c t (by have := h.run g c hc; grind [holds]) (by simp [ht, holds])
      subst this
      have := h.run g c hc
      grind)
    obtain ⟨h1, h2, h3, h4, h5, h6, h7, h8, h9, h10, h11, h12, h13⟩ := h
    constructor <;> simp only [IntShell.goto, upd_apply, if_true, running, OneAtATime, OwnResults] <;>
      grind [holds, OwnResults]
  · exact h

theorem CInv.readPid {s : St} (h : CInv s) (t : Nat) (a b c r : Bool) (hl : Smooth (.readPid t a b c r)) :
    CInv (IntShell.step s (.readPid t a b c r)) := by
  obtain ⟨hr, hab⟩ := hl
  subst hr
  simp only [IntShell.step]
  split
  · rename_i g ht
    obtain ⟨hi, hcur, hex⟩ := h.initp t g ht
    have hrun : ∀ d, d ∈ running g s.log → d = t := by
      intro d hd
      exact h.uniq d t (by have := h.run g d hd; grind [holds]) (by simp [ht, holds])
    have hnil : (running g s.log).filter (· != t) = [] :=
      filter_ne_nil (fun d hd => by rw [hrun d hd])
    obtain ⟨h1, h2, h3, h4, h5, h6, h7, h8, h9, h10, h11, h12, h13⟩ := h
    simp only [waitIntsh, hi, if_true, look, hcur, hex, true_and, isDone]
    cases a with
    | true =>
      have hb : b = false := by simpa using hab
      subst hb
      constructor <;>
        simp only [IntShell.goto, upd_apply, if_true, running, OneAtATime, OwnResults,
          Bool.and_false, Bool.false_and, Bool.false_eq_true, if_false] <;>
        grind [holds, OwnResults]
    | false =>
      constructor <;>
        simp only [IntShell.goto, upd_apply, Bool.false_eq_true, if_false, hex, Bool.false_and] <;>
        grind [holds]
  · exact h

theorem CInv.wait {s : St} (h : CInv s) (t : Nat) (a b c : Bool) (hl : Smooth (.wait t a b c)) :
    CInv (IntShell.step s (.wait t a b c)) := by
  simp only [IntShell.step]
  split
  · rename_i g ht
    obtain ⟨hi, hcur, hex⟩ := h.gotp t g ht
    have hrun : ∀ d, d ∈ running g s.log → d = t := by
      intro d hd
      exact h.uniq d t (by have := h.run g d hd; grind [holds]) (by simp [ht, holds])
    have hnil : (running g s.log).filter (· != t) = [] :=
      filter_ne_nil (fun d hd => by rw [hrun d hd])
    obtain ⟨h1, h2, h3, h4, h5, h6, h7, h8, h9, h10, h11, h12, h13⟩ := id h
    simp only [waitIntsh, hi, if_true, look, hcur, isDone, true_and]
    cases he : (s.obj g).exit with
    | true =>
      simp only [Bool.true_eq_false, false_and, if_false, he, Bool.true_and]
      have hnil' := hex he
      cases b <;> cases c <;>
        simp only [Bool.and_true, Bool.and_false, Bool.false_eq_true, if_true,
          if_false, hcur, Bool.and_self, he] <;>
        first
          | exact h
          | (constructor <;>
              simp only [IntShell.goto, upd_apply, running, OneAtATime, OwnResults] <;>
              grind [holds, OwnResults])
    | false =>
      cases a with
      | false =>
        simp only [Bool.false_eq_true, and_false, if_false, he, Bool.false_and]
        exact h
      | true =>
        simp only [and_self, if_true, upd_apply, Bool.true_and]
        cases b <;> cases c <;>
          simp only [Bool.and_true, Bool.and_false, Bool.false_eq_true, if_true,
            if_false, Bool.and_self, upd_apply] <;>
          (constructor <;>
              simp only [IntShell.goto, upd_apply, running, OneAtATime, OwnResults] <;>
              grind [holds, OwnResults])
  · exact h

theorem CInv.step {s : St} (h : CInv s) (l : Label) (hl : Smooth l) : CInv (step s l) := by
  cases l with
  | claim t i a =>
    simp only [IntShell.step]
    obtain ⟨h1, h2, h3, h4, h5, h6, h7, h8, h9, h10, h11, h12, h13⟩ := id h
    split
    · split <;> (constructor <;> simp only [IntShell.goto, upd_apply] <;> grind [holds])
    · exact h
  | openSh t ok =>
    simp only [Smooth] at hl
    subst hl
    simp only [IntShell.step]
    obtain ⟨h1, h2, h3, h4, h5, h6, h7, h8, h9, h10, h11, h12, h13⟩ := id h
    split
    · split
      · constructor <;> simp only [IntShell.goto, upd_apply] <;> grind [holds]
      · constructor <;> simp only [IntShell.goto, upd_apply, if_true] <;> grind [holds]
    · exact h
  | send t ok => exact h.send t ok hl
  | reinit t =>
    simp only [IntShell.step]
    split
    · obtain ⟨h1, h2, h3, h4, h5, h6, h7, h8, h9, h10, h11, h12, h13⟩ := h
      constructor <;> simp only [IntShell.goto, upd_apply] <;> grind [holds]
    · exact h
  | readPid t a b c r => exact h.readPid t a b c r hl
  | wait t a b c => exact h.wait t a b c hl
  | unbusy t a =>
    simp only [IntShell.step, if_neg (h.nofail t).1]
    exact h
  | drop t =>
    simp only [IntShell.step, if_neg (h.nofail t).2]
    exact h
  | session t ok =>
    simp only [IntShell.step]
    obtain ⟨h1, h2, h3, h4, h5, h6, h7, h8, h9, h10, h11, h12, h13⟩ := id h
    split
    · split <;>
        (constructor <;>
          simp only [IntShell.goto, upd_apply, running, OneAtATime, OwnResults] <;>
          grind [holds, OwnResults])
    · exact h

theorem CInv.exec {s : St} (h : CInv s) (ls : List Label) (hl : ∀ l ∈ ls, Smooth l) :
    CInv (exec s ls) := by
  induction ls generalizing s with
  | nil => exact h
  | cons l ls ih =>
    exact ih (h.step l (hl l (List.mem_cons_self ..))) (fun k hk => hl k (List.mem_cons_of_mem _ hk))

theorem SInv.exec {s : St} (h : SInv s) (ls : List Label) (hl : OneThread s ls) :
    SInv (exec s ls) := by
  induction ls generalizing s with
  | nil => exact h
  | cons l ls ih => exact ih (h.step l hl.1) hl.2

/-! ### The outcomes if only `run()` is used -/

/-- The last call to have made a step has the shell's object. -/
def Last (last : Option Nat) (s : St) : Prop :=
  ∀ t g, last = some t → s.thr t = .got g → s.intsh = some g → (s.obj g).cur = some t

theorem look_log (s : St) (g : Nat) (a : Bool) :
    ∀ t d, Ev.got t d ∈ (look s g a).log → Ev.got t d ∈ s.log := by
  intro t d
  unfold look
  split
  · exact id
  · split
    · simp
    · exact id

theorem waitIntsh_log (s : St) (g : Nat) (a b c : Bool) :
    ∀ t d, Ev.got t d ∈ (waitIntsh s g a b c).log → Ev.got t d ∈ s.log := by
  intro t d
  unfold waitIntsh
  split
  · dsimp only
    split <;> exact look_log s g a t d
  · exact id

theorem run_step {s : St} {last : Option Nat} (hi : SInv s) (hlast : Last last s)
    (ho : OwnResults s.log) (l : Label)
    (hl : last = some (who l) ∨ s.thr (who l) = .start) :
    Last (some (who l)) (step s l) ∧ OwnResults (step s l).log := by
  cases l with
  | claim t i a =>
    simp only [step, who] at hl ⊢
    split
    · split <;> exact ⟨by simp only [Last, goto, upd_apply]; grind, ho⟩
    · exact ⟨by unfold Last at *; grind, ho⟩
  | openSh t ok =>
    simp only [step, who] at hl ⊢
    split
    · split
      · exact ⟨by simp only [Last, goto, upd_apply]; grind, ho⟩
      · split <;> exact ⟨by simp only [Last, goto, upd_apply]; grind, ho⟩
    · exact ⟨by unfold Last at *; grind, ho⟩
  | send t ok =>
    simp only [step, who] at hl ⊢
    split
    · split
      · exact ⟨by simp only [Last, goto, upd_apply]; grind,
          by unfold OwnResults at *; simp only [List.mem_cons]; grind⟩
      · exact ⟨by simp only [Last, goto, upd_apply]; grind, ho⟩
    · exact ⟨by unfold Last at *; grind, ho⟩
  | reinit t =>
    simp only [step, who] at hl ⊢
    split
    · exact ⟨by simp only [Last, goto, upd_apply]; grind, ho⟩
    · exact ⟨by unfold Last at *; grind, ho⟩
  | readPid t a b c r =>
    simp only [step, who] at hl ⊢
    split
    · rename_i g ht
      obtain ⟨f1, f2, f3, f4⟩ := waitIntsh_fields s g a b c
      have hc := (hi.initp t g ht).2.2
      refine ⟨?_, fun u d h => ho u d (waitIntsh_log s g a b c u d h)⟩
      intro u k hu hk _
      cases hu
      have hk : (if t = t then (if r = true then Phase.failed else Phase.got g) else _) = .got k := hk
      rw [if_pos rfl] at hk
      cases r with
      | true => exact absurd hk (by simp)
      | false =>
        simp only [Bool.false_eq_true, if_false, Phase.got.injEq] at hk
        subst hk
        exact (f4 g).trans hc
    · exact ⟨by unfold Last at *; grind, ho⟩
  | wait t a b c =>
    simp only [step, who] at hl ⊢
    split
    · rename_i g ht
      obtain ⟨f1, f2, f3, f4⟩ := waitIntsh_fields s g a b c
      have hlt : last = some t := by grind
      have hL : Last (some t) (waitIntsh s g a b c) := by
        intro u k hu hk hik
        rw [f3] at hk
        rw [f1] at hik
        rw [f4]
        exact hlast u k (hlt.trans hu) hk hik
      have hO : OwnResults (waitIntsh s g a b c).log :=
        fun u d h => ho u d (waitIntsh_log s g a b c u d h)
      split
      · rename_i hd
        split
        · rename_i d hcur
          rw [f4, hlast t g hlt ht hd.1] at hcur
          cases hcur
          refine ⟨?_, ?_⟩
          · simp only [Last, goto, upd_apply]; grind
          · unfold OwnResults at *
            simp only [List.mem_cons]
            grind
        · exact ⟨hL, hO⟩
      · exact ⟨hL, hO⟩
    · exact ⟨by unfold Last at *; grind, ho⟩
  | unbusy t a =>
    simp only [step, who] at hl ⊢
    split
    · split <;> exact ⟨by simp only [Last, goto, upd_apply]; grind, ho⟩
    · exact ⟨by unfold Last at *; grind, ho⟩
  | drop t =>
    simp only [step, who] at hl ⊢
    split
    · split
      · exact ⟨by simp only [Last, goto, upd_apply]; grind,
          by unfold OwnResults at *; simp only [List.mem_cons]; grind⟩
      · exact ⟨by simp only [Last, goto, upd_apply]; grind, ho⟩
    · exact ⟨by unfold Last at *; grind, ho⟩
  | session t ok =>
    simp only [step, who] at hl ⊢
    split
    · split
      · exact ⟨by simp only [Last, goto, upd_apply]; grind,
          by unfold OwnResults at *; simp only [List.mem_cons]; grind⟩
      · exact ⟨by simp only [Last, goto, upd_apply]; grind, ho⟩
    · exact ⟨by unfold Last at *; grind, ho⟩

theorem onlyRun_exec {s : St} {last : Option Nat} (hi : SInv s) (hlast : Last last s)
    (ho : OwnResults s.log) (ls : List Label) (hl : OnlyRun last s ls) :
    OwnResults (exec s ls).log := by
  induction ls generalizing s last with
  | nil => exact ho
  | cons l ls ih =>
    obtain ⟨h1, h2, h3⟩ := hl
    have := run_step hi hlast ho l h2
    exact ih (hi.step l h1) this.1 this.2 h3

/-! ### How many times -/

/-- How many times the command of a call in the given phase can have been run, if `b`: reading
the PID may fail after the command has been sent. -/
def bound (b : Bool) : Phase → Nat
  | .start | .claimed | .picked _ => 0
  | .sent _ | .inited _ | .got _ => 1
  | .failed | .dropping | .fresh => if b then 1 else 0
  | .own | .over => if b then 2 else 1

theorem timesRun_look (s : St) (g t : Nat) (a : Bool) :
    timesRun t (look s g a).log = timesRun t s.log := by
  unfold look
  split
  · rfl
  · split <;> rfl

theorem timesRun_wait (s : St) (g t : Nat) (a b c : Bool) :
    timesRun t (waitIntsh s g a b c).log = timesRun t s.log := by
  unfold waitIntsh
  split
  · dsimp only
    split <;> exact timesRun_look s g t a
  · rfl

theorem timesRun_step (s : St) (l : Label) (t : Nat) (b : Bool)
    (h : timesRun t s.log ≤ bound b (s.thr t))
    (hl : b = false → ∀ x y z, l ≠ .readPid t x y z true) :
    timesRun t (step s l).log ≤ bound b ((step s l).thr t) := by
  cases l with
  | readPid u x y z r =>
    simp only [step]
    split
    · rename_i g hu
      have f3 := (waitIntsh_fields s g x y z).2.2.1
      simp only [goto, upd_apply, f3, timesRun_wait]
      by_cases htu : t = u
      · subst htu
        rw [hu] at h
        rw [if_pos rfl]
        cases b with
        | true => cases r <;> exact h
        | false =>
          cases r with
          | true => exact absurd rfl (hl rfl x y z)
          | false => exact h
      · rw [if_neg htu]
        exact h
    · exact h
  | wait u x y z =>
    simp only [step]
    split
    · rename_i g hu
      have f3 := (waitIntsh_fields s g x y z).2.2.1
      have ft := timesRun_wait s g t x y z
      split
      · split
        · simp only [goto, upd_apply, timesRun, ft, f3]
          cases b <;> grind [bound]
        · rw [ft, f3]; exact h
      · rw [ft, f3]; exact h
    · exact h
  | _ =>
    simp only [step, goto]
    repeat' split
    all_goals first
      | exact h
      | (simp only [upd_apply, timesRun]; cases b <;> grind [bound])

theorem timesRun_exec (s : St) (ls : List Label) (t : Nat) (b : Bool)
    (h : timesRun t s.log ≤ bound b (s.thr t))
    (hl : b = false → ∀ x y z, Label.readPid t x y z true ∉ ls) :
    timesRun t (exec s ls).log ≤ bound b ((exec s ls).thr t) := by
  induction ls generalizing s with
  | nil => exact h
  | cons l ls ih =>
    refine ih (step s l) (timesRun_step s l t b h ?_) ?_
    · intro hb x y z e
      exact hl hb x y z (e ▸ List.mem_cons_self ..)
    · intro hb x y z hm
      exact hl hb x y z (List.mem_cons_of_mem _ hm)

theorem bound_le (b : Bool) (p : Phase) : bound b p ≤ if b then 2 else 1 := by
  cases p <;> cases b <;> simp [bound]

/-! ### The flag -/

/-- The call does not use the shell. -/
def aside : Phase → Bool
  | .start | .fresh | .own | .over => true
  | _ => false

theorem stuck_step (s : St) (l : Label) (t : Nat) (hb : s.busy = true)
    (ha : ∀ u, u ≠ t → aside (s.thr u) = true) (hl : who l ≠ t) :
    (step s l).busy = true ∧ (∀ u, u ≠ t → aside ((step s l).thr u) = true)
      ∧ ∀ g c, Ev.sent (some g) c ∈ (step s l).log → Ev.sent (some g) c ∈ s.log := by
  have hp := ha (who l) hl
  cases l <;> simp only [who] at hp hl <;> simp only [step, goto] <;> repeat' split
  all_goals first
    | exact ⟨hb, ha, fun _ _ h => h⟩
    | (exfalso; grind [aside])
    | (simp only [upd_apply, List.mem_cons]; grind [aside])

theorem stuck_exec (s : St) (ls : List Label) (t : Nat) (hb : s.busy = true)
    (ha : ∀ u, u ≠ t → aside (s.thr u) = true) (hl : ∀ l ∈ ls, who l ≠ t) :
    ∀ g c, Ev.sent (some g) c ∈ (exec s ls).log → Ev.sent (some g) c ∈ s.log := by
  induction ls generalizing s with
  | nil => exact fun _ _ h => h
  | cons l ls ih =>
    obtain ⟨h1, h2, h3⟩ := stuck_step s l t hb ha (hl l (List.mem_cons_self ..))
    exact fun g c h => h3 g c (ih (step s l) h1 h2 (fun k hk => hl k (List.mem_cons_of_mem _ hk)) g c h)

/-- The call has set the flag and has not cleared it. -/
def keeps : Phase → Bool
  | .claimed | .picked _ | .sent _ | .inited _ | .got _ | .failed => true
  | _ => false

theorem locked_step (s : St) (l : Label) (h : s.busy = true → ∃ t, keeps (s.thr t) = true)
    (hl : Locked l) : (step s l).busy = true → ∃ t, keeps ((step s l).thr t) = true := by
  cases l with
  | readPid u x y z r =>
    simp only [step]
    split
    · rename_i g hu
      intro _
      refine ⟨u, ?_⟩
      simp only [goto, upd_apply, if_true]
      cases r <;> rfl
    · exact h
  | wait u x y z =>
    simp only [Locked] at hl
    subst hl
    simp only [step]
    split
    · rename_i g hu
      have f3 := (waitIntsh_fields s g x y true).2.2.1
      split
      · rename_i hd
        split
        · intro hb
          simp only [goto] at hb
          exfalso
          unfold waitIntsh at hb hd
          simp only [if_pos hd.1, Bool.and_true] at hb hd
          by_cases hk : isDone (look s g x) g y = true
          · simp [hk] at hb
          · have := hd.2
            simp [hk] at this
        · intro _
          exact ⟨u, by rw [f3, hu]; rfl⟩
      · intro _
        exact ⟨u, by rw [f3, hu]; rfl⟩
    · exact h
  | _ =>
    simp only [Locked] at hl
    simp only [step, goto]
    repeat' split
    all_goals first
      | exact h
      | (simp only [upd_apply]; grind [keeps])

theorem locked_exec (s : St) (ls : List Label) (h : s.busy = true → ∃ t, keeps (s.thr t) = true)
    (hl : ∀ l ∈ ls, Locked l) :
    (exec s ls).busy = true → ∃ t, keeps ((exec s ls).thr t) = true := by
  induction ls generalizing s with
  | nil => exact h
  | cons l ls ih =>
    exact ih (step s l) (locked_step s l h (hl l (List.mem_cons_self ..)))
      (fun k hk => hl k (List.mem_cons_of_mem _ hk))

end Verif.IntShell
