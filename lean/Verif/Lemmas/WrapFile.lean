import Verif.Model.WrapFile
import Verif.Props.WrapFileSpec

namespace Verif.WrapFile

open Spec

variable {σ : Type} {K : Kernel σ} {buffered : Bool}

theorem call_ok {α : Type} {name : PyStr} {r : Except PyErr α} {a : α} (h : call name r = .ok a) : r = .ok a := by
  unfold call at h
  split at h
  · exact h
  · cases r with
    | ok b => exact h
    | error e => exact nomatch h

theorem push_ok {f f' : File σ} {t : PyStr} (h : push K f t = (f', .ok ())) :
    f'.pending = [] ∧ f'.given = f.given ++ [t] ∧ f'.refused = f.refused := by
  unfold push at h
  cases hw : K.write f.s t with
  | mk s e =>
    rw [hw] at h
    cases e with
    | some e => simp at h
    | none =>
      simp only [Prod.mk.injEq, and_true] at h
      subst h
      exact ⟨rfl, rfl, rfl⟩

theorem sync_ok {f f' : File σ} (h : sync K f = (f', .ok ())) :
    f'.pending = [] ∧ f'.given.flatten = f.given.flatten ++ f.pending ∧ f'.refused = f.refused := by
  unfold sync at h
  split at h
  · rename_i hp
    simp only [Prod.mk.injEq, and_true] at h
    subst h
    exact ⟨hp, by simp [hp], rfl⟩
  · obtain ⟨h1, h2, h3⟩ := push_ok h
    exact ⟨h1, by simp [h2], h3⟩

theorem write_ok {f f' : File σ} {v : PyStr} (h : write K buffered f v = (f', .ok ())) :
    (buffered = false → f.pending = [] → f'.pending = []) ∧
      (f.pending = [] ∨ buffered = true → f'.given.flatten ++ f'.pending = f.given.flatten ++ f.pending ++ v) ∧
      f'.refused = f.refused := by
  unfold write at h
  split at h
  · rename_i hb
    simp only [Prod.mk.injEq, and_true] at h
    subst h
    simp [hb]
  · rename_i hb
    cases hp : push K f v with
    | mk g r =>
      rw [hp] at h
      cases r with
      | error e => simp at h
      | ok u =>
        simp only [Prod.mk.injEq, and_true] at h
        subst h
        obtain ⟨h1, h2, h3⟩ := push_ok hp
        refine ⟨fun _ _ => h1, ?_, h3⟩
        intro hf
        have hf : f.pending = [] := hf.resolve_right hb
        simp [h1, h2, hf]

theorem step_ok {f f' : File σ} {o : Op} (h : step K buffered f o = (f', .ok ())) (hf : buffered = false → f.pending = []) :
    (buffered = false → f'.pending = []) ∧
      f'.given.flatten ++ f'.pending = f.given.flatten ++ f.pending ++ asked [o] ∧ f'.refused = f.refused ∧
      ((o = .flush ∨ o = .seek) → f'.pending = []) := by
  cases o with
  | write v =>
    simp only [step, Prod.mk.injEq] at h
    have hw : write K buffered f v = (f', .ok ()) := Prod.ext h.1 (call_ok h.2)
    obtain ⟨h1, h2, h3⟩ := write_ok hw
    refine ⟨fun hb => h1 hb (hf hb), ?_, h3, by simp⟩
    rw [h2 (by cases hb : buffered <;> simp_all)]
    simp [asked]
  | flush =>
    simp only [step, Prod.mk.injEq] at h
    have hw : sync K f = (f', .ok ()) := Prod.ext h.1 (call_ok h.2)
    obtain ⟨h1, h2, h3⟩ := sync_ok hw
    exact ⟨fun _ => h1, by simp [h1, h2, asked], h3, fun _ => h1⟩
  | seek =>
    simp only [step, Prod.mk.injEq] at h
    have hw : sync K f = (f', .ok ()) := Prod.ext h.1 (call_ok h.2)
    obtain ⟨h1, h2, h3⟩ := sync_ok hw
    exact ⟨fun _ => h1, by simp [h1, h2, asked], h3, fun _ => h1⟩

theorem asked_cons (o : Op) (l : List Op) : asked (o :: l) = asked [o] ++ asked l := by
  cases o <;> simp [asked]

theorem run_ok : ∀ {l : List Op} {f f' : File σ}, run K buffered l f = (f', .ok ()) → (buffered = false → f.pending = []) →
    (buffered = false → f'.pending = []) ∧
      f'.given.flatten ++ f'.pending = f.given.flatten ++ f.pending ++ asked l ∧ f'.refused = f.refused ∧
      (Flushed l → f.pending = [] ∨ .flush ∈ l ∨ .seek ∈ l → f'.pending = []) := by
  intro l
  induction l with
  | nil =>
    intro f f' h hf
    simp only [run, Prod.mk.injEq, and_true] at h
    subst h
    exact ⟨hf, by simp [asked], rfl, fun _ h => by simpa using h⟩
  | cons o l ih =>
    intro f f' h hf
    unfold run at h
    cases hs : step K buffered f o with
    | mk g r =>
      rw [hs] at h
      cases r with
      | error e => simp at h
      | ok u =>
        obtain ⟨h1, h2, h3, h4⟩ := step_ok hs hf
        obtain ⟨i1, i2, i3, i4⟩ := ih h h1
        refine ⟨i1, ?_, i3.trans h3, ?_⟩
        · rw [i2, h2, asked_cons o l]; simp
        · intro hfl _
          cases o with
          | write v => exact i4 hfl.2 (.inr hfl.1)
          | flush => exact i4 hfl (.inl (h4 (.inl rfl)))
          | seek => exact i4 hfl (.inl (h4 (.inr rfl)))

end Verif.WrapFile
