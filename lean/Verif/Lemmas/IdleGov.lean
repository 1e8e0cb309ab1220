import Verif.Model.IdleGov

/-!
Lemmas about the idle driver and governor model.
-/

namespace Verif.IdleGov

open Verif.FreqInfo (splitWs pushChar)

theorem splitWs_words (s : PyStr) : ∀ w ∈ splitWs s, w ≠ [] ∧ ∀ c ∈ w, PyStr.isSpace c = false := by
  induction s with
  | nil => intro w hw; cases hw
  | cons c s ih =>
    intro w hw
    rw [splitWs] at hw
    by_cases hc : PyStr.isSpace c = true
    · rw [if_pos hc] at hw; exact ih w hw
    · rw [if_neg hc] at hw
      have hc' : PyStr.isSpace c = false := by simpa using hc
      have single : ([c] : PyStr) ≠ [] ∧ ∀ d ∈ ([c] : PyStr), PyStr.isSpace d = false := by
        refine ⟨by simp, ?_⟩
        intro d hd
        simp only [List.mem_singleton] at hd
        rw [hd]; exact hc'
      unfold pushChar at hw
      split at hw
      · rcases List.mem_cons.1 hw with rfl | hw
        · exact single
        · exact ih w hw
      · split at hw
        · rcases List.mem_cons.1 hw with rfl | hw
          · exact single
          · exact ih w hw
        · split at hw
          · simp only [List.mem_singleton] at hw
            rw [hw]; exact single
          · rename_i w0 ws he
            rcases List.mem_cons.1 hw with rfl | hw
            · refine ⟨by simp, ?_⟩
              intro d hd
              rcases List.mem_cons.1 hd with rfl | hd
              · exact hc'
              · exact (ih w0 (by rw [he]; simp)).2 d hd
            · exact ih w (by rw [he]; simp [hw])

theorem dropWhile_none {p : Char → Bool} {s : PyStr} (h : ∀ c ∈ s, p c = false) : s.dropWhile p = s := by
  cases s with
  | nil => rfl
  | cons c s => rw [List.dropWhile_cons, h c (by simp)]; simp

theorem strip_word {w : PyStr} (h : ∀ c ∈ w, PyStr.isSpace c = false) : PyStr.strip w = w := by
  unfold PyStr.strip PyStr.stripBy PyStr.lstripBy PyStr.rstripBy
  rw [dropWhile_none h, dropWhile_none (fun c hc => h c (by simpa using hc))]
  simp

/-- Same files, and the cached items are what the files hold. -/
structure Coh (E : Env) (s : St) : Prop where
  driver : E.cacheOn = true → ∀ d, s.cDriver = some d → s.files.driver.map PyStr.strip = some d
  avail : E.cacheOn = true → ∀ l, s.cAvail = some l → s.files.avail.map (fun t => splitWs (PyStr.strip t)) = some l
  current : E.cacheOn = true → ∀ g, s.cCurrent = some g → s.files.current.map PyStr.strip = some g

/-- The caches are empty. -/
def init (F : Files) : St := ⟨F, none, none, none⟩

theorem coh_init (E : Env) (F : Files) : Coh E (init F) :=
  ⟨(fun _ _ h => nomatch h), (fun _ _ h => nomatch h), (fun _ _ h => nomatch h)⟩

/-- The cache operations do not fail. -/
def CacheOk (E : Env) : Prop := E.cacheOn = true → E.cpu0 = true

theorem cacheFails_false {E : Env} (h : CacheOk E) : cacheFails E = false := by
  unfold cacheFails
  cases hc : E.cacheOn with
  | false => rfl
  | true => rw [h hc]; rfl

theorem driver_spec {E : Env} (hE : CacheOk E) {s : St} (hs : Coh E s) :
    Coh E (driver E s).1 ∧ (driver E s).1.files = s.files ∧ (driver E s).1.cCurrent = s.cCurrent ∧
    (driver E s).2 = driverPlain s.files := by
  unfold driver driverPlain
  rw [cacheFails_false hE]
  cases hc : E.cacheOn with
  | false =>
    rw [if_neg Bool.false_ne_true]
    cases hd : s.files.driver with
    | none => exact ⟨hs, rfl, rfl, rfl⟩
    | some t => exact ⟨hs, rfl, rfl, rfl⟩
  | true =>
    rw [if_pos rfl]
    cases hcd : s.cDriver with
    | some d =>
      refine ⟨hs, rfl, rfl, ?_⟩
      have := hs.driver hc d hcd
      cases hd : s.files.driver with
      | none => rw [hd] at this; cases this
      | some t =>
        rw [hd] at this
        simp only [Option.map_some, Option.some.injEq] at this
        rw [← this]
    | none =>
      cases hd : s.files.driver with
      | none => exact ⟨hs, rfl, rfl, rfl⟩
      | some t =>
        refine ⟨⟨?_, hs.avail, hs.current⟩, rfl, rfl, rfl⟩
        intro _ d h
        show s.files.driver.map PyStr.strip = some d
        rw [hd]; exact h

theorem current_spec {E : Env} (hE : CacheOk E) {s : St} (hs : Coh E s) :
    Coh E (current E s).1 ∧ (current E s).1.files = s.files ∧ (current E s).2 = currentPlain s.files := by
  unfold current currentPlain
  obtain ⟨h1, h2, h3, h4⟩ := driver_spec hE hs
  rcases hd : driver E s with ⟨s1, r⟩
  rw [hd] at h1 h2 h3 h4
  dsimp only at h1 h2 h3 h4
  rw [← h4]
  cases r with
  | error e => exact ⟨h1, h2, rfl⟩
  | ok d =>
    dsimp only
    rw [cacheFails_false hE, ← h2]
    cases hc : E.cacheOn with
    | false =>
      rw [if_neg Bool.false_ne_true]
      cases hf : s1.files.current with
      | none => exact ⟨h1, rfl, rfl⟩
      | some t => exact ⟨h1, rfl, rfl⟩
    | true =>
      rw [if_pos rfl]
      cases hcc : s1.cCurrent with
      | some g =>
        refine ⟨h1, rfl, ?_⟩
        have := h1.current hc g hcc
        cases hf : s1.files.current with
        | none => rw [hf] at this; cases this
        | some t =>
          rw [hf] at this
          simp only [Option.map_some, Option.some.injEq] at this
          rw [← this]
      | none =>
        cases hf : s1.files.current with
        | none => exact ⟨h1, rfl, rfl⟩
        | some t =>
          refine ⟨⟨h1.driver, h1.avail, ?_⟩, rfl, rfl⟩
          intro _ g h
          show s1.files.current.map PyStr.strip = some g
          rw [hf]; exact h

theorem avail_spec {E : Env} (hE : CacheOk E) {s : St} (hs : Coh E s) :
    Coh E (avail E s).1 ∧ (avail E s).1.files = s.files ∧ (avail E s).1.cCurrent = s.cCurrent ∧
    (avail E s).2 = availPlain s.files := by
  unfold avail availPlain
  obtain ⟨h1, h2, h3, h4⟩ := driver_spec hE hs
  rcases hd : driver E s with ⟨s1, r⟩
  rw [hd] at h1 h2 h3 h4
  dsimp only at h1 h2 h3 h4
  rw [← h4]
  cases r with
  | error e => exact ⟨h1, h2, h3, rfl⟩
  | ok d =>
    dsimp only
    rw [cacheFails_false hE, ← h2]
    cases hc : E.cacheOn with
    | false =>
      rw [if_neg Bool.false_ne_true]
      cases hf : s1.files.avail with
      | none => exact ⟨h1, rfl, h3, rfl⟩
      | some t => exact ⟨h1, rfl, h3, rfl⟩
    | true =>
      rw [if_pos rfl]
      cases hcc : s1.cAvail with
      | some l =>
        refine ⟨h1, rfl, h3, ?_⟩
        have := h1.avail hc l hcc
        cases hf : s1.files.avail with
        | none => rw [hf] at this; cases this
        | some t =>
          rw [hf] at this
          simp only [Option.map_some, Option.some.injEq] at this
          rw [← this]
      | none =>
        cases hf : s1.files.avail with
        | none => exact ⟨h1, rfl, h3, rfl⟩
        | some t =>
          refine ⟨⟨h1.driver, ?_, h1.current⟩, rfl, h3, rfl⟩
          intro _ l h
          show s1.files.avail.map (fun t => splitWs (PyStr.strip t)) = some l
          rw [hf]; exact h

theorem availPlain_words {F : Files} {l : List PyStr} (h : availPlain F = .ok l) :
    ∀ w ∈ l, w ≠ [] ∧ ∀ c ∈ w, PyStr.isSpace c = false := by
  unfold availPlain at h
  split at h
  · cases h
  · split at h
    · cases h
    · injection h with h
      rw [← h]; exact splitWs_words _

theorem set_spec {E : Env} (hE : CacheOk E) (g : PyStr) {s : St} (hs : Coh E s) :
    Coh E (set E g s).1 ∧ (set E g s).1.files = (setPlain E.wfail g s.files).1 ∧
    (set E g s).2 = (setPlain E.wfail g s.files).2 := by
  unfold set setPlain
  rw [cacheFails_false hE]
  simp only [Bool.false_eq_true, if_false]
  have hs0 : Coh E { s with cCurrent := if E.cacheOn then none else s.cCurrent } := by
    refine ⟨hs.driver, hs.avail, ?_⟩
    intro hc g h
    simp only [hc, if_true] at h; cases h
  obtain ⟨h1, h2, h3, h4⟩ := avail_spec hE hs0
  rcases ha : avail E { s with cCurrent := if E.cacheOn then none else s.cCurrent } with ⟨s1, r⟩
  rw [ha] at h1 h2 h3 h4
  dsimp only at h1 h2 h3 h4
  rw [← h4]
  cases r with
  | error e => exact ⟨h1, h2, rfl⟩
  | ok l =>
    dsimp only
    by_cases hl : l.isEmpty = true
    · rw [if_pos hl, if_pos hl]; exact ⟨h1, h2, rfl⟩
    · rw [if_neg hl, if_neg hl]
      by_cases hg : (!l.contains g) = true
      · rw [if_pos hg, if_pos hg]; exact ⟨h1, h2, rfl⟩
      · rw [if_neg hg, if_neg hg]
        have hmem : g ∈ l := by simpa using hg
        have hstrip := strip_word ((availPlain_words h4.symm) g hmem).2
        rw [h2]
        unfold writeCurrent
        cases hf : s.files.current with
        | none =>
          refine ⟨?_, rfl, rfl⟩
          dsimp only
          rw [← h2]; exact h1
        | some t =>
          dsimp only
          cases E.wfail g with
          | some e =>
            refine ⟨?_, rfl, rfl⟩
            dsimp only
            rw [← h2]; exact h1
          | none =>
            refine ⟨⟨?_, ?_, ?_⟩, rfl, rfl⟩
            · intro hc d h
              have := h1.driver hc d h
              rw [h2] at this; exact this
            · intro hc d h
              have := h1.avail hc d h
              rw [h2] at this; exact this
            · intro hc d h
              show some (PyStr.strip g) = some d
              rw [hstrip]
              simp only [hc, if_true] at h
              exact h

end Verif.IdleGov
