import Verif.Lemmas.SaveFile

/-!
C124: saved settings are where the user asked for, and restoring from there finds them.
-/

namespace Verif.SaveFile

variable {V : Type}

/-- A 'save' command never touches a file other than the one given with '-o', whatever the outcome, and no file at all
without '-o'. -/
theorem C124_other_files (r : Save V) (fs : Files V) (f : PyStr) (h : r.outfile ≠ some f) :
    (save r fs).files f = fs f := by
  have key : ∀ g, fileName r.kind r.outfile = some g → g ≠ f := by
    intro g hg e
    subst e
    unfold fileName argOutfile at hg
    cases hk : r.kind <;> cases ho : r.outfile <;> simp_all <;> grind
  unfold save
  split
  · rfl
  · split
    · rfl
    · rename_i g hg
      split
      · exact if_neg (Ne.symm (key g hg))
      · rfl

/-- What a successful command wrote, wherever it went, is what was read: loading it gives every property and every C-state
its value. Except for 'cstates save' with one of the parts missing. -/
theorem C124_content_partial (r : Save V) (n : Nat) (hd : Dicts r) (hm : ¬ PartMissing r)
    (h : (content r).2 = .ok n) :
    ∃ cs props d, Read r cs props ∧ loadText (content r).1 = .ok d ∧ Holds d cs props ∧
      n = cs.length + props.length := by
  unfold content at h ⊢
  cases ht : r.target with
  | error e => rw [ht] at h; exact nomatch h
  | ok _ =>
    rw [ht] at h
    cases hp : r.props with
    | error e =>
      exfalso
      rw [hp] at h
      dsimp only at h
      split at h <;> exact nomatch h
    | ok p =>
      rw [hp] at h
      have np := hd.1 p hp
      by_cases hk : r.kind = .cstates
      · rw [hk] at h ⊢
        dsimp only at h ⊢
        cases hc : r.cstates with
        | error e => rw [hc] at h; exact nomatch h
        | ok oc =>
          rw [hc] at h
          cases oc with
          | none =>
            dsimp only at h ⊢
            obtain ⟨x, hx, hh⟩ := load_dump p np
            refine ⟨[], p, x, ⟨hp, fun _ => .inr ⟨hc, rfl⟩, fun _ => rfl⟩, ?_, hh, ?_⟩
            · rw [List.nil_append]; exact hx
            · cases h; rfl
          | some c =>
            dsimp only at h ⊢
            have nc : c ≠ [] := fun e => hm ⟨hk, c, p, hc, hp, .inl e⟩
            have npe : p ≠ [] := fun e => hm ⟨hk, c, p, hc, hp, .inr e⟩
            obtain ⟨x, hx, hh⟩ := load_dump2 c p (hd.2 c hc) np nc npe
            refine ⟨c, p, x, ⟨hp, fun _ => .inl hc, fun e => absurd hk e⟩, hx, hh, ?_⟩
            cases h; rfl
      · obtain ⟨x, hx, hh⟩ := load_dump p np
        refine ⟨[], p, x, ⟨hp, fun e => absurd e hk, fun _ => rfl⟩, ?_, hh, ?_⟩
        · revert hk; cases r.kind <;> intro hk <;> first | exact absurd rfl hk | exact hx
        · revert hk h
          cases r.kind <;> intro h hk <;> first | exact absurd rfl hk | (cases h; rfl)

/-- If C-states are supported and one of the two parts is empty, the file of a successful 'cstates save' cannot be
loaded. -/
theorem C124_part_missing (r : Save V) (h : PartMissing r) (ht : r.target = .ok ()) :
    (∃ n, (content r).2 = .ok n) ∧ loadText (content r).1 = .error .error := by
  obtain ⟨hk, c, p, hc, hp, he⟩ := h
  have e : content r = (dumpText c ++ dumpText p, .ok (c.length + p.length)) := by
    unfold content; rw [ht, hk, hc, hp]
  rw [e]
  refine ⟨⟨_, rfl⟩, load_bad _ _ (dumpText_ne _) (dumpText_ne _) ?_⟩
  rcases he with rfl | rfl <;> simp [dumpText, Item.isBraces]

/-- If the command succeeds, the settings are in the place that was asked for, restoring from there finds them, and nothing
else changed. Without '-o -' and '-o ""' for 'cstates save', and without the case that one part is missing. -/
theorem C124_saved_partial (r : Save V) (fs : Files V) (hd : Dicts r) (hm : ¬ PartMissing r)
    (hm' : r.kind = .cstates → r.outfile ≠ some ['-'] ∧ r.outfile ≠ some []) (h : (save r fs).out = .ok ()) :
    SavedRight r fs := by
  unfold SavedRight
  rw [h]
  dsimp only
  unfold save at h ⊢
  cases hs : r.start with
  | error e => rw [hs] at h; exact nomatch h
  | ok _ =>
    rw [hs] at h
    dsimp only at h ⊢
    have unit : ∀ x, toUnit x = .ok () → ∃ n, x = .ok n := by
      intro x hx
      cases x with
      | error e => exact nomatch hx
      | ok n => exact ⟨n, rfl⟩
    cases hf : fileName r.kind r.outfile with
    | none =>
      rw [hf] at h
      obtain ⟨n, hn⟩ := unit _ h
      obtain ⟨cs, p, d, hr, hl, hh, _⟩ := C124_content_partial r n hd hm hn
      refine ⟨cs, p, d, hr, hh, ?_⟩
      have ha : asked r.outfile = .stdout := by
        unfold fileName argOutfile at hf
        unfold asked
        cases hk : r.kind <;> cases ho : r.outfile <;> simp_all
      rw [ha]
      exact ⟨fun _ => rfl, fun _ => hl⟩
    | some f =>
      rw [hf] at h
      dsimp only at h ⊢
      by_cases ho : (!f.isEmpty && r.canOpen f) = true
      · rw [if_pos ho] at h ⊢
        obtain ⟨n, hn⟩ := unit _ h
        obtain ⟨cs, p, d, hr, hl, hh, _⟩ := C124_content_partial r n hd hm hn
        refine ⟨cs, p, d, hr, hh, ?_⟩
        have ha : asked r.outfile = .file f ∧ f ≠ ['-'] := by
          unfold fileName argOutfile at hf
          unfold asked
          cases hk : r.kind <;> cases ho : r.outfile <;> simp_all <;> grind
        rw [ha.1]
        refine ⟨rfl, fun g hg => if_neg hg, fun stdin => ?_⟩
        have hne : f.isEmpty = false := by simp_all
        unfold restoreLoad Files.put
        dsimp only
        rw [hne, if_neg (by decide), if_neg ha.2, if_pos rfl]
        exact hl
      · rw [if_neg ho] at h
        exact nomatch h

/-- If the command fails, the file given with '-o' is as before, or it is empty, or ('cstates save') it has the C-states
only. If the objects could not be created, it is as before. -/
theorem C124_failed_partial (r : Save V) (fs : Files V) (e : Exn) (f : PyStr) (h : (save r fs).out = .error e) :
    (save r fs).files f = fs f ∨ (save r fs).files f = some [] ∧ r.start = .ok () ∨
      ∃ c, r.kind = .cstates ∧ r.cstates = .ok (some c) ∧ r.props = .error e ∧
        (save r fs).files f = some (dumpText c) := by
  unfold save at h ⊢
  cases hs : r.start with
  | error e => exact .inl rfl
  | ok _ =>
    rw [hs] at h
    dsimp only at h ⊢
    cases hf : fileName r.kind r.outfile with
    | none => exact .inl rfl
    | some g =>
      rw [hf] at h
      dsimp only at h ⊢
      by_cases ho : (!g.isEmpty && r.canOpen g) = true
      · rw [if_pos ho] at h ⊢
        by_cases hg : f = g
        · subst hg
          right
          have hput : Files.put fs f (content r).1 f = some (content r).1 := if_pos rfl
          dsimp only at h ⊢
          rw [hput]
          unfold content at h ⊢
          cases ht : r.target with
          | error e => exact .inl ⟨rfl, rfl⟩
          | ok _ =>
            rw [ht] at h
            cases hk : r.kind <;> rw [hk] at h <;> dsimp only at h ⊢
            case cstates =>
              cases hc : r.cstates with
              | error e => exact .inl ⟨rfl, rfl⟩
              | ok oc =>
                rw [hc] at h
                cases oc with
                | none =>
                  cases hp : r.props with
                  | error e => exact .inl ⟨rfl, rfl⟩
                  | ok p => rw [hp] at h; exact nomatch h
                | some c =>
                  cases hp : r.props with
                  | error e' =>
                    rw [hp] at h
                    dsimp only [toUnit] at h
                    cases h
                    exact .inr ⟨c, rfl, rfl, rfl, rfl⟩
                  | ok p => rw [hp] at h; exact nomatch h
            all_goals
              cases hp : r.props with
              | error e => exact .inl ⟨rfl, rfl⟩
              | ok p => rw [hp] at h; exact nomatch h
        · exact .inl (if_neg hg)
      · rw [if_neg ho]
        exact .inl rfl

/-- The message "No writable ... properties supported" is printed exactly if the command succeeds and nothing was there to
be saved. -/
theorem C124_note (r : Save V) (fs : Files V) :
    (save r fs).note = true ↔ (save r fs).out = .ok () ∧ Read r [] [] := by
  have key : isZero (content r).2 = true ↔ toUnit (content r).2 = .ok () ∧ Read r [] [] := by
    unfold content Read
    rcases r with ⟨k, o, s, co, t, cs, p⟩
    dsimp only
    cases t with
    | error e => simp [isZero, toUnit]
    | ok _ =>
      cases p with
      | error e =>
        cases k <;> cases cs <;> simp [isZero, toUnit] <;> (rename_i oc; cases oc <;> simp [toUnit, isZero])
      | ok p =>
        cases k <;> cases p <;> cases cs <;> simp [isZero, toUnit] <;>
          (rename_i oc; cases oc with
            | none => simp [toUnit, isZero]
            | some c => cases c <;> simp [toUnit, isZero])
  unfold save
  cases r.start with
  | error e => simp
  | ok _ =>
    dsimp only
    split
    · exact key
    · split
      · exact key
      · simp

/-- After any number of 'save' commands, a file has the contents the last command for it wrote. -/
theorem C124_last (rs : List (Save V)) (r : Save V) (rs' : List (Save V)) (fs : Files V) (f : PyStr)
    (h : ∀ x ∈ rs', x.outfile ≠ some f) (ho : (save r fs).out = .ok ()) (hf : asked r.outfile = .file f)
    (hc : r.kind = .cstates → f ≠ []) : saves (rs ++ r :: rs') fs f = (save r fs).files f := by
  have hl : ∀ (l : List (Save V)) (g : Files V), (∀ x ∈ l, x.outfile ≠ some f) → saves l g f = g f := by
    intro l
    induction l with
    | nil => intro g _; rfl
    | cons x l ih =>
      intro g hx
      rw [saves, ih _ (fun y hy => hx y (List.mem_cons_of_mem _ hy)), C124_other_files _ _ _ (hx x List.mem_cons_self)]
  have hap : ∀ (l : List (Save V)) (g : Files V), saves (l ++ r :: rs') g = saves (r :: rs') (saves l g) := by
    intro l
    induction l with
    | nil => intro g; rfl
    | cons x l ih => intro g; rw [List.cons_append, saves, ih]; rfl
  rw [hap, saves, hl _ _ h]
  have hn : fileName r.kind r.outfile = some f := by
    unfold asked at hf
    unfold fileName argOutfile
    cases hk : r.kind <;> cases ho : r.outfile <;> simp_all <;> grind
  unfold save at ho ⊢
  cases hs : r.start with
  | error e => rw [hs] at ho; exact nomatch ho
  | ok _ =>
    rw [hs, hn] at ho
    rw [hn]
    dsimp only at ho ⊢
    split
    · simp [Files.put]
    · rename_i hx
      rw [if_neg hx] at ho
      exact nomatch ho

/-- 'restore' without a file name, or with the name of a file which is not there, is refused. With "-" it reads the
standard input and no file. -/
theorem C124_restore (stdin : List (Item V)) (fs : Files V) :
    restoreLoad none stdin fs = .error .error ∧ restoreLoad (some []) stdin fs = .error .error ∧
    restoreLoad (some ['-']) stdin fs = loadText stdin ∧
    ∀ f, f ≠ ['-'] → (fs f = none → restoreLoad (some f) stdin fs = .error .error) ∧
      ∀ t, f ≠ [] → fs f = some t → restoreLoad (some f) stdin fs = loadText t := by
  refine ⟨rfl, rfl, rfl, fun f hf => ⟨fun hn => ?_, fun t hne ht => ?_⟩⟩
  · unfold restoreLoad
    dsimp only
    rw [if_neg hf, hn]
    split <;> rfl
  · unfold restoreLoad
    have : f.isEmpty = false := by cases f <;> simp_all
    dsimp only
    rw [this, if_neg (by decide), if_neg hf, ht]

/-! ### Where the full claim does not hold -/

/-- Used in the counterexamples. -/
def exSave (k : Kind) (o : PyStr) : Save Nat :=
  ⟨k, some o, .ok (), fun _ => true, .ok (), .ok (some [("C1".toList, 1)]), .ok [("governor".toList, 2)]⟩

/-- 'pepc cstates save -o -' succeeds, prints nothing and creates a file with the name "-", although "-" stands for the
standard input with 'cstates restore --from -', and for the standard output with the other 'save' commands. -/
theorem C124_dash_counterexample : ∃ (r : Save Nat) (fs : Files Nat), r = exSave .cstates ['-'] ∧
    asked r.outfile = .stdout ∧ (save r fs).out = .ok () ∧ (save r fs).stdout = [] ∧ fs ['-'] = none ∧
    (save r fs).files ['-'] = some [.entry "C1".toList 1, .entry "governor".toList 2] ∧
    restoreLoad (some ['-']) (save r fs).stdout (save r fs).files = .ok [] :=
  ⟨_, fun _ => none, rfl, by decide +kernel⟩

/-- 'pepc pstates save --cpus 999 -o file' fails, but the settings that were in the file are lost: the file is emptied
before the CPU numbers are checked. Restoring from it then succeeds and restores nothing. -/
theorem C124_lost_counterexample : ∃ (r : Save Nat) (fs : Files Nat) (f : PyStr),
    r = { exSave .pstates f with target := .error .error } ∧ fs f = some [.entry "governor".toList 2] ∧
    (save r fs).out = .error .error ∧ (save r fs).files f = some [] ∧
    restoreLoad (some f) [] (save r fs).files = .ok [] :=
  ⟨_, fun _ => some [.entry "governor".toList 2], ['f'], rfl, by decide +kernel⟩

/-- If reading the properties fails, the file of 'cstates save' has the C-states only, and restoring from it succeeds. -/
theorem C124_half_counterexample : ∃ (r : Save Nat) (fs : Files Nat) (f : PyStr),
    r = { exSave .cstates f with props := .error .error } ∧ (save r fs).out = .error .error ∧
    restoreLoad (some f) [] (save r fs).files = .ok [("C1".toList, 1)] :=
  ⟨_, fun _ => none, ['f'], rfl, by decide +kernel⟩

/-- On a host with C-states but without writable properties (other vendor than Intel, and no file 'current_governor'),
'cstates save' succeeds, but the file cannot be loaded. -/
theorem C124_part_missing_counterexample : ∃ (r : Save Nat) (fs : Files Nat) (f : PyStr),
    r = { exSave .cstates f with props := .ok [] } ∧ (save r fs).out = .ok () ∧
    (save r fs).files f = some [.entry "C1".toList 1, .braces] ∧
    restoreLoad (some f) [] (save r fs).files = .error .error :=
  ⟨_, fun _ => none, ['f'], rfl, by decide +kernel⟩

/-! ### Satisfiability -/

example : Dicts (exSave .cstates ['f']) ∧ ¬ PartMissing (exSave .cstates ['f']) ∧
    (save (exSave .cstates ['f']) fun _ => none).out = .ok () := by
  refine ⟨⟨fun d h => ?_, fun d h => ?_⟩, ?_, rfl⟩
  · cases h; decide
  · cases h; decide
  · rintro ⟨_, c, p, hc, hp, h⟩
    cases hc; cases hp
    rcases h with h | h <;> exact nomatch h

example : PartMissing { exSave .cstates ['f'] with props := .ok [] } := ⟨rfl, _, _, rfl, rfl, .inr rfl⟩

example : (save { exSave .power ['f'] with props := .ok [] } fun _ => none).note = true := by decide +kernel

example : saves [exSave .pstates ['f'], { exSave .pstates ['f'] with props := .ok [] }, exSave .pstates ['g']]
    (fun _ => none) ['f'] = some [.braces] := by decide +kernel

end Verif.SaveFile
