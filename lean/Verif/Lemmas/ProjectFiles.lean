import Verif.Props.ProjectFilesSpec

/-! Lemmas for C111. -/

namespace Verif.ProjectFiles

theorem truthy_eq (get : PyStr → Option PyStr) (v : PyStr) : truthy (get v) = value get v := by
  unfold value
  cases get v with
  | none => rfl
  | some s => cases s <;> rfl

theorem envPaths_eq (e : Env) (vs : List PyStr) :
    envPaths e vs = (vs.map fun v => (value e.envar v).or (value e.localEnvar v)).filterMap id := by
  induction vs with
  | nil => rfl
  | cons v vs ih =>
    unfold envPaths
    rw [truthy_eq, truthy_eq, List.map_cons, ih]
    cases value e.envar v with
    | some p => rfl
    | none =>
      dsimp only
      cases value e.localEnvar v with
      | some p => rfl
      | none => rfl

theorem searchPaths_eq (e : Env) (sub : PyStr) (vs : List PyStr) :
    searchPaths e sub vs = (places e sub vs).filterMap id := by
  unfold searchPaths places
  rw [envPaths_eq, truthy_eq, truthy_eq]
  rw [List.cons_append (a := some e.prog), List.filterMap_cons_some (f := id) (b := e.prog) rfl, List.filterMap_append]
  have key : (match value e.envar "HOME".toList with
        | some h => [join h (".local/share/".toList ++ sub), join h ("share/".toList ++ sub)]
        | none => []) ++
      (match value e.envar "VIRTUAL_ENV".toList with
        | some v => [join v ("share/".toList ++ sub)]
        | none => []) ++
      ["/usr/local/share/".toList ++ sub, "/usr/share/".toList ++ sub] =
      [(value e.envar "HOME".toList).map (· ++ "/.local/share/".toList ++ sub),
       (value e.envar "HOME".toList).map (· ++ "/share/".toList ++ sub),
       (value e.envar "VIRTUAL_ENV".toList).map (· ++ "/share/".toList ++ sub),
       some ("/usr/local/share/".toList ++ sub),
       some ("/usr/share/".toList ++ sub)].filterMap id := by
    have j1 : ∀ h, join h (".local/share/".toList ++ sub) = h ++ "/.local/share/".toList ++ sub := by
      intro h
      rw [List.append_assoc]
      rfl
    have j2 : ∀ h, join h ("share/".toList ++ sub) = h ++ "/share/".toList ++ sub := by
      intro h
      rw [List.append_assoc]
      rfl
    cases value e.envar "HOME".toList with
    | none =>
      cases value e.envar "VIRTUAL_ENV".toList with
      | none => rfl
      | some v =>
        dsimp only
        rw [j2]
        rfl
    | some h =>
      dsimp only
      rw [j1, j2]
      cases value e.envar "VIRTUAL_ENV".toList with
      | none => rfl
      | some v =>
        dsimp only
        rw [j2]
        rfl
  rw [← key]
  simp only [List.append_assoc, List.cons_append, List.nil_append]
  rfl

theorem searchLoop_eq (e : Env) (d : PyStr) (ps : List PyStr) :
    searchLoop e d ps = (ps.map (join · d)).filter e.present := by
  induction ps with
  | nil => rfl
  | cons p ps ih =>
    unfold searchLoop
    dsimp only
    rw [List.map_cons, List.filter_cons, ih]

theorem findProjectData_eq (e : Env) (prj d : PyStr) :
    findProjectData e prj d =
      match (searchProjectData e prj d [dataEnvar prj]).1 with
      | p :: _ => .ok p
      | [] => .error .notFound := by
  unfold findProjectData searchProjectData
  dsimp only
  cases searchLoop e d (searchPaths e prj [dataEnvar prj]) with
  | nil => rfl
  | cons p ps => rfl

theorem helperLoop_eq (e : Env) (helper : PyStr) (ps : List PyStr) :
    helperLoop e helper ps =
      match (ps.map fun p => if e.isDir p then join p helper else p).find? e.isExe with
      | some p => .ok p
      | none => .error .notFound := by
  induction ps with
  | nil => rfl
  | cons p ps ih =>
    unfold helperLoop
    dsimp only
    rw [List.map_cons, List.find?_cons, ih]
    cases e.isExe (if e.isDir p then join p helper else p) with
    | true => rfl
    | false => rfl

/-! ### Datasets -/

theorem nameLoop_spec (base : PyStr) (ns : List PyStr) : ∀ (d : Dict PyStr PyStr) (l : List PyStr)
    (r : Except Exn (Dict PyStr PyStr)), nameLoop base ns d = (l, r) →
    (∀ d', r = .ok d' → l = (ns.filter (· ≠ "common".toList)).map (join base) ∧
      (ns.filter (· ≠ "common".toList)).Nodup ∧ (∀ n ∈ ns.filter (· ≠ "common".toList), d.get? n = none) ∧
      ∀ n, d'.get? n ≠ none ↔ d.get? n ≠ none ∨ n ∈ ns.filter (· ≠ "common".toList)) ∧
    ∀ e, r = .error e → e = .error ∧ ∃ pre n post, ns.filter (· ≠ "common".toList) = pre ++ n :: post ∧
      l = pre.map (join base) ∧ (d.get? n ≠ none ∨ n ∈ pre) := by
  induction ns with
  | nil =>
    intro d l r h
    cases h
    refine ⟨?_, fun e he => by cases he⟩
    intro d' hd
    cases hd
    exact ⟨rfl, List.nodup_nil, fun n hn => absurd hn List.not_mem_nil,
      fun n => ⟨.inl, fun h => h.resolve_right List.not_mem_nil⟩⟩
  | cons n ns ih =>
    intro d l r h
    unfold nameLoop at h
    by_cases hc : n = "common".toList
    · rw [if_pos hc] at h
      rw [List.filter_cons_of_neg (by rw [decide_eq_true_eq]; exact fun h => h hc)]
      exact ih d l r h
    · rw [if_neg hc] at h
      rw [List.filter_cons_of_pos (by rw [decide_eq_true_eq]; exact hc)]
      cases hn : d.get? n with
      | some v =>
        rw [hn] at h
        cases h
        refine ⟨fun d' hd => (by cases hd), ?_⟩
        intro e he
        cases he
        exact ⟨rfl, [], n, _, rfl, rfl, .inl (by rw [hn]; exact Option.some_ne_none _)⟩
      | none =>
        rw [hn] at h
        dsimp only at h
        cases hr : nameLoop base ns (d.set n (join base n)) with
        | mk l1 r1 =>
          rw [hr] at h
          obtain ⟨rfl, rfl⟩ := Prod.mk.injEq .. ▸ h
          obtain ⟨g1, g2⟩ := ih _ l1 r1 hr
          refine ⟨?_, ?_⟩
          · intro d' hd
            obtain ⟨k1, k2, k3, k4⟩ := g1 d' hd
            refine ⟨by rw [k1]; rfl, ?_, ?_, ?_⟩
            · rw [List.nodup_cons]
              refine ⟨fun hm => ?_, k2⟩
              have := k3 n hm
              rw [Dict.get?_set_self] at this
              cases this
            · intro m hm
              rcases List.mem_cons.1 hm with rfl | hm
              · exact hn
              · have := k3 m hm
                rw [Dict.get?_set] at this
                split at this
                · cases this
                · exact this
            · intro m
              rw [k4 m, Dict.get?_set]
              by_cases e : n = m
              · rw [if_pos e]
                exact ⟨fun _ => .inr (by rw [e]; exact List.mem_cons_self),
                  fun _ => .inl (Option.some_ne_none _)⟩
              · rw [if_neg e]
                refine or_congr_right ?_
                rw [List.mem_cons]
                exact ⟨.inr, fun h => h.resolve_left (Ne.symm e)⟩
          · intro e he
            obtain ⟨k1, pre, m, post, k2, k3, k4⟩ := g2 e he
            refine ⟨k1, n :: pre, m, post, by rw [k2]; rfl, by rw [k3]; rfl, ?_⟩
            rcases k4 with k4 | k4
            · rw [Dict.get?_set] at k4
              by_cases e' : n = m
              · exact .inr (by rw [e']; exact List.mem_cons_self)
              · rw [if_neg e'] at k4
                exact .inl k4
            · exact .inr (List.mem_cons_of_mem _ k4)

/-- All datasets of directories: the directory and the name. -/
def pairs (listdir : PyStr → List PyStr) (bases : List PyStr) : List (PyStr × PyStr) :=
  bases.flatMap fun b => (names listdir b).map fun n => (b, n)

theorem baseLoop_spec (listdir : PyStr → List PyStr) (err : Option Exn) (bases : List PyStr) :
    ∀ (d : Dict PyStr PyStr) (l : List PyStr) (r : Option Exn), baseLoop listdir err bases d = (l, r) →
    (l = (pairs listdir bases).map (fun p => join p.1 p.2) ∧ ((pairs listdir bases).map Prod.snd).Nodup ∧
      (∀ p ∈ pairs listdir bases, d.get? p.2 = none) ∧ r = err) ∨
    (r = some .error ∧ ∃ pre x post, pairs listdir bases = pre ++ x :: post ∧
      l = pre.map (fun p => join p.1 p.2) ∧ (d.get? x.2 ≠ none ∨ x.2 ∈ pre.map Prod.snd)) := by
  induction bases with
  | nil =>
    intro d l r h
    cases h
    exact .inl ⟨rfl, List.nodup_nil, fun p hp => absurd hp List.not_mem_nil, rfl⟩
  | cons b bases ih =>
    intro d l r h
    unfold baseLoop at h
    have ep : pairs listdir (b :: bases) = ((names listdir b).map fun n => (b, n)) ++ pairs listdir bases := rfl
    cases hn : nameLoop b (listdir b) d with
    | mk l1 r1 =>
      rw [hn] at h
      obtain ⟨g1, g2⟩ := nameLoop_spec b (listdir b) d l1 r1 hn
      cases r1 with
      | error e =>
        cases h
        obtain ⟨k1, pre, n, post, k2, k3, k4⟩ := g2 e rfl
        refine .inr ⟨by rw [k1], pre.map (fun n => (b, n)), (b, n), post.map (fun n => (b, n)) ++ pairs listdir bases,
          ?_, ?_, ?_⟩
        · rw [ep]
          unfold names
          rw [k2]
          simp only [List.map_append, List.map_cons, List.append_assoc, List.cons_append]
        · rw [k3, List.map_map]
          rfl
        · refine k4.imp id fun h => ?_
          rw [List.map_map]
          exact List.mem_map.2 ⟨n, h, rfl⟩
      | ok d1 =>
        dsimp only at h
        obtain ⟨k1, k2, k3, k4⟩ := g1 d1 rfl
        cases hb : baseLoop listdir err bases d1 with
        | mk l2 r2 =>
          rw [hb] at h
          obtain ⟨rfl, rfl⟩ := Prod.mk.injEq .. ▸ h
          have e1 : l1 = ((names listdir b).map fun n => (b, n)).map (fun p => join p.1 p.2) := by
            rw [k1, List.map_map]
            rfl
          have e2 : ((names listdir b).map fun n => (b, n)).map Prod.snd = names listdir b := by
            rw [List.map_map]
            exact List.map_id' _
          rcases ih d1 l2 r2 hb with ⟨q1, q2, q3, q4⟩ | ⟨q1, pre, x, post, q2, q3, q4⟩
          · refine .inl ⟨by rw [ep, List.map_append, ← e1, q1], ?_, ?_, q4⟩
            · rw [ep, List.map_append, e2, List.nodup_append]
              refine ⟨k2, q2, ?_⟩
              rintro n hn m hm rfl
              obtain ⟨p, hp, hpe⟩ := List.mem_map.1 hm
              have := q3 p hp
              rw [hpe] at this
              exact (k4 n).2 (.inr hn) this
            · intro p hp
              rw [ep] at hp
              rcases List.mem_append.1 hp with hp | hp
              · obtain ⟨n, hn, rfl⟩ := List.mem_map.1 hp
                exact k3 n hn
              · have := q3 p hp
                cases hne : d.get? p.2 with
                | none => rfl
                | some v => exact absurd this ((k4 p.2).2 (.inl (by rw [hne]; exact Option.some_ne_none _)))
          · refine .inr ⟨q1, ((names listdir b).map fun n => (b, n)) ++ pre, x, post, ?_, ?_, ?_⟩
            · rw [ep, q2, List.append_assoc]
            · rw [List.map_append, ← e1, q3]
            · rcases q4 with q4 | q4
              · rcases (k4 x.2).1 q4 with h | h
                · exact .inl h
                · refine .inr ?_
                  rw [List.map_append, e2]
                  exact List.mem_append_left _ h
              · refine .inr ?_
                rw [List.map_append]
                exact List.mem_append_right _ q4

theorem runLoop_ok (run : PyStr → Option Exn) (err : Option Exn) (ps : List PyStr) (h : ∀ p ∈ ps, run p = none) :
    runLoop run err ps = (ps, err) := by
  induction ps with
  | nil => rfl
  | cons p ps ih =>
    unfold runLoop
    rw [h p List.mem_cons_self, ih fun q hq => h q (List.mem_cons_of_mem _ hq)]

theorem runLoop_fail (run : PyStr → Option Exn) (err : Option Exn) {pre post : List PyStr} {p : PyStr} {e : Exn}
    (h : ∀ q ∈ pre, run q = none) (hp : run p = some e) :
    runLoop run err (pre ++ p :: post) = (pre ++ [p], some e) := by
  induction pre with
  | nil =>
    show runLoop run err (p :: post) = _
    unfold runLoop
    rw [hp]
    rfl
  | cons q pre ih =>
    show runLoop run err (q :: (pre ++ p :: post)) = _
    unfold runLoop
    rw [h q List.mem_cons_self, ih fun x hx => h x (List.mem_cons_of_mem _ hx)]
    rfl

end Verif.ProjectFiles
