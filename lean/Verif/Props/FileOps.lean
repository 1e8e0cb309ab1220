import Verif.Lemmas.FileOps

/-!
C114: file operations do the same on a remote host as on the local one.

`C114_local`, `C114_remote`: each file operation does what it is supposed to do, on the local host with system calls, and
on a remote host with the commands sent to its shell. `C114_same`: any sequence of operations returns the same and leaves
the same files. `C114_newest`: directory entries come newest first, and there are all of them. `C114_no_python`: on a host
without Python, listing a directory fails, and nothing else is concluded.

Where hosts differ: `C114_exe_counterexample`, `C114_link_counterexample`, `C114_dangling_counterexample`,
`C114_space_counterexample`, `C114_quote_counterexample`, `C114_notdir_counterexample`.
-/

namespace Verif.FileOps

open Spec

variable {σ : Type}

theorem statEntries_eq (K : Kernel σ) (s : σ) (p : PyStr) (es : List PyStr) :
    statEntries K s p es =
      (es.mapM fun e => (K.lstat s (joinPath p e)).toOption.map fun st => (e, st)).map fun l =>
        l.map fun x => ⟨x.1, x.2.mode, x.2.ctime⟩ := by
  induction es with
  | nil => rfl
  | cons e es ih =>
    rw [statEntries, List.mapM_cons]
    cases h : K.lstat s (joinPath p e) with
    | error e => rfl
    | ok st =>
      dsimp only
      rw [ih]
      show _ = Option.map _ ((es.mapM fun e => (K.lstat s (joinPath p e)).toOption.map fun st => (e, st)).bind
        fun l => some ((e, st) :: l))
      cases es.mapM fun e => (K.lstat s (joinPath p e)).toOption.map fun st => (e, st) <;> rfl

theorem names_of_mapM {K : Kernel σ} {s : σ} {p : PyStr} {es : List PyStr} {l : List Entry}
    (h : statEntries K s p es = some l) : l.map (fun e => e.name) = es := by
  induction es generalizing l with
  | nil => cases h; rfl
  | cons e es ih =>
    rw [statEntries] at h
    cases h1 : K.lstat s (joinPath p e) with
    | error _ => rw [h1] at h; cases h
    | ok st =>
      rw [h1] at h
      dsimp only at h
      cases h2 : statEntries K s p es with
      | none => rw [h2] at h; cases h
      | some l' =>
        rw [h2] at h
        cases h
        rw [List.map_cons, ih h2]

theorem insert_eq (x : PyStr × Stat) (r : List (PyStr × Stat)) :
    insertEntry ⟨x.1, x.2.mode, x.2.ctime⟩ (r.map fun x => ⟨x.1, x.2.mode, x.2.ctime⟩) =
      (r.takeWhile (fun y => decide (x.2.ctime < y.2.ctime)) ++
        x :: r.dropWhile (fun y => decide (x.2.ctime < y.2.ctime))).map fun x => ⟨x.1, x.2.mode, x.2.ctime⟩ := by
  induction r with
  | nil => rfl
  | cons y r ih =>
    rw [List.map_cons, insertEntry]
    by_cases h : x.2.ctime < y.2.ctime
    · rw [if_neg (by show ¬ y.2.ctime ≤ x.2.ctime; omega), List.takeWhile_cons_of_pos (by simpa using h),
        List.dropWhile_cons_of_pos (by simpa using h), ih]
      rfl
    · rw [if_pos (by show y.2.ctime ≤ x.2.ctime; omega), List.takeWhile_cons_of_neg (by simpa using h),
        List.dropWhile_cons_of_neg (by simpa using h)]
      rfl

theorem sort_eq (p : PyStr) (l : List (PyStr × Stat)) :
    sortEntries p (l.map fun x => ⟨x.1, x.2.mode, x.2.ctime⟩) =
      (newest l).map fun x => (x.1, joinPath p x.1, x.2.mode) := by
  have : ∀ l : List (PyStr × Stat), (l.map fun x => (⟨x.1, x.2.mode, x.2.ctime⟩ : Entry)).foldr insertEntry [] =
      (newest l).map fun x => ⟨x.1, x.2.mode, x.2.ctime⟩ := by
    intro l
    induction l with
    | nil => rfl
    | cons x l ih =>
      rw [List.map_cons, List.foldr_cons, ih, insert_eq]
      rfl
  unfold sortEntries
  rw [this, List.map_map]
  rfl

theorem newest_perm (l : List (PyStr × Stat)) : (newest l).Perm l := by
  induction l with
  | nil => exact List.Perm.refl _
  | cons x l ih =>
    rw [newest]
    refine List.perm_middle.trans (List.Perm.cons x ?_)
    rw [List.takeWhile_append_dropWhile]
    exact ih

theorem newest_sorted (l : List (PyStr × Stat)) : (newest l).Pairwise fun a b => b.2.ctime ≤ a.2.ctime := by
  induction l with
  | nil => exact List.Pairwise.nil
  | cons x l ih =>
    rw [newest]
    have key : ∀ r : List (PyStr × Stat), r.Pairwise (fun a b => b.2.ctime ≤ a.2.ctime) →
        (r.takeWhile (fun y => decide (x.2.ctime < y.2.ctime)) ++
          x :: r.dropWhile (fun y => decide (x.2.ctime < y.2.ctime))).Pairwise fun a b => b.2.ctime ≤ a.2.ctime := by
      intro r
      induction r with
      | nil => intro _; exact List.pairwise_singleton _ _
      | cons y r ihr =>
        intro h
        have hy : ∀ z ∈ r, z.2.ctime ≤ y.2.ctime := fun z hz => List.rel_of_pairwise_cons h hz
        have ht := List.Pairwise.of_cons h
        by_cases hlt : x.2.ctime < y.2.ctime
        · rw [List.takeWhile_cons_of_pos (by simpa using hlt), List.dropWhile_cons_of_pos (by simpa using hlt),
            List.cons_append]
          refine List.Pairwise.cons ?_ (ihr ht)
          intro z hz
          have hz := (List.perm_middle.mem_iff).mp hz
          rw [List.takeWhile_append_dropWhile] at hz
          rcases List.mem_cons.mp hz with rfl | hz
          · exact Nat.le_of_lt hlt
          · exact hy z hz
        · rw [List.takeWhile_cons_of_neg (by simpa using hlt), List.dropWhile_cons_of_neg (by simpa using hlt)]
          refine List.Pairwise.cons ?_ h
          intro z hz
          rcases List.mem_cons.mp hz with rfl | hz
          · omega
          · have := hy z hz
            omega
    exact key _ ih

theorem local_listing (K : Kernel σ) (s : σ) (p : PyStr) :
    ((match K.listdir s p with
      | .error _ => .error .error
      | .ok es =>
        match statEntries K s p es with
        | none => .error .error
        | some l => .ok (sortEntries p l) : Except Err (List (PyStr × PyStr × Nat)))).map Val.entries = listing K s p := by
  unfold listing
  cases K.listdir s p with
  | error e => rfl
  | ok es =>
    dsimp only
    rw [statEntries_eq]
    cases es.mapM fun e => (K.lstat s (joinPath p e)).toOption.map fun st => (e, st) with
    | none => rfl
    | some l =>
      show Except.ok (Val.entries (sortEntries p _)) = _
      rw [sort_eq]

theorem C114_local (K : Kernel σ) (hK : Laws K) (s : σ) (op : Op) (hf : Fine K s op) :
    localOp K s op = expect K s op := by
  cases op with
  | pathExists p =>
    show (s, (pathTest K s p _).map Val.bool) = (s, Except.ok (Val.bool _))
    rw [pathTest_eq hf.2]
    cases K.stat s p <;> rfl
  | isFile p =>
    show (s, (pathTest K s p _).map Val.bool) = (s, Except.ok (Val.bool (isKind K s p .file)))
    rw [pathTest_eq hf.2]
    unfold isKind
    cases K.stat s p <;> rfl
  | isDir p =>
    show (s, (pathTest K s p _).map Val.bool) = (s, Except.ok (Val.bool (isKind K s p .dir)))
    rw [pathTest_eq hf.2]
    unfold isKind
    cases K.stat s p <;> rfl
  | isSocket p =>
    show (s, (pathTest K s p _).map Val.bool) = (s, Except.ok (Val.bool (isKind K s p .socket)))
    rw [pathTest_eq hf.2]
    unfold isKind
    cases K.stat s p <;> rfl
  | isExe p =>
    show (s, (localIsExe K s p).map Val.bool) = (s, Except.ok (Val.bool (isKind K s p .file && K.access s p)))
    unfold localIsExe
    rw [pathTest_eq hf.2.1]
    unfold isKind
    cases K.stat s p <;> rfl
  | mtime p =>
    show (s, (localMtime K s p).map Val.time) = (s, _)
    unfold localMtime
    cases K.stat s p with
    | ok st => rfl
    | error e => cases e <;> rfl
  | mkdir p ok =>
    show ((localMkdir K s p ok).1, (localMkdir K s p ok).2.map fun _ => Val.unit) = _
    unfold expect localMkdir
    dsimp only
    cases hl : K.lstat s p with
    | ok st =>
      dsimp only
      rw [(hK.mkdir s p).mpr ⟨st, hl⟩, pathTest_eq hf.2.1]
      cases ok
      · rfl
      · dsimp only
        split <;> (try split) <;> rfl
    | error e =>
      dsimp only
      cases hm : K.mkdir s p with
      | ok s' => rfl
      | error e' =>
        have hne : e' ≠ .exist := by
          rintro rfl
          obtain ⟨st, h⟩ := (hK.mkdir s p).mp hm
          rw [hl] at h
          cases h
        rw [pathTest_eq hf.2.1, (hK.missing s p e hl).1]
        cases e' <;> first | exact absurd rfl hne | rfl | (cases ok <;> rfl)
  | mkfifo p ok =>
    show ((localMkfifo K s p ok).1, (localMkfifo K s p ok).2.map fun _ => Val.unit) = _
    unfold expect localMkfifo
    dsimp only
    cases hl : K.lstat s p with
    | ok st =>
      dsimp only
      rw [(hK.mkfifo s p).mpr ⟨st, hl⟩]
      cases ok <;> rfl
    | error e =>
      dsimp only
      cases hm : K.mkfifo s p with
      | ok s' => rfl
      | error e' =>
        have hne : e' ≠ .exist := by
          rintro rfl
          obtain ⟨st, h⟩ := (hK.mkfifo s p).mp hm
          rw [hl] at h
          cases h
        cases e' <;> first | exact absurd rfl hne | rfl
  | unlink p =>
    show ((localUnlink K s p).1, (localUnlink K s p).2.map fun _ => Val.unit) = changed s (K.unlink s p)
    unfold localUnlink changed
    cases K.unlink s p <;> rfl
  | rmtree p =>
    show ((localRmtree K s p).1, (localRmtree K s p).2.map fun _ => Val.unit) = _
    obtain ⟨_, hb, hnd, hlk⟩ := hf
    unfold expect localRmtree
    dsimp only
    rw [pathTest_eq hb]
    cases hl : K.lstat s p with
    | error e =>
      have := hK.missing s p e hl
      rw [this.1]
      dsimp only
      rw [if_neg (by decide), this.2]
      cases e <;> rfl
    | ok st =>
      have ht := hK.there s p st hl
      by_cases hd : st.kind = .dir
      · have hst := hK.nolink s p st hl (by rw [hd]; decide)
        rw [hst]
        dsimp only
        rw [hd, if_pos (by decide), if_pos rfl]
        unfold shutilRmtree
        rw [hl]
        dsimp only
        rw [hd, if_neg (by decide)]
        cases hu : K.tree s p with
        | ok s' => rfl
        | error e => cases e <;> first | exact absurd hu ht.2 | rfl
      · have hfin : ∀ b : Bool, b = false →
            (((match (if b then shutilRmtree K s p else K.unlink s p) with
              | .ok s' => (s', .ok ())
              | .error .noent => (s, .ok ())
              | .error _ => (s, .error .error) : σ × Except Err Unit)).1,
            ((match (if b then shutilRmtree K s p else K.unlink s p) with
              | .ok s' => (s', .ok ())
              | .error .noent => (s, .ok ())
              | .error _ => (s, .error .error) : σ × Except Err Unit)).2.map fun _ => Val.unit) =
            changed s (K.unlink s p) := by
          rintro b rfl
          rw [if_neg (by decide)]
          cases hu : K.unlink s p with
          | ok s' => rfl
          | error e => cases e <;> first | exact absurd hu ht.1 | rfl
        dsimp only
        rw [if_neg hd]
        cases hs : K.stat s p with
        | error e => exact hfin false rfl
        | ok st' =>
          refine hfin _ (decide_eq_false ?_)
          by_cases hk : st.kind = .link
          · exact hlk st st' hl hk hs
          · have := hK.nolink s p st hl hk
            rw [hs] at this
            cases this
            exact hd
  | lsdir p must =>
    show (s, (localLsdir K s p must).map Val.entries) = (s, _)
    congr 1
    unfold localLsdir
    dsimp only
    rw [pathTest_eq hf.2.1, ← local_listing]
    cases must with
    | true => rfl
    | false => cases K.stat s p <;> rfl

theorem C114_remote (H : Host σ) (hpy : ∃ py ∈ pythons, H.has py = true) (hK : Laws H.K) (s : σ) (op : Op)
    (hf : Fine H.K s op) : remoteOp H s op = expect H.K s op := by
  have hrv : ∀ cmd r, exec H s cmd = change s r →
      ((runVerify H s cmd).1, (runVerify H s cmd).2.map fun _ => Val.unit) = changed s r := by
    intro cmd r h
    unfold runVerify
    rw [h]
    cases r <;> rfl
  cases op with
  | pathExists p =>
    show (s, (shellTest H s p "-e").map Val.bool) = (s, Except.ok (Val.bool _))
    rw [shellTest_eq H s hf.1 "-e" (by decide), optTest_e]
    rfl
  | isFile p =>
    show (s, (shellTest H s p "-f").map Val.bool) = (s, Except.ok (Val.bool (isKind H.K s p .file)))
    rw [shellTest_eq H s hf.1 "-f" (by decide)]
    unfold optTest isKind
    cases H.K.stat s p <;> rfl
  | isDir p =>
    show (s, (shellTest H s p "-d").map Val.bool) = (s, Except.ok (Val.bool (isKind H.K s p .dir)))
    rw [shellTest_eq H s hf.1 "-d" (by decide)]
    unfold optTest isKind
    cases H.K.stat s p <;> rfl
  | isSocket p =>
    show (s, (shellTest H s p "-S").map Val.bool) = (s, Except.ok (Val.bool (isKind H.K s p .socket)))
    rw [shellTest_eq H s hf.1 "-S" (by decide)]
    unfold optTest isKind
    cases H.K.stat s p <;> rfl
  | isExe p =>
    show (s, (shellTest H s p "-x").map Val.bool) =
      (s, Except.ok (Val.bool (isKind H.K s p .file && H.K.access s p)))
    rw [shellTest_eq H s hf.1 "-x" (by decide)]
    congr 3
    unfold isKind
    have h2 := hf.2.2
    have ho : optTest H.K s p "-x" = match H.K.stat s p with
        | .error _ => false
        | .ok _ => H.K.access s p := by
      unfold optTest
      cases H.K.stat s p <;> rfl
    rw [ho]
    cases hs : H.K.stat s p with
    | error e => rfl
    | ok st =>
      dsimp only
      by_cases hk : st.kind = .file
      · rw [hk]; rfl
      · rw [h2 st hs hk, Bool.and_false]
        rfl
  | mtime p =>
    show (s, (remoteMtime H s p).map Val.time) = (s, _)
    obtain ⟨py, h1, h2, h3⟩ := pythonPath_ok H s hpy
    unfold remoteMtime
    rw [h3]
    dsimp only
    have hq : '\'' ∉ mtPre ++ (p ++ '"' :: mtPost) := by
      simp only [List.mem_append, List.mem_cons, not_or]
      exact ⟨by decide, plain_single hf.1, by decide, by decide⟩
    have hexec : exec H s (mtimeCmd py p) = match H.K.stat s p with
        | .error e => traceback s (excName e)
        | .ok st => ⟨s, PyStr.ofNat st.mtime ++ ['\n'], [], 0⟩ := by
      have : mtimeCmd py p = py ++ (" -c '".toList ++ ((mtPre ++ (p ++ '"' :: mtPost)) ++ ['\''])) := by
        unfold mtimeCmd
        simp only [List.append_assoc, List.cons_append]
      rw [this, exec_py H s h1 h2 hq]
      unfold pyCmd
      rw [dropPre_append]
      have hno : ∀ t, dropPre lsPre (mtPre ++ t) = none := fun _ => rfl
      rw [hno]
      dsimp only
      rw [pyString_eq hf.1]
      dsimp only
      rw [if_neg (fun h => h rfl)]
      cases H.K.stat s p <;> rfl
    rw [hexec, mtimeCmd_sub h1 hf.2]
    cases hs : H.K.stat s p with
    | error e => cases e <;> rfl
    | ok st =>
      have hstrip : PyStr.strip (PyStr.ofNat st.mtime ++ ['\n']) = PyStr.ofNat st.mtime := by
        unfold PyStr.strip PyStr.stripBy PyStr.rstripBy PyStr.lstripBy
        have hnil := PyStr.ofNat_ne_nil st.mtime
        have h1 : (PyStr.ofNat st.mtime ++ ['\n']).dropWhile PyStr.isSpace = PyStr.ofNat st.mtime ++ ['\n'] := by
          refine PyStr.dropWhile_eq_self fun c hc => ?_
          cases he : PyStr.ofNat st.mtime with
          | nil => exact absurd he hnil
          | cons d t =>
            rw [he] at hc
            have : d = c := by simpa using hc
            exact ofNat_ne_lineEnd st.mtime c (by rw [he, ← this]; exact List.mem_cons_self)
        rw [h1, List.reverse_append]
        show (List.dropWhile PyStr.isSpace ('\n' :: (PyStr.ofNat st.mtime).reverse)).reverse = _
        rw [List.dropWhile_cons_of_pos (by decide), PyStr.dropWhile_eq_self, List.reverse_reverse]
        intro c hc
        refine ofNat_ne_lineEnd st.mtime c ?_
        have := List.mem_of_head? hc
        exact List.mem_reverse.mp this
      dsimp only
      rw [if_neg (fun h => h rfl), hstrip]
      unfold number
      rw [Trivial.parseDigits_ofNat]
      rfl
  | mkdir p ok =>
    show ((remoteCreate H s "mkdir" p ok).1, (remoteCreate H s "mkdir" p ok).2.map fun _ => Val.unit) = _
    unfold expect remoteCreate
    dsimp only
    rw [shellTest_eq H s hf.1 "-e" (by decide), optTest_e]
    cases hl : H.K.lstat s p with
    | ok st =>
      obtain ⟨st', h⟩ := hf.2.2 st hl
      rw [h]
      cases ok <;> rfl
    | error e =>
      rw [(hK.missing s p e hl).1]
      exact hrv _ _ (exec_change H s hf.1 "mkdir" (by decide))
  | mkfifo p ok =>
    show ((remoteCreate H s "mkfifo" p ok).1, (remoteCreate H s "mkfifo" p ok).2.map fun _ => Val.unit) = _
    unfold expect remoteCreate
    dsimp only
    rw [shellTest_eq H s hf.1 "-e" (by decide), optTest_e]
    cases hl : H.K.lstat s p with
    | ok st =>
      obtain ⟨st', h⟩ := hf.2.2 st hl
      rw [h]
      cases ok <;> rfl
    | error e =>
      rw [(hK.missing s p e hl).1]
      exact hrv _ _ (exec_change H s hf.1 "mkfifo" (by decide))
  | unlink p =>
    show ((remoteUnlink H s p).1, (remoteUnlink H s p).2.map fun _ => Val.unit) = changed s (H.K.unlink s p)
    unfold remoteUnlink
    exact hrv _ _ (exec_change H s hf "unlink" (by decide))
  | rmtree p =>
    show ((remoteRmtree H s p).1, (remoteRmtree H s p).2.map fun _ => Val.unit) = _
    obtain ⟨hp, _, hnd, _⟩ := hf
    unfold expect remoteRmtree
    dsimp only
    cases hl : H.K.lstat s p with
    | ok st =>
      refine hrv _ _ ?_
      rw [exec_rm H s hp]
      unfold rmCmd
      rw [hl]
    | error e =>
      unfold runVerify
      rw [exec_rm H s hp]
      unfold rmCmd
      rw [hl]
      cases e <;> first | rfl | exact absurd hl hnd
  | lsdir p must =>
    show (s, (remoteLsdir H s p must).map Val.entries) = (s, _)
    obtain ⟨hp, _, hw⟩ := hf
    congr 1
    obtain ⟨py, h1, h2, h3⟩ := pythonPath_ok H s hpy
    unfold remoteLsdir
    dsimp only
    rw [h3, shellTest_eq H s hp "-e" (by decide), optTest_e, ← local_listing]
    dsimp only
    have hq : '\'' ∉ lsPre ++ (p ++ '"' :: lsPost) := by
      simp only [List.mem_append, List.mem_cons, not_or]
      exact ⟨by decide +kernel, plain_single hp, by decide, by decide +kernel⟩
    have hcmd : py ++ (" -c '".toList ++ (lsPre ++ (p ++ ('"' :: (lsPost ++ ['\'']))))) =
        py ++ (" -c '".toList ++ ((lsPre ++ (p ++ '"' :: lsPost)) ++ ['\''])) := by
      simp only [List.append_assoc, List.cons_append]
    have hexec := exec_py H s h1 h2 hq
    rw [← hcmd] at hexec
    unfold pyCmd at hexec
    rw [dropPre_append] at hexec
    dsimp only at hexec
    rw [pyString_eq hp] at hexec
    dsimp only at hexec
    rw [if_neg (fun h => h rfl)] at hexec
    generalize exec H s (py ++ (" -c '".toList ++ (lsPre ++ (p ++ ('"' :: (lsPost ++ ['\'']))))) ) = o at hexec ⊢
    cases hl : H.K.listdir s p with
    | error e =>
      rw [hl] at hexec
      subst hexec
      cases must with
      | true => rfl
      | false => cases H.K.stat s p <;> rfl
    | ok es =>
      rw [hl] at hexec
      dsimp only at hexec ⊢
      cases hse : statEntries H.K s p es with
      | none =>
        rw [hse] at hexec
        subst hexec
        cases must with
        | true => rfl
        | false => cases H.K.stat s p <;> rfl
      | some l =>
        rw [hse] at hexec
        have hpar : parseLines (MSR.splitLines o.stdout) = some l := by
          subst hexec
          refine parse_output l ?_
          intro e he
          have hn := names_of_mapM hse
          exact hw es hl e.name (by rw [← hn]; exact List.mem_map.mpr ⟨e, he, rfl⟩)
        have hcode : ¬ o.code ≠ 0 := by
          subst hexec
          exact fun h => h rfl
        rw [if_neg hcode, hpar]
        cases must with
        | true => rfl
        | false => cases H.K.stat s p <;> rfl

/-- A remote host and the local one with the same files: any sequence of calls returns the same, and the files are the same
afterwards. -/
theorem C114_same (H : Host σ) (hpy : ∃ py ∈ pythons, H.has py = true) (hK : Laws H.K) (s : σ) (ops : List Op)
    (hf : AllFine H.K s ops) :
    runOps (remoteOp H) s ops = runOps (localOp H.K) s ops ∧ runOps (localOp H.K) s ops = runOps (expect H.K) s ops := by
  induction ops generalizing s with
  | nil => exact ⟨rfl, rfl⟩
  | cons op ops ih =>
    have h1 := C114_local H.K hK s op hf.1
    have h2 := C114_remote H hpy hK s op hf.1
    have := ih (expect H.K s op).1 hf.2
    constructor
    · rw [runOps, runOps, h1, h2, this.1]
    · rw [runOps, runOps, h1, this.2]

/-- The entries are those of the directory, and they come newest first. -/
theorem C114_newest (K : Kernel σ) (s : σ) (p : PyStr) (l : List (PyStr × PyStr × Nat))
    (h : listing K s p = .ok (.entries l)) :
    ∃ es, K.listdir s p = .ok es ∧ (l.map fun x => x.1).Perm es ∧
      ∃ ts : List Nat, ts.length = l.length ∧ ts.Pairwise (fun a b => b ≤ a) ∧
        ∀ x ∈ l.zip ts, ∃ st, K.lstat s (joinPath p x.1.1) = .ok st ∧ x.1.2 = (joinPath p x.1.1, st.mode) ∧
          x.2 = st.ctime := by
  unfold listing at h
  cases hl : K.listdir s p with
  | error e => rw [hl] at h; cases h
  | ok es =>
    rw [hl] at h
    dsimp only at h
    refine ⟨es, rfl, ?_⟩
    have hfst : ∀ (es : List PyStr) r, (es.mapM fun e => (K.lstat s (joinPath p e)).toOption.map fun st => (e, st)) = some r →
        r.map Prod.fst = es ∧ ∀ x ∈ r, K.lstat s (joinPath p x.1) = .ok x.2 := by
      intro es
      induction es with
      | nil =>
        intro r hr
        cases hr
        exact ⟨rfl, fun x hx => absurd hx List.not_mem_nil⟩
      | cons e es ih =>
        intro r hr
        rw [List.mapM_cons] at hr
        cases h1 : K.lstat s (joinPath p e) with
        | error _ => rw [h1] at hr; cases hr
        | ok st =>
          rw [h1] at hr
          have hr : ((es.mapM fun e => (K.lstat s (joinPath p e)).toOption.map fun st => (e, st)).bind
            fun l => some ((e, st) :: l)) = some r := hr
          cases h2 : es.mapM fun e => (K.lstat s (joinPath p e)).toOption.map fun st => (e, st) with
          | none => rw [h2] at hr; cases hr
          | some r' =>
            rw [h2] at hr
            cases hr
            obtain ⟨i1, i2⟩ := ih r' h2
            refine ⟨by rw [List.map_cons, i1], fun x hx => ?_⟩
            rcases List.mem_cons.mp hx with rfl | hx
            · exact h1
            · exact i2 x hx
    cases hm : es.mapM fun e => (K.lstat s (joinPath p e)).toOption.map fun st => (e, st) with
    | none => rw [hm] at h; cases h
    | some r =>
      rw [hm] at h
      have h := Val.entries.inj (Except.ok.inj h)
      obtain ⟨h1, h2⟩ := hfst es r hm
      have hperm := newest_perm r
      have hsort := newest_sorted r
      generalize newest r = q at h hperm hsort
      subst h
      refine ⟨?_, q.map fun x => x.2.ctime, by simp, ?_, ?_⟩
      · rw [List.map_map]
        have : ((fun x : PyStr × PyStr × Nat => x.1) ∘ fun x : PyStr × Stat => (x.1, joinPath p x.1, x.2.mode)) = Prod.fst := rfl
        rw [this, ← h1]
        exact hperm.map _
      · rw [List.pairwise_map]
        exact hsort.imp fun h => by simpa using h
      · intro x hx
        rw [List.zip_map', List.mem_map] at hx
        obtain ⟨y, hy, rfl⟩ := hx
        exact ⟨y.2, h2 y (hperm.mem_iff.mp hy), rfl, rfl⟩

/-- Without Python, directories cannot be listed. -/
theorem C114_no_python (H : Host σ) (s : σ) (p : PyStr) (hpy : ∀ py ∈ pythons, H.has py = false) :
    remoteLsdir H s p true = .error .notFound ∧ remoteMtime H s p = .error .notFound := by
  have : pythonPath H s = .error .notFound := by
    unfold pythonPath
    rw [List.find?_eq_none.mpr]
    intro py h1
    rw [exec_version H s h1, hpy py h1]
    decide
  constructor
  · unfold remoteLsdir
    rw [this]
    rfl
  · unfold remoteMtime
    rw [this]

/-! ### A file system -/

/-- A list of paths, what is there, and where symbolic links point to. -/
abbrev Fs := List (PyStr × Stat × PyStr)

/-- What is at a path. -/
def Fs.at (f : Fs) (p : PyStr) : Option (Stat × PyStr) := f.lookup p

/-- Why there is nothing. -/
def Fs.why (f : Fs) (p : PyStr) : Errno :=
  if f.any fun x => decide (x.2.1.kind = .file) && (x.1 ++ ['/']).isPrefixOf p then .notdir else .noent

/-- The entries. -/
def Fs.names (f : Fs) (p : PyStr) : List PyStr :=
  f.filterMap fun x => (dropPre (joinPath p []) x.1).bind fun r => if r = [] ∨ '/' ∈ r then none else some r

/-- Its kernel. -/
def fsKernel : Kernel Fs where
  stat f p := match f.at p with
    | none => .error (f.why p)
    | some (st, t) => if st.kind = .link then
        match f.at t with
        | none => .error .noent
        | some (st', _) => .ok st'
      else .ok st
  lstat f p := match f.at p with
    | none => .error (f.why p)
    | some (st, _) => .ok st
  access f p := match f.at p with
    | none => false
    | some (st, _) => decide (st.mode / 64 % 2 = 1)
  listdir f p := match f.at p with
    | none => .error (f.why p)
    | some (st, _) => if st.kind = .dir then .ok (f.names p) else .error .notdir
  mkdir f p := match f.at p with
    | none => if f.why p = .notdir then .error .notdir else .ok (f ++ [(p, ⟨.dir, 16877, 9, 9⟩, [])])
    | some _ => .error .exist
  mkfifo f p := match f.at p with
    | none => if f.why p = .notdir then .error .notdir else .ok (f ++ [(p, ⟨.fifo, 4516, 9, 9⟩, [])])
    | some _ => .error .exist
  unlink f p := match f.at p with
    | none => .error (f.why p)
    | some (st, _) => if st.kind = .dir then .error .isdir else .ok (f.filter fun x => decide (x.1 ≠ p))
  tree f p := match f.at p with
    | none => .error (f.why p)
    | some (st, _) => if st.kind ≠ .dir then .error .notdir
      else .ok (f.filter fun x => decide (x.1 ≠ p) && !(p ++ ['/']).isPrefixOf x.1)

theorem fsKernel_laws : Laws fsKernel := by
  constructor
  · intro s p st h
    simp only [fsKernel] at h ⊢
    cases ha : s.at p with
    | none => rw [ha] at h; cases h
    | some x => exact ⟨x.1, rfl⟩
  · intro s p st h hk
    simp only [fsKernel] at h ⊢
    cases ha : s.at p with
    | none => rw [ha] at h; cases h
    | some x =>
      rw [ha] at h
      cases h
      exact if_neg hk
  · intro s p e h
    simp only [fsKernel] at h ⊢
    cases ha : s.at p with
    | none => rw [ha] at h; cases h; exact ⟨rfl, rfl⟩
    | some x => rw [ha] at h; cases h
  · intro s p st h
    simp only [fsKernel] at h ⊢
    cases ha : s.at p with
    | none => rw [ha] at h; cases h
    | some x =>
      dsimp only
      constructor
      · split <;> (intro h; cases h)
      · split <;> (intro h; cases h)
  · intro s p
    simp only [fsKernel]
    cases ha : s.at p with
    | none =>
      constructor
      · intro h
        dsimp only at h
        split at h <;> cases h
      · rintro ⟨st, h⟩
        cases h
    | some x => exact ⟨fun _ => ⟨x.1, rfl⟩, fun _ => rfl⟩
  · intro s p
    simp only [fsKernel]
    cases ha : s.at p with
    | none =>
      constructor
      · intro h
        dsimp only at h
        split at h <;> cases h
      · rintro ⟨st, h⟩
        cases h
    | some x => exact ⟨fun _ => ⟨x.1, rfl⟩, fun _ => rfl⟩

/-- A directory with a program, a directory, a socket, links, and a file with a space in the name elsewhere. -/
def exFs : Fs :=
  [("/d".toList, ⟨.dir, 16877, 1, 1⟩, []), ("/d/run".toList, ⟨.file, 33261, 5, 3⟩, []),
   ("/d/my dir".toList, ⟨.dir, 16877, 2, 2⟩, []), ("/e".toList, ⟨.dir, 16877, 1, 1⟩, []),
   ("/e/old".toList, ⟨.file, 33188, 5, 4⟩, []), ("/e/new".toList, ⟨.file, 33188, 7, 7⟩, []),
   ("/e/sock".toList, ⟨.socket, 49645, 6, 6⟩, []), ("/ld".toList, ⟨.link, 41471, 1, 1⟩, "/e".toList),
   ("/lost".toList, ⟨.link, 41471, 1, 1⟩, "/nowhere".toList)]

/-- The host, where only the last of the interpreters is installed. -/
def exHost : Host Fs := ⟨fsKernel, fun p => decide (p = "python3".toList)⟩

/-- A sequence of calls. -/
def exOps : List Op :=
  [.pathExists "/d/run".toList, .isExe "/d/run".toList, .isDir "/ld".toList, .lsdir "/e".toList true,
   .mkdir "/e/a b".toList false, .mkdir "/e/a b".toList false, .mkdir "/e/a b".toList true, .isDir "/e/a b".toList,
   .mtime "/e/old".toList, .mtime "/e/none".toList, .rmtree "/e".toList, .pathExists "/e/a b".toList,
   .lsdir "/e".toList false, .lsdir "/e".toList true, .rmtree "/e".toList, .unlink "/lost".toList]

/-- What they return: two of the calls fail because of what is there, and two because of what is not. -/
def exResults : List (Except Err Val) :=
  [.ok (.bool true), .ok (.bool true), .ok (.bool true),
   .ok (.entries [("new".toList, "/e/new".toList, 33188), ("sock".toList, "/e/sock".toList, 49645),
     ("old".toList, "/e/old".toList, 33188)]),
   .ok .unit, .error .exists', .ok .unit, .ok (.bool true), .ok (.time 4), .error .notFound, .ok .unit,
   .ok (.bool false), .ok (.entries []), .error .error, .ok .unit, .ok .unit]

instance : DecidableEq (Except Err Val) := inferInstance

instance (p : PyStr) : Decidable (PlainPath p) := by unfold PlainPath; infer_instance

example : (runOps (remoteOp exHost) exFs exOps).2 = exResults ∧
    runOps (localOp fsKernel) exFs exOps = runOps (remoteOp exHost) exFs exOps := by decide +kernel

theorem fs_benign (f : Fs) (p : PyStr) : Benign fsKernel f p := by
  intro e h
  have hw : f.why p = .noent ∨ f.why p = .notdir := by
    unfold Fs.why
    split
    · exact .inr rfl
    · exact .inl rfl
  simp only [fsKernel] at h
  cases ha : f.at p with
  | none =>
    rw [ha] at h
    cases h
    rcases hw with h | h
    · exact .inl h
    · exact .inr (.inl h)
  | some x =>
    rw [ha] at h
    dsimp only at h
    split at h
    · cases hb : f.at x.2 with
      | none => rw [hb] at h; cases h; exact .inl rfl
      | some y => rw [hb] at h; cases h
    · cases h

/-- The condition of `C114_same` holds for calls which create, list and remove. -/
example : AllFine fsKernel exFs
    [.lsdir "/e".toList true, .mkdir "/e/a b".toList false, .isDir "/e/a b".toList, .isExe "/d/run".toList,
      .mtime "/e/old".toList, .rmtree "/e".toList, .rmtree "/e".toList] := by
  refine ⟨⟨by decide +kernel, fs_benign _ _, fun es h => ?_⟩, ⟨by decide +kernel, fs_benign _ _, fun st h => ?_⟩,
    ⟨by decide +kernel, fs_benign _ _⟩, ⟨by decide +kernel, fs_benign _ _, fun st h hk => ?_⟩,
    ⟨by decide +kernel, fun h => ?_⟩,
    ⟨by decide +kernel, fs_benign _ _, by decide +kernel, fun st st' h hk => ?_⟩,
    ⟨by decide +kernel, fs_benign _ _, by decide +kernel, fun st st' h => ?_⟩, trivial⟩
  · have he : fsKernel.listdir exFs "/e".toList = .ok ["old".toList, "new".toList, "sock".toList] := by decide +kernel
    rw [he] at h
    cases h
    decide +kernel
  · have he : fsKernel.lstat exFs "/e/a b".toList = .error .noent := by decide +kernel
    exact absurd (he.symm.trans h) (by intro h; cases h)
  · have he : ∃ st, fsKernel.stat (exFs ++ [("/e/a b".toList, ⟨.dir, 16877, 9, 9⟩, [])]) "/d/run".toList = .ok st ∧
        st.kind = .file := ⟨⟨.file, 33261, 5, 3⟩, by decide +kernel⟩
    obtain ⟨st1, h1, h2⟩ := he
    have := Except.ok.inj (h1.symm.trans h)
    subst this
    exact absurd h2 hk
  · exact absurd (List.IsInfix.length_le h) (by decide)
  · have he : fsKernel.lstat (exFs ++ [("/e/a b".toList, ⟨.dir, 16877, 9, 9⟩, [])]) "/e".toList =
        .ok ⟨.dir, 16877, 1, 1⟩ := by decide +kernel
    have := Except.ok.inj (he.symm.trans h)
    subst this
    exact absurd hk (by decide)
  · have he : fsKernel.lstat [("/d".toList, ⟨.dir, 16877, 1, 1⟩, []), ("/d/run".toList, ⟨.file, 33261, 5, 3⟩, []),
        ("/d/my dir".toList, ⟨.dir, 16877, 2, 2⟩, []), ("/ld".toList, ⟨.link, 41471, 1, 1⟩, "/e".toList),
        ("/lost".toList, ⟨.link, 41471, 1, 1⟩, "/nowhere".toList)] "/e".toList = .error .noent := by decide +kernel
    exact absurd (he.symm.trans h) (by intro h; cases h)

/-- An executable directory is an executable on a remote host. -/
theorem C114_exe_counterexample :
    (localOp fsKernel exFs (.isExe "/d".toList)).2 = .ok (.bool false) ∧
      (remoteOp exHost exFs (.isExe "/d".toList)).2 = .ok (.bool true) := by decide +kernel

/-- A symbolic link to a directory is removed on a remote host, but not on the local one. -/
theorem C114_link_counterexample :
    localOp fsKernel exFs (.rmtree "/ld".toList) = (exFs, .error .error) ∧
      (remoteOp exHost exFs (.rmtree "/ld".toList)).2 = .ok .unit ∧
      (remoteOp exHost exFs (.rmtree "/ld".toList)).1.at "/ld".toList = none := by decide +kernel

/-- Creating a directory where a link to nowhere is: it exists on the local host; an unspecific error on a remote one, even
when existing is all right. -/
theorem C114_dangling_counterexample :
    (localOp fsKernel exFs (.mkdir "/lost".toList true)).2 = .ok .unit ∧
      (localOp fsKernel exFs (.mkdir "/lost".toList false)).2 = .error .exists' ∧
      (remoteOp exHost exFs (.mkdir "/lost".toList true)).2 = .error .error ∧
      (remoteOp exHost exFs (.mkdir "/lost".toList false)).2 = .error .error := by decide +kernel

/-- A directory with a name with a space in it cannot be listed on a remote host. -/
theorem C114_space_counterexample :
    (localOp fsKernel exFs (.lsdir "/d".toList true)).2 =
        .ok (.entries [("run".toList, "/d/run".toList, 33261), ("my dir".toList, "/d/my dir".toList, 16877)]) ∧
      (remoteOp exHost exFs (.lsdir "/d".toList true)).2 = .error .error := by decide +kernel

/-- A path with a quote in it. -/
theorem C114_quote_counterexample :
    (localOp fsKernel exFs (.mkdir "/e/it's".toList false)).2 = .ok .unit ∧
      (remoteOp exHost exFs (.mkdir "/e/it's".toList false)).2 = .error .error := by decide +kernel

/-- Removing something below a file. -/
theorem C114_notdir_counterexample :
    (localOp fsKernel exFs (.rmtree "/e/old/x".toList)).2 = .error .error ∧
      (remoteOp exHost exFs (.rmtree "/e/old/x".toList)).2 = .ok .unit := by decide +kernel

/-- A regular file in place of the directory is not noticed. -/
theorem C114_mkdir_file_counterexample :
    (localOp fsKernel exFs (.mkdir "/e/old".toList true)).2 = .ok .unit ∧
      (remoteOp exHost exFs (.mkdir "/e/old".toList true)).2 = .ok .unit ∧
      (localOp fsKernel exFs (.isDir "/e/old".toList)).2 = .ok (.bool false) := by decide +kernel

end Verif.FileOps
