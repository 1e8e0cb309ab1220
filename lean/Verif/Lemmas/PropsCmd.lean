import Verif.Props.PropsCmdSpec
import Verif.Props.PropsTarget
import Verif.Props.HumanPrint
import Verif.Lemmas.CStatesCmd

/-!
Lemmas for C97.
-/

namespace Verif.PropsCmd

open CPUInfo OpTarget
open PropsBase (Mech PropDesc Gen PVInfo toTry getLoop getPvinfo getPropCpus setLoop setMnames setReduced setPropCpus
  setPropDies setPropPackages normalizeDiesDict orDefault tag)
open PropsTarget
open PropsYaml (Cell PV Loc SName finalRead Readings)
open HumanPrint (Sys Val Entry Tells Follows Fits Blank)
open CStatesCmd (Step)

variable {σ Q V κ : Type}

/-! ### What is read -/

/-- Every number is read at most once. -/
theorem getLoop_nums (get : Mech → Gen (κ × Option V)) (nums : List κ) (last : Mech)
    (h : ∀ m, (get m).yields.map Prod.fst <+: nums) (ms : List Mech) :
    (getLoop get nums last ms).yields.map (·.num) <+: nums := by
  have ht : ∀ m, (tag m (get m).yields).map (·.num) <+: nums := by
    intro m
    unfold PropsBase.tag
    rw [List.map_map]
    exact h m
  induction ms with
  | nil => simp [getLoop, Function.comp_def]
  | cons m ms ih =>
    rw [getLoop]
    split
    · exact ht m
    · split
      · split
        · exact ih
        · exact ht m
      · exact ht m

theorem getPvinfo_nums (P : PropDesc) (get : Mech → Gen (κ × Option V)) (nums : List κ)
    (h : ∀ m, (get m).yields.map Prod.fst <+: nums) (ms : List Mech) :
    (getPvinfo P get nums ms).yields.map (·.num) <+: nums := by
  unfold getPvinfo
  split
  · exact List.nil_prefix
  · exact getLoop_nums get nums _ h _

theorem getUnits_nums [DecidableEq V] (P : PropDesc) (op : Level) (get : Mech → List Nat → Gen (Nat × Option V))
    (cpusOf : κ → Except Exn (List Nat)) (units : List κ) (ms : List Mech) :
    (getUnits P op get cpusOf units ms).yields.map (·.num) <+: units := by
  unfold getUnits
  split
  · split
    · exact List.nil_prefix
    · simp [Function.comp_def]
  · split
    · exact List.nil_prefix
    · split
      · exact List.nil_prefix
      · exact getPvinfo_nums P _ units (fun m => (readUnits_spec cpusOf _ units).1) ms

/-- Everything which is read exists, and is read once. -/
theorem sname_locs [DecidableEq V] {i : Info} {S : Sys} (hS : S.Of i) (hon : i.online ≠ []) {a : OpTarget.Args} {t : Tgt} {ca : Cache}
    (h : init i a = .ok (t, ca)) {hist : List Call} (hh : Strict hist) {P : PropDesc} {ov : Option Scope}
    (hp : Plain i a (scopeOf P.sname ov))
    {get : Mech → List Nat → Gen (Nat × Option V)} {read : Mech → Nat → Except Exn (Option V)}
    (hget : ∀ m l, get m l = readCpus (read m) l) (mnames : Option (List Mech)) (g : Gen (Item V))
    (hg : (getPropSname i P get t mnames ov (calls i t ca hist)).1 = g) :
    (g.yields.map fun it => (toPV it).loc).Nodup ∧ (∃ sn, ∀ it ∈ g.yields, (toPV it).loc.sname = sn) ∧
    ∀ it ∈ g.yields, S.Has (toPV it).loc := by
  subst hg
  have wf := hS.wf
  have hR := fun w => right (w := w) wf hon hp h hist hh
  unfold getPropSname
  cases hg : snameAndNums i t P.sname ov (calls i t ca hist) with
  | mk x ca' =>
    cases x with
    | error e => exact ⟨List.nodup_nil, ⟨.CPU, by simp⟩, by simp⟩
    | ok w =>
      have hw := hR w (by rw [hg])
      cases w with
      | cpus l =>
        have main : ∃ l', l'.Nodup ∧ (∀ c ∈ l', c ∈ i.online) ∧
            (getPropCpus i P get (.nums l) mnames).yields.map (·.num) <+: l' := by
          unfold getPropCpus
          cases PropsBase.normalizeMnames P mnames true with
          | error e => exact ⟨[], List.nodup_nil, by simp, List.nil_prefix⟩
          | ok ms =>
            dsimp only
            cases hn : normalizeCpus i (.nums l) false with
            | error e => exact ⟨[], List.nodup_nil, by simp, List.nil_prefix⟩
            | ok l' =>
              obtain ⟨n1, -, n3⟩ := normalizeCpus_ok hn
              refine ⟨l', n1, n3, ?_⟩
              dsimp only
              split
              · exact List.nil_prefix
              · cases P.sname with
                | none =>
                  dsimp only
                  cases ms.getLast? with
                  | none => exact List.nil_prefix
                  | some last => simp [Function.comp_def]
                | some sn =>
                  exact getPvinfo_nums P _ l' (fun m => by
                    rw [hget, readCpus_eq]; exact (readUnits_spec _ _ l').1) ms
        obtain ⟨l', m1, m2, m3⟩ := main
        dsimp only [PropsTarget.Gen.map]
        refine ⟨?_, ⟨.CPU, ?_⟩, ?_⟩
        · have : (List.map (fun it => (toPV it).loc) (List.map Item.cpu (getPropCpus i P get (.nums l) mnames).yields)) =
              ((getPropCpus i P get (.nums l) mnames).yields.map (·.num)).map Loc.cpu := by
            simp [Function.comp_def, toPV]
          rw [this, List.Nodup, List.pairwise_map]
          exact (m3.sublist.nodup m1).imp (fun hab he => hab (Loc.cpu.inj he))
        · intro it hit
          obtain ⟨pv, -, rfl⟩ := List.mem_map.1 hit
          rfl
        · intro it hit
          obtain ⟨pv, hpv, rfl⟩ := List.mem_map.1 hit
          show pv.num ∈ S.online
          rw [hS.online]
          exact m2 _ (m3.subset (List.mem_map_of_mem hpv))
      | packages l =>
        obtain ⟨-, hln, h3, -⟩ := hw
        have main : (getPropPackages i P get l mnames).yields.map (·.num) <+: pyDedup l := by
          unfold getPropPackages
          cases PropsBase.normalizeMnames P mnames true with
          | error e => exact List.nil_prefix
          | ok ms =>
            dsimp only
            rw [PropsBase.normalizePackages_isOk h3]
            dsimp only
            split
            · exact List.nil_prefix
            · exact getUnits_nums ..
        dsimp only [PropsTarget.Gen.map]
        refine ⟨?_, ⟨.package, ?_⟩, ?_⟩
        · have : (List.map (fun it => (toPV it).loc) (List.map Item.package (getPropPackages i P get l mnames).yields)) =
              ((getPropPackages i P get l mnames).yields.map (·.num)).map Loc.package := by
            simp [Function.comp_def, toPV]
          rw [this, List.Nodup, List.pairwise_map]
          exact (main.sublist.nodup (nodup_pyDedup _)).imp (fun hab he => hab (Loc.package.inj he))
        · intro it hit
          obtain ⟨pv, -, rfl⟩ := List.mem_map.1 hit
          rfl
        · intro it hit
          obtain ⟨pv, hpv, rfl⟩ := List.mem_map.1 hit
          show pv.num ∈ S.packages
          obtain ⟨q1, tl, q2, q3⟩ := h3 _ (mem_pyDedup.1 (main.subset (List.mem_map_of_mem hpv)))
          exact (mem_getLevelNums hS.packages _).2 ⟨q1, tl, q2, by rw [show tl.get .package = tl.package from rfl, q3]; exact q1,
            trivial, q3⟩
      | dies d =>
        obtain ⟨-, hk, -, h3, -⟩ := hw
        have main : ∃ ds : List (Nat × Nat), ds.Nodup ∧ (∀ x ∈ ds, UnitEx i .die x.1 x.2) ∧
            (getPropDies i P get d mnames).yields.map (·.num) <+: ds := by
          unfold getPropDies
          cases PropsBase.normalizeMnames P mnames true with
          | error e => exact ⟨[], List.nodup_nil, by simp, List.nil_prefix⟩
          | ok ms =>
            dsimp only
            cases normalizePackages i (.nums (d.map Prod.fst)) with
            | error e => exact ⟨[], List.nodup_nil, by simp, List.nil_prefix⟩
            | ok x =>
              dsimp only
              cases hn : normalizeDiesDict i d with
              | error e => exact ⟨[], List.nodup_nil, by simp, List.nil_prefix⟩
              | ok ds =>
                obtain ⟨n1, n2⟩ := normalizeDiesDict_ok hn hk
                refine ⟨ds, n1, ?_, ?_⟩
                · rintro ⟨p, u⟩ hx
                  obtain ⟨pd, hpd, rfl, hu⟩ := (n2 p u).1 hx
                  exact h3 pd hpd u hu
                · dsimp only
                  split
                  · exact List.nil_prefix
                  · exact getUnits_nums ..
        obtain ⟨ds, m1, m2, m3⟩ := main
        dsimp only [PropsTarget.Gen.map]
        refine ⟨?_, ⟨.die, ?_⟩, ?_⟩
        · have : (List.map (fun it => (toPV it).loc) (List.map Item.die (getPropDies i P get d mnames).yields)) =
              ((getPropDies i P get d mnames).yields.map (·.num)).map fun x => Loc.die x.1 x.2 := by
            simp [Function.comp_def, toPV]
          rw [this, List.Nodup, List.pairwise_map]
          exact (m3.sublist.nodup m1).imp (fun hab he => hab (Prod.ext (Loc.die.inj he).1 (Loc.die.inj he).2))
        · intro it hit
          obtain ⟨pv, -, rfl⟩ := List.mem_map.1 hit
          rfl
        · intro it hit
          obtain ⟨pv, hpv, rfl⟩ := List.mem_map.1 hit
          obtain ⟨u1, u2, tl, u3, u4, u5⟩ := m2 _ (m3.subset (List.mem_map_of_mem hpv))
          have hpk : pv.num.1 ∈ S.packages :=
            (mem_getLevelNums hS.packages _).2 ⟨u2, tl, u3, by
              rw [show tl.get .package = tl.package from rfl, u4]; exact u2, trivial, u4⟩
          refine ⟨hpk, (mem_getLevelNums (hS.dies _ hpk) _).2 ⟨u1, tl, u3, ?_, ?_, u5⟩⟩
          · rw [show tl.get .package = tl.package from rfl, u4]; exact u2
          · show tl.package ∈ [pv.num.1]
            rw [u4]; simp

/-! ### Where values are from -/

theorem getLoop_vals (get : Mech → Gen (κ × Option V)) (nums : List κ) (last : Mech) (ms : List Mech) :
    ∀ pv ∈ (getLoop get nums last ms).yields, pv.val = none ∨ ∃ m, (pv.num, pv.val) ∈ (get m).yields := by
  have ht : ∀ m, ∀ pv ∈ tag m (get m).yields, (pv.num, pv.val) ∈ (get m).yields := by
    intro m pv hpv
    unfold PropsBase.tag at hpv
    obtain ⟨x, hx, rfl⟩ := List.mem_map.1 hpv
    exact hx
  induction ms with
  | nil =>
    intro pv hpv
    obtain ⟨x, -, rfl⟩ := List.mem_map.1 hpv
    exact .inl rfl
  | cons m ms ih =>
    rw [getLoop]
    split
    · exact fun pv hpv => .inr ⟨m, ht m pv hpv⟩
    · split
      · split
        · exact ih
        · exact fun pv hpv => .inr ⟨m, ht m pv hpv⟩
      · exact fun pv hpv => .inr ⟨m, ht m pv hpv⟩

/-- A value is what was read for one of the CPUs, if there is a value. -/
def Sourced (read : Mech → Nat → Except Exn (Option V)) (cover : κ → Nat → Prop) (pv : PVInfo κ V) : Prop :=
  pv.val = none ∨ ∃ m c, cover pv.num c ∧ read m c = .ok pv.val

theorem getPvinfo_vals (P : PropDesc) (read : Mech → Nat → Except Exn (Option V)) (cpusOf : κ → Except Exn (List Nat))
    (units : List κ) (cover : κ → Nat → Prop) (hc : ∀ u l, cpusOf u = .ok l → u ∈ units → ∀ c ∈ l, cover u c)
    (get : Mech → Gen (κ × Option V)) (hget : ∀ m, get m = readUnits cpusOf (read m) units) (ms : List Mech) :
    ∀ pv ∈ (getPvinfo P get units ms).yields, Sourced read cover pv := by
  unfold getPvinfo
  split
  · intro pv hpv; cases hpv
  · intro pv hpv
    rcases getLoop_vals get units _ _ pv hpv with h | ⟨m, h⟩
    · exact .inl h
    · rw [hget] at h
      obtain ⟨h1, -, h3⟩ := readUnits_spec cpusOf (read m) units
      obtain ⟨c, rest, e1, e2⟩ := h3 _ h
      exact .inr ⟨m, c, hc _ _ e1 (h1.subset (List.mem_map_of_mem (f := Prod.fst) h)) c List.mem_cons_self, e2⟩

theorem getUnits_vals [DecidableEq V] (P : PropDesc) (op : Level) (read : Mech → Nat → Except Exn (Option V))
    (get : Mech → List Nat → Gen (Nat × Option V)) (hget : ∀ m l, get m l = readCpus (read m) l)
    (cpusOf : κ → Except Exn (List Nat)) (units : List κ) (cover : κ → Nat → Prop)
    (hc : ∀ u l, cpusOf u = .ok l → u ∈ units → ∀ c ∈ l, cover u c) (ms : List Mech) :
    ∀ pv ∈ (getUnits P op get cpusOf units ms).yields, Sourced read cover pv := by
  unfold getUnits
  split
  · split
    · intro pv hpv; cases hpv
    · intro pv hpv
      obtain ⟨x, -, rfl⟩ := List.mem_map.1 hpv
      exact .inl rfl
  · split
    · intro pv hpv; cases hpv
    · split
      · intro pv hpv; cases hpv
      · exact getPvinfo_vals P read cpusOf units cover hc _ (fun m => by simp only [readFirst_eq hget]) ms

theorem sname_vals [DecidableEq V] {i : Info} (wf : WF i) (hon : i.online ≠ []) {a : OpTarget.Args} {t : Tgt} {ca : Cache}
    (h : init i a = .ok (t, ca)) {hist : List Call} (hh : Strict hist) {P : PropDesc} {ov : Option Scope}
    (hp : Plain i a (scopeOf P.sname ov))
    {get : Mech → List Nat → Gen (Nat × Option V)} {read : Mech → Nat → Except Exn (Option V)}
    (hget : ∀ m l, get m l = readCpus (read m) l) (mnames : Option (List Mech)) (g : Gen (Item V))
    (hg : (getPropSname i P get t mnames ov (calls i t ca hist)).1 = g) :
    ∀ it ∈ g.yields, it.val = none ∨ ∃ m c, Covers i c it ∧ read m c = .ok it.val := by
  subst hg
  have hR := fun w => right (w := w) wf hon hp h hist hh
  unfold getPropSname
  cases hg : snameAndNums i t P.sname ov (calls i t ca hist) with
  | mk x ca' =>
    cases x with
    | error e => intro it hit; cases hit
    | ok w =>
      have hw := hR w (by rw [hg])
      cases w with
      | cpus l =>
        have main : ∀ pv ∈ (getPropCpus i P get (.nums l) mnames).yields, Sourced read (fun n c => n = c) pv := by
          unfold getPropCpus
          cases PropsBase.normalizeMnames P mnames true with
          | error e => intro it hit; cases hit
          | ok ms =>
            dsimp only
            cases hn : normalizeCpus i (.nums l) false with
            | error e => intro it hit; cases hit
            | ok l' =>
              dsimp only
              split
              · intro it hit; cases hit
              · cases P.sname with
                | none =>
                  dsimp only
                  cases ms.getLast? with
                  | none => intro it hit; cases hit
                  | some last =>
                    intro pv hpv
                    obtain ⟨x, -, rfl⟩ := List.mem_map.1 hpv
                    exact .inl rfl
                | some sn =>
                  exact getPvinfo_vals P read (fun c => .ok [c]) l' _ (fun u l h _ c hc => by
                    cases h; exact (List.mem_singleton.1 hc).symm) _ (fun m => by rw [hget, readCpus_eq]) ms
        intro it hit
        obtain ⟨pv, hpv, rfl⟩ := List.mem_map.1 hit
        exact main pv hpv
      | packages l =>
        obtain ⟨-, hln, h3, -⟩ := hw
        have main : ∀ pv ∈ (getPropPackages i P get l mnames).yields,
            Sourced read (fun p c => CpuWith i (InPackage p) c) pv := by
          unfold getPropPackages
          cases PropsBase.normalizeMnames P mnames true with
          | error e => intro it hit; cases hit
          | ok ms =>
            dsimp only
            rw [PropsBase.normalizePackages_isOk h3]
            dsimp only
            split
            · intro it hit; cases hit
            · exact getUnits_vals P _ read get hget _ _ _ (fun u l hu hm c hc =>
                (mem_packageToCpus (h3 u (mem_pyDedup.1 hm)).1 hu c).1 hc) ms
        intro it hit
        obtain ⟨pv, hpv, rfl⟩ := List.mem_map.1 hit
        exact main pv hpv
      | dies d =>
        obtain ⟨-, hk, -, h3, -⟩ := hw
        have main : ∀ pv ∈ (getPropDies i P get d mnames).yields,
            Sourced read (fun x c => CpuWith i (InUnit .die x.1 x.2) c) pv := by
          unfold getPropDies
          cases PropsBase.normalizeMnames P mnames true with
          | error e => intro it hit; cases hit
          | ok ms =>
            dsimp only
            cases normalizePackages i (.nums (d.map Prod.fst)) with
            | error e => intro it hit; cases hit
            | ok x =>
              dsimp only
              cases hn : normalizeDiesDict i d with
              | error e => intro it hit; cases hit
              | ok ds =>
                obtain ⟨n1, n2⟩ := normalizeDiesDict_ok hn hk
                dsimp only
                split
                · intro it hit; cases hit
                · refine getUnits_vals P _ read get hget _ _ _ (fun u l hu hm c hc => ?_) ms
                  rw [mem_inPackageToCpus wf hu] at hc
                  simp only [Selects, List.mem_singleton] at hc
                  obtain ⟨hcn, tl, ht, e, -, e1, e2⟩ := hc
                  exact ⟨hcn, tl, ht, e, e2, e1⟩
        intro it hit
        obtain ⟨pv, hpv, rfl⟩ := List.mem_map.1 hit
        exact main pv hpv

/-! ### Printing -/

theorem covers_about {i : Info} {c : Nat} (it : Item V) : About i c (toPV it).loc.cell ↔ Covers i c it := by
  cases it with
  | cpu pv => exact Int.ofNat_inj
  | die pv =>
    refine ⟨?_, fun h => ⟨pv.num.1, pv.num.2, rfl, rfl, h⟩⟩
    rintro ⟨q, u, e1, e2, h⟩
    show CpuWith i (InUnit .die pv.num.1 pv.num.2) c
    rw [Int.ofNat_inj.1 e1, Int.ofNat_inj.1 e2]
    exact h
  | package pv =>
    refine ⟨?_, fun h => ⟨pv.num, rfl, h⟩⟩
    rintro ⟨q, e1, h⟩
    show CpuWith i (InPackage pv.num) c
    rw [Int.ofNat_inj.1 e1]
    exact h

theorem toPV_val (it : Item V) : (toPV it).val = it.val := by cases it <;> rfl

theorem toPV_mname (it : Item V) : (toPV it).mname = mechName it.mname := by cases it <;> rfl

/-- What is read for one property is right. -/
structure ReadOk (i : Info) (S : Sys) (T : Nat → Prop) (type : Option (Val Q) → Prop)
    (want : Nat → Option (Val Q) → PyStr → Prop) (pvs : List (PV (Val Q))) : Prop where
  nodup : (pvs.map (·.loc)).Nodup
  scope : ∃ sn, ∀ pv ∈ pvs, pv.loc.sname = sn
  has : ∀ pv ∈ pvs, S.Has pv.loc
  type : ∀ pv ∈ pvs, type pv.val
  right : ∀ pv ∈ pvs, ∀ c, About i c pv.loc.cell → T c ∧ want c pv.val pv.mname
  once : pvs.Pairwise fun x y => ∀ c, About i c x.loc.cell → ¬ About i c y.loc.cell
  all : ∀ c, T c → ∃ pv ∈ pvs, About i c pv.loc.cell
  some : ∀ pv ∈ pvs, pv.val ≠ none → ∃ c, About i c pv.loc.cell

variable {X : Type} [DecidableEq Q]

/-- The state of the object and of the system, for a command with a target. -/
structure Ready (H : Host Q) (S : Sys) (a : OpTarget.Args) (t : Tgt) (ca : Cache) : Prop where
  sys : S.Of H.i
  on : H.i.online ≠ []
  later : Later H
  init : init H.i a = .ok (t, ca)
  units : ∀ p n, H.F.unitInt p n ≠ []

theorem readProp_ok {H : Host Q} {S : Sys} {a : OpTarget.Args} {t : Tgt} {ca : Cache} (r : Ready H S a t ca)
    {K : Cls σ Q} {Inv : σ → Prop} {R : PyStr → Nat → Val Q → X → Prop} {held hw : PyStr → σ → Nat → X}
    {rd : PyStr → Mech → Nat → X → Except Exn (Option (Val Q))} (hK : Contract H.i K Inv R held hw rd)
    {s : σ} (hu : Uniform (Selected H.i a) rd fun p c => held p s c) (hs : Inv s) {p : PyStr} {P : PropDesc} (hP : K.desc p = some P)
    (hp : Plain H.i a (scopeOf P.sname none)) {pi : HumanPrint.PropInfo} (hpi : K.props.get? p = some pi)
    (mnames : Option (List Mech)) (perCpu : Bool) {pvs : List (PV (Val Q))}
    (h : readProp (H.env (t, ca)) K mnames s p perCpu = .ok pvs) :
    ReadOk H.i S (Selected H.i a) (Fits pi.type) (Reading K rd (fun p c => held p s c) mnames p) pvs := by
  unfold readProp at h
  rw [hP] at h
  dsimp only [Host.env] at h
  obtain ⟨hist, hh, hl⟩ := r.later t ca (.get p perCpu)
  rw [hl] at h
  have hov : (if perCpu then some (Scope.lvl .CPU) else none) = none ∨
      (if perCpu then some (Scope.lvl .CPU) else none) = some (Scope.lvl .CPU) := by
    cases perCpu
    · exact .inl rfl
    · exact .inr rfl
  generalize (if perCpu then some (Scope.lvl .CPU) else none) = ov at h hov
  have hp' : Plain H.i a (scopeOf P.sname ov) := by
    rcases hov with rfl | rfl
    · exact hp
    · exact ⟨hp.modules, nofun, nofun⟩
  obtain ⟨g, hg⟩ : ∃ g, (getPropSname H.i P (K.get s p) t mnames ov (calls H.i t ca hist)).1 = g := ⟨_, rfl⟩
  rw [hg] at h
  have hget : ∀ m l, K.get s p m l = readCpus ((fun m c => rd p m c (held p s c)) m) l := fun m l => hK.get s hs p m l
  obtain ⟨c1, c2, c3⟩ := C87_get_partial H.i r.sys.wf r.on a t ca r.init hist hh P ov hov hp' (K.get s p)
    (fun m c => rd p m c (held p s c)) hget
    (fun c d m hcd => hK.unit p P m s c d hP hs hcd) mnames
    (fun m _ c d hc hd he => hu p m c d hc hd he) g hg
  obtain ⟨l1, ⟨sn, l2⟩, l3⟩ := sname_locs r.sys r.on r.init hh hp' hget mnames g hg
  have v1 := sname_vals r.sys.wf r.on r.init hh hp' hget mnames g hg
  unfold results at h
  cases he : g.err with
  | some e => rw [he] at h; cases h
  | none =>
    rw [he] at h
    cases h
    refine ⟨by rw [List.map_map]; exact l1, ⟨sn, ?_⟩, ?_, ?_, ?_, ?_, ?_, ?_⟩
    · intro pv hpv
      obtain ⟨it, hit, rfl⟩ := List.mem_map.1 hpv
      exact l2 it hit
    · intro pv hpv
      obtain ⟨it, hit, rfl⟩ := List.mem_map.1 hpv
      exact l3 it hit
    · intro pv hpv
      obtain ⟨it, hit, rfl⟩ := List.mem_map.1 hpv
      rw [toPV_val]
      rcases v1 it hit with h | ⟨m, c, -, h⟩
      · rw [h]; unfold Fits; trivial
      · exact hK.type p pi m c _ _ hpi h
    · intro pv hpv c hc
      obtain ⟨it, hit, rfl⟩ := List.mem_map.1 hpv
      obtain ⟨k1, k2, k3⟩ := c1 it hit c ((covers_about it).1 hc)
      refine ⟨k1, P, hP, ?_, fun hn => ⟨it.mname, toPV_mname it, ?_⟩⟩
      · rw [toPV_val]; exact k2
      · rw [toPV_val]; exact k3 hn
    · rw [List.pairwise_map]
      exact c2.imp fun hab c h1 h2 => hab c ((covers_about _).1 h1) ((covers_about _).1 h2)
    · intro c hc
      obtain ⟨it, hit, h⟩ := c3 he c hc
      exact ⟨_, List.mem_map_of_mem hit, (covers_about it).2 h⟩
    · intro pv hpv hne
      obtain ⟨it, hit, rfl⟩ := List.mem_map.1 hpv
      rw [toPV_val] at hne
      rcases v1 it hit with h | ⟨m, c, h, -⟩
      · exact absurd h hne
      · exact ⟨c, (covers_about it).2 h⟩

/-- Printing fails when a property is not known, or cannot be read. -/
theorem build_fails {read : PyStr → Bool → Except Exn (List (PV (Val Q)))} (skip : Bool) {q : PyStr} {e : Exn}
    (h : finalRead read q = .error e) : ∀ names, q ∈ names → ∀ aggr, ∃ e, PropsYaml.buildAggr read skip names aggr = .error e := by
  intro names
  induction names with
  | nil => intro h; cases h
  | cons p names ih =>
    intro hm aggr
    rcases List.mem_cons.1 hm with rfl | hm
    · exact ⟨e, PropsYaml.buildAggr_error skip read (fun _ => []) [] names q e (fun q h => nomatch h) (fun q h => nomatch h) h aggr⟩
    · rw [PropsYaml.buildAggr]
      dsimp only
      split
      · exact ⟨_, rfl⟩
      · exact ih hm _

/-- What is printed: nothing if something cannot be read, else what was read. -/
theorem printOut_about {H : Host Q} {S : Sys} {a : OpTarget.Args} {t : Tgt} {ca : Cache} (r : Ready H S a t ca)
    {K : Cls σ Q} {Inv : σ → Prop} {R : PyStr → Nat → Val Q → X → Prop} {held hw : PyStr → σ → Nat → X}
    {rd : PyStr → Mech → Nat → X → Except Exn (Option (Val Q))} (hK : Contract H.i K Inv R held hw rd)
    {s : σ} (hu : Uniform (Selected H.i a) rd fun p c => held p s c) (hs : Inv s) (mnames : Option (List Mech)) (skipRo skip group : Bool)
    (action : Option PyStr) (pnames : Option (List PyStr)) {names : List PyStr}
    (hnames : HumanPrint.Named K.props skipRo pnames names) (hn : names.Nodup) (hp : PlainFor H.i a K names) :
    (∃ e, printOut (H.env (t, ca)) K mnames skipRo skip group action pnames s = ([], .error e) ∧
      ∃ q ∈ names, ∀ pvs, finalRead (readProp (H.env (t, ca)) K mnames s) q ≠ .ok pvs) ∨
    ∃ lines n told, printOut (H.env (t, ca)) K mnames skipRo skip group action pnames s = (lines, .ok n) ∧
      TellsAbout S H K group action (Selected H.i a) names skip
        (Reading K rd (fun p c => held p s c) mnames) lines told ∧
      (n = 0 ↔ ∀ p ∈ names, ∀ pv, (∃ pvs, finalRead (readProp (H.env (t, ca)) K mnames s) p = .ok pvs ∧ pv ∈ pvs) →
        skip = true ∧ pv.val = none) ∧
      (∀ p ∈ names, ∃ pvs pi, finalRead (readProp (H.env (t, ca)) K mnames s) p = .ok pvs ∧ K.props.get? p = some pi ∧
        ReadOk H.i S (Selected H.i a) (Fits pi.type) (Reading K rd (fun p c => held p s c) mnames p) pvs) := by
  obtain ⟨hnorm, hprops⟩ := HumanPrint.normalize_named hnames
  have hread : ∀ p ∈ names, ∀ pvs, finalRead (readProp (H.env (t, ca)) K mnames s) p = .ok pvs →
      ∀ pi, K.props.get? p = some pi →
        ReadOk H.i S (Selected H.i a) (Fits pi.type) (Reading K rd (fun p c => held p s c) mnames p) pvs := by
    intro p hpn pvs h pi hpi
    obtain ⟨P, hP⟩ : ∃ P, K.desc p = some P := by
      have := hK.table p
      rw [hpi] at this
      cases hd : K.desc p with
      | none => rw [hd] at this; cases this
      | some P => exact ⟨P, rfl⟩
    unfold finalRead at h
    split at h
    · exact readProp_ok r hK hu hs hP (hp p hpn P hP) hpi mnames true h
    · exact readProp_ok r hK hu hs hP (hp p hpn P hP) hpi mnames false h
  by_cases hall : ∀ p ∈ names, ∃ pvs, finalRead (readProp (H.env (t, ca)) K mnames s) p = .ok pvs
  · let RR : PyStr → List (PV (Val Q)) := fun p =>
      match finalRead (readProp (H.env (t, ca)) K mnames s) p with
      | .ok pvs => pvs
      | .error _ => []
    have hRR : ∀ p ∈ names, finalRead (readProp (H.env (t, ca)) K mnames s) p = .ok (RR p) := by
      intro p hpn
      obtain ⟨pvs, h⟩ := hall p hpn
      show _ = Except.ok (match finalRead (readProp (H.env (t, ca)) K mnames s) p with
        | .ok pvs => pvs
        | .error _ => [])
      rw [h]
    have hok : ∀ p ∈ names, ∃ pi, K.props.get? p = some pi ∧
        ReadOk H.i S (Selected H.i a) (Fits pi.type) (Reading K rd (fun p c => held p s c) mnames p) (RR p) := by
      intro p hpn
      obtain ⟨pi, hpi⟩ := hprops p hpn
      exact ⟨pi, hpi, hread p hpn _ (hRR p hpn) pi hpi⟩
    obtain ⟨lines, n, told, e1, e2, e3, e4, e5, e6, e7⟩ := HumanPrint.C93_exact H.i S r.sys H.F r.units K.props H.descr
      (readProp (H.env (t, ca)) K mnames s) RR skipRo skip group action pnames names hnames hn
      ⟨hRR, fun p hpn => (hok p hpn).elim fun _ h => h.2.nodup, fun p hpn => (hok p hpn).elim fun _ h => h.2.scope⟩
      (fun p hpn => (hok p hpn).elim fun _ h => h.2.has)
      (fun p hpn pi hpi => (hok p hpn).elim fun pi' h => by
        have : pi = pi' := Option.some.inj (hpi.symm.trans h.1)
        rw [this]; exact h.2.type)
    have hshown : ∀ (p : PyStr) (pv : PV (Val Q)) x, HumanPrint.shown skip p pv = some x →
        x = (pv.mname, p, pv.loc.cell, pv.val) := by
      intro p pv x hx
      unfold HumanPrint.shown at hx
      split at hx
      · cases hx
      · exact (Option.some.inj hx).symm
    refine .inr ⟨lines, n, told, e1, ⟨e2, ?_, ?_, ?_, e5, e6⟩, ?_, ?_⟩
    · intro t ht
      have hin : ∀ cell ∈ t.cells, t.pname ∈ names ∧ ∃ pv ∈ RR t.pname, pv.mname = t.mname ∧ pv.loc.cell = cell ∧
          pv.val = t.val := by
        intro cell hcell
        have h1 : (t.mname, t.pname, cell, t.val) ∈ told.flatMap Entry.items :=
          List.mem_flatMap.2 ⟨_, ht, List.mem_map.2 ⟨cell, hcell, rfl⟩⟩
        obtain ⟨p, hpn, h2⟩ := List.mem_flatMap.1 (e3.mem_iff.1 h1)
        obtain ⟨pv, hpv, h3⟩ := List.mem_filterMap.1 h2
        have h4 := hshown p pv _ h3
        simp only [Prod.mk.injEq] at h4
        obtain ⟨q1, q2, q3, q4⟩ := h4
        rw [q2]
        exact ⟨hpn, pv, hpv, q1.symm, q3.symm, q4.symm⟩
      obtain ⟨cell0, hc0⟩ := List.exists_mem_of_ne_nil _ (e4 t ht)
      refine ⟨(hin cell0 hc0).1, e4 t ht, fun cell hcell c hc => ?_⟩
      obtain ⟨hpn, pv, hpv, q1, q2, q3⟩ := hin cell hcell
      obtain ⟨pi, -, hr⟩ := hok _ hpn
      rw [← q2] at hc
      have := hr.right pv hpv c hc
      rwa [q1, q3] at this
    · intro p hpn c hc
      obtain ⟨pi, -, hr⟩ := hok p hpn
      obtain ⟨pv, hpv, hab⟩ := hr.all c hc
      refine ⟨pv.val, pv.mname, (hr.right pv hpv c hab).2, ?_⟩
      by_cases h1 : skip = true ∧ pv.val = none
      · exact .inl h1
      by_cases h2 : Blank pv.val = true
      · exact .inr (.inl h2)
      have hsh : HumanPrint.shown skip p pv = some (pv.mname, p, pv.loc.cell, pv.val) := by
        unfold HumanPrint.shown
        rw [if_neg]
        intro h
        rw [Bool.or_eq_true, Bool.and_eq_true, Option.isNone_iff_eq_none] at h
        exact h.elim h1 h2
      have hin : (pv.mname, p, pv.loc.cell, pv.val) ∈ told.flatMap Entry.items :=
        e3.mem_iff.2 (List.mem_flatMap.2 ⟨p, hpn, List.mem_filterMap.2 ⟨pv, hpv, hsh⟩⟩)
      obtain ⟨en, hen, hin⟩ := List.mem_flatMap.1 hin
      cases en with
      | source m => cases hin
      | value t =>
        obtain ⟨cell, hcell, h3⟩ := List.mem_map.1 hin
        simp only [Prod.mk.injEq] at h3
        obtain ⟨q1, q2, q3, q4⟩ := h3
        exact .inr (.inr ⟨t, hen, q2, q4, q1, cell, hcell, by rw [q3]; exact hab⟩)
    · refine (e3.pairwise_iff (fun {x y} h e c h1 h2 => h e.symm c h2 h1)).2 ?_
      rw [List.pairwise_flatMap]
      refine ⟨fun p hpn => ?_, ?_⟩
      · obtain ⟨pi, -, hr⟩ := hok p hpn
        rw [List.pairwise_filterMap]
        refine hr.once.imp fun {x y} hab u hu w hw _ c => ?_
        rw [hshown p x u hu, hshown p y w hw]
        exact hab c
      · refine hn.imp fun {p q} hpq x hx y hy e => ?_
        obtain ⟨pv, -, h1⟩ := List.mem_filterMap.1 hx
        obtain ⟨pw, -, h2⟩ := List.mem_filterMap.1 hy
        rw [hshown p pv x h1, hshown q pw y h2] at e
        exact absurd e hpq
    · rw [e7]
      constructor
      · rintro h p hpn pv ⟨pvs, h1, h2⟩
        rw [hRR p hpn] at h1
        cases h1
        exact h p hpn pv h2
      · intro h p hpn pv hpv
        exact h p hpn pv ⟨_, hRR p hpn, hpv⟩
    · intro p hpn
      obtain ⟨pi, h1, h2⟩ := hok p hpn
      exact ⟨RR p, pi, hRR p hpn, h1, h2⟩
  · left
    obtain ⟨q, hq⟩ : ∃ q, ¬ (q ∈ names → ∃ pvs, finalRead (readProp (H.env (t, ca)) K mnames s) q = .ok pvs) :=
      Classical.not_forall.1 hall
    have hqn : q ∈ names := Classical.byContradiction fun h => hq fun h' => absurd h' h
    cases hf : finalRead (readProp (H.env (t, ca)) K mnames s) q with
    | ok pvs => exact absurd (fun _ => ⟨pvs, hf⟩) hq
    | error e =>
      obtain ⟨e', h⟩ := build_fails skip hf names hqn []
      refine ⟨e', ?_, q, hqn, fun pvs hx => by rw [hf] at hx; cases hx⟩
      unfold printOut HumanPrint.printProps
      rw [hnorm]
      dsimp only
      rw [h]

/-! ### Setting -/

/-- The mechanism a property was set with is one of those allowed, and the property can be written. -/
theorem setPropSname_ok {i : Info} {P : PropDesc} {norm : V → Except Exn V}
    {set : Mech → V → List Nat → σ → σ × Except Exn Unit} (t : Tgt) (v0 : Option V) (mnames : Option (List Mech)) (ca : Cache)
    (s : σ) (m : Mech) (h : (setPropSname i P norm set t v0 mnames ca s).1.2 = .ok m) :
    P.writable = true ∧ m ∈ toTry P mnames := by
  have hloop : ∀ (f : Mech → σ → σ × Except Exn Unit), ∀ ms b s, (setLoop f ms b s).2 = .ok m → m ∈ ms := by
    intro f ms
    induction ms with
    | nil => intro b s h; rw [setLoop] at h; cases b <;> cases h
    | cons m' ms ih =>
      intro b s h
      rw [setLoop] at h
      cases hx : f m' s with
      | mk s1 x =>
        rw [hx] at h
        cases x with
        | ok u => cases h; exact List.mem_cons_self
        | error e =>
          dsimp only at h
          split at h
          · exact List.mem_cons_of_mem _ (ih _ _ h)
          · cases h
  have hmn : ∀ (f : Mech → σ → σ × Except Exn Unit) ms s, PropsBase.normalizeMnames P mnames false = .ok ms →
      (setMnames P f ms s).2 = .ok m → m ∈ toTry P mnames := by
    intro f ms s h1 h2
    rw [← PropsBase.normalizeMnames_toTry h1]
    exact hloop _ _ _ _ h2
  have hwr : ∀ v, PropsBase.normalizeInprop P norm v0 = .ok v → P.writable = true := by
    intro v hv
    unfold PropsBase.normalizeInprop at hv
    split at hv
    · cases hv
    · split at hv
      · cases hv
      · rename_i hw
        cases hP : P.writable with
        | true => rfl
        | false => rw [hP] at hw; exact absurd rfl hw
  unfold setPropSname at h
  split at h
  · cases h
  · dsimp only at h
    unfold PropsBase.setPropCpus at h
    repeat' split at h
    all_goals first
      | (cases h; done)
      | exact ⟨hwr _ (by assumption), hmn _ _ _ (by assumption) h⟩
  · dsimp only at h
    unfold PropsBase.setPropDies at h
    repeat' split at h
    all_goals first
      | (cases h; done)
      | exact ⟨hwr _ (by assumption), hmn _ _ _ (by assumption) h⟩
  · dsimp only at h
    unfold PropsBase.setPropPackages at h
    repeat' split at h
    all_goals first
      | (cases h; done)
      | exact ⟨hwr _ (by assumption), hmn _ _ _ (by assumption) h⟩

section

variable {H : Host Q} {S : Sys} {a : OpTarget.Args} {t : Tgt} {ca : Cache} {K : Cls σ Q} {Inv : σ → Prop}
  {R : PyStr → Nat → Val Q → X → Prop} {held hw : PyStr → σ → Nat → X}
  {rd : PyStr → Mech → Nat → X → Except Exn (Option (Val Q))}

/-- The property was set. -/
def WasSet (K : Cls σ Q) (R : PyStr → Nat → Val Q → X → Prop) (held : PyStr → σ → Nat → X) (T : Nat → Prop)
    (mnames : Option (List Mech)) (used : Dict PyStr Mech) (s : σ) (p : PyStr) (v : Val Q) : Prop :=
  ∃ m P w, K.desc p = some P ∧ used.get? p = some m ∧ m ∈ toTry P mnames ∧ P.writable = true ∧ K.norm p v = .ok w ∧
    ∀ c, T c → R p c w (held p s c)

/-- While properties are being set. -/
structure Going (K : Cls σ Q) (Inv : σ → Prop) (R : PyStr → Nat → Val Q → X → Prop) (held hw : PyStr → σ → Nat → X)
    (T : Nat → Prop) (mnames : Option (List Mech)) (s0 : σ) (todo : Dict PyStr (Val Q)) (g : Prog σ Q) : Prop where
  inv : Inv g.s
  frame : ∀ p c, ¬ T c ∨ todo.get? p = none → held p g.s c = held p s0 c ∧ hw p g.s c = hw p s0 c
  left : ∀ p v, g.left.get? p = some v → todo.get? p = some v
  todo : ∀ p v, todo.get? p = some v → g.left.get? p = some v ∨ WasSet K R held T mnames g.used g.s p v

theorem setBase_going (r : Ready H S a t ca) (hK : Contract H.i K Inv R held hw rd) {names : List PyStr}
    (hp : PlainFor H.i a K names) (mnames : Option (List Mech)) {s0 : σ} {todo : Dict PyStr (Val Q)} {g g' : Prog σ Q}
    {x : Except Exn Unit} {p : PyStr} (hpn : p ∈ names) (hg : Going K Inv R held hw (Selected H.i a) mnames s0 todo g)
    (h : setBase (H.env (t, ca)) K mnames p g = (g', x)) :
    Going K Inv R held hw (Selected H.i a) mnames s0 todo g' ∧ (x = .ok () → g'.left.get? p = none) ∧
    (∀ q, g.left.get? q = none → g'.left.get? q = none) := by
  unfold setBase at h
  cases hv : g.left.get? p with
  | none =>
    rw [hv] at h
    cases h
    exact ⟨hg, fun _ => hv, fun q h => h⟩
  | some v =>
    rw [hv] at h
    dsimp only at h
    cases hP : K.desc p with
    | none =>
      rw [hP] at h
      cases h
      exact ⟨hg, nofun, fun q h => h⟩
    | some P =>
      rw [hP] at h
      dsimp only [Host.env] at h
      obtain ⟨hist, hh, hl⟩ := r.later t ca (.set p)
      rw [hl] at h
      have hruns := setPropSname_runs H.i r.sys.wf r.on a t ca r.init hist hh P (hp p hpn P hP) (K.norm p) (K.set p)
        (hK.scopes p P hP) (some v) mnames g.s
      have hinv := hruns.keeps Inv (fun _ v m l s _ _ hl hs => (hK.inv s hs).2.2 p m v l fun d hd => (hl d hd).2) hg.inv
      have hoth : ∀ q, p ≠ q → held q (setPropSname H.i P (K.norm p) (K.set p) t (some v) mnames (calls H.i t ca hist)
          g.s).1.1 = held q g.s ∧ hw q (setPropSname H.i P (K.norm p) (K.set p) t (some v) mnames (calls H.i t ca hist)
          g.s).1.1 = hw q g.s := fun q hq =>
        hruns.keeps (fun s => held q s = held q g.s ∧ hw q s = hw q g.s) (fun _ v m l s _ _ _ hs => by
          obtain ⟨o1, o2⟩ := hK.others p q m v l s hq
          exact ⟨o1.trans hs.1, o2.trans hs.2⟩) ⟨rfl, rfl⟩
      have hok := setPropSname_ok (i := H.i) (P := P) (norm := K.norm p) (set := K.set p) t (some v) mnames
        (calls H.i t ca hist) g.s
      cases hr : (setPropSname H.i P (K.norm p) (K.set p) t (some v) mnames (calls H.i t ca hist) g.s).1 with
      | mk s1 y =>
        rw [hr] at h hinv hoth hok
        obtain ⟨c1, c2⟩ := C86_set_partial H.i r.sys.wf r.on a t ca r.init hist hh P (hp p hpn P hP) (K.norm p) (K.set p) _ _
          (hK.loc p P hP) (hK.scopes p P hP) (some v) mnames g.s s1 y hr
        have hfr : ∀ q c, ¬ Selected H.i a c ∨ todo.get? q = none → held q s1 c = held q s0 c ∧ hw q s1 c = hw q s0 c := by
          intro q c hqc
          by_cases hpq : p = q
          · subst hpq
            have hc : ¬ Selected H.i a c := by
              rcases hqc with h | h
              · exact h
              · rw [hg.left p v hv] at h; cases h
            have := c1 c hc
            obtain ⟨f1, f2⟩ := hg.frame p c (.inl hc)
            exact ⟨(congrArg Prod.fst this).trans f1, (congrArg Prod.snd this).trans f2⟩
          · obtain ⟨o1, o2⟩ := hoth q hpq
            obtain ⟨f1, f2⟩ := hg.frame q c hqc
            dsimp only at o1 o2
            rw [o1, o2]
            exact ⟨f1, f2⟩
        have hws : ∀ q w, p ≠ q → WasSet K R held (Selected H.i a) mnames g.used g.s q w →
            WasSet K R held (Selected H.i a) mnames g.used s1 q w := by
          rintro q w hpq ⟨m, P', w', q1, q2, q3, q4, q5, q6⟩
          refine ⟨m, P', w', q1, q2, q3, q4, q5, fun c hc => ?_⟩
          have := (hoth q hpq).1
          dsimp only at this
          rw [this]
          exact q6 c hc
        cases y with
        | error e =>
          cases h
          refine ⟨⟨hinv, hfr, hg.left, fun q w hqw => ?_⟩, nofun, fun q h => h⟩
          by_cases hpq : p = q
          · subst hpq
            have : v = w := Option.some.inj ((hg.left p v hv).symm.trans hqw)
            exact .inl (this ▸ hv)
          · rcases hg.todo q w hqw with h | h
            · exact .inl h
            · exact .inr (hws q w hpq h)
        | ok m =>
          cases h
          obtain ⟨x, w, e1, e2, e3⟩ := c2 m rfl
          cases e1
          obtain ⟨k1, k2⟩ := hok m rfl
          refine ⟨⟨hinv, hfr, fun q w hqw => ?_, fun q w' hqw => ?_⟩, fun _ => ?_, fun q hq => ?_⟩
          · dsimp only at hqw
            rw [Dict.get?_erase] at hqw
            split at hqw
            · cases hqw
            · exact hg.left q w hqw
          · dsimp only
            by_cases hpq : p = q
            · subst hpq
              have : v = w' := Option.some.inj ((hg.left p v hv).symm.trans hqw)
              subst this
              exact .inr ⟨m, P, w, hP, by rw [Dict.get?_set, if_pos rfl], k2, k1, e2, e3⟩
            · rw [Dict.get?_erase, if_neg hpq]
              rcases hg.todo q w' hqw with h | h
              · exact .inl h
              · obtain ⟨m', P', w2, q1, q2, q3⟩ := hws q w' hpq h
                exact .inr ⟨m', P', w2, q1, by rw [Dict.get?_set, if_neg hpq]; exact q2, q3⟩
          · rw [Dict.get?_erase, if_pos rfl]
          · dsimp only
            rw [Dict.get?_erase]
            split
            · rfl
            · exact hq

theorem setOne_going (r : Ready H S a t ca) (hK : Contract H.i K Inv R held hw rd) {names : List PyStr}
    (hp : PlainFor H.i a K names) (mnames : Option (List Mech)) {s0 : σ} {todo : Dict PyStr (Val Q)}
    (htodo : ∀ p v, todo.get? p = some v → p ∈ names) {g g' : Prog σ Q}
    {x : Except Exn Unit} {p : PyStr} (hpn : p ∈ names) (hg : Going K Inv R held hw (Selected H.i a) mnames s0 todo g)
    (h : setOne (H.env (t, ca)) K mnames p g = (g', x)) :
    Going K Inv R held hw (Selected H.i a) mnames s0 todo g' ∧ (x = .ok () → g'.left.get? p = none) ∧
    (∀ q, g.left.get? q = none → g'.left.get? q = none) := by
  unfold setOne at h
  cases h1 : setBase (H.env (t, ca)) K mnames p g with
  | mk g1 x1 =>
    obtain ⟨a1, a2, a3⟩ := setBase_going r hK hp mnames hpn hg h1
    rw [h1] at h
    cases x1 with
    | ok u => cases h; exact ⟨a1, a2, a3⟩
    | error e =>
      dsimp only at h
      split at h
      · cases h; exact ⟨a1, nofun, a3⟩
      · split at h
        · cases h; exact ⟨a1, nofun, a3⟩
        · rename_i other _
          split at h
          · cases h; exact ⟨a1, nofun, a3⟩
          · rename_i hl
            obtain ⟨w, hw'⟩ : ∃ w, g1.left.get? other = some w := by
              cases hx : g1.left.get? other with
              | none => rw [hx] at hl; exact absurd rfl hl
              | some w => exact ⟨w, rfl⟩
            have hon : other ∈ names := htodo other w (a1.left other w hw')
            cases h2 : setBase (H.env (t, ca)) K mnames other g1 with
            | mk g2 x2 =>
              obtain ⟨b1, b2, b3⟩ := setBase_going r hK hp mnames hon a1 h2
              rw [h2] at h
              cases x2 with
              | error e => cases h; exact ⟨b1, nofun, fun q hq => b3 q (a3 q hq)⟩
              | ok u =>
                obtain ⟨c1, c2, c3⟩ := setBase_going r hK hp mnames hpn b1 h
                exact ⟨c1, c2, fun q hq => c3 q (b3 q (a3 q hq))⟩

theorem setAll_going (r : Ready H S a t ca) (hK : Contract H.i K Inv R held hw rd) {names : List PyStr}
    (hp : PlainFor H.i a K names) (mnames : Option (List Mech)) {s0 : σ} {todo : Dict PyStr (Val Q)}
    (htodo : ∀ p v, todo.get? p = some v → p ∈ names) (l : List PyStr) (hl : ∀ p ∈ l, p ∈ names) {g g' : Prog σ Q}
    {x : Except Exn Unit} (hg : Going K Inv R held hw (Selected H.i a) mnames s0 todo g)
    (h : setAll (H.env (t, ca)) K mnames l g = (g', x)) :
    Going K Inv R held hw (Selected H.i a) mnames s0 todo g' ∧ (x = .ok () → ∀ p ∈ l, g'.left.get? p = none) ∧
    (∀ q, g.left.get? q = none → g'.left.get? q = none) := by
  induction l generalizing g with
  | nil =>
    rw [setAll] at h
    cases h
    exact ⟨hg, fun _ p hp => (nomatch hp), fun q h => h⟩
  | cons p l ih =>
    rw [setAll] at h
    cases h1 : setOne (H.env (t, ca)) K mnames p g with
    | mk g1 x1 =>
      obtain ⟨a1, a2, a3⟩ := setOne_going r hK hp mnames htodo (hl p List.mem_cons_self) hg h1
      rw [h1] at h
      cases x1 with
      | error e => cases h; exact ⟨a1, nofun, a3⟩
      | ok u =>
        obtain ⟨b1, b2, b3⟩ := ih (fun q hq => hl q (List.mem_cons_of_mem _ hq)) a1 h
        refine ⟨b1, fun hx q hq => ?_, fun q hq => b3 q (a3 q hq)⟩
        rcases List.mem_cons.1 hq with rfl | hq
        · exact b3 _ (a2 rfl)
        · exact b2 hx q hq

/-! ### Lines of several commands -/

theorem TellsAbout.append {action : Option PyStr} {T : Nat → Prop} {n1 n2 : List PyStr} {skip : Bool}
    {want : PyStr → Nat → Option (Val Q) → PyStr → Prop} {l1 l2 : List PyStr} {t1 t2 : List (Entry Q)}
    (h1 : TellsAbout S H K false action T n1 skip want l1 t1) (h2 : TellsAbout S H K false action T n2 skip want l2 t2)
    (hd : ∀ p ∈ n1, p ∉ n2) : TellsAbout S H K false action T (n1 ++ n2) skip want (l1 ++ l2) (t1 ++ t2) := by
  have hitem : ∀ {n : List PyStr} {l : List PyStr} {t : List (Entry Q)}, TellsAbout S H K false action T n skip want l t →
      ∀ x ∈ t.flatMap Entry.items, x.2.1 ∈ n := by
    intro n l t h x hx
    obtain ⟨en, hen, hx⟩ := List.mem_flatMap.1 hx
    cases en with
    | source m => cases hx
    | value t' =>
      obtain ⟨c, -, rfl⟩ := List.mem_map.1 hx
      exact (h.right t' hen).1
  refine ⟨List.rel_append h1.lines h2.lines, ?_, ?_, ?_, nofun, fun _ m hm => ?_⟩
  · intro t ht
    rcases List.mem_append.1 ht with ht | ht
    · obtain ⟨k1, k2⟩ := h1.right t ht
      exact ⟨List.mem_append_left _ k1, k2⟩
    · obtain ⟨k1, k2⟩ := h2.right t ht
      exact ⟨List.mem_append_right _ k1, k2⟩
  · intro p hp c hc
    rcases List.mem_append.1 hp with hp | hp
    · obtain ⟨v, m, k1, k2⟩ := h1.all p hp c hc
      refine ⟨v, m, k1, k2.imp id (Or.imp id ?_)⟩
      rintro ⟨t, k3, k4⟩
      exact ⟨t, List.mem_append_left _ k3, k4⟩
    · obtain ⟨v, m, k1, k2⟩ := h2.all p hp c hc
      refine ⟨v, m, k1, k2.imp id (Or.imp id ?_)⟩
      rintro ⟨t, k3, k4⟩
      exact ⟨t, List.mem_append_right _ k3, k4⟩
  · rw [List.flatMap_append, List.pairwise_append]
    refine ⟨h1.once, h2.once, fun x hx y hy e => ?_⟩
    exact absurd (e ▸ hitem h2 y hy) (hd _ (hitem h1 x hx))
  · rcases List.mem_append.1 hm with hm | hm
    · exact h1.source.2 rfl m hm
    · exact h2.source.2 rfl m hm

theorem TellsAbout.nil {action : Option PyStr} {T : Nat → Prop} {skip : Bool}
    {want : PyStr → Nat → Option (Val Q) → PyStr → Prop} :
    TellsAbout S H K false action T [] skip want [] [] :=
  ⟨.nil, fun t h => (nomatch h), fun p h => (nomatch h), .nil, nofun, fun _ m h => (nomatch h)⟩

theorem TellsAbout.imp {group : Bool} {action : Option PyStr} {T : Nat → Prop} {n : List PyStr} {skip : Bool}
    {want want' : PyStr → Nat → Option (Val Q) → PyStr → Prop} {l : List PyStr} {t : List (Entry Q)}
    (h : TellsAbout S H K group action T n skip want l t) (hi : ∀ p ∈ n, ∀ c v m, want p c v m → want' p c v m) :
    TellsAbout S H K group action T n skip want' l t := by
  refine ⟨h.lines, fun t ht => ?_, fun p hp c hc => ?_, h.once, h.source⟩
  · obtain ⟨k1, k2, k3⟩ := h.right t ht
    exact ⟨k1, k2, fun cell hcell c hc => (k3 cell hcell c hc).imp id (hi _ k1 c _ _)⟩
  · obtain ⟨v, m, k1, k2⟩ := h.all p hp c hc
    exact ⟨v, m, hi p hp c v m k1, k2⟩

/-- Printing what was set. -/
theorem printSet_about (r : Ready H S a t ca) (hK : Contract H.i K Inv R held hw rd)
    {s : σ} (hu : Uniform (Selected H.i a) rd fun p c => held p s c) (hs : Inv s) (mnames : Option (List Mech)) (used : Dict PyStr Mech)
    (l : List PyStr) (hn : l.Nodup) (hp : PlainFor H.i a K l)
    (hused : ∀ p ∈ l, ∃ m P, used.get? p = some m ∧ K.desc p = some P ∧ P.writable = true ∧ m ∈ toTry P mnames) :
    (printSet (H.env (t, ca)) K used l s).1 = s ∧
    ((printSet (H.env (t, ca)) K used l s).2.2 = .ok () → ∃ told,
      TellsAbout S H K false (some "set to".toList) (Selected H.i a) l false
        (SetReading K rd (fun p c => held p s c) mnames) (printSet (H.env (t, ca)) K used l s).2.1 told) := by
  induction l with
  | nil => exact ⟨rfl, fun _ => ⟨[], TellsAbout.nil⟩⟩
  | cons p l ih =>
    obtain ⟨n1, n2⟩ := List.nodup_cons.1 hn
    obtain ⟨i1, i2⟩ := ih n2 (fun q hq => hp q (List.mem_cons_of_mem _ hq)) (fun q hq => hused q (List.mem_cons_of_mem _ hq))
    obtain ⟨m, P, u1, u2, u3, u4⟩ := hused p List.mem_cons_self
    rw [printSet]
    unfold printUsed
    rw [u1]
    dsimp only
    obtain ⟨pi, hpi, hpw⟩ : ∃ pi, K.props.get? p = some pi ∧ pi.writable = true := by
      have := hK.table p
      rw [u2] at this
      cases hx : K.props.get? p with
      | none => rw [hx] at this; cases this
      | some pi =>
        rw [hx] at this
        exact ⟨pi, rfl, (Option.some.inj this).symm.trans u3⟩
    have hnm : HumanPrint.Named K.props true (some [p]) [p] := by
      refine ⟨[p], fun l' e => ?_, nofun, ?_⟩
      · cases e
        refine ⟨rfl, fun n hn => ?_⟩
        rw [List.mem_singleton.1 hn]
        exact ⟨pi, hpi⟩
      · rw [List.filter_cons_of_pos]
        · rfl
        · rw [hpi]
          simpa using hpw
    have hone := printOut_about r hK hu hs (some [m]) true false false (some "set to".toList) (some [p]) hnm
      (List.nodup_singleton p) (fun q hq => hp q (by rw [List.mem_singleton.1 hq]; exact List.mem_cons_self))
    unfold Step.andThen printStep
    rcases hone with ⟨e, h, -⟩ | ⟨lines, n, told, h, h2, -⟩
    · rw [h]
      exact ⟨rfl, nofun⟩
    · rw [h]
      dsimp only [Except.map]
      refine ⟨i1, fun hok => ?_⟩
      obtain ⟨told', h3⟩ := i2 hok
      refine ⟨told ++ told', TellsAbout.append (n1 := [p]) (h2.imp fun q hq c v m' hr => ?_) h3 (fun q hq h => ?_)⟩
      · rw [List.mem_singleton.1 hq] at hr ⊢
        exact ⟨m, hr, P, u2, u4⟩
      · rw [List.mem_singleton.1 hq] at h
        exact n1 h

end

/-! ### Arguments -/

theorem mechName_inj {m m' : Mech} (h : mechName m = mechName m') : m = m' := by
  cases m <;> cases m' <;> first | rfl | exact absurd h (by decide +kernel)

theorem pyDedup_map_inj {α β : Type} [DecidableEq α] [DecidableEq β] (f : α → β) (hf : ∀ x y, f x = f y → x = y)
    (l : List α) : pyDedup (l.map f) = (pyDedup l).map f := by
  have key : ∀ seen, dedupAux (seen.map f) (l.map f) = (dedupAux seen l).map f := by
    induction l with
    | nil => intro seen; rfl
    | cons x l ih =>
      intro seen
      have hm : f x ∈ seen.map f ↔ x ∈ seen := by
        rw [List.mem_map]
        exact ⟨fun ⟨y, hy, e⟩ => hf y x e ▸ hy, fun h => ⟨x, h, rfl⟩⟩
      rw [List.map_cons, dedupAux, dedupAux]
      by_cases hx : x ∈ seen
      · rw [if_pos hx, if_pos (hm.2 hx)]
        exact ih seen
      · rw [if_neg hx, if_neg fun h => hx (hm.1 h), List.map_cons, ← ih (x :: seen)]
        rfl
  exact key []

theorem find_mech {l : List Mech} {m : Mech} (h : m ∈ l) : (l.find? fun x => mechName x = mechName m) = some m := by
  induction l with
  | nil => cases h
  | cons x l ih =>
    rw [List.find?_cons]
    by_cases hx : mechName x = mechName m
    · rw [mechName_inj hx]; simp
    · rcases List.mem_cons.1 h with rfl | h
      · exact absurd rfl hx
      · simp only [hx, decide_false]
        exact ih h

theorem toTry_dedup (P : PropDesc) {ms : List Mech} (hne : ms ≠ []) : toTry P (some (pyDedup ms)) = toTry P (some ms) := by
  have e : ∀ l : List Mech, l ≠ [] → toTry P (some l) = pyDedup l := by
    intro l hl
    cases l with
    | nil => exact absurd rfl hl
    | cons x l => rfl
  rw [e ms hne, e (pyDedup ms) (by
    obtain ⟨x, hx⟩ := List.exists_mem_of_ne_nil _ hne
    exact List.ne_nil_of_mem (mem_pyDedup.2 hx)), pyDedup_of_nodup (nodup_pyDedup ms)]

theorem allowed_means {K : Cls σ Q} {text : Option PyStr} {ml : Option (List Mech)} (h : MeansMechs K text ml) :
    ∃ ml', allowed K text = .ok ml' ∧ ∀ P, toTry P ml' = toTry P ml := by
  unfold MeansMechs at h
  cases text with
  | none => rw [h]; exact ⟨none, rfl, fun P => rfl⟩
  | some text =>
    rcases h with ⟨rfl, rfl⟩ | ⟨ms, rfl, h1, h2⟩
    · exact ⟨none, rfl, fun P => rfl⟩
    · have hne : ms ≠ [] := by
        intro h; rw [h] at h2; exact h2.1 rfl
      refine ⟨some (pyDedup ms), ?_, fun P => toTry_dedup P hne⟩
      unfold allowed
      rw [(CStatesCmd.mechsOpt_means (K.mechs.map mechName) h2).1 (fun m hm => by
        obtain ⟨x, hx, rfl⟩ := List.mem_map.1 hm
        exact List.mem_map_of_mem (h1 x hx))]
      dsimp only
      rw [pyDedup_map_inj mechName (fun x y h => mechName_inj h), List.filterMap_map]
      congr 2
      have : ∀ l : List Mech, (∀ m ∈ l, m ∈ K.mechs) →
          l.filterMap ((fun n => K.mechs.find? fun m => mechName m = n) ∘ mechName) = l := by
        intro l hl
        induction l with
        | nil => rfl
        | cons x l ih =>
          rw [List.filterMap_cons, show ((fun n => K.mechs.find? fun m => mechName m = n) ∘ mechName) x = some x from
            find_mech (hl x List.mem_cons_self)]
          dsimp only
          rw [ih fun m hm => hl m (List.mem_cons_of_mem _ hm)]
      exact this _ fun m hm => h1 m (mem_pyDedup.1 hm)

theorem allowed_unknown {K : Cls σ Q} {text : PyStr} {ms : List PyStr} (h : CStatesCmd.MeansMechs text ms)
    (hm : ∃ m ∈ ms, ∀ x ∈ K.mechs, mechName x ≠ m) : allowed K (some text) = .error .notSupported := by
  unfold allowed
  rw [(CStatesCmd.mechsOpt_means (K.mechs.map mechName) h).2]
  obtain ⟨m, h1, h2⟩ := hm
  refine ⟨m, h1, fun hx => ?_⟩
  obtain ⟨x, hx, e⟩ := List.mem_map.1 hx
  exact h2 x hx e

theorem same_plain {i : Info} {a a' : OpTarget.Args} (hs : HotplugCmd.Same a a') {sc : Scope} (h : Plain i a sc) :
    Plain i a' sc := by
  obtain ⟨n, n', e1, e2, hn⟩ := hs.cores
  obtain ⟨m, m', e3, e4, hm⟩ := hs.dies
  refine ⟨fun hne => h.modules ((HotplugCmd.ne_nil_congr hs.modSib).1 hne), fun he p u hd hex => ?_, fun he p hp hex hc => ?_⟩
  · obtain ⟨c, k1, k2⟩ := h.dies he p u (by
      rcases hd with ⟨k1, k2⟩ | ⟨k1, k2, k3⟩
      · refine .inl ⟨k1.imp hs.nothing.1 fun k => ?_, k2⟩
        rw [e4] at k
        rw [e3]
        exact (hs.picksUnit hm p u).1 k
      · refine .inr ⟨?_, (hs.packages.picks p).1 k2, k3⟩
        unfold OnlyPackages at k1 ⊢
        rw [hs.packages.given, hs.cpus.given, hs.modules.given, e2, e4, HotplugCmd.unitNumbers_toUnit,
          HotplugCmd.unitNumbers_toUnit, hn.unitGiven, hm.unitGiven] at k1
        rw [e1, e3, HotplugCmd.unitNumbers_toUnit, HotplugCmd.unitNumbers_toUnit]
        exact k1) hex
    exact ⟨c, k1, (hs.selected i c).2 k2⟩
  · obtain ⟨c, k1, k2⟩ := h.packages he p (by
      unfold PkgIn at hp ⊢
      rw [hs.packages.picks, hs.packages.given, hs.nothing, hs.perPackage] at hp
      exact hp) hex hc
    exact ⟨c, k1, (hs.selected i c).2 k2⟩

/-- The target, when the options mean something. -/
theorem target_same {i : Info} (wf : WF i) {o : HotplugCmd.Opts} {a : OpTarget.Args} (hw : HotplugCmd.Written o a) :
    (¬ Valid i a → ∃ e, CStatesCmd.target i o = .error e) ∧
    (Valid i a → ∃ a' t ca, CStatesCmd.target i o = .ok (t, ca) ∧ init i a' = .ok (t, ca) ∧ HotplugCmd.Same a a') := by
  obtain ⟨a', h1, hs⟩ := HotplugCmd.toArgs_written hw
  unfold CStatesCmd.target
  rw [h1]
  dsimp only
  constructor
  · intro hV
    exact ⟨_, OpTarget.C52_refuses i wf a' (fun h => hV ((hs.valid i).1 h))⟩
  · intro hV
    obtain ⟨⟨t, ca⟩, hi⟩ := (OpTarget.C52_accepts i wf a').2 ((hs.valid i).2 hV)
    exact ⟨a', t, ca, hi, hi, hs⟩

/-! ### Parts of the commands -/

theorem withUnit_means (K : Cls σ Q) (p text : PyStr) : Means K p text (withUnit K p text) := by
  unfold withUnit Means
  cases h1 : K.defUnit p with
  | none => exact ⟨fun _ => rfl, nofun⟩
  | some u =>
    cases h2 : K.numText text with
    | none => exact ⟨fun _ => rfl, nofun⟩
    | some n =>
      refine ⟨fun h => ?_, fun u' n' e1 e2 => ?_⟩
      · rcases h with h | h <;> cases h
      · cases e1; cases e2; rfl

theorem printOpts_asked (o : Dict PyStr (Option PyStr)) : printOpts o = asked o := by
  unfold printOpts asked
  induction o with
  | nil => rfl
  | cons x o ih =>
    rw [List.filterMap_cons, List.filter_cons]
    cases h : x.2 with
    | none => simp only [Option.isNone_none, if_true, List.map_cons, ih]
    | some v => simp only [Option.isNone_some, Bool.false_eq_true, if_false, ih]

theorem setOpts_given (o : Dict PyStr (Option PyStr)) : (setOpts o).map (·.1) = given o := by
  unfold setOpts given
  induction o with
  | nil => rfl
  | cons x o ih =>
    rw [List.filterMap_cons, List.filter_cons]
    cases h : x.2 with
    | none => simp only [Option.map_none, Option.isSome_none, Bool.false_eq_true, if_false, ih]
    | some v => simp only [Option.map_some, Option.isSome_some, if_true, List.map_cons, ih]

theorem mem_setOpts {o : Dict PyStr (Option PyStr)} {p text : PyStr} : (p, text) ∈ setOpts o ↔ (p, some text) ∈ o := by
  unfold setOpts
  rw [List.mem_filterMap]
  constructor
  · rintro ⟨⟨q, v⟩, h1, h2⟩
    cases v with
    | none => cases h2
    | some v => cases h2; exact h1
  · exact fun h => ⟨_, h, rfl⟩

theorem given_sub {o : Dict PyStr (Option PyStr)} {p : PyStr} (h : p ∈ given o) : p ∈ o.map (·.1) := by
  unfold given at h
  exact (List.filter_sublist.map _).subset h

theorem asked_sub {o : Dict PyStr (Option PyStr)} {p : PyStr} (h : p ∈ asked o) : p ∈ o.map (·.1) := by
  unfold asked at h
  exact (List.filter_sublist.map _).subset h

theorem given_nodup {o : Dict PyStr (Option PyStr)} (h : (o.map (·.1)).Nodup) : (given o).Nodup :=
  (List.filter_sublist.map _).nodup h

theorem asked_nodup {o : Dict PyStr (Option PyStr)} (h : (o.map (·.1)).Nodup) : (asked o).Nodup :=
  (List.filter_sublist.map _).nodup h

section

variable {H : Host Q} {S : Sys} {a : OpTarget.Args} {t : Tgt} {ca : Cache} {K : Cls σ Q} {Inv : σ → Prop}
  {R : PyStr → Nat → Val Q → X → Prop} {held hw : PyStr → σ → Nat → X}
  {rd : PyStr → Mech → Nat → X → Except Exn (Option (Val Q))}

/-- What is kept by every write asked for, is kept by setting. -/
theorem setBase_keeps (r : Ready H S a t ca) (hK : Contract H.i K Inv R held hw rd) {names : List PyStr}
    (hp : PlainFor H.i a K names) {mnames : Option (List Mech)} {todo : Dict PyStr (Val Q)}
    (htn : ∀ p v, todo.get? p = some v → p ∈ names) (I : σ → Prop)
    (hI : ∀ p x v m l s, todo.get? p = some x → K.norm p x = .ok v → (∀ d ∈ l, Selected H.i a d ∧ d ∈ H.i.online) → I s →
      I (K.set p m v l s).1) (p : PyStr) (g : Prog σ Q) (hl : ∀ q x, g.left.get? q = some x → todo.get? q = some x)
    (h : I g.s) :
    I (setBase (H.env (t, ca)) K mnames p g).1.s ∧
    ∀ q x, (setBase (H.env (t, ca)) K mnames p g).1.left.get? q = some x → todo.get? q = some x := by
  unfold setBase
  cases hv : g.left.get? p with
  | none => exact ⟨h, hl⟩
  | some v =>
    dsimp only
    cases hP : K.desc p with
    | none => exact ⟨h, hl⟩
    | some P =>
      dsimp only [Host.env]
      obtain ⟨hist, hh, hla⟩ := r.later t ca (.set p)
      rw [hla]
      have hk := (setPropSname_runs H.i r.sys.wf r.on a t ca r.init hist hh P (hp p (htn p v (hl p v hv)) P hP) (K.norm p)
        (K.set p) (hK.scopes p P hP) (some v) mnames g.s).keeps I
        (fun x w m l s e hn hm hs => by cases e; exact hI p v w m l s (hl p v hv) hn hm hs) h
      cases hx : (setPropSname H.i P (K.norm p) (K.set p) t (some v) mnames (calls H.i t ca hist) g.s).1 with
      | mk s1 y =>
        rw [hx] at hk
        cases y with
        | error e => exact ⟨hk, hl⟩
        | ok m =>
          refine ⟨hk, fun q x hq => ?_⟩
          dsimp only at hq
          rw [Dict.get?_erase] at hq
          split at hq
          · cases hq
          · exact hl q x hq

theorem setAll_keeps (r : Ready H S a t ca) (hK : Contract H.i K Inv R held hw rd) {names : List PyStr}
    (hp : PlainFor H.i a K names) {mnames : Option (List Mech)} {todo : Dict PyStr (Val Q)}
    (htn : ∀ p v, todo.get? p = some v → p ∈ names) (I : σ → Prop)
    (hI : ∀ p x v m l s, todo.get? p = some x → K.norm p x = .ok v → (∀ d ∈ l, Selected H.i a d ∧ d ∈ H.i.online) → I s →
      I (K.set p m v l s).1) (l : List PyStr) (g : Prog σ Q) (hl : ∀ q x, g.left.get? q = some x → todo.get? q = some x)
    (h : I g.s) :
    I (setAll (H.env (t, ca)) K mnames l g).1.s := by
  have hb := fun p g => setBase_keeps r hK hp (mnames := mnames) htn I hI p g
  have hone : ∀ p g, (∀ q x, g.left.get? q = some x → todo.get? q = some x) → I g.s →
      I (setOne (H.env (t, ca)) K mnames p g).1.s ∧
      ∀ q x, (setOne (H.env (t, ca)) K mnames p g).1.left.get? q = some x → todo.get? q = some x := by
    intro p g hl h
    have h1 := hb p g hl h
    unfold setOne
    cases hx : setBase (H.env (t, ca)) K mnames p g with
    | mk g1 x1 =>
      rw [hx] at h1
      cases x1 with
      | ok u => exact h1
      | error e =>
        dsimp only
        split
        · exact h1
        · split
          · exact h1
          · rename_i other _
            split
            · exact h1
            · have h2 := hb other g1 h1.2 h1.1
              cases hy : setBase (H.env (t, ca)) K mnames other g1 with
              | mk g2 x2 =>
                rw [hy] at h2
                cases x2 with
                | error e => exact h2
                | ok u => exact hb p g2 h2.2 h2.1
  induction l generalizing g with
  | nil => exact h
  | cons p l ih =>
    have h1 := hone p g hl h
    rw [setAll]
    cases hx : setOne (H.env (t, ca)) K mnames p g with
    | mk g1 x1 =>
      rw [hx] at h1
      cases x1 with
      | error e => exact h1.1
      | ok u => exact ih g1 h1.2 h1.1

theorem printSet_state (E : Env Q) (K : Cls σ Q) (used : Dict PyStr Mech) (l : List PyStr) (s : σ) :
    (printSet E K used l s).1 = s := by
  induction l with
  | nil => rfl
  | cons q l ih =>
    rw [printSet]
    unfold printUsed Step.andThen
    cases used.get? q with
    | none => rfl
    | some m =>
      dsimp only
      cases hps : printStep E K (some [m]) true false false (some "set to".toList) (some [q]) s with
      | mk s3 y =>
        have : s3 = s := (congrArg Prod.fst hps).symm
        subst this
        obtain ⟨ls, z⟩ := y
        cases z with
        | error e => rfl
        | ok u => exact ih

/-- What a property is to be set to. -/
def Sets (K : Cls σ Q) (R : PyStr → Nat → Val Q → X → Prop) (hw : PyStr → σ → Nat → X) (T : Nat → Prop)
    (opts : List (PyStr × PyStr)) (s : σ) : Prop :=
  ∀ p text, (p, text) ∈ opts → ∃ x v, Means K p text x ∧ K.norm p (.str x) = .ok v ∧ ∀ c, T c → R p c v (hw p s c)

theorem setProps_about (r : Ready H S a t ca) (hK : Contract H.i K Inv R held hw rd) (mnames : Option (List Mech))
    (opts : List (PyStr × PyStr)) (hn : (opts.map (·.1)).Nodup) (hp : PlainFor H.i a K (opts.map (·.1)))
    {s : σ} (hs : Inv s) (hc : ∀ p, held p s = hw p s) :
    (∀ p c, ¬ Selected H.i a c ∨ p ∉ opts.map (·.1) →
      hw p (setProps (H.env (t, ca)) K mnames opts s).1 c = hw p s c) ∧
    ((setProps (H.env (t, ca)) K mnames opts s).2.2 = .ok () →
      Sets K R hw (Selected H.i a) opts (setProps (H.env (t, ca)) K mnames opts s).1) ∧
    ((∀ p m v l s q, hw q (K.set p m v l s).1 = hw q s) →
      (∀ p, hw p (setProps (H.env (t, ca)) K mnames opts s).1 = hw p s) ∨
      Sets K R hw (Selected H.i a) opts (setProps (H.env (t, ca)) K mnames opts s).1 ∨
      (∃ s1 e, K.commit s1 = ((setProps (H.env (t, ca)) K mnames opts s).1, .error e)) ∧
        ∀ p text, (p, text) ∈ opts → ∃ x v, Means K p text x ∧ K.norm p (.str x) = .ok v) ∧
    ((∀ s, Inv s → Uniform (Selected H.i a) rd fun p c => hw p s c) → (setProps (H.env (t, ca)) K mnames opts s).2.2 = .ok () →
      ∃ told, TellsAbout S H K false (some "set to".toList) (Selected H.i a) (opts.map (·.1)) false
        (SetReading K rd (fun p c => hw p (setProps (H.env (t, ca)) K mnames opts s).1 c) mnames)
        (setProps (H.env (t, ca)) K mnames opts s).2.1 told) := by
  unfold setProps
  have hst := hK.start s
  have hinv := (hK.inv s hs).1
  cases h1 : K.start s with
  | mk s0 x0 =>
    rw [h1] at hst hinv
    dsimp only at hst hinv
    cases x0 with
    | error e =>
      exact ⟨fun p c _ => by rw [(hst p).2], nofun, fun _ => .inl fun p => (hst p).2, nofun⟩
    | ok u =>
      dsimp only
      -- The values to be set.
      obtain ⟨todo, htd⟩ : ∃ todo : Dict PyStr (Val Q),
          (opts.map fun x => (x.1, Val.str (withUnit K x.1 x.2))) = todo := ⟨_, rfl⟩
      rw [htd]
      have hkeys : todo.keys = opts.map (·.1) := by
        rw [← htd]; simp [Dict.keys, Function.comp_def]
      have hget : ∀ p text, (p, text) ∈ opts → todo.get? p = some (Val.str (withUnit K p text)) := by
        intro p text h
        refine Dict.get?_of_mem (by rw [hkeys]; exact hn) ?_
        rw [← htd]
        exact List.mem_map.2 ⟨_, h, rfl⟩
      have htn : ∀ p v, todo.get? p = some v → p ∈ opts.map (·.1) := by
        intro p v h
        rw [← hkeys]
        exact Classical.byContradiction fun hn => by
          rw [(Dict.get?_eq_none_iff todo p).2 hn] at h; cases h
      have hnt : ∀ p, p ∉ opts.map (·.1) → todo.get? p = none := by
        intro p h
        rw [← hkeys] at h
        exact (Dict.get?_eq_none_iff todo p).2 h
      have hgo : Going K Inv R held hw (Selected H.i a) mnames s0 todo ⟨s0, todo, []⟩ :=
        ⟨hinv, fun _ _ _ => ⟨rfl, rfl⟩, fun _ _ h => h, fun _ _ h => .inl h⟩
      have hbuf : (∀ p m v l s q, hw q (K.set p m v l s).1 = hw q s) →
          ∀ q, hw q (setAll (H.env (t, ca)) K mnames (opts.map (·.1)) ⟨s0, todo, []⟩).1.s = hw q s0 := fun hb q =>
        setAll_keeps r hK hp htn (fun s => hw q s = hw q s0) (fun p _ v m l s _ _ _ hs => (hb p m v l s q).trans hs) _ _
          (fun _ _ h => h) rfl
      cases h2 : setAll (H.env (t, ca)) K mnames (opts.map (·.1)) ⟨s0, todo, []⟩ with
      | mk g x =>
        rw [h2] at hbuf
        dsimp only at hbuf
        obtain ⟨g1, g2, -⟩ := setAll_going r hK hp mnames htn _ (fun _ h => h) hgo h2
        have hframe : ∀ p c, ¬ Selected H.i a c ∨ p ∉ opts.map (·.1) →
            held p g.s c = hw p g.s c ∧ hw p g.s c = hw p s c := by
          intro p c h
          obtain ⟨f1, f2⟩ := g1.frame p c (h.imp id (hnt p))
          rw [f1, f2, (hst p).1, (hst p).2, hc p]
          exact ⟨rfl, rfl⟩
        cases x with
        | error e =>
          exact ⟨fun p c h => (hframe p c h).2, nofun, fun hb => .inl fun p => (hbuf hb p).trans (hst p).2, nofun⟩
        | ok u =>
          dsimp only
          have hset : ∀ p text, (p, text) ∈ opts →
              WasSet K R held (Selected H.i a) mnames g.used g.s p (Val.str (withUnit K p text)) := by
            intro p text h
            rcases g1.todo p _ (hget p text h) with k | k
            · rw [g2 rfl p (List.mem_map.2 ⟨_, h, rfl⟩)] at k; cases k
            · exact k
          have hcm := hK.commit g.s g1.inv
          have hkp := hK.keeps g.s g1.inv
          have hin := (hK.inv g.s g1.inv).2.1
          cases h3 : K.commit g.s with
          | mk s2 x2 =>
            rw [h3] at hcm hkp hin
            dsimp only at hcm hkp hin
            have hfr2 : ∀ p c, ¬ Selected H.i a c ∨ p ∉ opts.map (·.1) → hw p s2 c = hw p s c := by
              intro p c h
              obtain ⟨f1, f2⟩ := hframe p c h
              rw [(hkp p c f1).2, f2]
            cases x2 with
            | error e =>
              refine ⟨hfr2, nofun, fun _ => .inr (.inr ⟨⟨g.s, e, h3⟩, fun p text h => ?_⟩), nofun⟩
              obtain ⟨m, P, w, k1, k2, k3, k4, k5, k6⟩ := hset p text h
              exact ⟨withUnit K p text, w, withUnit_means K p text, k5⟩
            | ok u =>
              dsimp only
              have hcm := hcm rfl
              have hpr := fun hu => printSet_about r hK hu hin mnames g.used (opts.map (·.1)) hn hp (by
                intro p hpn
                obtain ⟨⟨q, text⟩, hq, rfl⟩ := List.mem_map.1 hpn
                obtain ⟨m, P, w, k1, k2, k3, k4, -⟩ := hset q text hq
                exact ⟨m, P, k2, k1, k4, k3⟩)
              rw [printSet_state]
              have hS : Sets K R hw (Selected H.i a) opts s2 := by
                intro p text h
                obtain ⟨m, P, w, k1, k2, k3, k4, k5, k6⟩ := hset p text h
                refine ⟨withUnit K p text, w, withUnit_means K p text, k5, fun c hc => ?_⟩
                rw [(hcm p).2]
                exact k6 c hc
              refine ⟨hfr2, fun _ => hS, fun _ => .inr (.inl hS), fun hu hok => ?_⟩
              have heq : (fun p c => held p s2 c) = fun p c => hw p s2 c := by
                funext p c
                rw [(hcm p).1, (hcm p).2]
              have := (hpr (by rw [heq]; exact hu s2 hin)).2 hok
              rwa [heq] at this

theorem setProps_inv (r : Ready H S a t ca) (hK : Contract H.i K Inv R held hw rd) (mnames : Option (List Mech))
    (opts : List (PyStr × PyStr)) (hp : PlainFor H.i a K (opts.map (·.1))) (I : σ → Prop)
    (hI : ∀ p text v m l s, (p, text) ∈ opts → K.norm p (.str (withUnit K p text)) = .ok v →
      (∀ d ∈ l, Selected H.i a d ∧ d ∈ H.i.online) → I s → I (K.set p m v l s).1)
    (hst : ∀ s, I s → I (K.start s).1) (hcm : ∀ s, I s → I (K.commit s).1) {s : σ} (hs : I s) :
    I (setProps (H.env (t, ca)) K mnames opts s).1 := by
  unfold setProps
  have h0 := hst s hs
  cases h1 : K.start s with
  | mk s0 x0 =>
    rw [h1] at h0
    cases x0 with
    | error e => exact h0
    | ok u =>
      dsimp only
      obtain ⟨todo, htd⟩ : ∃ todo : Dict PyStr (Val Q),
          (opts.map fun x => (x.1, Val.str (withUnit K x.1 x.2))) = todo := ⟨_, rfl⟩
      rw [htd]
      have hval : ∀ p x, todo.get? p = some x → ∃ text, (p, text) ∈ opts ∧ x = .str (withUnit K p text) := by
        intro p x h
        have := Dict.mem_of_get? h
        rw [← htd] at this
        obtain ⟨⟨q, text⟩, h1, h2⟩ := List.mem_map.1 this
        cases h2
        exact ⟨text, h1, rfl⟩
      have hk := setAll_keeps r hK hp (mnames := mnames) (todo := todo) (fun p v h => by
          obtain ⟨text, h1, -⟩ := hval p v h
          exact List.mem_map.2 ⟨_, h1, rfl⟩) I (fun p x v m l s hx hv hd hs => by
          obtain ⟨text, h1, rfl⟩ := hval p x hx
          exact hI p text v m l s h1 hv hd hs) (opts.map (·.1)) ⟨s0, todo, []⟩ (fun _ _ h => h) h0
      cases h2 : setAll (H.env (t, ca)) K mnames (opts.map (·.1)) ⟨s0, todo, []⟩ with
      | mk g x =>
        rw [h2] at hk
        cases x with
        | error e => exact hk
        | ok u =>
          dsimp only
          have h4 := hcm g.s hk
          cases h3 : K.commit g.s with
          | mk s2 x2 =>
            rw [h3] at h4
            cases x2 with
            | error e => exact h4
            | ok u =>
              dsimp only
              rw [printSet_state]
              exact h4

/-! ### When it works -/

theorem finalRead_works (r : Ready H S a t ca) (hK : Contract H.i K Inv R held hw rd)
    {s : σ} (hu : Uniform (Selected H.i a) rd fun p c => held p s c) (hs : Inv s) {p : PyStr} (hp : PlainFor H.i a K [p]) {ml : Option (List Mech)}
    (hr : CanRead K rd (fun p c => held p s c) (Selected H.i a) ml p) (hsel : ∃ c, Selected H.i a c)
    (hoff : ∀ c, Selected H.i a c → c ∈ H.i.online) (hcpus : ∀ p, PkgEx H.i p → ∃ c, CpuWith H.i (InPackage p) c) :
    ∃ pvs, finalRead (readProp (H.env (t, ca)) K ml s) p = .ok pvs := by
  obtain ⟨P, sn, h1, h2, h3, h4, h5⟩ := hr.desc
  have hpl : Plain H.i a (scopeOf P.sname none) := hp p List.mem_cons_self P h1
  have hget : ∀ m l, K.get s p m l = readCpus ((fun m c => rd p m c (held p s c)) m) l := fun m l => hK.get s hs p m l
  have main : ∀ perCpu : Bool, (∃ pvs, readProp (H.env (t, ca)) K ml s p perCpu = .ok pvs) ∨
      (perCpu = false ∧ readProp (H.env (t, ca)) K ml s p perCpu = .error .usePerCPU) := by
    intro perCpu
    unfold readProp
    rw [h1]
    dsimp only [Host.env]
    obtain ⟨hist, hh, hl⟩ := r.later t ca (.get p perCpu)
    rw [hl]
    have hov : (if perCpu then some (Scope.lvl .CPU) else none) = none ∨
        (if perCpu then some (Scope.lvl .CPU) else none) = some (Scope.lvl .CPU) := by
      cases perCpu
      · exact .inl rfl
      · exact .inr rfl
    have hpl' : Plain H.i a (scopeOf (some sn) (if perCpu then some (Scope.lvl .CPU) else none)) := by
      rcases hov with h | h
      · rw [h, ← h2]; exact hpl
      · rw [h]; exact ⟨hpl.modules, nofun, nofun⟩
    have := C87_works_partial H.i r.sys.wf r.on a t ca r.init hist hh P sn h2 _ hov hpl' (K.get s p)
      (fun m c => rd p m c (held p s c)) hget ml h5 h4 (fun m _ c d hc hd he => hu p m c d hc hd he)
      (fun m _ c hc => hr.reads m c hc) hsel hoff hcpus (fun hd => by
        rcases hov with h | h
        · rw [h] at hd; exact absurd hd h3
        · rw [h] at hd; cases hd) _ rfl
    unfold results
    rcases this with h | ⟨h, h', -⟩
    · rw [h]; exact .inl ⟨_, rfl⟩
    · rw [h']
      refine .inr ⟨?_, rfl⟩
      cases perCpu
      · rfl
      · cases h
  unfold finalRead
  rcases main false with ⟨pvs, h⟩ | ⟨-, h⟩
  · rw [h]; exact ⟨pvs, rfl⟩
  · rw [h]
    rcases main true with ⟨pvs, h⟩ | ⟨h, -⟩
    · exact ⟨pvs, h⟩
    · cases h

theorem setAll_works (r : Ready H S a t ca) (hK : Contract H.i K Inv R held hw rd) {ml : Option (List Mech)} {val : PyStr → Nat → X}
    (hsel : ∃ c, Selected H.i a c) (hoff : ∀ c, Selected H.i a c → c ∈ H.i.online) (l : List PyStr) (g : Prog σ Q)
    (hp : PlainFor H.i a K l) (hr : ∀ p ∈ l, CanRead K rd val (Selected H.i a) ml p) {Good : σ → Prop} (hg : Good g.s)
    (hset : ∀ p ∈ l, ∀ x, g.left.get? p = some x → CanSet H K Good a ml p x) :
    (setAll (H.env (t, ca)) K ml l g).2 = .ok () ∧ Good (setAll (H.env (t, ca)) K ml l g).1.s := by
  induction l generalizing g with
  | nil => exact ⟨rfl, hg⟩
  | cons p l ih =>
    rw [setAll]
    obtain ⟨P, sn, h1, h2, h3, h4, h5⟩ := (hr p List.mem_cons_self).desc
    have hone : ∃ g', setBase (H.env (t, ca)) K ml p g = (g', .ok ()) ∧ Good g'.s ∧
        ∀ q x, g'.left.get? q = some x → g.left.get? q = some x := by
      unfold setBase
      cases hx : g.left.get? p with
      | none => exact ⟨g, rfl, hg, fun _ _ h => h⟩
      | some x =>
        dsimp only
        rw [h1]
        dsimp only [Host.env]
        have hcs := hset p List.mem_cons_self x hx
        obtain ⟨P', sn', k1, k2, k3, k4, k5, k6, k7⟩ := hcs.desc
        obtain ⟨v, kv, ks⟩ := hcs.norm
        rw [h1] at k1
        cases k1
        rw [h2] at k2
        cases k2
        obtain ⟨hist, hh, hl⟩ := r.later t ca (.set p)
        rw [hl]
        obtain ⟨m, hm, hgd⟩ := C86_works_partial H.i r.sys.wf r.on a t ca r.init hist hh P sn h2 ⟨k3, k4⟩
          (by have := hp p List.mem_cons_self P h1; rw [h2] at this; exact this) k5 (hK.scopes p P h1 sn h2) hsel hoff
          (K.norm p) (K.set p) Good x v ks kv k6 ml (fun ml' e m hm => ⟨h5 ml' e m hm, k7 ml' e m hm⟩) h4
          (fun h => absurd h h3) g.s hg
        cases hy : (setPropSname H.i P (K.norm p) (K.set p) t (some x) ml (calls H.i t ca hist) g.s).1 with
        | mk s1 y =>
          rw [hy] at hm hgd
          dsimp only at hm
          subst hm
          refine ⟨_, rfl, hgd, fun q x' hq => ?_⟩
          dsimp only at hq
          rw [Dict.get?_erase] at hq
          split at hq
          · cases hq
          · exact hq
    obtain ⟨g', e1, e0, e2⟩ := hone
    have : setOne (H.env (t, ca)) K ml p g = (g', .ok ()) := by
      unfold setOne; rw [e1]
    rw [this]
    exact ih g' (fun q hq => hp q (List.mem_cons_of_mem _ hq)) (fun q hq => hr q (List.mem_cons_of_mem _ hq)) e0
      (fun q hq x hx => hset q (List.mem_cons_of_mem _ hq) x (e2 q x hx))

theorem printSet_works (r : Ready H S a t ca) (hK : Contract H.i K Inv R held hw rd)
    {s : σ} (hu : Uniform (Selected H.i a) rd fun p c => held p s c) (hs : Inv s) {ml : Option (List Mech)} (used : Dict PyStr Mech)
    (hsel : ∃ c, Selected H.i a c) (hoff : ∀ c, Selected H.i a c → c ∈ H.i.online)
    (hcpus : ∀ p, PkgEx H.i p → ∃ c, CpuWith H.i (InPackage p) c)
    (l : List PyStr) (hp : PlainFor H.i a K l) (hr : ∀ p ∈ l, CanRead K rd (fun p c => held p s c) (Selected H.i a) ml p)
    (hused : ∀ p ∈ l, ∃ m P, used.get? p = some m ∧ K.desc p = some P ∧ P.writable = true ∧ m ∈ toTry P ml) :
    (printSet (H.env (t, ca)) K used l s).2.2 = .ok () := by
  induction l with
  | nil => rfl
  | cons p l ih =>
    have ih := ih (fun q hq => hp q (List.mem_cons_of_mem _ hq)) (fun q hq => hr q (List.mem_cons_of_mem _ hq))
      (fun q hq => hused q (List.mem_cons_of_mem _ hq))
    obtain ⟨m, P, u1, u2, u3, u4⟩ := hused p List.mem_cons_self
    rw [printSet]
    unfold printUsed
    rw [u1]
    dsimp only
    obtain ⟨pi, hpi, hpw⟩ : ∃ pi, K.props.get? p = some pi ∧ pi.writable = true := by
      have := hK.table p
      rw [u2] at this
      cases hx : K.props.get? p with
      | none => rw [hx] at this; cases this
      | some pi =>
        rw [hx] at this
        exact ⟨pi, rfl, (Option.some.inj this).symm.trans u3⟩
    have hnm : HumanPrint.Named K.props true (some [p]) [p] := by
      refine ⟨[p], fun l' e => ?_, nofun, ?_⟩
      · cases e
        refine ⟨rfl, fun n hn => ?_⟩
        rw [List.mem_singleton.1 hn]
        exact ⟨pi, hpi⟩
      · rw [List.filter_cons_of_pos]
        · rfl
        · rw [hpi]
          simpa using hpw
    have hpp : PlainFor H.i a K [p] := fun q hq => hp q (by rw [List.mem_singleton.1 hq]; exact List.mem_cons_self)
    have hcr : CanRead K rd (fun p c => held p s c) (Selected H.i a) (some [m]) p := by
      obtain ⟨P', sn, h1, h2, h3, h4, h5⟩ := (hr p List.mem_cons_self).desc
      rw [u2] at h1
      cases h1
      refine ⟨⟨P, sn, u2, h2, h3, h4, fun l' e m' hm' => ?_⟩, (hr p List.mem_cons_self).reads⟩
      cases e
      rw [List.mem_singleton.1 hm']
      cases ml with
      | none => exact u4
      | some l' =>
        cases l' with
        | nil => exact u4
        | cons y l' => exact h5 _ rfl m (mem_pyDedup.1 u4)
    have hone := printOut_about r hK hu hs (some [m]) true false false (some "set to".toList) (some [p]) hnm
      (List.nodup_singleton p) hpp
    unfold Step.andThen printStep
    rcases hone with ⟨e, -, q, hq, h⟩ | ⟨lines, n, told, h, -⟩
    · rw [List.mem_singleton.1 hq] at h
      obtain ⟨pvs, hpvs⟩ := finalRead_works r hK hu hs hpp hcr hsel hoff hcpus
      exact absurd hpvs (h pvs)
    · rw [h]
      exact ih

end

end Verif.PropsCmd
