import Verif.Lemmas.RestoreFreqs
import Verif.Lemmas.RestoreWorks
import Verif.Props.PropsCmd

/-!
C99: the 'save' and 'restore' commands for properties, for any class of properties which keeps the contract of C97.
-/

namespace Verif.RestoreCmd

open CPUInfo OpTarget
open PropsBase (Mech PropDesc)
open PropsYaml (SName TNums Entry File)
open HumanPrint (Val Sys)
open PropsCmd (Cls Host TellsAbout Reading Contract Later Uniform PlainFor)
open HotplugCmd (Written)

variable {σ Q X : Type} [DecidableEq Q] {H : Host Q} {S : Sys} {K : Cls σ Q} {Inv : σ → Prop}
  {R : PyStr → Nat → Val Q → X → Prop} {held hw : PyStr → σ → Nat → X}
  {rd : PyStr → Mech → Nat → X → Except Exn (Option (Val Q))}

/-- C99 (nothing else changes): whether or not the 'restore' command succeeds, a property of a CPU changes only if the file has
an entry for the property (or, for frequencies, for the other property of the pair) and the CPU. What is missing: files with
entries for units which are not of the scope of the property, or with numbers which cannot be understood. -/
theorem C99_frame_partial (hS : S.Of H.i) (hon : H.i.online ≠ []) (hF : ∀ p n, H.F.unitInt p n ≠ []) (hl : Later H)
    (hK : Contract H.i K Inv R held hw rd) {l : Loaded (Val Q)} {f : File (Val Q)} (hf : l.Is f)
    (hp : ∀ x ∈ entries f, Proper K x) {s : σ} (hs : Inv s) (hc : ∀ p, held p s = hw p s) (p : PyStr) (c : Nat)
    (h : ∀ x ∈ entries f, Touches K x.1 p → ¬ NamesCpu H.i x.2 c) :
    hw p (restoreCmd H K (some (.ok l)) s).1 c = hw p s c := by
  rw [← items_entries] at hp h
  unfold restoreCmd
  dsimp only
  cases hv : validate K.props.keys l with
  | error e => rfl
  | ok f' =>
    obtain rfl := is_unique hf ((validate_iff).1 hv).1
    exact (restoreProps_ok hS hon hF hl hK (fun x hx => (hp x hx).fine.1) hs hc).frame p c fun x hx ht => by
      rw [(hp x hx).fine.2]
      exact h x hx ht

/-- C99 (what is in the file is restored): when the 'restore' command succeeds, every entry of the file took effect for every
CPU it names, except for CPUs a later entry for the property (or, for frequencies, for the other property of the pair) names
too. If there are no such later entries, the command tells for each entry what the CPUs have now. What is missing: files with
entries for units which are not of the scope of the property. -/
theorem C99_restore_partial (hS : S.Of H.i) (hon : H.i.online ≠ []) (hF : ∀ p n, H.F.unitInt p n ≠ []) (hl : Later H)
    (hK : Contract H.i K Inv R held hw rd) {l : Loaded (Val Q)} {f : File (Val Q)} (hf : l.Is f)
    (hp : ∀ x ∈ entries f, Proper K x) {s s' : σ} {lines : List PyStr} (hs : Inv s) (hc : ∀ p, held p s = hw p s)
    (h : restoreCmd H K (some (.ok l)) s = (s', lines, .ok ())) :
    (∀ pre x post, entries f = pre ++ x :: post → ∀ c, (∀ z ∈ post, Touches K z.1 x.1 → ¬ NamesCpu H.i z.2 c) →
      Restored H.i K R (fun p c => hw p s' c) x c) ∧
    ((∀ x ∈ entries f, ∀ s, Inv s → Uniform (NamesCpu H.i x.2) rd fun p c => held p s c) →
      (entries f).Pairwise (Apart H.i K) →
      ∃ parts : List (List PyStr), lines = parts.flatten ∧ List.Forall₂ (fun x part => ∃ told,
        TellsAbout S H K false (some "restored to".toList) (NamesCpu H.i x.2) [x.1] false
          (Reading K rd (fun p c => hw p s' c) none) part told) (entries f) parts) := by
  rw [← items_entries] at hp ⊢
  unfold restoreCmd at h
  dsimp only at h
  cases hv : validate K.props.keys l with
  | error e => rw [hv] at h; cases h
  | ok f' =>
    obtain rfl := is_unique hf ((validate_iff).1 hv).1
    rw [hv] at h
    dsimp only at h
    have hr := restoreProps_ok hS hon hF hl hK (fun x hx => (hp x hx).fine.1) hs hc
    rw [h] at hr
    have hon : ∀ x ∈ items f, On H.i x = NamesCpu H.i x.2 := fun x hx => (hp x hx).fine.2 H.i
    refine ⟨fun pre x post e c hpost hx => ?_, fun hu ha => ?_⟩
    · obtain ⟨v, y, d1, d2, d3⟩ := hr.done rfl pre x post e
      refine ⟨v, y, d1, d2, d3 c (by rw [hon x (by rw [e]; simp)]; exact hx) fun z hz ht => ?_⟩
      rw [hon z (by rw [e]; simp [hz])]
      exact hpost z hz ht
    · obtain ⟨parts, k1, k2⟩ := hr.told rfl (fun x hx => by rw [hon x hx]; exact hu x hx)
        (ha.imp_of_mem fun {x y} hx hy h => by rw [hon x hx, hon y hy]; exact h)
      refine ⟨parts, k1, forall₂_imp_mem (fun x p hx h => ?_) k2⟩
      rw [hon x hx] at h
      exact h

/-- C99 (all or nothing): if a class writes nothing before the commit, the 'restore' command changes nothing in the system, or
every entry of the file takes effect, or the commit failed after all the entries were accepted. -/
theorem C99_all_or_nothing_partial (hS : S.Of H.i) (hon : H.i.online ≠ []) (hF : ∀ p n, H.F.unitInt p n ≠ []) (hl : Later H)
    (hK : Contract H.i K Inv R held hw rd) {l : Loaded (Val Q)} {f : File (Val Q)} (hf : l.Is f)
    (hp : ∀ x ∈ entries f, Proper K x) (hb : ∀ p m v l s q, hw q (K.set p m v l s).1 = hw q s)
    {s : σ} (hs : Inv s) (hc : ∀ p, held p s = hw p s) :
    (∀ p, hw p (restoreCmd H K (some (.ok l)) s).1 = hw p s) ∨
    (∀ pre x post, entries f = pre ++ x :: post → ∀ c, (∀ z ∈ post, Touches K z.1 x.1 → ¬ NamesCpu H.i z.2 c) →
      Restored H.i K R (fun p c => hw p (restoreCmd H K (some (.ok l)) s).1 c) x c) ∨
    (∃ s1 e, K.commit s1 = ((restoreCmd H K (some (.ok l)) s).1, .error e)) ∧
      ∀ x ∈ entries f, ∃ v w, x.2.value = some v ∧ K.norm x.1 v = .ok w := by
  rw [← items_entries] at hp ⊢
  unfold restoreCmd
  dsimp only
  cases hv : validate K.props.keys l with
  | error e => exact .inl fun _ => rfl
  | ok f' =>
    obtain rfl := is_unique hf ((validate_iff).1 hv).1
    dsimp only
    have hon : ∀ x ∈ items f, On H.i x = NamesCpu H.i x.2 := fun x hx => (hp x hx).fine.2 H.i
    refine ((restoreProps_ok hS ‹_› hF hl hK (fun x hx => (hp x hx).fine.1) hs hc).once hb).imp id (Or.imp ?_ id)
    intro he pre x post e c hpost hx
    obtain ⟨v, y, d1, d2, d3⟩ := he pre x post e
    refine ⟨v, y, d1, d2, d3 c (by rw [hon x (by rw [e]; simp)]; exact hx) fun z hz ht => ?_⟩
    rw [hon z (by rw [e]; simp [hz])]
    exact hpost z hz ht

/-- C99 (invariants): what every write the file asks for keeps, and what transactions keep, the 'restore' command keeps,
whether or not it succeeds. -/
theorem C99_invariant_partial (hS : S.Of H.i) (hK : Contract H.i K Inv R held hw rd) {l : Loaded (Val Q)} {f : File (Val Q)}
    (hf : l.Is f) (hp : ∀ x ∈ entries f, Proper K x) (I : σ → Prop)
    (hI : ∀ x ∈ entries f, ∀ q v y m cs s, Touches K x.1 q → (q = x.1 → x.2.value = some v) → K.norm q v = .ok y →
      (∀ d ∈ cs, NamesCpu H.i x.2 d ∧ d ∈ H.i.online) → I s → I (K.set q m y cs s).1)
    (hst : ∀ s, I s → I (K.start s).1) (hcm : ∀ s, I s → I (K.commit s).1) {s : σ} (hs : I s) :
    I (restoreCmd H K (some (.ok l)) s).1 := by
  rw [← items_entries] at hp hI
  unfold restoreCmd
  dsimp only
  cases hv : validate K.props.keys l with
  | error e => exact hs
  | ok f' =>
    obtain rfl := is_unique hf ((validate_iff).1 hv).1
    refine restoreProps_keeps hS.wf hK (fun x hx => (hp x hx).fine.1) I (fun x hx q v y m cs s k1 k2 k3 k4 k5 => ?_) hst hcm hs
    rw [(hp x hx).fine.2] at k4
    exact hI x hx q v y m cs s k1 k2 k3 k4 k5

/-- C99 (bad files): if there is no file, the file cannot be loaded, or it is not a dictionary of known properties with lists of
entries which have a value and one scope, the 'restore' command fails, changes nothing, and tells nothing. -/
theorem C99_bad (loaded : Option (Except Exn (Loaded (Val Q))))
    (h : ∀ l, loaded = some (.ok l) → ¬ ∃ f, l.Is f ∧ ∀ x ∈ f, x.1 ∈ K.props.keys) (s : σ) :
    ∃ e, restoreCmd H K loaded s = (s, [], .error e) := by
  unfold restoreCmd
  match loaded with
  | none => exact ⟨_, rfl⟩
  | some (.error e) => exact ⟨_, rfl⟩
  | some (.ok l) =>
    dsimp only
    cases hv : validate K.props.keys l with
    | error e => exact ⟨_, rfl⟩
    | ok f => exact absurd ⟨f, (validate_iff).1 hv⟩ (h l rfl)

/-- C99 (saving and restoring): when the 'save' command succeeds in one state and the 'restore' command succeeds with this file
in another state, every writable property which had a value has this value again, for all the CPUs it was saved for. What is
missing: properties of a pair of frequencies. -/
theorem C99_saved_partial (hS : S.Of H.i) (hon : H.i.online ≠ []) (hF : ∀ p n, H.F.unitInt p n ≠ []) (hl : Later H)
    (hK : Contract H.i K Inv R held hw rd)
    (hpair : ∀ p q P P', K.freqs = true → Paired p q → K.desc p = some P → K.desc q = some P' → P'.sname = P.sname)
    {o : HotplugCmd.Opts} {a : OpTarget.Args} (hw' : Written o a) (hp : PlainFor H.i a K K.props.keys) (hn : K.props.keys.Nodup)
    {s1 : σ} (hu : Uniform (Selected H.i a) rd fun p c => hw p s1 c) (hs1 : Inv s1) (hc1 : ∀ p, held p s1 = hw p s1)
    {f : File (Val Q)} (hsave : saveCmd H K o s1 = .ok f) {s2 s3 : σ} {lines : List PyStr} (hs2 : Inv s2)
    (hc2 : ∀ p, held p s2 = hw p s2) (hrestore : restoreCmd H K (some (.ok (dumped f))) s2 = (s3, lines, .ok ()))
    {p : PyStr} {pi : HumanPrint.PropInfo} (hpi : K.props.get? p = some pi) (hpw : pi.writable = true)
    (hnp : K.freqs = true → ∀ q, ¬ Paired q p) {c : Nat} (hsel : Selected H.i a c) {v : Val Q} {m : PyStr}
    (hv : Reading K rd (fun p c => hw p s1 c) none p c (some v) m) :
    ∃ y, K.norm p v = .ok y ∧ R p c y (hw p s3 c) := by
  have heq : (fun p c => held p s1 c) = fun p c => hw p s1 c := by
    funext p c; rw [hc1]
  have hsf := saveCmd_file hS hon hF hl hK hw' hp hn (by rw [heq]; exact hu) hs1 hsave
  rw [heq] at hsf
  rw [restore_saved hsf] at hrestore
  have hr := restoreProps_ok hS hon hF hl hK (saved_fine hK hpair hsf) hs2 hc2
  rw [hrestore] at hr
  obtain ⟨x0, k1, k2, k3⟩ := hsf.all p pi c v m hpi hpw hsel hv
  obtain ⟨pre, x, post, e, ⟨rfl, hx⟩, hpost⟩ := exists_last (fun x => x.1 = p ∧ On H.i x c) ⟨x0, k1, k2, k3⟩
  obtain ⟨v', y, d1, d2, d3⟩ := hr.done rfl pre x post e
  obtain ⟨-, -, m', hm'⟩ := hsf.right x (by rw [e]; simp) c hx
  rw [reading_unique hm' hv] at d1
  cases d1
  refine ⟨y, d2, d3 c hx fun z hz ht hzc => ?_⟩
  rcases ht with ht | ⟨ht, hpq⟩
  · exact hpost z hz ⟨ht, hzc⟩
  · exact hnp ht _ hpq

/-- C99 (saving and restoring the frequencies of a pair): the minimum and the maximum frequency are restored too, though setting
one of them may need changing the other one first, and whatever the order of the two is in the file. What is missing: CPUs which
have one of the two but not the other. -/
theorem C99_saved_pair_partial (hS : S.Of H.i) (hon : H.i.online ≠ []) (hF : ∀ p n, H.F.unitInt p n ≠ []) (hl : Later H)
    (hK : Contract H.i K Inv R held hw rd) {Conflict : PyStr → Val Q → X → Prop} (ho : Ordered H.i K Inv held Conflict)
    (hpair : ∀ p q P P', K.freqs = true → Paired p q → K.desc p = some P → K.desc q = some P' → P'.sname = P.sname)
    {o : HotplugCmd.Opts} {a : OpTarget.Args} (hw' : Written o a) (hp : PlainFor H.i a K K.props.keys) (hn : K.props.keys.Nodup)
    {s1 : σ} (hu : Uniform (Selected H.i a) rd fun p c => hw p s1 c) (hs1 : Inv s1) (hc1 : ∀ p, held p s1 = hw p s1)
    {f : File (Val Q)} (hsave : saveCmd H K o s1 = .ok f) {s2 s3 : σ} {lines : List PyStr} (hs2 : Inv s2)
    (hrestore : restoreCmd H K (some (.ok (dumped f))) s2 = (s3, lines, .ok ()))
    {p q : PyStr} (hpq : Paired q p) {pi : HumanPrint.PropInfo} (hpi : K.props.get? p = some pi) (hpw : pi.writable = true)
    (hall : ∀ c, Selected H.i a c → ∃ v m, Reading K rd (fun p c => hw p s1 c) none p c (some v) m)
    (hcon : ∀ c v m u m' y z x, Selected H.i a c → Reading K rd (fun p c => hw p s1 c) none p c (some v) m →
      Reading K rd (fun p c => hw p s1 c) none q c (some u) m' → K.norm p v = .ok y → K.norm q u = .ok z → R p c y x →
      ¬ Conflict q z x) {c : Nat} (hsel : Selected H.i a c) {v : Val Q} {m : PyStr}
    (hv : Reading K rd (fun p c => hw p s1 c) none p c (some v) m) :
    ∃ y, K.norm p v = .ok y ∧ R p c y (hw p s3 c) := by
  have heq : (fun p c => held p s1 c) = fun p c => hw p s1 c := by
    funext p c; rw [hc1]
  have hsf := saveCmd_file hS hon hF hl hK hw' hp hn (by rw [heq]; exact hu) hs1 hsave
  rw [heq] at hsf
  rw [restore_saved hsf] at hrestore
  unfold restoreProps CStatesCmd.Step.andThen at hrestore
  dsimp only at hrestore
  have hi := (hK.inv s2 hs2).1
  cases h0 : K.start s2 with
  | mk s0 y0 =>
    rw [h0] at hrestore hi
    cases y0 with
    | error e => cases hrestore
    | ok u =>
      dsimp only at hrestore hi
      have hr := restoreEntries_ok hS hon hF hl hK (saved_fine hK hpair hsf) hi
      have hpr := saved_pair hS hon hF hl hK ho hsf (saved_fine hK hpair hsf) hpq hpi hpw hall hcon hi (c := c) (v := v) (m := m)
      cases h1 : restoreEntries H K (items f) s0 with
      | mk s4 y1 =>
        obtain ⟨ls, z1⟩ := y1
        rw [h1] at hrestore hpr hr
        cases z1 with
        | error e => cases hrestore
        | ok u =>
          dsimp only at hrestore hpr hr
          have hcm : (K.commit s4).2 = .ok () := (Prod.mk.inj (Prod.mk.inj hrestore).2).2
          obtain ⟨y, g1, g2⟩ := hpr rfl hsel hv
          refine ⟨y, g1, ?_⟩
          rw [← (Prod.mk.inj hrestore).1, (hK.commit s4 hr.inv hcm p).2]
          exact g2

/-- C99 (restoring what was saved changes nothing else): whether or not restoring succeeds, a property of a CPU changes only if
the CPU is one of the CPUs which were saved, and the property (or, for frequencies, the other property of the pair) is writable
and had a value for this CPU. -/
theorem C99_saved_frame_partial (hS : S.Of H.i) (hon : H.i.online ≠ []) (hF : ∀ p n, H.F.unitInt p n ≠ []) (hl : Later H)
    (hK : Contract H.i K Inv R held hw rd)
    (hpair : ∀ p q P P', K.freqs = true → Paired p q → K.desc p = some P → K.desc q = some P' → P'.sname = P.sname)
    {o : HotplugCmd.Opts} {a : OpTarget.Args} (hw' : Written o a) (hp : PlainFor H.i a K K.props.keys) (hn : K.props.keys.Nodup)
    {s1 : σ} (hu : Uniform (Selected H.i a) rd fun p c => hw p s1 c) (hs1 : Inv s1) (hc1 : ∀ p, held p s1 = hw p s1)
    {f : File (Val Q)} (hsave : saveCmd H K o s1 = .ok f) {s2 : σ} (hs2 : Inv s2) (hc2 : ∀ p, held p s2 = hw p s2)
    (p : PyStr) (c : Nat)
    (h : ¬ Selected H.i a c ∨ ∀ q, Touches K q p → (∀ pi, K.props.get? q = some pi → pi.writable = false) ∨
      ∃ m, Reading K rd (fun p c => hw p s1 c) none q c none m) :
    hw p (restoreCmd H K (some (.ok (dumped f))) s2).1 c = hw p s2 c := by
  have heq : (fun p c => held p s1 c) = fun p c => hw p s1 c := by
    funext p c; rw [hc1]
  have hsf := saveCmd_file hS hon hF hl hK hw' hp hn (by rw [heq]; exact hu) hs1 hsave
  rw [heq] at hsf
  rw [restore_saved hsf]
  refine (restoreProps_ok hS hon hF hl hK (saved_fine hK hpair hsf) hs2 hc2).frame p c fun x hx ht hxc => ?_
  obtain ⟨r1, r2, m, r3⟩ := hsf.right x hx c hxc
  rcases h with h | h
  · exact h r1
  · rcases h x.1 ht with h | ⟨m', h⟩
    · obtain ⟨pi, e1, e2⟩ := hsf.writable x hx
      rw [h pi e1] at e2
      cases e2
    · exact r2 (reading_unique r3 h)

/-- C99 (restoring works): the 'restore' command succeeds if the file is a dictionary of known properties with lists of entries
which have a value and one scope, the CPUs and packages of every entry exist, are entire units of the scope of the property, the
property can be read, and its new value is accepted by the class. It is enough if one of a pair of frequencies is accepted when
the maximum is at its highest value, or the minimum is at its lowest value. What is missing: properties with die scope. -/
theorem C99_works_partial (hS : S.Of H.i) (hon : H.i.online ≠ []) (hF : ∀ p n, H.F.unitInt p n ≠ []) (hl : Later H)
    (hK : Contract H.i K Inv R held hw rd) (hcpus : ∀ p, PkgEx H.i p → ∃ c, CpuWith H.i (InPackage p) c) {Good : σ → Prop}
    (hstart : ∀ s, Good s → (K.start s).2 = .ok () ∧ Good (K.start s).1) (hcommit : ∀ s, Good s → (K.commit s).2 = .ok ())
    {l : Loaded (Val Q)} {f : File (Val Q)} (hf : l.Is f) (hk : ∀ x ∈ f, x.1 ∈ K.props.keys)
    (hp : ∀ x ∈ entries f, Proper K x ∧ (∃ w, Means x.2 w ∧ There H.i w) ∧
      CanRestore H.i K R rd held Good (NamesCpu H.i x.2) x.1 x.2.value) {s : σ} (hs : Inv s) (hg : Good s) :
    (restoreCmd H K (some (.ok l)) s).2.2 = .ok () := by
  rw [← items_entries] at hp
  unfold restoreCmd
  dsimp only
  rw [(validate_iff).2 ⟨hf, hk⟩]
  refine restoreProps_works hS hon hF hl hK hcpus hstart hcommit (fun x hx => ?_) hs hg
  obtain ⟨h1, ⟨w, h2, h3⟩, h4⟩ := hp x hx
  obtain ⟨w', k1, k2⟩ := h1.fine.1
  refine ⟨h1.fine.1, w', k1, fun P hP => k2 x.1 P (.inl rfl) hP, means_there h2 k1 h3, ?_⟩
  rw [← on_iff k1, h1.fine.2]
  exact h4

/-- C99 (saving works): the 'save' command succeeds if the options are valid and every writable property can be read. What is
missing: properties with die scope. -/
theorem C99_save_works_partial (hS : S.Of H.i) (hon : H.i.online ≠ []) (hF : ∀ p n, H.F.unitInt p n ≠ []) (hl : Later H)
    (hK : Contract H.i K Inv R held hw rd) (hcpus : ∀ p, PkgEx H.i p → ∃ c, CpuWith H.i (InPackage p) c)
    {o : HotplugCmd.Opts} {a : OpTarget.Args} (hw' : Written o a) (hV : Valid H.i a) (hp : PlainFor H.i a K K.props.keys)
    (hn : K.props.keys.Nodup) (hsel : ∃ c, Selected H.i a c) {s : σ} (hu : Uniform (Selected H.i a) rd fun p c => held p s c)
    (hs : Inv s) (hr : ∀ p pi, K.props.get? p = some pi → pi.writable = true →
      PropsCmd.CanRead K rd (fun p c => held p s c) (Selected H.i a) none p) :
    ∃ f, saveCmd H K o s = .ok f :=
  saveCmd_works hS hon hF hl hK hcpus hw' hV hp hn hu hs hr hsel
    fun _ hc => HotplugCmd.selected_online hS.wf hw'.2.2.2.2.2.2.2 hV hc

/-! ### Examples -/

section

open PropsCmd (ExSt exHost exCls exContract exR exRd exSt exUniform exLater exSet)

def exNorm (_ : PyStr) : Val Int → Except Exn (Val Int)
  | .num n => .ok (.num n)
  | .str t => if t = "max".toList then .ok (.num 100) else if t = "min".toList then .ok (.num 0) else .error .error
  | _ => .error .error

/-- The class of C97 with frequencies which are numbers, "min" or "max". -/
def exK : Cls ExSt Int := { exCls true with norm := exNorm }

theorem exK_contract : Contract exHost.i exK (fun _ => True) exR (fun p s c => s.held p c) (fun p s c => s.hw p c) exRd :=
  ⟨(exContract true).loc, (exContract true).others, (exContract true).get, (exContract true).start, (exContract true).commit,
    (exContract true).keeps, (exContract true).inv, (exContract true).unit, (exContract true).type, (exContract true).scopes,
    (exContract true).table⟩

/-- Two frequencies for all CPUs. -/
def exTwo (lo hi : Int) : ExSt :=
  let f := fun p (_ : Nat) => if p = "min_freq".toList then lo else if p = "max_freq".toList then hi else 20
  ⟨f, f⟩

/-- A file with a low and a high frequency, and a later entry for one of the CPUs. -/
def exFile : File (Val Int) :=
  [("min_freq".toList, [⟨some (.num 40), .CPU, .text "0-1".toList⟩, ⟨some (.num 45), .CPU, .text "1".toList⟩]),
   ("max_freq".toList, [⟨some (.num 50), .CPU, .text "0-1".toList⟩])]

theorem exLists1 : HotplugCmd.Lists "1".toList [1] :=
  ⟨[.one 1], by simp, by simp [HotplugCmd.Item.Ok], by decide +kernel, fun n => by simp [HotplugCmd.Item.Has]⟩

theorem exLists01 : HotplugCmd.Lists "0-1".toList [0, 1] :=
  ⟨[.range 0 1], by simp, by simp [HotplugCmd.Item.Ok], by decide +kernel, fun n => by
    simp [HotplugCmd.Item.Has]; omega⟩

theorem exFile_proper : ∀ x ∈ entries exFile, Proper exK x := by
  have he : entries exFile = [("min_freq".toList, ⟨some (.num 40), .CPU, .text "0-1".toList⟩),
    ("min_freq".toList, ⟨some (.num 45), .CPU, .text "1".toList⟩), ("max_freq".toList, ⟨some (.num 50), .CPU, .text "0-1".toList⟩)] := rfl
  rw [he]
  intro x hx
  simp only [List.mem_cons, List.not_mem_nil, or_false] at hx
  rcases hx with rfl | rfl | rfl
  · exact ⟨⟨.cpus [0, 1], rfl, _, rfl, exLists01⟩, fun _ _ _ _ => ⟨nofun, nofun⟩⟩
  · exact ⟨⟨.cpus [1], rfl, _, rfl, exLists1⟩, fun _ _ _ _ => ⟨nofun, nofun⟩⟩
  · exact ⟨⟨.cpus [0, 1], rfl, _, rfl, exLists01⟩, fun _ _ _ _ => ⟨nofun, nofun⟩⟩

/-- The hypotheses of C99_frame_partial, C99_restore_partial and C99_all_or_nothing_partial hold for the example. The maximum
frequency is lower than the new minimum frequency, so the maximum frequency is first set to "max". -/
example : HumanPrint.exSys.Of exHost.i ∧ exHost.i.online ≠ [] ∧ (∀ p n, exHost.F.unitInt p n ≠ []) ∧ Later exHost ∧
    Contract exHost.i exK (fun _ => True) exR (fun p s c => s.held p c) (fun p s c => s.hw p c) exRd ∧
    (dumped exFile).Is exFile ∧ (∀ x ∈ entries exFile, Proper exK x) ∧
    (∀ (x : PyStr × Entry (Val Int)) (s : ExSt), Uniform (NamesCpu exHost.i x.2) exRd fun p c => s.held p c) ∧
    (∀ p m v l s q, (exK.set p m v l s).1.hw q = s.hw q) ∧
    (∀ p, (fun c => (exTwo 10 30).held p c) = fun c => (exTwo 10 30).hw p c) ∧
    (restoreCmd exHost exK (some (.ok (dumped exFile))) (exTwo 10 30)).2 =
      (["Min. frequency: restored to 40 for CPUs 0,1".toList, "Min. frequency: restored to 45 for CPU 1".toList,
        "Max. frequency: restored to 50 for CPUs 0,1".toList], .ok ()) ∧
    [0, 1, 2].map ((restoreCmd exHost exK (some (.ok (dumped exFile))) (exTwo 10 30)).1.hw "min_freq".toList) = [40, 45, 10] ∧
    [0, 1, 2].map ((restoreCmd exHost exK (some (.ok (dumped exFile))) (exTwo 10 30)).1.hw "max_freq".toList) = [50, 50, 30] :=
  ⟨HumanPrint.exSys_of, by decide +kernel, fun _ n => HumanPrint.ofInt_ne_nil n, exLater, exK_contract, dumped_is _, exFile_proper,
    fun _ _ => exUniform _ _, fun p m v l s q => by
      show (exSet true p m v l s).1.hw q = _
      rw [(PropsCmd.exSet_held true p m v l s).1], fun _ => rfl, by decide +kernel, by decide +kernel, by decide +kernel⟩

/-- The entries for the maximum frequency and for the first CPU are apart. -/
example : [(("max_freq".toList, ⟨some (.num 50), .CPU, .text "0-1".toList⟩) : PyStr × Entry (Val Int))].Pairwise
    (Apart exHost.i exK) := List.pairwise_singleton _ _

/-- An invariant of the example, for any file with proper entries. -/
example (l : Loaded (Val Int)) (f : File (Val Int)) (hf : l.Is f) (hp : ∀ x ∈ entries f, Proper exK x) :
    PropsCmd.exOrdered (restoreCmd exHost exK (some (.ok l)) (exTwo 10 30)).1 :=
  C99_invariant_partial (S := HumanPrint.exSys) HumanPrint.exSys_of exK_contract hf hp PropsCmd.exOrdered
    (fun _ _ q _ y m cs s _ _ _ _ h => PropsCmd.exSet_ordered q m y cs s h) (fun _ h => h)
    (fun _ h c => ⟨(h c).1, (h c).1⟩) (fun c => by
      have : (exTwo 10 30).hw "min_freq".toList c = 10 ∧ (exTwo 10 30).hw "max_freq".toList c = 30 := by
        constructor <;> rfl
      exact ⟨by show (exTwo 10 30).hw _ c ≤ (exTwo 10 30).hw _ c; omega, by omega⟩)

/-- Bad files: no file, a list, an unknown property, no list for a property, no value, two scopes. -/
example : (∀ x ∈ ([none, some (.error .error), some (.ok .notDict),
      some (.ok (.dict [("speed".toList, .list [])])), some (.ok (.dict [("min_freq".toList, .notList)])),
      some (.ok (.dict [("min_freq".toList, .list [.dict none [(.CPU, .text "0".toList)]])])),
      some (.ok (.dict [("min_freq".toList, .list [.dict (some (some (.num 1))) [(.CPU, .text "0".toList), (.package, .text "0".toList)]])]))] :
      List (Option (Except Exn (Loaded (Val Int))))), (restoreCmd exHost exK x (exTwo 10 30)).2 = ([], .error .error)) := by
  decide +kernel

/-- Numbers which cannot be understood, and a CPU which does not exist. -/
example : (∀ t ∈ ["0-".toList, "99".toList], (restoreCmd exHost exK (some (.ok (dumped [("min_freq".toList,
      [⟨some (.num 1), .CPU, .text t⟩])]))) (exTwo 10 30)).2.2 ≠ .ok ()) := by
  decide +kernel

def exConflict (p : PyStr) (y : Val Int) (x : Int) : Prop :=
  match y with
  | .num n => (p = "min_freq".toList ∧ x < n) ∨ (p = "max_freq".toList ∧ n < x)
  | _ => False

theorem exOrdered : Ordered exHost.i exK (fun _ => True) (fun p s c => s.held p c) exConflict := by
  refine ⟨fun p x => ?_, fun p q m y l s hpq _ _ h => ?_⟩
  · show exNorm p x ≠ _
    unfold exNorm
    split
    · nofun
    · split
      · nofun
      · split <;> nofun
    · nofun
  · have h : (exSet true p m y l s).2 = .error .freqOrder := h
    unfold exSet at h
    split at h
    · rename_i n
      split at h
      · cases h
      · split at h
        · rename_i hb
          rw [Bool.true_and] at hb
          unfold PropsCmd.exBad at hb
          rw [Bool.or_eq_true] at hb
          rcases hb with hb | hb
          · obtain ⟨h1, h2⟩ := Bool.and_eq_true_iff.1 hb
            obtain ⟨d, hd, hlt⟩ := List.any_eq_true.1 h2
            have h1 : p = "min_freq".toList := of_decide_eq_true h1
            subst h1
            obtain rfl := paired_unique (q := "max_freq".toList) (.head _) hpq
            exact ⟨d, hd, .inl ⟨rfl, of_decide_eq_true hlt⟩⟩
          · obtain ⟨h1, h2⟩ := Bool.and_eq_true_iff.1 hb
            obtain ⟨d, hd, hlt⟩ := List.any_eq_true.1 h2
            have h1 : p = "max_freq".toList := of_decide_eq_true h1
            subst h1
            obtain rfl := paired_unique (q := "min_freq".toList) (.tail _ (.head _)) hpq
            exact ⟨d, hd, .inr ⟨rfl, of_decide_eq_true hlt⟩⟩
        · cases h
    · cases h

theorem exPlain : PlainFor exHost.i CStatesCmd.exTgt exK exK.props.keys :=
  fun _ _ _ _ => PropsTarget.plain_simple _ CPUInfo.exInfo_wf CStatesCmd.exTgt ⟨rfl, rfl⟩ (fun h : False => h.elim) _

/-- Save when the frequencies are 40 and 50, and restore when they are 10 and 30, or 60 and 70. -/
example : (∃ f, saveCmd exHost exK { cpus := some "0-1".toList } (exTwo 40 50) = .ok f ∧
    ∀ s ∈ [exTwo 10 30, exTwo 60 70], (restoreCmd exHost exK (some (.ok (dumped f))) s).2 =
      (["Min. frequency: restored to 40 for CPUs 0,1".toList, "Max. frequency: restored to 50 for CPUs 0,1".toList], .ok ())) := by
  exact ⟨[("min_freq".toList, [⟨some (.num 40), .CPU, .text "0,1".toList⟩]),
    ("max_freq".toList, [⟨some (.num 50), .CPU, .text "0,1".toList⟩])], by decide +kernel, by decide +kernel⟩

/-- The hypotheses of C99_saved_partial, C99_saved_pair_partial and C99_saved_frame_partial hold for the example: whatever the
frequencies are when restoring, the minimum frequency is 40 again. -/
example (s2 s3 : ExSt) (hc : ∀ p, s2.held p = s2.hw p) (lines : List PyStr) (f : File (Val Int))
    (hsave : saveCmd exHost exK { cpus := some "0-1".toList } (exTwo 40 50) = .ok f)
    (h : restoreCmd exHost exK (some (.ok (dumped f))) s2 = (s3, lines, .ok ())) : s3.hw "min_freq".toList 0 = 40 := by
  have hread : ∀ c, Reading exK exRd (fun p c => (exTwo 40 50).hw p c) none "min_freq".toList c (some (.num 40)) "sysfs".toList :=
    fun c => ⟨_, rfl, nofun, fun _ => ⟨.sysfs, by decide +kernel, .inl ⟨[.msr], [], by decide +kernel, fun m hm => by
      rw [List.mem_singleton.1 hm]; rfl, rfl⟩⟩⟩
  have hread' : ∀ c, Reading exK exRd (fun p c => (exTwo 40 50).hw p c) none "max_freq".toList c (some (.num 50)) "sysfs".toList :=
    fun c => ⟨_, rfl, nofun, fun _ => ⟨.sysfs, by decide +kernel, .inl ⟨[.msr], [], by decide +kernel, fun m hm => by
      rw [List.mem_singleton.1 hm]; rfl, rfl⟩⟩⟩
  have hpair : ∀ p q P P', exK.freqs = true → Paired p q → exK.desc p = some P → exK.desc q = some P' → P'.sname = P.sname := by
    intro p q P P' _ _ h1 h2
    rw [(PropsCmd.exDesc_cpu h1).1, (PropsCmd.exDesc_cpu h2).1]
  obtain ⟨y, h1, h2⟩ := C99_saved_pair_partial (S := HumanPrint.exSys) HumanPrint.exSys_of (by decide +kernel)
    (fun _ n => HumanPrint.ofInt_ne_nil n) exLater exK_contract exOrdered hpair CStatesCmd.exTgt_written exPlain (by decide +kernel)
    (s1 := exTwo 40 50) (exUniform _ _) trivial (fun _ => rfl) hsave (s2 := s2) trivial h
    (p := "min_freq".toList) (q := "max_freq".toList) (.tail _ (.head _)) rfl rfl (fun c _ => ⟨_, _, hread c⟩)
    (fun c v m u m' y z x _ e1 e2 n1 n2 r => by
      cases reading_unique e1 (hread c)
      cases reading_unique e2 (hread' c)
      cases n1
      cases n2
      cases r 40 rfl
      rintro (⟨h, -⟩ | ⟨-, h⟩)
      · revert h; decide +kernel
      · revert h; decide) PropsCmd.exSel0 (hread 0)
  cases h1
  exact h2 40 rfl

/-- A class without pairs of frequencies. -/
def exK' : Cls ExSt Int := { exCls false with norm := exNorm }

theorem exK'_contract : Contract exHost.i exK' (fun _ => True) exR (fun p s c => s.held p c) (fun p s c => s.hw p c) exRd :=
  ⟨(exContract false).loc, (exContract false).others, (exContract false).get, (exContract false).start, (exContract false).commit,
    (exContract false).keeps, (exContract false).inv, (exContract false).unit, (exContract false).type,
    (exContract false).scopes, (exContract false).table⟩

/-- The hypotheses of C99_saved_partial and C99_saved_frame_partial hold for the example. -/
example (s2 s3 : ExSt) (hc : ∀ p, s2.held p = s2.hw p) (lines : List PyStr) (f : File (Val Int))
    (hsave : saveCmd exHost exK' { cpus := some "0-1".toList } (exTwo 40 50) = .ok f)
    (h : restoreCmd exHost exK' (some (.ok (dumped f))) s2 = (s3, lines, .ok ())) :
    s3.hw "max_freq".toList 0 = 50 ∧ s3.hw "base_freq".toList 0 = s2.hw "base_freq".toList 0 := by
  have hread : Reading exK' exRd (fun p c => (exTwo 40 50).hw p c) none "max_freq".toList 0 (some (.num 50)) "sysfs".toList :=
    ⟨_, rfl, nofun, fun _ => ⟨.sysfs, by decide +kernel, .inl ⟨[.msr], [], by decide +kernel, fun m hm => by
      rw [List.mem_singleton.1 hm]; rfl, rfl⟩⟩⟩
  have hplain : PlainFor exHost.i CStatesCmd.exTgt exK' exK'.props.keys :=
    fun _ _ _ _ => PropsTarget.plain_simple _ CPUInfo.exInfo_wf CStatesCmd.exTgt ⟨rfl, rfl⟩ (fun h : False => h.elim) _
  obtain ⟨y, h1, h2⟩ := C99_saved_partial (S := HumanPrint.exSys) HumanPrint.exSys_of (by decide +kernel)
    (fun _ n => HumanPrint.ofInt_ne_nil n) exLater exK'_contract (fun _ _ _ _ h => nomatch h) CStatesCmd.exTgt_written hplain
    (by decide +kernel) (s1 := exTwo 40 50) (exUniform _ _) trivial (fun _ => rfl) hsave (s2 := s2) trivial hc h
    (p := "max_freq".toList) rfl rfl (fun h => nomatch h) PropsCmd.exSel0 hread
  have h3 := C99_saved_frame_partial (S := HumanPrint.exSys) HumanPrint.exSys_of (by decide +kernel)
    (fun _ n => HumanPrint.ofInt_ne_nil n) exLater exK'_contract (fun _ _ _ _ h => nomatch h) CStatesCmd.exTgt_written hplain
    (by decide +kernel) (s1 := exTwo 40 50) (exUniform _ _) trivial (fun _ => rfl) hsave (s2 := s2) trivial hc
    "base_freq".toList 0 (.inr fun q hq => by
      rcases hq with rfl | ⟨h, -⟩
      · exact .inl fun pi h => by cases h; rfl
      · cases h)
  rw [h] at h3
  cases h1
  exact ⟨h2 50 rfl, h3⟩

/-- Frequencies which packages have. -/
def exPkg : Cls ExSt Int :=
  { exK' with
    props := [("max_freq".toList, ⟨"Max. frequency".toList, .int, false, true⟩)]
    desc := fun p => if p = "max_freq".toList then some ⟨[.sysfs], some (.lvl .package), .lvl .package, true⟩ else none }

/-- What was saved cannot always be restored: a property of a package is saved for a part of the CPUs of the package if only these
CPUs were asked for, but it cannot be set for a part of the CPUs. -/
theorem C99_package_counterexample :
    saveCmd exHost exPkg { cpus := some "0".toList } (exTwo 40 50) =
      .ok [("max_freq".toList, [⟨some (.num 50), .CPU, .text "0".toList⟩])] ∧
    restoreCmd exHost exPkg (some (.ok (dumped [("max_freq".toList, [⟨some (.num 50), .CPU, .text "0".toList⟩])]))) (exTwo 10 30) =
      (exTwo 10 30, [], .error .error) := by
  exact ⟨by decide +kernel, rfl⟩

/-- A class with a commit which fails. -/
def exFails : Cls ExSt Int := { exK' with commit := fun s => (s, .error .error) }

/-- The command tells that a property was restored before the commit, which may fail then. -/
theorem C99_told_counterexample :
    (restoreCmd exHost exFails (some (.ok (dumped exFile))) (exTwo 10 30)).2 =
      (["Min. frequency: restored to 40 for CPUs 0,1".toList, "Min. frequency: restored to 45 for CPU 1".toList,
        "Max. frequency: restored to 50 for CPUs 0,1".toList], .error .error) ∧
    [0, 1].map ((restoreCmd exHost exFails (some (.ok (dumped exFile))) (exTwo 10 30)).1.hw "min_freq".toList) = [10, 10] := by
  decide +kernel

theorem exCpus (p : Nat) (hp : PkgEx CPUInfo.exInfo p) : ∃ c, CpuWith CPUInfo.exInfo (InPackage p) c := by
  have hall : ∀ t ∈ CPUInfo.exInfo.topology, t.package = NA ∨ t.package = 0 ∨ t.package = 1 := by decide +kernel
  obtain ⟨h0, t, ht, rfl⟩ := hp
  rcases hall t ht with h | h | h
  · exact absurd h h0
  · rw [h]; exact ⟨0, by decide, by unfold InPackage; decide +kernel⟩
  · rw [h]; exact ⟨2, by decide, by unfold InPackage; decide +kernel⟩

theorem exCanRead (T : Nat → Prop) (val : PyStr → Nat → Int) {p : PyStr} {P : PropDesc} (hP : PropsCmd.exDesc p = some P) :
    PropsCmd.CanRead exK' exRd val T none p := by
  obtain ⟨h1, -, h3⟩ := PropsCmd.exDesc_cpu hP
  refine ⟨⟨P, _, hP, h1, (nomatch ·), by rw [h3]; exact (nomatch ·), fun l h => nomatch h⟩, fun m c _ => ?_⟩
  unfold exRd
  split
  · exact .inl rfl
  · exact .inr ⟨_, rfl⟩

/-- The hypotheses of C99_works_partial hold for the example class without the check of the order. -/
example : (restoreCmd exHost exK' (some (.ok (dumped exFile))) (exTwo 10 30)).2.2 = .ok () := by
  refine C99_works_partial (S := HumanPrint.exSys) HumanPrint.exSys_of (by decide +kernel)
    (fun _ n => HumanPrint.ofInt_ne_nil n) exLater exK'_contract exCpus (Good := fun _ => True) (fun _ _ => ⟨rfl, trivial⟩)
    (fun _ _ => rfl) (dumped_is _) (by decide +kernel) ?_ trivial trivial
  have he : entries exFile = [("min_freq".toList, ⟨some (.num 40), .CPU, .text "0-1".toList⟩),
    ("min_freq".toList, ⟨some (.num 45), .CPU, .text "1".toList⟩), ("max_freq".toList, ⟨some (.num 50), .CPU, .text "0-1".toList⟩)] := rfl
  rw [he]
  intro x hx
  have h0 : ∀ c ∈ [0, 1], c ∈ exHost.i.online := by decide +kernel
  have can : ∀ p n T, PropsCmd.exDesc p = some ⟨[.msr, .sysfs], some (.lvl .CPU), .lvl .CPU, true⟩ →
      CanRestore exHost.i exK' exR exRd (fun p s c => s.held p c) (fun _ => True) T p (some (.num n)) := by
    intro p n T hP
    refine ⟨⟨_, .lvl .CPU, hP, rfl, (nomatch ·), (nomatch ·), (nomatch ·), (nomatch ·), rfl, fun c d hc hcd => PropsCmd.ex_same hcd ▸ hc⟩,
      ⟨.num n, .num n, rfl, rfl, .inl fun m l s _ _ => ⟨rfl, trivial⟩⟩, fun s _ => ⟨exCanRead T _ hP, exUniform _ _⟩⟩
  simp only [List.mem_cons, List.not_mem_nil, or_false] at hx
  rcases hx with rfl | rfl | rfl
  · exact ⟨⟨⟨.cpus [0, 1], rfl, _, rfl, exLists01⟩, fun _ _ _ _ => ⟨nofun, nofun⟩⟩,
      ⟨.cpus [0, 1], ⟨rfl, _, rfl, exLists01⟩, by simp, h0⟩, can _ _ _ rfl⟩
  · exact ⟨⟨⟨.cpus [1], rfl, _, rfl, exLists1⟩, fun _ _ _ _ => ⟨nofun, nofun⟩⟩,
      ⟨.cpus [1], ⟨rfl, _, rfl, exLists1⟩, by simp, by decide +kernel⟩, can _ _ _ rfl⟩
  · exact ⟨⟨⟨.cpus [0, 1], rfl, _, rfl, exLists01⟩, fun _ _ _ _ => ⟨nofun, nofun⟩⟩,
      ⟨.cpus [0, 1], ⟨rfl, _, rfl, exLists01⟩, by simp, h0⟩, can _ _ _ rfl⟩

/-- A class with the check of the order, and with the same mechanism for everything. -/
def exK2 : Cls ExSt Int := { exK with set := fun p _ y l s => exSet true p .sysfs y l s }

theorem exK2_contract : Contract exHost.i exK2 (fun _ => True) exR (fun p s c => s.held p c) (fun p s c => s.hw p c) exRd :=
  ⟨fun p P hP => ⟨fun _ v l s => ((exContract true).loc p P hP).1 .sysfs v l s, fun _ v l s => ((exContract true).loc p P hP).2 .sysfs v l s⟩,
    fun p q _ v l s => (exContract true).others p q .sysfs v l s, (exContract true).get, (exContract true).start,
    (exContract true).commit, (exContract true).keeps, fun _ _ => ⟨trivial, trivial, fun _ _ _ _ _ => trivial⟩,
    (exContract true).unit, (exContract true).type, (exContract true).scopes, (exContract true).table⟩

/-- All the frequencies are between 0 and 100. -/
def exGood (s : ExSt) : Prop := ∀ c, s.held "min_freq".toList c ≤ 100 ∧ 0 ≤ s.held "max_freq".toList c

theorem exK2_set (p : PyStr) (n : Int) (h0 : 0 ≤ n) (h1 : n ≤ 100) (l : List Nat) (s : ExSt) (hg : exGood s) :
    exGood (exSet true p .sysfs (.num n) l s).1 := by
  rcases (PropsCmd.exSet_held true p .sysfs (.num n) l s).2.1 with h | ⟨n', e, h⟩
  · unfold exGood
    rw [h]
    exact hg
  · cases e
    unfold exGood
    rw [h]
    intro c
    dsimp only
    refine ⟨?_, ?_⟩
    · split
      · exact h1
      · exact (hg c).1
    · split
      · exact h0
      · exact (hg c).2

theorem exSet_iff (p : PyStr) (n : Int) (l : List Nat) (s : ExSt) :
    ((exSet true p .sysfs (.num n) l s).2 = .ok () ∨ (exSet true p .sysfs (.num n) l s).2 = .error .freqOrder) ∧
    (PropsCmd.exBad p n l s = false → (exSet true p .sysfs (.num n) l s).2 = .ok ()) := by
  unfold exSet
  dsimp only
  rw [if_neg (by decide)]
  cases h : PropsCmd.exBad p n l s
  · exact ⟨.inl rfl, fun _ => rfl⟩
  · exact ⟨.inr rfl, fun h => nomatch h⟩

theorem exWritable (T : Nat → Prop) {p : PyStr} (hP : PropsCmd.exDesc p = some ⟨[.msr, .sysfs], some (.lvl .CPU), .lvl .CPU, true⟩) :
    Writable exHost.i exK2 T p :=
  ⟨_, .lvl .CPU, hP, rfl, (nomatch ·), (nomatch ·), (nomatch ·), (nomatch ·), rfl, fun _ _ hc hcd => PropsCmd.ex_same hcd ▸ hc⟩

theorem exNotBad_min (n : Int) (l : List Nat) (s : ExSt) (h : ∀ d ∈ l, n ≤ s.held "max_freq".toList d) :
    PropsCmd.exBad "min_freq".toList n l s = false := by
  unfold PropsCmd.exBad
  rw [Bool.or_eq_false_iff]
  constructor
  · rw [Bool.and_eq_false_iff]
    refine .inr (List.any_eq_false.2 fun d hd => ?_)
    have := h d hd
    simp only [decide_eq_true_eq]
    omega
  · rw [Bool.and_eq_false_iff]
    exact .inl (by decide +kernel)

theorem exNotBad_max (n : Int) (l : List Nat) (s : ExSt) (h : ∀ d ∈ l, s.held "min_freq".toList d ≤ n) :
    PropsCmd.exBad "max_freq".toList n l s = false := by
  unfold PropsCmd.exBad
  rw [Bool.or_eq_false_iff]
  constructor
  · rw [Bool.and_eq_false_iff]
    exact .inl (by decide +kernel)
  · rw [Bool.and_eq_false_iff]
    refine .inr (List.any_eq_false.2 fun d hd => ?_)
    have := h d hd
    simp only [decide_eq_true_eq]
    omega

theorem exReorders_min (n : Int) (h0 : 0 ≤ n) (h1 : n ≤ 100) (T : Nat → Prop) :
    Reorders exHost.i exK2 exR (fun p s c => s.held p c) exGood T "min_freq".toList (.num n) :=
  ⟨rfl, "max_freq".toList, "max".toList, .num 100, .head _, exWritable T rfl, rfl,
    fun _ l s _ hg => ⟨(exSet_iff _ n l s).1, exK2_set _ n h0 h1 l s hg⟩,
    fun _ l s _ hg => ⟨(exSet_iff _ 100 l s).2 (exNotBad_max 100 l s fun d _ => (hg d).1),
      exK2_set _ 100 (by decide) (by decide) l s hg⟩,
    fun _ l s _ _ hr => (exSet_iff _ n l s).2 (exNotBad_min n l s fun d hd => by
      rw [show s.held "max_freq".toList d = 100 from hr d hd 100 rfl]; exact h1)⟩

theorem exReorders_max (n : Int) (h0 : 0 ≤ n) (h1 : n ≤ 100) (T : Nat → Prop) :
    Reorders exHost.i exK2 exR (fun p s c => s.held p c) exGood T "max_freq".toList (.num n) :=
  ⟨rfl, "min_freq".toList, "min".toList, .num 0, .tail _ (.head _), exWritable T rfl, rfl,
    fun _ l s _ hg => ⟨(exSet_iff _ n l s).1, exK2_set _ n h0 h1 l s hg⟩,
    fun _ l s _ hg => ⟨(exSet_iff _ 0 l s).2 (exNotBad_min 0 l s fun d _ => (hg d).2),
      exK2_set _ 0 (by decide) (by decide) l s hg⟩,
    fun _ l s _ _ hr => (exSet_iff _ n l s).2 (exNotBad_max n l s fun d hd => by
      rw [show s.held "min_freq".toList d = 0 from hr d hd 0 rfl]; exact h0)⟩

/-- The hypotheses of C99_works_partial hold for the example class with the check of the order, whatever the frequencies are. -/
example (s : ExSt) (hg : exGood s) : (restoreCmd exHost exK2 (some (.ok (dumped exFile))) s).2.2 = .ok () := by
  refine C99_works_partial (S := HumanPrint.exSys) HumanPrint.exSys_of (by decide +kernel)
    (fun _ n => HumanPrint.ofInt_ne_nil n) exLater exK2_contract exCpus (Good := exGood) (fun _ h => ⟨rfl, h⟩)
    (fun _ _ => rfl) (dumped_is _) (by decide +kernel) ?_ trivial hg
  have he : entries exFile = [("min_freq".toList, ⟨some (.num 40), .CPU, .text "0-1".toList⟩),
    ("min_freq".toList, ⟨some (.num 45), .CPU, .text "1".toList⟩), ("max_freq".toList, ⟨some (.num 50), .CPU, .text "0-1".toList⟩)] := rfl
  rw [he]
  intro x hx
  have h0 : ∀ c ∈ [0, 1], c ∈ exHost.i.online := by decide +kernel
  have hread : ∀ p T, PropsCmd.exDesc p = some ⟨[.msr, .sysfs], some (.lvl .CPU), .lvl .CPU, true⟩ → ∀ s, exGood s →
      PropsCmd.CanRead exK2 exRd (fun p c => s.held p c) T none p ∧ Uniform T exRd fun p c => s.held p c :=
    fun p T hP s _ => ⟨⟨(exCanRead T (fun p c => s.held p c) hP).desc, (exCanRead T (fun p c => s.held p c) hP).reads⟩, exUniform _ _⟩
  simp only [List.mem_cons, List.not_mem_nil, or_false] at hx
  rcases hx with rfl | rfl | rfl
  · exact ⟨⟨⟨.cpus [0, 1], rfl, _, rfl, exLists01⟩, fun _ _ _ _ => ⟨nofun, nofun⟩⟩,
      ⟨.cpus [0, 1], ⟨rfl, _, rfl, exLists01⟩, by simp, h0⟩, exWritable _ rfl,
      ⟨_, .num 40, rfl, rfl, .inr (exReorders_min 40 (by decide) (by decide) _)⟩, hread _ _ rfl⟩
  · exact ⟨⟨⟨.cpus [1], rfl, _, rfl, exLists1⟩, fun _ _ _ _ => ⟨nofun, nofun⟩⟩,
      ⟨.cpus [1], ⟨rfl, _, rfl, exLists1⟩, by simp, by decide +kernel⟩, exWritable _ rfl,
      ⟨_, .num 45, rfl, rfl, .inr (exReorders_min 45 (by decide) (by decide) _)⟩, hread _ _ rfl⟩
  · exact ⟨⟨⟨.cpus [0, 1], rfl, _, rfl, exLists01⟩, fun _ _ _ _ => ⟨nofun, nofun⟩⟩,
      ⟨.cpus [0, 1], ⟨rfl, _, rfl, exLists01⟩, by simp, h0⟩, exWritable _ rfl,
      ⟨_, .num 50, rfl, rfl, .inr (exReorders_max 50 (by decide) (by decide) _)⟩, hread _ _ rfl⟩

/-- The hypotheses of C99_save_works_partial hold for the example. -/
example : ∃ f, saveCmd exHost exK' { cpus := some "0-1".toList } (exTwo 40 50) = .ok f := by
  refine C99_save_works_partial (S := HumanPrint.exSys) HumanPrint.exSys_of (by decide +kernel)
    (fun _ n => HumanPrint.ofInt_ne_nil n) exLater exK'_contract exCpus CStatesCmd.exTgt_written ?_ exPlain (by decide +kernel)
    ⟨0, PropsCmd.exSel0⟩ (exUniform _ _) trivial ?_
  · refine ⟨?_, (fun l h => by cases h), (fun l h => by cases h), trivial, trivial⟩
    rintro l hl c hc
    cases hl
    revert c
    decide +kernel
  · intro p pi hpi _
    have := exK'_contract.table p
    rw [hpi] at this
    cases hd : exK'.desc p with
    | none => rw [hd] at this; cases this
    | some P => exact exCanRead _ _ hd

end

end Verif.RestoreCmd
