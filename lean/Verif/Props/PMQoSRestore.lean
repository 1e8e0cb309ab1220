import Verif.Lemmas.PMQoSRestore
import Verif.Props.PMQoSRestoreSpec

/-!
C100: the 'pmqos save' and 'pmqos restore' commands, end to end: C99 for the PM QoS properties.
-/

namespace Verif.PMQoSRestore

open PyStr
open CPUInfo OpTarget
open Human (Flt)
open HumanPrint (Val Sys)
open PropsYaml (SName TNums Entry File)
open PropsTarget (Where)
open PropsCmd (Host Reading)
open RestoreCmd (Loaded entries restoreCmd saveCmd dumped NamesCpu Touches items)
open HotplugCmd (Written)
open PMQoS (Files Kernel setLoop)
open PMQoSCmd (Env On latency toUs)

variable {S : Sys} {H : Host Flt} {E : Env}

theorem holds_some {F : Files} {c n : Nat} (h : Holds F c n) : F c ≠ none := by
  obtain ⟨t, h, -⟩ := h
  rw [h]; exact nofun

theorem touches_eq {p q : PyStr} (h : Touches (cls E) p q) : p = q := h.resolve_right fun h => nomatch h.1

theorem namesCpu_iff {e : Entry (Val Flt)} (h : ForCpus e) {i : Info} {c : Nat} : NamesCpu i e c ↔ For e c := by
  constructor
  · rintro ⟨w, hm, ho⟩
    cases w with
    | cpus l => obtain ⟨h1, t, h2, h3⟩ := hm; exact ⟨h1, t, l, h2, h3, ho⟩
    | packages l => have := h.1; rw [hm.1] at this; cases this
    | dies d => have := h.1; rw [hm.1] at this; cases this
  · rintro ⟨h1, t, l, h2, h3, h4⟩
    exact ⟨.cpus l, ⟨h1, t, h2, h3⟩, h4⟩

theorem proper {x : PyStr × Entry (Val Flt)} (h : ForCpus x.2) : RestoreCmd.Proper (cls E) x := by
  obtain ⟨h1, t, l, h2, h3⟩ := h
  refine ⟨⟨.cpus l, h1, t, h2, h3⟩, fun q P _ _ => ⟨fun h => ?_, fun h => ?_⟩⟩ <;> rw [h1] at h <;> cases h

theorem says_us (hf : IsRounding E.fl) {v : Val Flt} {n : Nat} (h : Says E.fl v n) (hn : n ≤ 2 ^ 44) {y : Val Flt}
    (hy : (cls E).norm latency v = .ok y) : ∃ f, y = .num f ∧ toUs E.fl f = .ok n := by
  cases h with
  | num n =>
    rw [norm_flt] at hy
    cases hy
    have := toUs_read hf hn
    rw [Int.cast_natCast] at this
    exact ⟨_, rfl, this⟩
  | text t n h hc =>
    obtain ⟨c, hc, hcc⟩ := hc
    obtain ⟨r, k1, k2⟩ := PMQoSCmd.stands_us E hf h hn (x := t) ⟨fun _ => rfl, fun u m _ k => by
      have := PMQoSCmd.numText_bad E hcc hc
      rw [show (PMQoSCmd.cls E).numText t = PMQoSCmd.numText E t from rfl, this] at k
      cases k⟩
    have : (cls E).norm latency = PMQoSCmd.norm E := PMQoSCmd.norm_latency E
    rw [this, k1] at hy
    cases hy
    exact ⟨_, rfl, k2⟩

theorem right_holds {c n : Nat} {F : Files} {f : Flt} (hu : toUs E.fl f = .ok (n : Int))
    (h : Right E latency c (.num f) (hw latency F c)) : Holds F c n := by
  obtain ⟨-, f', us, t, e, h2, h3, h4⟩ := h
  cases e
  rw [hu] at h2
  cases h2
  exact ⟨t, by rw [← h3]; exact (if_pos rfl).symm, h4⟩

/-- C100 (nothing else changes): whether or not the 'restore' command succeeds, the file of a CPU changes only if the saved file
has an entry for the CPU, and no files appear or disappear. What is missing: saved files with entries for packages or dies, or
with numbers which cannot be understood. -/
theorem C100_frame_partial (hon : On S H E) {l : Loaded (Val Flt)} {f : File (Val Flt)} (hl : l.Is f)
    (hx : ∀ x ∈ entries f, ForCpus x.2) (F : Files) (c : Nat) :
    ((∀ x ∈ entries f, x.1 = "latency_limit".toList → ¬ For x.2 c) →
      (restoreCmd H (cls E) (some (.ok l)) F).1 c = F c) ∧
    ((restoreCmd H (cls E) (some (.ok l)) F).1 c = none ↔ F c = none) := by
  refine ⟨fun h => ?_, ?_⟩
  · have := RestoreCmd.C99_frame_partial hon.sys hon.online hon.fmt_ne hon.later (contract H.i hon.sys.wf E) hl
      (fun x h => proper (hx x h)) (s := F) trivial (fun _ => rfl) latency c (fun x hm ht hn => by
        exact h x hm (touches_eq ht) ((namesCpu_iff (hx x hm)).1 hn))
    unfold hw at this
    rw [if_pos rfl, if_pos rfl] at this
    exact this
  · have := RestoreCmd.C99_invariant_partial hon.sys (contract H.i hon.sys.wf E) hl (fun x h => proper (hx x h)) (Inv F)
      (fun x _ q v y m cs s _ _ _ _ h => set_inv E q m y cs h) (fun _ h => h) (fun _ h => h) (s := F) (fun _ => rfl)
    have := this c
    cases h1 : (restoreCmd H (cls E) (some (.ok l)) F).1 c <;> cases h2 : F c <;> rw [h1, h2] at this <;> simp_all

/-- C100 (what is in the file is restored): when the 'restore' command succeeds, the file of every CPU has the number of
microseconds which the last entry for the CPU says. What is missing: entries for packages or dies. -/
theorem C100_restore_partial (hf : IsRounding E.fl) (hon : On S H E) {l : Loaded (Val Flt)} {f : File (Val Flt)} (hl : l.Is f)
    (hx : ∀ x ∈ entries f, ForCpus x.2) {F F' : Files} {lines : List PyStr}
    (h : restoreCmd H (cls E) (some (.ok l)) F = (F', lines, .ok ())) {pre post : List (PyStr × Entry (Val Flt))}
    {e : Entry (Val Flt)} (he : entries f = pre ++ ("latency_limit".toList, e) :: post) {c : Nat} (hc : For e c)
    (hpost : ∀ z ∈ post, z.1 = "latency_limit".toList → ¬ For z.2 c) {v : Val Flt} (hv : e.value = some v) {n : Nat}
    (hn : n ≤ 2 ^ 44) (hs : Says E.fl v n) : Holds F' c n := by
  have hm : ("latency_limit".toList, e) ∈ entries f := by rw [he]; simp
  obtain ⟨v', y, k1, k2, k3⟩ := (RestoreCmd.C99_restore_partial hon.sys hon.online hon.fmt_ne hon.later
    (contract H.i hon.sys.wf E) hl (fun x h => proper (hx x h)) (s := F) trivial (fun _ => rfl) h).1 pre
    (latency, e) post he c (fun z hz ht hzc => hpost z hz (touches_eq ht)
      ((namesCpu_iff (hx z (by rw [he]; simp [hz]))).1 hzc)) ((namesCpu_iff (hx _ hm)).2 hc)
  rw [show e.value = some v from hv] at k1
  cases k1
  obtain ⟨fl', rfl, hu⟩ := says_us hf hs hn k2
  exact right_holds hu k3

/-- C100 (saving and restoring): after limits were saved and restored, with anything in between, the file of every CPU which was
saved has the number again which it had when saving. All of the CPUs have files, or none of them has one. -/
theorem C100_saved (hf : IsRounding E.fl) (hon : On S H E) {o : HotplugCmd.Opts} {a : OpTarget.Args} (hw' : Written o a)
    (hm : a.modSib ≠ [] → ModulesUnique H.i) {F1 F2 F3 : Files} (hu : PMQoSCmd.Uniform (Selected H.i a) F1)
    {f : File (Val Flt)} (hsave : saveCmd H (cls E) o F1 = .ok f) {lines : List PyStr}
    (hrestore : restoreCmd H (cls E) (some (.ok (dumped f))) F2 = (F3, lines, .ok ())) {c n : Nat} (hsel : Selected H.i a c)
    (hn : n ≤ 2 ^ 44) (hc : Holds F1 c n) : Holds F3 c n := by
  obtain ⟨t, ht, hts⟩ := hc
  obtain ⟨pi, h1, h2⟩ := latency_info E
  have hv : Reading (cls E) (rd E) (fun p c => hw p F1 c) none latency c (some (.num (.fin (E.fl (((n : Nat) : Int) / 1000000)))))
      (PropsCmd.mechName .sysfs) := by
    refine ⟨_, PMQoSCmd.desc_latency, nofun, fun _ => ⟨.sysfs, rfl, .inl ⟨[], [], rfl, nofun, ?_⟩⟩⟩
    unfold rd hw
    dsimp only
    rw [if_pos rfl, ht]
    unfold PMQoSCmd.readCpu
    rw [if_pos rfl]
    unfold PMQoSCmd.readText
    dsimp only [Option.map]
    rw [hts, Trivial.strToInt_ofNat]
    dsimp only
    unfold PMQoSCmd.toSec
    rw [Human.mkFlt_fin (by
      have h2 : (n : Rat) ≤ 17592186044416 := by exact_mod_cast hn
      rw [Int.cast_natCast, abs_of_nonneg (by positivity)]
      norm_num
      linarith)]
  obtain ⟨y, k1, k2⟩ := RestoreCmd.C99_saved_partial hon.sys hon.online hon.fmt_ne hon.later (contract H.i hon.sys.wf E)
    (fun _ _ _ _ h => nomatch h) hw' (plainFor hm _) (keys_nodup E) (uniform (F := F1) hu fun _ => rfl) trivial (fun _ => rfl)
    hsave (s2 := F2) trivial (fun _ => rfl) hrestore h1 h2 (fun h => nomatch h) hsel hv
  rw [norm_flt] at k1
  cases k1
  exact right_holds (toUs_read hf hn) k2

/-- C100 (restoring what was saved is safe): whether or not restoring succeeds, the file of a CPU has the text it had before, or
what the kernel stored for the number which was saved for this CPU. -/
theorem C100_safe (hf : IsRounding E.fl) (hon : On S H E) {o : HotplugCmd.Opts} {a : OpTarget.Args} (hw' : Written o a)
    (hm : a.modSib ≠ [] → ModulesUnique H.i) {F1 : Files} (hu : PMQoSCmd.Uniform (Selected H.i a) F1)
    (hnum : ∀ c, Selected H.i a c → F1 c ≠ none → ∃ n ≤ 2 ^ 44, Holds F1 c n)
    {f : File (Val Flt)} (hsave : saveCmd H (cls E) o F1 = .ok f) (F2 : Files) (c : Nat) :
    (restoreCmd H (cls E) (some (.ok (dumped f))) F2).1 c = F2 c ∨
    (Selected H.i a c ∧ F2 c ≠ none ∧ ∃ n t, Holds F1 c n ∧ E.K c (ofNat n) = .ok t ∧
      (restoreCmd H (cls E) (some (.ok (dumped f))) F2).1 c = some t) := by
  have hK := contract H.i hon.sys.wf E
  have hsf := RestoreCmd.saveCmd_file hon.sys hon.online hon.fmt_ne hon.later hK hw' (plainFor hm _) (keys_nodup E)
    (uniform (F := F1) hu fun _ => rfl) trivial hsave
  rw [RestoreCmd.restore_saved hsf]
  refine RestoreCmd.restoreProps_keeps hon.sys.wf hK (RestoreCmd.saved_fine hK (fun _ _ _ _ h => nomatch h) hsf)
    (fun F : Files => F c = F2 c ∨ (Selected H.i a c ∧ F2 c ≠ none ∧ ∃ n t, Holds F1 c n ∧ E.K c (ofNat n) = .ok t ∧ F c = some t))
    (fun x hx q v y m cs F k1 k2 k3 k4 k5 => ?_) (fun _ h => h) (fun _ h => h) (.inl rfl)
  obtain rfl := touches_eq k1
  have k2 := k2 rfl
  rcases set_cases E x.1 m y cs F with ⟨g, -⟩ | ⟨hp, fl', us, rfl, g2, g3⟩
  · have e : ((cls E).set x.1 m y cs F).1 = F := g
    rw [e]; exact k5
  · show (set E x.1 m (.num fl') cs F).1 c = F2 c ∨ (_ ∧ _ ∧ ∃ n t, _ ∧ _ ∧ (set E x.1 m (.num fl') cs F).1 c = some t)
    rw [g3]
    rcases setLoop_each E.K us cs F c with g | ⟨hc, hne, t, ht, g⟩
    · rw [g]; exact k5
    · refine .inr ?_
      obtain ⟨hsel, -, m', hr⟩ := hsf.right x hx c (k4 c hc).1
      have hne2 : F2 c ≠ none := by
        rcases k5 with k5 | k5
        · rw [← k5]; exact hne
        · exact k5.2.1
      rw [hp, k2] at hr
      rcases reading_shown hr with ⟨-, s1, s2⟩ | ⟨h, -⟩
      · have hF1 : F1 c ≠ none := fun h => nomatch s1 h
        obtain ⟨n, hn, t1, ht1, hs⟩ := hnum c hsel hF1
        obtain ⟨us', h1, h2⟩ := s2 t1 ht1
        rw [← Tpmi.strToInt_strip, hs, Trivial.strToInt_ofNat] at h1
        cases h1
        rw [hp, Option.some.inj h2, norm_flt] at k3
        cases k3
        rw [toUs_read hf hn] at g2
        cases g2
        exact ⟨hsel, hne2, n, t, ⟨t1, ht1, hs⟩, ht, g⟩
      · exact absurd h (by decide +kernel)

/-- C100 (restoring what was saved changes nothing else): whether or not restoring succeeds, the file of a CPU which was not
saved does not change. -/
theorem C100_saved_frame (hon : On S H E) {o : HotplugCmd.Opts} {a : OpTarget.Args} (hw' : Written o a)
    (hm : a.modSib ≠ [] → ModulesUnique H.i) {F1 : Files} (hu : PMQoSCmd.Uniform (Selected H.i a) F1)
    {f : File (Val Flt)} (hsave : saveCmd H (cls E) o F1 = .ok f) (F2 : Files) {c : Nat} (h : ¬ Selected H.i a c ∨ F1 c = none) :
    (restoreCmd H (cls E) (some (.ok (dumped f))) F2).1 c = F2 c := by
  have hK := contract H.i hon.sys.wf E
  have hsf := RestoreCmd.saveCmd_file hon.sys hon.online hon.fmt_ne hon.later hK hw' (plainFor hm _) (keys_nodup E)
    (uniform (F := F1) hu fun _ => rfl) trivial hsave
  rw [RestoreCmd.restore_saved hsf]
  have := (RestoreCmd.restoreProps_ok hon.sys hon.online hon.fmt_ne hon.later hK
    (RestoreCmd.saved_fine hK (fun _ _ _ _ h => nomatch h) hsf) (s := F2) trivial (fun _ => rfl)).frame latency c
    (fun x hx ht hxc => by
      obtain ⟨r1, r2, m, r3⟩ := hsf.right x hx c hxc
      rcases h with h | h
      · exact h r1
      · rw [touches_eq ht] at r3
        rcases reading_shown r3 with ⟨-, s1, -⟩ | ⟨h', -⟩
        · exact r2 (s1 h)
        · exact absurd h' (by decide +kernel))
  unfold hw at this
  rw [if_pos rfl, if_pos rfl] at this
  exact this

theorem canRead {T : Nat → Prop} {F : Files} (h : ∀ c, T c → ∃ n ≤ 2 ^ 44, Holds F c n) :
    PropsCmd.CanRead (cls E) (rd E) (fun p c => hw p F c) T none latency := by
  refine ⟨⟨_, _, PMQoSCmd.desc_latency, rfl, nofun, nofun, fun l h => nomatch h⟩, fun m c hc => .inr ?_⟩
  obtain ⟨n, hn, t, ht, hs⟩ := h c hc
  unfold rd hw PMQoSCmd.readCpu
  rw [if_pos rfl, if_pos rfl, ht]
  unfold PMQoSCmd.readText
  dsimp only [Option.map]
  rw [hs, Trivial.strToInt_ofNat]
  dsimp only
  unfold PMQoSCmd.toSec
  rw [Human.mkFlt_fin (by
    have h2 : (n : Rat) ≤ 17592186044416 := by exact_mod_cast hn
    rw [Int.cast_natCast, abs_of_nonneg (by positivity)]
    norm_num
    linarith)]
  exact ⟨_, rfl⟩

/-- C100 (saving and restoring work): if the files of the CPUs have numbers, the 'save' command succeeds; if they also have
numbers when restoring, and the kernel stores the numbers which were saved, the 'restore' command succeeds. -/
theorem C100_works (hf : IsRounding E.fl) (hon : On S H E) {o : HotplugCmd.Opts} {a : OpTarget.Args} (hw' : Written o a)
    (hm : a.modSib ≠ [] → ModulesUnique H.i) (hV : Valid H.i a) (hex : ∃ c, Selected H.i a c)
    (hcpus : ∀ p, PkgEx H.i p → ∃ c, CpuWith H.i (InPackage p) c) {F1 F2 : Files}
    (h1 : ∀ c, Selected H.i a c → ∃ n ≤ 2 ^ 44, Holds F1 c n) :
    ∃ f, saveCmd H (cls E) o F1 = .ok f ∧
      ((∀ c, Selected H.i a c → ∃ n ≤ 2 ^ 44, Holds F2 c n) →
        (∀ c n, Selected H.i a c → Holds F1 c n → ∃ t, E.K c (ofNat n) = .ok t ∧ strip t = ofNat n) →
        (restoreCmd H (cls E) (some (.ok (dumped f))) F2).2.2 = .ok ()) := by
  have hK := contract H.i hon.sys.wf E
  have hu : PMQoSCmd.Uniform (Selected H.i a) F1 := fun c d hc _ h => absurd h (by
    obtain ⟨n, -, k⟩ := h1 c hc
    exact holds_some k)
  obtain ⟨f, hsave⟩ := RestoreCmd.C99_save_works_partial hon.sys hon.online hon.fmt_ne hon.later hK hcpus hw' hV (plainFor hm _)
    (keys_nodup E) hex (s := F1) (uniform (F := F1) hu fun _ => rfl) trivial (fun p pi k1 k2 => by
      rw [writable_latency k1 k2]; exact canRead h1)
  refine ⟨f, hsave, fun h2 hst => ?_⟩
  have hsf := RestoreCmd.saveCmd_file hon.sys hon.online hon.fmt_ne hon.later hK hw' (plainFor hm _) (keys_nodup E)
    (uniform (F := F1) hu fun _ => rfl) trivial hsave
  rw [RestoreCmd.restore_saved hsf]
  have hfine := RestoreCmd.saved_fine hK (fun _ _ _ _ h => nomatch h) hsf
  refine RestoreCmd.restoreProps_works hon.sys hon.online hon.fmt_ne hon.later hK hcpus
    (Good := fun F => ∀ c, Selected H.i a c → ∃ n ≤ 2 ^ 44, Holds F c n) (fun _ h => ⟨rfl, h⟩) (fun _ _ => rfl)
    (fun x hx => ⟨hfine x hx, ?_⟩) trivial h2
  obtain ⟨w, d1, d2, d3⟩ := hsf.does x hx
  obtain ⟨pi, p1, p2⟩ := hsf.writable x hx
  have hp := writable_latency p1 p2
  obtain ⟨p, e⟩ := x
  dsimp only at hp
  subst hp
  have hsu := d3 _ PMQoSCmd.desc_latency
  cases w with
  | packages l => exact absurd (hsu.packages l rfl) (by decide)
  | dies d => exact absurd (hsu.keys d rfl).2 (by decide)
  | cpus l =>
    have hon' : ∀ c, RestoreCmd.On H.i (latency, e) c ↔ c ∈ l := fun c => by
      rw [RestoreCmd.on_iff d1]; rfl
    have hsel : ∀ c ∈ l, Selected H.i a c := fun c hc => (hsf.right _ hx c ((hon' c).2 hc)).1
    refine ⟨_, d1, d3, ⟨d2, fun c hc => HotplugCmd.selected_online hon.sys.wf hw'.2.2.2.2.2.2.2 hV (hsel c hc)⟩, ?_⟩
    obtain ⟨c0, hc0⟩ := List.exists_mem_of_ne_nil _ d2
    obtain ⟨-, -, m, hr⟩ := hsf.right _ hx c0 ((hon' c0).2 hc0)
    have hval : ∀ c ∈ l, ∃ n ≤ 2 ^ 44, Holds F1 c n ∧ e.value = some (.num (.fin (E.fl (((n : Nat) : Int) / 1000000)))) := by
      intro c hc
      obtain ⟨-, -, m, hr⟩ := hsf.right _ hx c ((hon' c).2 hc)
      obtain ⟨n, hn, t, ht, hs⟩ := h1 c (hsel c hc)
      rcases reading_shown hr with ⟨-, -, s2⟩ | ⟨h', -⟩
      · obtain ⟨us, g1, g2⟩ := s2 t ht
        rw [← Tpmi.strToInt_strip, hs, Trivial.strToInt_ofNat] at g1
        cases g1
        exact ⟨n, hn, ⟨t, ht, hs⟩, g2⟩
      · exact absurd (show latency = PMQoSCmd.globalLatency from h') (by decide +kernel)
    obtain ⟨n, hn, hn1, hn2⟩ := hval c0 hc0
    have huniq : ∀ c ∈ l, Holds F1 c n := by
      intro c hc
      obtain ⟨n', hn', k1, k2⟩ := hval c hc
      rw [hn2] at k2
      have e1 : E.fl (((n : Nat) : Int) / 1000000) = E.fl (((n' : Nat) : Int) / 1000000) := by
        have := Option.some.inj k2
        injection this with this
        injection this
      have e2 := toUs_read hf hn
      rw [e1, toUs_read hf hn'] at e2
      have : n' = n := by exact_mod_cast (Except.ok.inj e2)
      rw [← this]; exact k1
    refine ⟨⟨_, _, PMQoSCmd.desc_latency, rfl, nofun, nofun, nofun, nofun, rfl, fun c d hc hcd => ?_⟩,
      ⟨_, _, hn2, norm_flt E _, Or.inl fun m cs F hcs hg => ?_⟩, fun F hg => ⟨canRead fun c hc => hg c (hsel c hc), ?_⟩⟩
    · rw [← PMQoSCmd.same_cpu hcd]; exact hc
    · have hset : (cls E).set latency m (.num (.fin (E.fl (((n : Nat) : Int) / 1000000)))) cs F = setLoop E.K true n cs F := by
        have : set E latency m (.num (.fin (E.fl (((n : Nat) : Int) / 1000000)))) cs F = setLoop E.K true n cs F := by
          unfold set
          rw [if_pos rfl]
          dsimp only
          rw [toUs_read hf hn]
        exact this
      rw [hset]
      refine ⟨setLoop_works _ _ _ _ (fun c hc => ?_) (fun c hc => hst c n (hsel c (hcs c hc)) (huniq c (hcs c hc))), fun c hc => ?_⟩
      · obtain ⟨n', -, k⟩ := hg c (hsel c (hcs c hc))
        exact holds_some k
      · rcases setLoop_each E.K n cs F c with g | ⟨g1, -, t, g2, g3⟩
        · obtain ⟨n', hn', t, k1, k2⟩ := hg c hc
          exact ⟨n', hn', t, by rw [g]; exact k1, k2⟩
        · obtain ⟨t', k1, k2⟩ := hst c n hc (huniq c (hcs c g1))
          have : t' = t := Except.ok.inj (k1.symm.trans g2)
          exact ⟨n, hn, t, g3, this ▸ k2⟩
    · refine uniform (F0 := F) (fun c d hc _ h => ?_) fun _ => rfl
      obtain ⟨n', -, k⟩ := hg c (hsel c hc)
      exact absurd h (holds_some k)

/-! ### Examples -/

open PMQoSCmd (exEnv exHost exFiles exRounding exOn)

/-- CPU 0 has a limit of 100 microseconds, other CPUs have 1500. -/
def exTwo : Files := fun c => if c = 0 then some "100\n".toList else some "1500\n".toList

/-- What is saved for CPUs 0 and 1. -/
def exSaved : File (Val Flt) :=
  [("latency_limit".toList, [⟨some (.num (.fin (1 / 10000))), .CPU, .text "0".toList⟩,
    ⟨some (.num (.fin (3 / 2000))), .CPU, .text "1".toList⟩])]

/-- Saving and restoring: what the commands do, and the hypotheses of C100_saved, C100_safe and C100_saved_frame. -/
example : saveCmd exHost (cls exEnv) { cpus := some "0-1".toList } exTwo = .ok exSaved ∧
    Written ({ cpus := some "0-1".toList } : HotplugCmd.Opts) CStatesCmd.exTgt ∧
    PMQoSCmd.Uniform (Selected exHost.i CStatesCmd.exTgt) exTwo ∧
    (∀ c, ∃ n ≤ 2 ^ 44, Holds exTwo c n) ∧
    (restoreCmd exHost (cls exEnv) (some (.ok (dumped exSaved))) (fun _ => some "7\n".toList)).2 =
      (["Linux per-CPU PM QoS latency limit: restored to 100.00us for CPU 0".toList,
        "Linux per-CPU PM QoS latency limit: restored to 1.50ms for CPU 1".toList], .ok ()) ∧
    [0, 1, 2].map (restoreCmd exHost (cls exEnv) (some (.ok (dumped exSaved))) (fun _ => some "7\n".toList)).1 =
      [some "100\n".toList, some "1500\n".toList, some "7\n".toList] := by
  refine ⟨by decide +kernel, CStatesCmd.exTgt_written, fun c d _ _ h => ?_, fun c => ?_, by decide +kernel, by decide +kernel⟩
  · unfold exTwo at h
    split at h <;> cases h
  · by_cases h : c = 0
    · exact ⟨100, by norm_num, _, if_pos h, by decide +kernel⟩
    · exact ⟨1500, by norm_num, _, if_neg h, by decide +kernel⟩

/-- The hypotheses of C100_works hold for the example. -/
example : ∃ f, saveCmd exHost (cls exEnv) { cpus := some "0-1".toList } exTwo = .ok f ∧
    (restoreCmd exHost (cls exEnv) (some (.ok (dumped f))) exFiles).2.2 = .ok () := by
  have hnum : ∀ c, ∃ n ≤ 2 ^ 44, Holds exTwo c n := by
    intro c
    by_cases h : c = 0
    · exact ⟨100, by norm_num, _, if_pos h, by decide +kernel⟩
    · exact ⟨1500, by norm_num, _, if_neg h, by decide +kernel⟩
  obtain ⟨f, h1, h2⟩ := C100_works (E := exEnv) (F1 := exTwo) (F2 := exFiles) exRounding exOn CStatesCmd.exTgt_written
    (fun h => absurd rfl h) (by
      refine ⟨?_, (fun l h => by cases h), (fun l h => by cases h), trivial, trivial⟩
      rintro l hl c hc
      cases hl
      revert c
      decide +kernel) ⟨0, PropsCmd.exSel0⟩ RestoreCmd.exCpus fun c _ => hnum c
  refine ⟨f, h1, h2 (fun c _ => ⟨100, by norm_num, _, rfl, by decide +kernel⟩) fun c n _ hn => ?_⟩
  have : ∀ n, n = 100 ∨ n = 1500 → ∃ t, exEnv.K c (ofNat n) = .ok t ∧ strip t = ofNat n := by
    rintro n (rfl | rfl)
    · exact ⟨_, rfl, by decide +kernel⟩
    · exact ⟨_, rfl, by decide +kernel⟩
  have hof : ∀ m, strip m ∈ ["100".toList, "1500".toList] → strip m = ofNat n → n = 100 ∨ n = 1500 := by
    intro m hm e
    rw [e] at hm
    simp only [List.mem_cons, List.not_mem_nil, or_false] at hm
    have k : ∀ k, ofNat n = ofNat k → n = k := by
      intro k hk
      have h1 := Trivial.strToInt_ofNat n
      rw [hk, Trivial.strToInt_ofNat] at h1
      exact_mod_cast (Except.ok.inj h1).symm
    exact hm.imp (fun h => k 100 (h.trans (by decide +kernel))) (fun h => k 1500 (h.trans (by decide +kernel)))
  obtain ⟨t, ht, hs⟩ := hn
  refine this n (hof t ?_ hs)
  by_cases h : c = 0
  · rw [show t = "100\n".toList from (Option.some.inj ((if_pos h).symm.trans ht)).symm]; decide +kernel
  · rw [show t = "1500\n".toList from (Option.some.inj ((if_neg h).symm.trans ht)).symm]; decide +kernel

/-- A file written by hand: 1.5 milliseconds for CPU 1, and then 100 microseconds for CPUs 0 and 1. -/
def exFile : File (Val Flt) :=
  [("latency_limit".toList, [⟨some (.str "1.5ms".toList), .CPU, .text "1".toList⟩,
    ⟨some (.num (.fin (1 / 10000))), .CPU, .text "0-1".toList⟩])]

/-- The hypotheses of C100_frame_partial and C100_restore_partial hold for the example, and what the command does. -/
example : (dumped exFile).Is exFile ∧ (∀ x ∈ entries exFile, ForCpus x.2) ∧
    (∀ c ∈ [0, 1], For ⟨some (.num (.fin (1 / 10000))), .CPU, .text "0-1".toList⟩ c) ∧
    Says exEnv.fl (.num (.fin (1 / 10000))) 100 ∧ Says exEnv.fl (.str "1.5ms".toList) 1500 ∧
    (restoreCmd exHost (cls exEnv) (some (.ok (dumped exFile))) (fun _ => some "7\n".toList)).2.2 = .ok () ∧
    [0, 1, 2].map (restoreCmd exHost (cls exEnv) (some (.ok (dumped exFile))) (fun _ => some "7\n".toList)).1 =
      [some "100\n".toList, some "100\n".toList, some "7\n".toList] := by
  refine ⟨RestoreCmd.dumped_is exFile, fun x hx => ?_, fun c hc => ⟨rfl, _, _, rfl, RestoreCmd.exLists01, hc⟩, ?_,
    .text _ _ PMQoSCmd.exStands ⟨'s', by decide +kernel, by decide +kernel⟩, by decide +kernel, by decide +kernel⟩
  · have hx : x ∈ [(("latency_limit".toList, ⟨some (.str "1.5ms".toList), .CPU, .text "1".toList⟩) : PyStr × Entry (Val Flt)),
      ("latency_limit".toList, ⟨some (.num (.fin (1 / 10000))), .CPU, .text "0-1".toList⟩)] := hx
    rcases List.mem_cons.1 hx with rfl | hx
    · exact ⟨rfl, _, _, rfl, RestoreCmd.exLists1⟩
    · rw [List.mem_singleton.1 hx]
      exact ⟨rfl, _, _, rfl, RestoreCmd.exLists01⟩
  · have := Says.num (fl := exEnv.fl) 100
    have e : exEnv.fl (((100 : Nat) : Rat) / 1000000) = 1 / 10000 := by
      show ((100 : Nat) : Rat) / 1000000 = 1 / 10000
      norm_num
    rw [e] at this
    exact this

/-- The 'restore' command is not atomic: when the kernel refuses to change the limit of a CPU, the limits of CPUs of earlier
entries are changed and stay changed. -/
theorem C100_atomic_counterexample :
    let E := { exEnv with K := fun c t => if c = 1 then .error .error else .ok (t ++ ['\n']) }
    let r := restoreCmd exHost (cls E) (some (.ok (dumped exSaved))) (fun _ => some "7\n".toList)
    r.2.2 = .error .error ∧ [0, 1].map r.1 = [some "100\n".toList, some "7\n".toList] := by
  decide +kernel

/-- The kernel has "n/a" in the file for the tightest limit, then limits cannot be saved, not even of the other CPUs. -/
theorem C100_na_counterexample :
    saveCmd exHost (cls exEnv) { cpus := some "0-1".toList } (fun c => if c = 1 then some "n/a\n".toList else some "7\n".toList) =
      .error .error := by
  decide +kernel

end Verif.PMQoSRestore
