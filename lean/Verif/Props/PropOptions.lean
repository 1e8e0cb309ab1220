import Verif.Lemmas.PropOptions
import Verif.Props.CmdLine

namespace Verif.PropOptions

open Spec

/-- The options of `config`. -/
abbrev configAll (c : Dispatch.Cls) : List Opt := configOthers c ++ configOptions (Dispatch.props c)

/-- The options of `info`. -/
abbrev infoAll (c : Dispatch.Cls) : List Opt := infoOthers c ++ infoOptions (subprops c) ((Dispatch.props c).map (·.name))

theorem config_known (c : Dispatch.Cls) : ∀ o ∈ configAll c, kind (configAll c) o.name = .opt o := by
  cases c <;> decide +kernel

theorem info_known (c : Dispatch.Cls) : ∀ o ∈ infoAll c, kind (infoAll c) o.name = .opt o := by
  cases c <;> decide +kernel

theorem config_glob (c : Dispatch.Cls) (g : CmdLine.Glob) (l : Bool) : kind (configAll c) (g.written l) = .unknown := by
  cases c <;> cases g <;> cases l <;> decide +kernel

theorem info_glob (c : Dispatch.Cls) (g : CmdLine.Glob) (l : Bool) : kind (infoAll c) (g.written l) = .unknown := by
  cases c <;> cases g <;> cases l <;> decide +kernel

theorem proper_names (c : Dispatch.Cls) : ∀ q ∈ Dispatch.props c, '-' ∉ q.name ∧ q.name.head? ≠ some '_' := by
  cases c <;> decide +kernel

def nargsOf : Takes → Nargs
  | .nothing => .zero
  | .value => .one
  | .atMostOne => .maybe

def Spec.Other.opt (o : Other) : Opt := ⟨o.option.toList, o.attr.toList, nargsOf o.takes, o.ordered⟩

theorem config_other (c : Dispatch.Cls) : ∀ o ∈ configOther c, o.opt ∈ configOthers c := by
  cases c <;> decide +kernel

theorem info_other (c : Dispatch.Cls) : ∀ o ∈ infoOther c, o.opt ∈ infoOthers c := by
  cases c <;> decide +kernel

/-- What an item is for the parser. -/
def Matches (opts : List Opt) (i : Item) (t : Tok) : Prop :=
  t.Fine opts ∧ t.text = typed i ∧ ∀ r : Res, t.apply r =
    ⟨ordered i ++ r.ordered, attributes i ++ r.plain, ((globals i).flatMap CmdLine.Use.args) ++ r.uargs⟩

theorem matches_global {opts : List Opt} (u : CmdLine.Use) (hu : u.Plain)
    (hg : kind opts (u.opt.written u.long) = .unknown) : Matches opts (.global u) (.glob (u.opt.written u.long) u.value) :=
  ⟨⟨hg, hu⟩, rfl, fun _ => rfl⟩

theorem matches_other {opts : List Opt} {l : List Other} (hl : ∀ o ∈ l, o.opt ∈ opts)
    (hk : ∀ o ∈ opts, kind opts o.name = .opt o) {o a : PyStr} {b : Bool} {v : Option PyStr} (h : OtherUse l o a b v) :
    ∃ t, Matches opts (.other o a b v) t := by
  obtain ⟨x, hx, rfl, rfl, rfl, hf, hp⟩ := h
  refine ⟨.known x.opt v, ⟨hk _ (hl x hx), hp, ?_⟩, rfl, ?_⟩
  · cases ht : x.takes <;> rw [ht] at hf <;> simp only [Other.opt, ht, nargsOf] <;> exact hf
  · intro r
    cases hb : x.ordered <;>
      simp [Tok.apply, Res.put, Other.opt, hb, ordered, attributes, globals]

theorem matches_prop {opts : List Opt} {p : PyStr} (hp : ProperName p) {n : Nargs}
    {v : Option PyStr} (hv : ∀ x ∈ v, Plain x) (hn : match n with
      | .zero => v = none
      | .one => v ≠ none
      | .maybe => True)
    (hm : (⟨optName p, destOf (optName p), n, true⟩ : Opt) ∈ opts) (hk : ∀ o ∈ opts, kind opts o.name = .opt o) :
    ∃ t, Matches opts (.prop p v) t := by
  refine ⟨.known _ v, ⟨hk _ hm, hv, hn⟩, ?_, ?_⟩
  · simp [Tok.text, typed, optName_eq]
  · intro r
    simp [Tok.apply, Res.put, ordered, attributes, globals, destOf_optName hp]

theorem parse_items {opts : List Opt} : ∀ {items : List Item}, (∀ i ∈ items, ∃ t, Matches opts i t) →
    parse opts (items.flatMap typed) = .ok ⟨items.flatMap ordered, items.flatMap attributes,
      (items.flatMap globals).flatMap CmdLine.Use.args⟩ := by
  intro items h
  have : ∃ l : List Tok, (∀ t ∈ l, t.Fine opts) ∧ l.flatMap Tok.text = items.flatMap typed ∧
      l.foldr Tok.apply ⟨[], [], []⟩ = ⟨items.flatMap ordered, items.flatMap attributes,
        (items.flatMap globals).flatMap CmdLine.Use.args⟩ := by
    induction items with
    | nil => exact ⟨[], by simp, rfl, rfl⟩
    | cons i items ih =>
      obtain ⟨l, h1, h2, h3⟩ := ih (fun i hi => h i (List.mem_cons_of_mem _ hi))
      obtain ⟨t, t1, t2, t3⟩ := h i (by simp)
      refine ⟨t :: l, ?_, ?_, ?_⟩
      · intro x hx
        rcases List.mem_cons.1 hx with rfl | hx
        · exact t1
        · exact h1 x hx
      · simp [h2, t2]
      · rw [List.foldr_cons, h3, t3]; simp
  obtain ⟨l, h1, h2, h3⟩ := this
  rw [← h2, parse_toks h1, h3]

theorem config_items {c : Dispatch.Cls} {items : List Item} (h : ∀ i ∈ items, ConfigItem c i) :
    ∀ i ∈ items, ∃ t, Matches (configAll c) i t := by
  intro i hi
  have h := h i hi
  cases i with
  | global u => exact ⟨_, matches_global u h (config_glob c _ _)⟩
  | other o a b v =>
    exact matches_other (fun o ho => List.mem_append_left _ (config_other c o ho)) (config_known c) h
  | prop p v =>
    obtain ⟨⟨q, hq, rfl, hw⟩, hv⟩ := h
    refine matches_prop (n := .maybe) (proper_names c q hq) hv trivial (List.mem_append_right _ ?_) (config_known c)
    exact List.mem_map.2 ⟨q, List.mem_filter.2 ⟨hq, by simpa using hw⟩, rfl⟩

theorem subsidiary_of (c : Dispatch.Cls) : ∀ p ∈ subprops c, p ∈ subsidiary := by
  cases c <;> decide +kernel

theorem info_items {c : Dispatch.Cls} {items : List Item} (h : ∀ i ∈ items, InfoItem c i) :
    ∀ i ∈ items, ∃ t, Matches (infoAll c) i t := by
  intro i hi
  have h := h i hi
  cases i with
  | global u => exact ⟨_, matches_global u h (info_glob c _ _)⟩
  | other o a b v =>
    exact matches_other (fun o ho => List.mem_append_left _ (info_other c o ho)) (info_known c) h
  | prop p v =>
    obtain ⟨⟨q, hq, rfl⟩, hs, rfl⟩ := h
    refine matches_prop (n := .zero) (proper_names c q hq) (by simp) rfl (List.mem_append_right _ ?_) (info_known c)
    exact List.mem_map.2 ⟨q.name, List.mem_filter.2 ⟨List.mem_map.2 ⟨q, hq, rfl⟩,
      by simpa using fun h => hs (subsidiary_of c _ h)⟩, rfl⟩

/-- What the user gets: every ordered option with its last value, in the order in which they are first given; the other
attributes in the order of the command line; and the options of the program, before or after the sub-command. -/
def Understood (before : List CmdLine.Use) (items : List Item)
    (r : Except Exn (Dict PyStr (Option PyStr) × List (PyStr × Option PyStr) × CmdLine.Namespace)) : Prop :=
  ∃ oargs ns, r = .ok (oargs, items.flatMap attributes, ns) ∧
    (∀ k, oargs.get? k = CmdLine.lastValue k (items.flatMap ordered)) ∧
    oargs.map Prod.fst = ((items.flatMap ordered).map Prod.fst).eraseDups ∧
    CmdLine.Reads ns (before ++ items.flatMap globals)

theorem globals_plain {P : Item → Prop} (hP : ∀ u, P (.global u) → u.Plain) {items : List Item}
    (h : ∀ i ∈ items, P i) : ∀ u ∈ items.flatMap globals, u.Plain := by
  intro u hu
  obtain ⟨i, hi, hu⟩ := List.mem_flatMap.1 hu
  cases i with
  | global w =>
    have : u = w := by simpa [globals] using hu
    exact this ▸ hP w (h _ hi)
  | prop p v => simp [globals] at hu
  | other o a b v => simp [globals] at hu

theorem understood {opts : List Opt} {ns : CmdLine.Namespace} {before : List CmdLine.Use} (hns : CmdLine.Reads ns before)
    {items : List Item} (h : ∀ i ∈ items, ∃ t, Matches opts i t) (hp : ∀ u ∈ items.flatMap globals, u.Plain)
    (hn : ((items.flatMap globals).map CmdLine.Use.opt).Nodup) (hv : ((items.flatMap globals).map CmdLine.Use.value).Nodup)
    (hc : ¬ CmdLine.Conflict (before ++ items.flatMap globals)) :
    Understood before items (subcommand opts ns (items.flatMap typed)) := by
  unfold subcommand
  rw [parse_items h]
  dsimp only
  have ho := CmdLine.C102_ordered (items.flatMap ordered)
  by_cases he : items.flatMap globals = []
  · rw [he]
    refine ⟨_, ns, rfl, ho.1, ho.2, ?_⟩
    rw [he, List.append_nil]; exact hns
  · obtain ⟨ns', h1, h2⟩ := (CmdLine.C102_global_partial hns he hp hn hv).2 hc
    rw [h1]
    exact ⟨_, ns', rfl, ho.1, ho.2, h2⟩

/-- C128, `config`: for every class of properties, and for every command line made of options for properties which can be
changed (with at most one value), other options of the sub-command with the values they need, and options of the program: each
option reaches the property of its name, with the value which is given with it.

Missing from the full statement: values which begin with a dash, an option and its value in one argument (for abbreviations see
`C128_config_abbreviated`); and for the options of the program what is missing from `C102_global_partial`. -/
theorem C128_config_partial {c : Dispatch.Cls} {ns : CmdLine.Namespace} {before : List CmdLine.Use}
    (hns : CmdLine.Reads ns before) {items : List Item} (h : ∀ i ∈ items, ConfigItem c i)
    (hn : ((items.flatMap globals).map CmdLine.Use.opt).Nodup) (hv : ((items.flatMap globals).map CmdLine.Use.value).Nodup)
    (hc : ¬ CmdLine.Conflict (before ++ items.flatMap globals)) :
    Understood before items
      (subcommand (configOthers c ++ configOptions (Dispatch.props c)) ns (items.flatMap typed)) :=
  understood hns (config_items h) (globals_plain (fun _ h => h) h) hn hv hc

/-- C128, `info`: the same, where options for properties take no value.

Missing from the full statement: as in `C128_config_partial`. -/
theorem C128_info_partial {c : Dispatch.Cls} {ns : CmdLine.Namespace} {before : List CmdLine.Use}
    (hns : CmdLine.Reads ns before) {items : List Item} (h : ∀ i ∈ items, InfoItem c i)
    (hn : ((items.flatMap globals).map CmdLine.Use.opt).Nodup) (hv : ((items.flatMap globals).map CmdLine.Use.value).Nodup)
    (hc : ¬ CmdLine.Conflict (before ++ items.flatMap globals)) :
    Understood before items
      (subcommand (infoOthers c ++ infoOptions (subprops c) ((Dispatch.props c).map (·.name))) ns (items.flatMap typed)) :=
  understood hns (info_items h) (globals_plain (fun _ h => h) h) hn hv hc

theorem refused {opts : List Opt} {t : PyStr} (ht : kind opts t = .unknown) (hd : t.head? = some '-')
    (hg : ∀ (g : CmdLine.Glob) (l : Bool), t ≠ g.written l) (ns : CmdLine.Namespace) {args : List PyStr} (h : t ∈ args) :
    subcommand opts ns args = .error .error := by
  unfold subcommand
  rcases parse_unknown ht args h with e | ⟨r, e, hr⟩
  · rw [e]
  · rw [e]
    dsimp only
    rw [CmdLine.C102_unknown_refused ns hr hd hg]

/-- C128: a property which cannot be changed cannot be given to `config`, wherever its option stands on the command line and
whatever else is there: the command is refused. -/
theorem C128_readonly (c : Dispatch.Cls) {q : Dispatch.Prop'} (hq : q ∈ Dispatch.props c) (hw : q.writable = false)
    (ns : CmdLine.Namespace) {args : List PyStr} (h : ('-' :: '-' :: dashed q.name) ∈ args) :
    subcommand (configOthers c ++ configOptions (Dispatch.props c)) ns args = .error .error := by
  have hall : ∀ q ∈ Dispatch.props c, q.writable = false →
      kind (configAll c) ('-' :: '-' :: dashed q.name) = .unknown ∧
        ('-' :: '-' :: dashed q.name) ∉ [CmdLine.Glob.host, .user, .key, .timeout, .dataset].flatMap
          (fun g => [g.written false, g.written true]) := by
    cases c <;> decide +kernel
  obtain ⟨h1, h2⟩ := hall q hq hw
  refine refused h1 rfl ?_ ns h
  intro g l e
  refine h2 (e ▸ List.mem_flatMap.2 ⟨g, by cases g <;> decide, ?_⟩)
  cases l <;> simp

/-- C128: the properties which are printed along with another one have no option of their own. -/
theorem C128_subsidiary (ns : CmdLine.Namespace) {p : PyStr} (hp : p ∈ subsidiary) {args : List PyStr}
    (h : ('-' :: '-' :: dashed p) ∈ args) (c : Dispatch.Cls) :
    subcommand (infoOthers c ++ infoOptions (subprops c) ((Dispatch.props c).map (·.name))) ns args = .error .error := by
  have hall : ∀ p ∈ subsidiary, kind (infoAll c) ('-' :: '-' :: dashed p) = .unknown ∧
        ('-' :: '-' :: dashed p) ∉ [CmdLine.Glob.host, .user, .key, .timeout, .dataset].flatMap
          (fun g => [g.written false, g.written true]) := by
    cases c <;> decide +kernel
  obtain ⟨h1, h2⟩ := hall p hp
  refine refused h1 rfl ?_ ns h
  intro g l e
  refine h2 (e ▸ List.mem_flatMap.2 ⟨g, by cases g <;> decide, ?_⟩)
  cases l <;> simp

/-- A command line with all the kinds of items. -/
def sample : List Item := [.prop "max_freq".toList (some "2GHz".toList), .global ⟨.host, false, "srv".toList⟩,
  .other "--cpus".toList "cpus".toList false (some "0-3".toList), .prop "turbo".toList none, .prop "epp".toList none]

example : ∀ i ∈ sample, ConfigItem .pstates i := by
  intro i hi
  simp only [sample, List.mem_cons, List.not_mem_nil, or_false] at hi
  rcases hi with rfl | rfl | rfl | rfl | rfl
  · exact ⟨by decide +kernel, by simp [Plain]⟩
  · exact (by decide : "srv".toList.head? ≠ some '-')
  · exact ⟨⟨"--cpus", "cpus", false, .value⟩, by simp [configOther, common], rfl, rfl, rfl, by simp [Takes.Fits], by simp [Plain]⟩
  · exact ⟨by decide +kernel, by simp [Plain]⟩
  · exact ⟨by decide +kernel, by simp [Plain]⟩

example : sample.flatMap typed = ["--max-freq", "2GHz", "-H", "srv", "--cpus", "0-3", "--turbo", "--epp"].map String.toList := by
  decide +kernel

example : ((subcommand (configAll .pstates) CmdLine.defaults (sample.flatMap typed)).toOption.map (·.1)) =
    some [("max_freq".toList, some "2GHz".toList), ("turbo".toList, none), ("epp".toList, none)] := by decide +kernel

example : ∃ q ∈ Dispatch.props .pstates, q.writable = false ∧ '-' :: '-' :: dashed q.name = "--base-freq".toList := by
  decide +kernel

/-- C128: an option which is given twice keeps its first place, so the order in which the settings are made is not the order of
the command line: `--enable C1 --disable C1 --enable C1` leaves the C-state disabled. -/
theorem C128_repeated_counterexample :
    (subcommand (configAll .cstates) CmdLine.defaults
      (["--enable", "C1", "--disable", "C1", "--enable", "C1"].map String.toList)).toOption.map (·.1) =
    some [("enable".toList, some "C1".toList), ("disable".toList, some "C1".toList)] := by decide +kernel

/-- C128: what an abbreviation means depends on the other options: `--min-u` is the minimum uncore frequency for `config`, and
is refused by `info`. -/
theorem C128_abbreviation_counterexample :
    (∃ o, kind (configAll .pstates) "--min-u".toList = .opt o ∧ o.dest = "min_uncore_freq".toList) ∧
      kind (infoAll .pstates) "--min-u".toList = .ambiguous := by
  refine ⟨⟨⟨optName "min_uncore_freq".toList, "min_uncore_freq".toList, .maybe, true⟩, ?_⟩, ?_⟩ <;> decide +kernel

end Verif.PropOptions
