import Verif.Lib.PyStr
import Verif.Props.CmdLineSpec
import Verif.Model.Dispatch

/-!
What a user gives on the command line of an `info` or `config` sub-command, stated without the model.
-/

namespace Verif.PropOptions.Spec

/-- One thing a user gives: an option for a property, another option of the sub-command (with the attribute it sets, and
whether it counts among the ordered ones), or an option of the whole program with its value. -/
inductive Item where
  | prop (name : PyStr) (value : Option PyStr)
  | other (option attr : PyStr) (ordered : Bool) (value : Option PyStr)
  | global (use : CmdLine.Use)

/-- The option of a property: two dashes and the name, with dashes for underscores. -/
def dashed : PyStr → PyStr
  | [] => []
  | '_' :: s => '-' :: dashed s
  | c :: s => c :: dashed s

/-- What the user types. -/
def typed : Item → List PyStr
  | .prop p v => ('-' :: '-' :: dashed p) :: v.toList
  | .other o _ _ v => o :: v.toList
  | .global u => u.args

/-- The ordered options which are given, by property. -/
def ordered : Item → List (PyStr × Option PyStr)
  | .prop p v => [(p, v)]
  | .other _ a true v => [(a, v)]
  | _ => []

/-- The attributes which are set otherwise. -/
def attributes : Item → List (PyStr × Option PyStr)
  | .other _ a false v => [(a, v)]
  | _ => []

/-- The options of the program. -/
def globals : Item → List CmdLine.Use
  | .global u => [u]
  | _ => []

/-- A value which does not look like an option. -/
def Plain (v : PyStr) : Prop := v.head? ≠ some '-'

/-- A proper name of a property: no dashes, and no underscore in front. -/
def ProperName (p : PyStr) : Prop := '-' ∉ p ∧ p.head? ≠ some '_'

/-- How many values an option takes. -/
inductive Takes where
  | nothing
  | value
  | atMostOne
  deriving DecidableEq

/-- Whether the number of values is right. -/
def Takes.Fits : Takes → Option PyStr → Prop
  | .nothing, v => v = none
  | .value, v => v ≠ none
  | .atMostOne, _ => True

/-- An option which is not for a property: the option, the attribute, whether it is ordered, and what it takes. -/
structure Other where
  option : String
  attr : String
  ordered : Bool
  takes : Takes

/-- The options of both the sub-commands, from the manual pages. -/
def common (c : Dispatch.Cls) : List Other :=
  [⟨"-h", "help", false, .nothing⟩, ⟨"-q", "quiet", false, .nothing⟩, ⟨"-d", "debug", false, .nothing⟩,
   ⟨"-m", "mechanisms", false, .value⟩, ⟨"--mechanisms", "mechanisms", false, .value⟩,
   ⟨"--list-mechanisms", "list_mechanisms", false, .nothing⟩,
   ⟨"--override-cpu-model", "override_cpu_model", false, .value⟩,
   ⟨"--cpus", "cpus", false, .value⟩, ⟨"--cores", "cores", false, .value⟩, ⟨"--modules", "modules", false, .value⟩,
   ⟨"--dies", "dies", false, .value⟩, ⟨"--packages", "packages", false, .value⟩,
   ⟨"--module-siblings", "module_siblings", false, .value⟩]
  ++ if c = .power then [] else [⟨"--core-siblings", "core_siblings", false, .value⟩]

/-- The options of `config`: C-states have two more, which are ordered together with the properties. -/
def configOther (c : Dispatch.Cls) : List Other :=
  common c ++ if c = .cstates then [⟨"--enable", "enable", true, .atMostOne⟩, ⟨"--disable", "disable", true, .atMostOne⟩]
    else []

/-- The options of `info`. -/
def infoOther (c : Dispatch.Cls) : List Other :=
  common c ++ ⟨"--yaml", "yaml", false, .nothing⟩ ::
    if c = .cstates then [⟨"--cstates", "csnames", false, .atMostOne⟩] else []

/-- A proper use of another option. -/
def OtherUse (l : List Other) (option attr : PyStr) (ordered : Bool) (v : Option PyStr) : Prop :=
  ∃ o ∈ l, option = o.option.toList ∧ attr = o.attr.toList ∧ ordered = o.ordered ∧ o.takes.Fits v ∧ ∀ x ∈ v, Plain x

/-- What can be given to `config`: the properties which can be changed, with at most one value. -/
def ConfigItem (c : Dispatch.Cls) : Item → Prop
  | .prop p v => (∃ q ∈ Dispatch.props c, q.name = p ∧ q.writable = true) ∧ ∀ x ∈ v, Plain x
  | .other o a b v => OtherUse (configOther c) o a b v
  | .global u => u.Plain

/-- The properties which are printed along with another one. -/
def subsidiary : List PyStr :=
  ["pkg_cstate_limit_lock".toList, "pkg_cstate_limits".toList, "pkg_cstate_limit_aliases".toList]

/-- What can be given to `info`: the properties, without values. -/
def InfoItem (c : Dispatch.Cls) : Item → Prop
  | .prop p v => (∃ q ∈ Dispatch.props c, q.name = p) ∧ p ∉ subsidiary ∧ v = none
  | .other o a b v => OtherUse (infoOther c) o a b v
  | .global u => u.Plain

end Verif.PropOptions.Spec
