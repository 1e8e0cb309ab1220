import Verif.Model.CPUOnline
import Verif.Model.OpTarget
import Verif.Model.Trivial

/-!
Model of pepctool/_PepcCPUHotplug.py: the 'cpu-hotplug info', 'cpu-hotplug online' and 'cpu-hotplug offline' commands,
from the texts of the command line options to the state of the CPUs.
-/

namespace Verif.HotplugCmd

open CPUInfo (Info Nums)
open CPUOnline (Env St)

/-- The texts of the target options, `none` if the option is not given.
Models: the attributes of `args` in pepctool/_PepcCPUHotplug.py:66-70. -/
structure Opts where
  cpus : Option PyStr := none
  cores : Option PyStr := none
  modules : Option PyStr := none
  dies : Option PyStr := none
  packages : Option PyStr := none
  coreSib : Option PyStr := none
  modSib : Option PyStr := none

/-- Models: pepctool/_PepcCommon.py:38-47 `parse_cpus_string()` and pepctool/_OpTarget.py:199-207
`_parse_input_nums()` for texts. The numbers are never negative, because a dash always makes a range. -/
def numsText (s : PyStr) : Except Exn Nums :=
  if s = "all".toList then .ok .all
  else match Trivial.parseIntList [s] ',' true with
    | .error e => .error e
    | .ok l => .ok (.nums (l.map Int.toNat))

/-- A target option of `OpTarget()`; an empty text is the same as no option (the code tests the truth value).
Simplification: a text without a single number, like ",", is refused at once. In the code such an option selects
nothing, and the command is refused later on unless other options select CPUs. -/
def optNums : Option PyStr → Except Exn (Option Nums)
  | none => .ok none
  | some s =>
    if s.isEmpty then .ok none
    else match numsText s with
      | .error e => .error e
      | .ok (.nums []) => .error .noTarget
      | .ok n => .ok (some n)

/-- A siblings option of `OpTarget()`. "all" selects no siblings at all in the code, so that there are no CPUs to
target. Simplification: it is refused at once. -/
def optSib : Option PyStr → Except Exn (List Nat)
  | none => .ok []
  | some s =>
    if s.isEmpty then .ok []
    else match numsText s with
      | .error e => .error e
      | .ok .all => .error .noTarget
      | .ok (.nums l) => .ok l

/-- Cores and dies are given by numbers on the command line. -/
def toUnit : Option Nums → OpTarget.UnitArg
  | none => .none
  | some n => .nums n

/-- The arguments of `OpTarget()`. Simplification: all texts are parsed first, while the code parses a text right
before its numbers are validated; this only matters for which error is reported.
Models: pepctool/_PepcCPUHotplug.py:66-70. -/
def toArgs (o : Opts) : Except Exn OpTarget.Args :=
  match optNums o.cpus with
  | .error e => .error e
  | .ok cpus =>
    match optNums o.cores with
    | .error e => .error e
    | .ok cores =>
      match optNums o.modules with
      | .error e => .error e
      | .ok modules =>
        match optNums o.dies with
        | .error e => .error e
        | .ok dies =>
          match optNums o.packages with
          | .error e => .error e
          | .ok packages =>
            match optSib o.coreSib with
            | .error e => .error e
            | .ok coreSib =>
              match optSib o.modSib with
              | .error e => .error e
              | .ok modSib =>
                .ok { cpus := cpus, cores := toUnit cores, modules := modules, dies := toUnit dies,
                      packages := packages, coreSib := coreSib, modSib := modSib }

/-- Models: pepctool/_PepcCPUHotplug.py:64 `skip_unsupported`. -/
def skipUnsupported (o : Opts) : Bool := o.cpus == some "all".toList || o.cpus == none

/-- Models: pepctool/_PepcCPUHotplug.py:49-72 `cpu_hotplug_offline_command()`. `i` is what the 'CPUInfo' object tells
about the host (C72 is about how it gets there). -/
def offlineCmd (E : Env) (i : Info) (o : Opts) (s : St) : St × Except Exn Unit :=
  match toArgs o with
  | .error e => (s, .error e)
  | .ok a =>
    match OpTarget.init i a with
    | .error e => (s, .error e)
    | .ok (t, ca) =>
      match (OpTarget.getCpus i t ca).1 with
      | .error e => (s, .error e)
      | .ok cpus => CPUOnline.toggle E (.list cpus) false (skipUnsupported o) s

/-- Models: pepctool/_PepcCPUHotplug.py:36-47 `cpu_hotplug_online_command()`. -/
def onlineCmd (E : Env) (cpus : Option PyStr) (s : St) : St × Except Exn Unit :=
  match cpus with
  | none => (s, .error .error)
  | some text =>
    if text.isEmpty then (s, .error .error)
    else match numsText text with
      | .error e => (s, .error e)
      | .ok .all => CPUOnline.toggle E .all true false s
      | .ok (.nums l) => CPUOnline.toggle E (.list l) true false s

/-- One line of 'cpu-hotplug info'. Models: pepctool/_PepcCPUHotplug.py:30-34. -/
def infoLine (word host : PyStr) (cpus : List Nat) : PyStr :=
  if cpus.isEmpty then "No ".toList ++ word ++ " CPUs".toList ++ host
  else "The following CPUs are ".toList ++ word ++ host ++ ": ".toList ++ Trivial.rangify (cpus.map Int.ofNat)

/-- Models: pepctool/_PepcCPUHotplug.py:20-34 `cpu_hotplug_info_command()`. `host` is the message telling the host
name. -/
def infoCmd (E : Env) (host : PyStr) (s : St) : St × List PyStr :=
  let (s, on) := CPUOnline.getCpus E s
  let (s, off) := CPUOnline.getOffline E s
  (s, [infoLine "online".toList host on, infoLine "offline".toList host off])

end Verif.HotplugCmd
