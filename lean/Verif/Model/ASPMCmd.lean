import Verif.Model.ASPM
import Verif.Model.CStatesCmd
import Verif.Model.FeaturedMSR

/-!
Model of the 'aspm' commands: pepctool/_PepcASPM.py.
-/

namespace Verif.ASPMCmd

open ASPM (File Devs getPolicy getPolicies setPolicy isL1Enabled toggleL1)
open CStatesCmd (Step)

/-- The policy file and the PCI devices. -/
structure St where
  policy : File
  devs : Devs

/-- What the kernel does with what is written to the policy file and to the files of the devices, the kernel version, and
`pman.hostmsg`. -/
structure Env where
  Kp : PyStr → Except Exn PyStr
  Kd : PyStr → PyStr → Except Exn PyStr
  kver : Except Exn PyStr
  host : PyStr

/-- `args.device`, if it is not empty. -/
def dev : Option PyStr → Option PyStr
  | none => none
  | some d => if d.isEmpty then none else some d

/-- Models: pepctool/_PepcASPM.py:19-25 `_print_l1_state()`. -/
def printL1 (E : Env) (d : PyStr) : Step St := fun s =>
  match isL1Enabled E.kver s.devs d with
  | .error e => (s, [], .error e)
  | .ok b => (s, ["L1 ASPM: ".toList ++ (if b then "enabled".toList else "disabled".toList) ++
      " for device '".toList ++ d ++ "'".toList], .ok ())

/-- Models: pepctool/_PepcASPM.py:45-47. -/
def printPolicy : Step St := fun s =>
  match getPolicy s.policy with
  | .error e => (s, [], .error e)
  | .ok p => (s, ["ASPM policy: ".toList ++ p], .ok ())

/-- `", ".join(l)`. -/
def commaJoin : List PyStr → PyStr
  | [] => []
  | [p] => p
  | p :: l => p ++ ", ".toList ++ commaJoin l

/-- Models: pepctool/_PepcASPM.py:49-51. -/
def printPolicies : Step St := fun s =>
  match getPolicies s.policy with
  | .error e => (s, [], .error e)
  | .ok l => (s, ["Available policies: ".toList ++ commaJoin l], .ok ())

/-- `opts` are the options other than '--device'. Models: pepctool/_PepcASPM.py:27-51 `aspm_info_command()`. -/
def infoCmd (E : Env) (opts : List PyStr) (device : Option PyStr) : Step St :=
  Step.andThen
    (if "l1_aspm".toList ∈ opts ∨ (dev device).isSome then
      match dev device with
      | some d => printL1 E d
      | none => Step.fail .error
    else Step.skip)
    (Step.andThen (if "policy".toList ∈ opts ∨ opts = [] then printPolicy else Step.skip)
      (if "policies".toList ∈ opts ∨ opts = [] then printPolicies else Step.skip))

/-- Models: pepctool/_PepcASPM.py:53-75 `_handle_policy_option()`. -/
def handlePolicy (E : Env) (oargs : Dict PyStr (Option PyStr)) (device : Option PyStr) (name : Option PyStr) : Step St :=
  fun s =>
    if (dev device).isSome ∧ (oargs.erase "policy".toList).isEmpty then (s, [], .error .error)
    else
      match getPolicy s.policy with
      | .error e => (s, [], .error e)
      | .ok cur =>
        let n := name.getD []
        if n.isEmpty then (s, ["ASPM policy: '".toList ++ cur ++ "'".toList ++ E.host], .ok ())
        else
          match setPolicy E.Kp s.policy n with
          | (f, .error e) => ({ s with policy := f }, [], .error e)
          | (f, .ok ()) =>
            let s := { s with policy := f }
            match getPolicy f with
            | .error e => (s, [], .error e)
            | .ok new =>
              if n ≠ new then (s, [], .error .error)
              else if n ≠ cur then
                (s, ["Changed ASPM policy from '".toList ++ cur ++ "' to '".toList ++ n ++ "'".toList ++ E.host], .ok ())
              else
                (s, ["ASPM policy was '".toList ++ n ++ "', set it to '".toList ++ n ++ "' again".toList ++ E.host], .ok ())

/-- Models: pepctool/_PepcASPM.py:77-96 `_handle_1l_aspm_options()`. -/
def handleL1 (E : Env) (device : Option PyStr) (state : Option PyStr) : Step St := fun s =>
  match dev device with
  | none => (s, [], .error .error)
  | some d =>
    if (state.getD []).isEmpty then printL1 E d s
    else
      let state := FeaturedMSR.lower (state.getD [])
      if !["false".toList, "true".toList, "off".toList, "on".toList, "disable".toList, "enable".toList].contains state then
        (s, [], .error .error)
      else
        let enable := ["true".toList, "on".toList, "enable".toList].contains state
        match toggleL1 E.Kd E.kver s.devs d enable with
        | (D, .error e) => ({ s with devs := D }, [], .error e)
        | (D, .ok ()) => ({ s with devs := D }, ["Changed L1 ASPM to '".toList ++ state ++ "'".toList ++ E.host ++
            " for device '".toList ++ d ++ "'".toList], .ok ())

/-- The '--policy' option, if it is given. Models: pepctool/_PepcASPM.py:110-111. -/
def policyStep (E : Env) (oargs : Dict PyStr (Option PyStr)) (device : Option PyStr) : Option (Option PyStr) → Step St
  | none => Step.skip
  | some name => handlePolicy E oargs device name

/-- The '--l1-aspm' option, if it is given. Models: pepctool/_PepcASPM.py:112-113. -/
def l1Step (E : Env) (device : Option PyStr) : Option (Option PyStr) → Step St
  | none => Step.skip
  | some state => handleL1 E device state

/-- `oargs` are the options other than '--device', `none` if there are none.
Models: pepctool/_PepcASPM.py:98-113 `aspm_config_command()`. -/
def configCmd (E : Env) (oargs : Option (Dict PyStr (Option PyStr))) (device : Option PyStr) : Step St :=
  match oargs with
  | none => Step.fail .error
  | some oargs =>
    Step.andThen (policyStep E oargs device (oargs.get? "policy".toList)) (l1Step E device (oargs.get? "l1_aspm".toList))

end Verif.ASPMCmd
