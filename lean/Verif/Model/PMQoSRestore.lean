import Verif.Model.PMQoSCmd
import Verif.Model.RestoreCmd

/-!
The class of the PM QoS properties, as the 'pmqos save' and 'pmqos restore' commands use it (pepctool/_PepcPMQoS.py:126-191,
see Verif/Model/RestoreCmd.lean). Unlike in the 'config' command, the `PMQoS` object has an `SysfsIO` object of its own
(pepclibs/_PropsClassBase.py:436-444), so the transaction of the setter (pepctool/_PepcSetter.py:54-75) is about another object: a file
is written and verified at once, and starting and committing the transaction do nothing.

The cache of `SysfsIO` is not visible (C11 - C13), apart from one thing which does not matter: a failed verification leaves
the cache without the file.
-/

namespace Verif.PMQoSRestore

open Human (Flt)
open HumanPrint (Val)
open PropsBase (Mech Gen)
open PMQoS (Files setLoop)
open PMQoSCmd (Env latency globalLatency)

/-- Models: pepclibs/PMQoS.py:80-88 and pepclibs/_LinuxPMQoS.py:71-94, no transaction is going on. -/
def set (E : Env) (p : PyStr) (_ : Mech) (v : Val Flt) (cpus : List Nat) (F : Files) : Files × Except Exn Unit :=
  if p = latency then
    match v with
    | .num x =>
      match PMQoSCmd.toUs E.fl x with
      | .error e => (F, .error e)
      | .ok us => setLoop E.K true us cpus F
    | _ => (F, .error .pyTypeError)
  else (F, .error .error)

/-- Models: pepclibs/PMQoS.py:63-78 `_get_prop_cpus()`, pepclibs/_LinuxPMQoS.py:33-48. The device is read even if there are
no CPUs, but there always are. -/
def get (E : Env) (F : Files) (p : PyStr) (m : Mech) : List Nat → Gen (Nat × Option (Val Flt))
  | [] => ⟨[], none⟩
  | c :: cs =>
    match PMQoSCmd.readCpu E p ((F c).map PyStr.strip) with
    | .error e => ⟨[], some e⟩
    | .ok v =>
      let g := get E F p m cs
      ⟨(c, v) :: g.yields, g.err⟩

/-- The class. Units and texts are only for the 'config' command. -/
def cls (E : Env) : PropsCmd.Cls Files Flt where
  props := PMQoSCmd.props
  desc := PMQoSCmd.desc
  mechs := [.sysfs, .cdev]
  subprops := fun _ => []
  defUnit := fun _ => none
  numText := PMQoSCmd.numText E
  norm := fun p => if p = latency then PMQoSCmd.norm E else fun _ => .error .error
  set := set E
  get := get E
  start := fun F => (F, .ok ())
  commit := fun F => (F, .ok ())
  freqs := false

end Verif.PMQoSRestore
