import Verif.Model.Drivers

/-!
Specification for C105: what the kernel and the programs modprobe, rmmod, dmesg, mount do. Uses only the description of the host
from the model, not the modelled functions.
-/

namespace Verif.Drivers

/-- A word: not empty, no white space. -/
def IsWord (s : PyStr) : Prop := s ≠ [] ∧ ∀ c ∈ s, PyStr.isSpace c = false

/-- The columns of /proc/modules are words, the usage count is a number. -/
def Mod.Proper (m : Mod) : Prop :=
  IsWord m.name ∧ IsWord m.size ∧ IsWord m.rest ∧ ∃ n, m.users = PyStr.ofNat n

def Host.Proper (h : Host) : Prop := ∀ m ∈ h.modules, m.Proper

/-- The line of /proc/modules. -/
def Mod.line (m : Mod) : PyStr := m.name ++ ' ' :: (m.size ++ ' ' :: (m.users ++ ' ' :: m.rest))

/-- The line of /proc/mounts. -/
def Mnt.line (m : Mnt) : PyStr :=
  m.device ++ ' ' :: (m.mntpoint ++ ' ' :: (m.fstype ++ ' ' :: (m.options ++ ' ' :: m.rest)))

def Mnt.Proper (m : Mnt) : Prop :=
  IsWord m.device ∧ IsWord m.mntpoint ∧ IsWord m.fstype ∧ IsWord m.options ∧ IsWord m.rest

/-- The module is loaded. -/
def Host.Loaded (h : Host) (name : PyStr) : Prop := ∃ m ∈ h.modules, m.name = name

/-- Debugfs is mounted at the usual place. -/
def Host.Debugfs (h : Host) : Prop :=
  ∃ m ∈ h.mounts, m.fstype = "debugfs".toList ∧ m.mntpoint = "/sys/kernel/debug".toList

/-- The two forms of the modprobe command: without and with debug messages. -/
def modprobeCmd (name : PyStr) : List PyStr :=
  ["modprobe ".toList ++ name ++ " ".toList, "modprobe ".toList ++ name ++ "  dyndbg=+pf".toList]

/-- The kernel and the programs: a successful modprobe puts the module, and the modules it depends on, in front of the list,
or nothing if the driver is a part of the kernel; a successful rmmod takes the module out; dmesg does not change anything,
failing commands neither; /proc/modules, if it can be read, lists the modules. -/
structure Kernel (env : Env) : Prop where
  proper : ∀ cmd h, h.Proper → (env.run cmd h).host.Proper
  failed : ∀ cmd h, (env.run cmd h).ok = false → (env.run cmd h).host.modules = h.modules ∧ (env.run cmd h).host.mounts = h.mounts
  dmesg : ∀ h, (env.run "dmesg".toList h).host.modules = h.modules ∧ (env.run "dmesg".toList h).host.mounts = h.mounts
  modprobe : ∀ name h cmd, IsWord name → cmd ∈ modprobeCmd name → ¬ h.Loaded name → (env.run cmd h).ok = true →
    ∃ new, (env.run cmd h).host.modules = new ++ h.modules ∧ (new = [] ∨ ∃ m ∈ new, m.name = name) ∧
      (env.run cmd h).host.mounts = h.mounts
  rmmod : ∀ name h, IsWord name → (env.run ("rmmod ".toList ++ name) h).ok = true →
    (env.run ("rmmod ".toList ++ name) h).host.modules = h.modules.filter (fun m => m.name ≠ name) ∧
      (env.run ("rmmod ".toList ++ name) h).host.mounts = h.mounts
  modules : ∀ h lines, env.readModules h = .ok lines → lines = h.modules.map Mod.line

/-- The module depends on no other module which could be loaded along with it. -/
def Alone (env : Env) (name : PyStr) : Prop :=
  ∀ h cmd, cmd ∈ modprobeCmd name → (env.run cmd h).ok = true → (env.run cmd h).host.modules.length ≤ h.modules.length + 1

/-- A step which has nothing to do with kernel modules. -/
def Quiet (f : Host → Host) : Prop := ∀ h, (f h).modules = h.modules ∧ h.now ≤ (f h).now

/-- The file stays as long as the modules stay the same. -/
def Stays (env : Env) (path : PyStr) : Prop :=
  ∀ h h' : Host, env.present path h = true → h'.modules = h.modules → h.now ≤ h'.now → env.present path h' = true

/-- The file is there from time `t` on. -/
def AppearsAt (env : Env) (path : PyStr) (h : Host) (t : Nat) : Prop :=
  ∀ now, env.present path { h with now := now } = decide (t ≤ now)

end Verif.Drivers
