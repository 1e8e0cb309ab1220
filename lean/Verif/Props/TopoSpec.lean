import Verif.Model.TopoBuild

/-!
What the topology property (C72) is about: a machine, and the files the kernel shows for it while a given set of CPUs
is online.
-/

namespace Verif.TopoBuild

open CPUInfo (Level)

/-- A machine: the present CPUs; the number of a CPU's core, module, etc; what the uncore driver reports: die numbers
by package number. -/
structure Machine where
  present : List Nat
  num : Level → Nat → Nat
  uncore : Option (Dict Int (List Int))

namespace Machine

variable (m : Machine)

/-- The die `(p, d)` has CPUs. -/
def HasCpus (p d : Int) : Prop := ∃ c ∈ m.present, (m.num .package c : Int) = p ∧ (m.num .die c : Int) = d

/-- The die `(p, d)` is an I/O die: the driver reports it, it has no CPUs, but its package has. -/
def IsIo (p d : Int) : Prop :=
  (∃ u, m.uncore = some u ∧ ∃ ds, u.get? p = some ds ∧ d ∈ ds) ∧
    (∃ c ∈ m.present, (m.num .package c : Int) = p) ∧ ¬ m.HasCpus p d

/-- The numbers are smaller than the one reserved for "not available". The driver reports every die once. -/
structure WF : Prop where
  cpu : ∀ c, m.num .CPU c = c
  small : ∀ c ∈ m.present, ∀ l, m.num l c < 0xFFFFFFFF
  keys : ∀ u, m.uncore = some u → u.keys.Nodup
  dies : ∀ u, m.uncore = some u → ∀ p ds, u.get? p = some ds →
    ds.Nodup ∧ 0 ≤ p ∧ p < 0xFFFFFFFF ∧ ∀ d ∈ ds, 0 ≤ d ∧ d < 0xFFFFFFFF

end Machine

/-! ### Files -/

/-- The text of a number range, "3" or "3-5". -/
def rangeText (e : Nat × Nat) : PyStr :=
  if e.1 = e.2 then PyStr.ofNat e.1 else PyStr.ofNat e.1 ++ '-' :: PyStr.ofNat e.2

/-- The text lists exactly the numbers with the property `P`: ranges separated by commas, and a new line. -/
def Lists (text : PyStr) (P : Nat → Prop) : Prop :=
  ∃ els : List (Nat × Nat), (∀ e ∈ els, e.1 ≤ e.2) ∧
    text = PyStr.joinC ',' (els.map rangeText) ++ ['\n'] ∧ ∀ n, P n ↔ ∃ e ∈ els, e.1 ≤ n ∧ n ≤ e.2

/-- The text of a number. -/
def numText (n : Nat) : PyStr := PyStr.ofNat n ++ ['\n']

/-- The lines of '/proc/cpuinfo' about CPU `c` of package `p` and core `k`: the first, the tenth and the twelfth line
have these numbers. The other lines are whatever, but not empty, and the last line has no white space at the end. -/
structure CpuLines (c p k : Nat) (lines : List PyStr) : Prop where
  shape : ∃ mid sib rest, mid.length = 8 ∧ lines =
    ("processor\t: ".toList ++ PyStr.ofNat c) :: (mid ++ ("physical id\t: ".toList ++ PyStr.ofNat p) :: sib ::
      ("core id\t\t: ".toList ++ PyStr.ofNat k) :: rest)
  line : ∀ l ∈ lines, l ≠ [] ∧ '\n' ∉ l
  last : ∀ l ch, lines.getLast? = some l → l.getLast? = some ch → PyStr.isSpace ch = false

/-- The text of '/proc/cpuinfo': an empty line after the lines of each CPU. -/
def cpuinfoText (blocks : List (List PyStr)) : PyStr := blocks.flatMap fun b => PyStr.joinC '\n' b ++ ['\n', '\n']

/-- The host shows the machine with the online CPUs `on`. -/
structure Shows (m : Machine) (on : List Nat) (h : Host) : Prop where
  /-- Some CPUs are online. -/
  sub : ∀ c ∈ on, c ∈ m.present
  ne : on ≠ []
  nodup : on.Nodup
  online : ∃ t, h.online = .ok t ∧ Lists t (· ∈ on)
  cpuinfo : ∃ bs : List (Nat × List PyStr), h.cpuinfo = .ok (cpuinfoText (bs.map Prod.snd)) ∧
    (∀ b ∈ bs, CpuLines b.1 (m.num .package b.1) (m.num .core b.1) b.2) ∧ ∀ c ∈ on, c ∈ bs.map Prod.fst
  /-- Either there is the module number (ID of the level 2 cache) of every CPU, and the list of CPUs having it
  (possibly with offline CPUs), or of none, and then the module number is the core number. -/
  module :
    (∀ c ∈ on, h.cacheId c = .ok (numText (m.num .module c)) ∧
      ∃ t P, h.cacheCpus c = .ok t ∧ Lists t P ∧ P c ∧ ∀ c' ∈ on, P c' → m.num .module c' = m.num .module c) ∨
    (∀ c ∈ on, h.cacheId c = .error .notFound ∧ m.num .module c = m.num .core c)
  /-- The die numbers are available either via the MSR or via files. -/
  die :
    (∃ read, h.pli = some read ∧ ∀ c ∈ on, read c = .ok (m.num .die c : Int)) ∨
    (h.pli = none ∧ ∀ c ∈ on, h.dieId c = .ok (numText (m.num .die c)) ∧
      ∃ t P, h.dieCpus c = .ok t ∧ Lists t P ∧ P c)
  /-- Every online CPU is in the list of its node and of no other node. -/
  node : ∃ t P, h.nodes = .ok t ∧ Lists t P ∧ (∀ c ∈ on, P (m.num .node c)) ∧
    ∀ n, P n → ∃ t Q, h.nodeCpus n = .ok t ∧ Lists t Q ∧ ∀ c ∈ on, Q c ↔ m.num .node c = n
  uncore : h.uncore = m.uncore.map .ok

/-- Every die with CPUs has an online one. -/
def Covers (m : Machine) (on : List Nat) : Prop :=
  ∀ c ∈ m.present, ∃ c' ∈ on, m.num .package c' = m.num .package c ∧ m.num .die c' = m.num .die c

/-! ### Histories -/

/-- The states an object can be in, `on` being the online CPUs and `h` the host at that time: after any sequence of
hot-plugging (followed by `cpus_hotplugged()`), reading the set of online CPUs, and requesting a topology table, with
all sets of online CPUs satisfying `C`. `asked` tells whether dies were requested. -/
inductive Reach (m : Machine) (C : List Nat → Prop) : Bool → List Nat → Host → St → Prop
  | new (on : List Nat) (h : Host) : Shows m on h → C on → Reach m C false on h St.new
  | hotplug (asked : Bool) (on on' : List Nat) (h h' : Host) (st : St) :
      Reach m C asked on h st → Shows m on' h' → C on' → Reach m C asked on' h' (hotplugged st)
  | cpus (asked : Bool) (on : List Nat) (h : Host) (st st' : St) (l : List Int) :
      Reach m C asked on h st → onlineCpus h st = .ok (st', l) → Reach m C asked on h st'
  | get (asked : Bool) (on : List Nat) (h : Host) (st st' : St) (levels : List Level) (order : Level)
      (rows : List Row) :
      Reach m C asked on h st → getTopology h st levels order = .ok (st', rows) →
      Reach m C (asked || decide (Level.die ∈ levels) || decide (order = .die)) on h st'

/-- What the table should be: sorted; one line for every online CPU, with the right numbers in the requested levels;
one line for every I/O die if dies were requested, no other lines. -/
structure Correct (m : Machine) (on : List Nat) (asked : Bool) (levels : List Level) (order : Level)
    (rows : List Row) : Prop where
  sorted : rows.Pairwise fun a b => lexLe (a.key order) (b.key order) = true
  cpus : ((rows.filter fun r => r.cpu ≠ NA).map Row.cpu).Perm (on.map Int.ofNat)
  nums : ∀ r ∈ rows, ∀ c ∈ on, r.cpu = (c : Int) → ∀ l ∈ levels, r.get l = some (m.num l c : Int)
  io : ∀ r, (r ∈ rows ∧ r.cpu = NA) ↔ (asked = true ∧ ∃ p d, m.IsIo p d ∧ r = Row.io p d)
  ioNodup : (rows.filter fun r => r.cpu = NA).Nodup

end Verif.TopoBuild
