import Verif.Model.Systemctl

/-! Specification for C110: the states of systemd units. -/

namespace Verif.Systemctl

variable {σ : Type}

/-- `st s u`: unit `u` is active in state `s`. 'systemctl is-active' tells it. -/
def Shows (sys : Sys σ) (st : σ → PyStr → Bool) : Prop :=
  ∀ s u, ∃ t, sys.query "active".toList u s = .ok t ∧ (PyStr.strip t = "active".toList ↔ st s u = true)

/-- Starting, stopping and restarting a unit does not change other units, even if it fails. -/
def Frame (sys : Sys σ) (st : σ → PyStr → Bool) : Prop :=
  ∀ a u s v, v ≠ u → st (sys.act a u s).1 v = st s v

/-- The action always does what it should. -/
def Works (sys : Sys σ) (st : σ → PyStr → Bool) (a : Action) : Prop :=
  ∀ u s, (sys.act a u s).2 = none ∧ st (sys.act a u s).1 u = decide (a ≠ .stop)

/-- One method call: `start()`, `stop()` or `restart()`. -/
structure Op where
  action : Action
  units : List PyStr
  save : Bool

/-- The calls, up to the first one which fails. -/
def runOps (sys : Sys σ) : List Op → σ → Obj → σ × Obj × Option Exn
  | [], s, o => (s, o, none)
  | op :: ops, s, o =>
    match action sys op.action op.units op.save s o with
    | (s, o, some e) => (s, o, some e)
    | (s, o, none) => runOps sys ops s o

/-- The states after a call. -/
def Op.after (op : Op) (st : PyStr → Bool) (u : PyStr) : Bool :=
  if u ∈ op.units then decide (op.action ≠ .stop) else st u

/-- The states after calls. -/
def afterOps : List Op → (PyStr → Bool) → PyStr → Bool
  | [], st => st
  | op :: ops, st => afterOps ops (op.after st)

/-- The first call which saves the unit: its action, and the state of the unit right before it. A restart does not
save. -/
def firstSaved (u : PyStr) : List Op → (PyStr → Bool) → Option (Action × Bool)
  | [], _ => none
  | op :: ops, st =>
    if u ∈ op.units ∧ op.save = true ∧ op.action ≠ .restart then some (op.action, st u)
    else firstSaved u ops (op.after st)

/-- A text which consists of words and white space. -/
inductive Table : PyStr → List PyStr → Prop
  | nil : Table [] []
  | gap {c : Char} {s : PyStr} {ws : List PyStr} : PyStr.isSpace c = true → Table s ws → Table (c :: s) ws
  | word {w s : PyStr} {ws : List PyStr} : w ≠ [] → (∀ c ∈ w, PyStr.isSpace c = false) →
      (∀ c, s.head? = some c → PyStr.isSpace c = true) → Table s ws → Table (w ++ s) (w :: ws)

end Verif.Systemctl
