import Verif.Lib.PyStr
import Mathlib.Algebra.Order.Field.Rat

/-!
What values with units mean, independently of how they are parsed.
-/

namespace Verif.Human

open PyStr

/-- The fraction with the decimal digits `ds` after the point. -/
def fracVal : List (Fin 10) → Rat
  | [] => 0
  | d :: ds => ((d.val : Rat) + fracVal ds) / 10

/-- A decimal number. -/
def decVal (i : Nat) (ds : List (Fin 10)) : Rat := i + fracVal ds

/-- The text of a decimal number: "12" or "12.345". -/
def decText (i : Nat) (ds : List (Fin 10)) : PyStr :=
  ofNat i ++ (if ds = [] then [] else '.' :: ds.map fun d => digitC d.val)

/-- Blanks. -/
def Blank (s : PyStr) : Prop := ∀ c ∈ s, isSpace c = true

/-- The meaning of the SI prefixes. -/
inductive Prefix where
  | none | exa | peta | tera | giga | mega | kilo | milli | micro | nano
deriving DecidableEq

def Prefix.text : Prefix → PyStr
  | .none => []
  | .exa => ['E'] | .peta => ['P'] | .tera => ['T'] | .giga => ['G'] | .mega => ['M'] | .kilo => ['k']
  | .milli => ['m'] | .micro => ['u'] | .nano => ['n']

def Prefix.val : Prefix → Rat
  | .none => 1
  | .exa => 10 ^ 18 | .peta => 10 ^ 15 | .tera => 10 ^ 12 | .giga => 10 ^ 9 | .mega => 10 ^ 6 | .kilo => 10 ^ 3
  | .milli => 1 / 10 ^ 3 | .micro => 1 / 10 ^ 6 | .nano => 1 / 10 ^ 9

def Prefix.all : List Prefix := [.none, .exa, .peta, .tera, .giga, .mega, .kilo, .milli, .micro, .nano]

theorem Prefix.mem_all (p : Prefix) : p ∈ Prefix.all := by cases p <;> decide

/-- The units properties have: hertz, seconds, watts. -/
inductive Unit' where
  | Hz | s | W
deriving DecidableEq

def Unit'.text : Unit' → PyStr
  | .Hz => ['H', 'z'] | .s => ['s'] | .W => ['W']

/-- The units of time, the order they have to be in, and how many seconds they are. -/
def timeOrder : List Char := ['d', 'D', 'h', 'H', 'm', 'M', 's']

def timeVal (c : Char) : Nat :=
  if c = 'd' ∨ c = 'D' then 86400 else if c = 'h' ∨ c = 'H' then 3600 else if c = 'm' ∨ c = 'M' then 60 else 1

/-- A whole amount of time with a unit, and blanks around the number: " 12 h". -/
structure Piece where
  pre : PyStr
  n : Nat
  post : PyStr
  unit : Char

def Piece.text (p : Piece) : PyStr := p.pre ++ ofNat p.n ++ p.post ++ [p.unit]

def Piece.secs (p : Piece) : Nat := p.n * timeVal p.unit

end Verif.Human
