import Verif.Model.Logging

/-! Specification for C116: what is printed, and where. -/

namespace Verif.Logging.Spec

/-- The levels: debugging, information, notice, warning, error, error without a prefix, critical error. -/
def known (l : Nat) : Bool := decide (l ∈ [10, 20, 21, 30, 40, 41, 50])

/-- Information goes to the standard output, the rest to the standard error. -/
def dest (l : Nat) : Dest := if l = 20 then .stdout else .stderr

/-- An escape sequence. -/
def code (s : String) : PyStr := Char.ofNat 27 :: '[' :: (s.toList ++ ['m'])

/-- The color of a level. -/
def color (l : Nat) : PyStr :=
  if l = 10 then code "32"
  else if l = 21 then code "36" ++ code "1"
  else if l = 30 then code "33" ++ code "1"
  else code "31" ++ code "1"

/-- A colored word. -/
def paint (c : Bool) (l : Nat) (w : PyStr) : PyStr := if c then color l ++ (w ++ code "0") else w

/-- What a message begins with. -/
def head (pre low up : PyStr) : PyStr := if pre = [] then up else pre ++ (": ".toList ++ low)

/-- A message as it is printed. -/
def text (c : Bool) (pre : PyStr) (r : Record) : PyStr :=
  if r.level = 10 then
    '[' :: (paint c 10 r.created ++ ("] [".toList ++ (paint c 10 r.time ++ ("] [".toList ++
      (paint c 10 (r.modName ++ ',' :: r.line) ++ ("]: ".toList ++ r.msg))))))
  else if r.level = 21 then paint c 21 (head pre "notice".toList "Notice".toList) ++ (": ".toList ++ r.msg)
  else if r.level = 30 then paint c 30 (head pre "warning".toList "Warning".toList) ++ (": ".toList ++ r.msg)
  else if r.level = 40 then paint c 40 (head pre "error".toList "Error".toList) ++ (": ".toList ++ r.msg)
  else if r.level = 50 then
    paint c 50 (head pre "critical error".toList "Critical Error".toList) ++ (": ".toList ++ r.msg)
  else r.msg

/-- A message is printed once, and once in every log file, unless its level is lower than the threshold. -/
def out (c : Bool) (t : Nat) (pre : PyStr) (files : List PyStr) (r : Record) : List (Dest × PyStr) :=
  if known r.level && decide (t ≤ r.level) then
    (dest r.level, text c pre r ++ ['\n']) :: files.map fun f => (.file f, text c pre r ++ ['\n'])
  else []

/-- What is printed by calls: `seen` are the places of the source code which warned already. -/
def trace (c : Bool) (t : Nat) : PyStr → List PyStr → List PyStr → List Op → List (Dest × PyStr)
  | _, _, _, [] => []
  | pre, seen, files, .log r :: ops => out c t pre files r ++ trace c t pre seen files ops
  | pre, seen, files, .warnOnce site r :: ops =>
    (if site ∈ seen then [] else out c t pre files { r with level := 30 }) ++ trace c t pre (site :: seen) files ops
  | _, seen, files, .setPrefix pre :: ops => trace c t pre seen files ops
  | pre, seen, files, .logFile f :: ops => trace c t pre seen (files ++ [f]) ops

/-- The threshold: given by the caller, or by the options '-q' and '-d'. -/
def threshold (argv : List PyStr) (level : Option Nat) : Nat :=
  if level.getD 0 ≠ 0 then level.getD 0
  else if "-q".toList ∈ argv then 30
  else if "-d".toList ∈ argv then 10
  else 20

/-- Are messages colored? -/
def colored (argv : List PyStr) (installed tty : Bool) (colored : Option Bool) : Bool :=
  installed && colored.getD (decide ("--force-color".toList ∈ argv) || tty)

/-- The call prints nothing but what is less than a warning. -/
def minor : Op → Bool
  | .log r => decide (r.level < 30)
  | _ => false

/-- Remove escape sequences; `true` is inside of one. -/
def plain : Bool → PyStr → PyStr
  | _, [] => []
  | true, x :: s => plain (decide (x ≠ 'm')) s
  | false, x :: s => if x = Char.ofNat 27 then plain true s else x :: plain false s

/-- There is no escape character. -/
def NoEsc (s : PyStr) : Prop := Char.ofNat 27 ∉ s

/-- No strings of a call have escape characters. -/
def Clean : Op → Prop
  | .log r => NoEsc r.msg ∧ NoEsc r.created ∧ NoEsc r.time ∧ NoEsc r.modName ∧ NoEsc r.line
  | .warnOnce _ r => NoEsc r.msg
  | .setPrefix p => NoEsc p
  | .logFile _ => True

/-- The places which warned. -/
def sites (ops : List Op) : List PyStr :=
  ops.filterMap fun
    | .warnOnce site _ => some site
    | _ => none

end Verif.Logging.Spec
