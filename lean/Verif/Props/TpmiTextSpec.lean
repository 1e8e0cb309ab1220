import Verif.Props.TpmiCmdSpec
import Verif.Props.PrinterTextSpec

/-!
Specification for C108: how the text of 'pepc tpmi ls' and 'pepc tpmi read' is read. Written without the printing
functions: a reader goes over the lines and keeps the headings it has seen.
-/

namespace Verif.Tpmi.Text

/-- What follows the beginning `p` of the line. -/
def after (p s : PyStr) : Option PyStr := if p.isPrefixOf s then some (s.drop p.length) else none

/-- The number a text of decimal digits stands for. -/
def dec (s : PyStr) : Nat := s.foldl (fun a c => 10 * a + (c.toNat - 48)) 0

/-- The number a text of hexadecimal digits stands for. -/
def hex (s : PyStr) : Nat :=
  s.foldl (fun a c => 16 * a + (if c.toNat ≤ 57 then c.toNat - 48 else c.toNat - 87)) 0

/-- The last word of the line. -/
def lastWord (s : PyStr) : PyStr := (s.reverse.takeWhile (· ≠ ' ')).reverse

/-- "name: value": the name, when the value is the last word. -/
def nameOf (s : PyStr) : PyStr := s.take (s.length - (lastWord s).length - 2)

/-- "name[bits]": the bits. -/
def bitsOf (s : PyStr) : PyStr := (s.dropLast.reverse.takeWhile (· ≠ '[')).reverse

/-- "name[bits]": the name. -/
def fieldOf (s : PyStr) : PyStr := s.take (s.length - (bitsOf s).length - 2)

/-! ### 'pepc tpmi read' -/

/-- A line. -/
inductive Line where
  | feature (f : PyStr)
  | addr (a : PyStr)
  | package (p : Nat)
  | inst (i : Nat)
  | reg (r : PyStr) (v : Nat)
  | field (b bits : PyStr) (v : Nat)
  | other
  deriving DecidableEq

/-- Understand a line. The indentation tells the kind of the line. -/
def readLine (s : PyStr) : Line :=
  match after "- TPMI feature: ".toList s with
  | some f => .feature f
  | none =>
  match after "  - PCI address: ".toList s with
  | some a => .addr a
  | none =>
  match after "    Package: ".toList s with
  | some p => .package (dec p)
  | none =>
  match after "    - Instance: ".toList s with
  | some i => .inst (dec i)
  | none =>
  match after "      - ".toList s with
  | some r => .reg (nameOf r) (hex ((lastWord r).drop 2))
  | none =>
  match after "        - ".toList s with
  | some b => .field (fieldOf (nameOf b)) (bitsOf (nameOf b)) (dec (lastWord b))
  | none => .other

/-- What a line says along with the headings above it. -/
inductive Fact where
  | reg (f a : PyStr) (p i : Nat) (r : PyStr) (v : Nat)
  | field (f a : PyStr) (p i : Nat) (r b bits : PyStr) (v : Nat)
  deriving DecidableEq

/-- The headings. -/
structure Heads where
  f : PyStr := []
  a : PyStr := []
  p : Nat := 0
  i : Nat := 0
  r : PyStr := []

/-- Read the lines one by one. -/
def facts : Heads → List Line → List Fact
  | _, [] => []
  | h, .feature f :: rest => facts { h with f := f } rest
  | h, .addr a :: rest => facts { h with a := a } rest
  | h, .package p :: rest => facts { h with p := p } rest
  | h, .inst i :: rest => facts { h with i := i } rest
  | h, .reg r v :: rest => .reg h.f h.a h.p h.i r v :: facts { h with r := r } rest
  | h, .field b bits v :: rest => .field h.f h.a h.p h.i h.r b bits v :: facts h rest
  | h, .other :: rest => facts h rest

/-- What the text says. -/
def readText (text : List PyStr) : List Fact := facts {} (text.map readLine)

/-! ### 'pepc tpmi ls' -/

/-- What the text of 'pepc tpmi ls' says. -/
inductive LsFact where
  /-- The feature exists, with a description. -/
  | feature (f desc : PyStr)
  /-- The instance of the feature exists in the device, which is in the package. -/
  | inst (f a : PyStr) (p i : Nat)
  /-- The number of an unknown feature. -/
  | unknown (fid : Nat)
  deriving DecidableEq

/-- The line without the indentation and the "- ". -/
def unindent (s : PyStr) : PyStr :=
  let t := s.dropWhile (· == ' ')
  (after "- ".toList t).getD t

/-- The numbers of "0x1, 0x2". -/
def hexList (s : PyStr) : List Nat := (PyStr.splitC ',' s).map fun w => hex ((w.dropWhile (· == ' ')).drop 2)

/-- The headings of 'pepc tpmi ls': are these unknown features, feature, device and package. -/
structure LsHeads where
  unk : Bool := false
  f : PyStr := []
  a : PyStr := []
  p : Nat := 0

/-- Read the lines one by one. A line of a feature begins with one space. -/
def lsFacts : LsHeads → List PyStr → List LsFact
  | _, [] => []
  | h, s :: rest =>
    match after " - ".toList s with
    | some t =>
      if h.unk then (hexList t).map .unknown ++ lsFacts h rest
      else
        .feature (t.takeWhile (· ≠ ':')) (t.drop ((t.takeWhile (· ≠ ':')).length + 2)) ::
          lsFacts { h with f := t.takeWhile (· ≠ ':') } rest
    | none =>
      if (after "Unknown ".toList s).isSome then lsFacts { h with unk := true } rest
      else
        match after "PCI address: ".toList (unindent s) with
        | some a => lsFacts { h with a := a } rest
        | none =>
        match after "Package: ".toList (unindent s) with
        | some p => lsFacts { h with p := dec p } rest
        | none =>
        match after "Instances: ".toList (unindent s) with
        | some l => ((PrinterText.ints l).getD []).map (.inst h.f h.a h.p) ++ lsFacts h rest
        | none => lsFacts h rest

/-- The depth of a line: how many spaces it begins with. -/
def indent (s : PyStr) : Nat := (s.takeWhile (· == ' ')).length

end Verif.Tpmi.Text
